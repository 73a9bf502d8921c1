import Verif.Kube.View
import Verif.Auth.Lemmas
import Verif.Api.Lemmas
/-
C88 to C92: what the gateway shows of the cluster objects on Kubernetes.
-/
set_option linter.unusedSimpArgs false
set_option linter.unusedVariables false
namespace Verif.Kube

open Verif.Api (Status)

/-! ### Specification -/

/-- An address for a service of a cluster. -/
def addressFor (scheme service ns port : Str) : Str :=
  scheme ++ "://".toList ++ service ++ '.' :: ns ++ ':' :: port

/-- The record says what the object says. -/
structure Shows (upper : Str → Str) (o : CR) (r : Rec) : Prop where
  name : r.name = o.ns ++ '.' :: o.name
  username : r.username = o.username.getD []
  options : r.options = o.options.getD (.obj [])
  maxWorkers : r.maxWorkers = o.maxWorkers
  status : r.status.name = upper (o.phase.getD "Pending".toList)
  start : o.created = some r.startTime
  stop : r.stopTime = o.completed.join
  addresses : ∀ s, o.service = some s → s ≠ [] → r.status = .running →
    r.schedulerAddress = addressFor "tls".toList s o.ns "8786".toList ∧
    r.dashboardAddress = addressFor "http".toList s o.ns "8787".toList ∧
    r.apiAddress = addressFor "http".toList s o.ns "8788".toList
  noAddresses : (o.service.getD [] = [] ∨ r.status ≠ .running) →
    r.schedulerAddress = [] ∧ r.dashboardAddress = [] ∧ r.apiAddress = []

/-- The object of a name after a history of changes. -/
def objectAfter (ops : List VOp) (key : Str) : Option CR :=
  ops.foldl (fun x op => match op with
    | .put o => if o.ns ++ '.' :: o.name = key then some o else x
    | .del ns name => if ns ++ '.' :: name = key then none else x
    | _ => x) none

/-- Nothing remains to be done for a name: the key is not in the queue and no call works on it. -/
def KubeView.Idle (v : KubeView) (key : Str) : Prop := key ∉ v.pending ∧ ∀ x, v.cur = some x → x.1 ≠ key

/-- An object for the examples. -/
def someCR : CR :=
  { ns := "default".toList, name := "abc".toList, username := some "alice".toList, options := none
    maxWorkers := some 3, phase := some "RUNNING".toList, service := some "dask-abc".toList
    credentials := none, created := some 5, completed := none }

/-! ### Lemmas -/

private theorem snoc_ind {α : Type} {P : List α → Prop} (h0 : P []) (h1 : ∀ l a, P l → P (l ++ [a]))
    (l : List α) : P l := by
  rw [← List.reverse_reverse l]
  induction l.reverse with
  | nil => exact h0
  | cons a m ih => rw [List.reverse_cons]; exact h1 _ _ ih

private theorem run_snoc (upper : Str → Str) (utf8 : List Nat → Option Str) (ops : List VOp) (op : VOp) :
    KubeView.run upper utf8 (ops ++ [op]) = (KubeView.run upper utf8 ops).step upper utf8 op := by
  simp [KubeView.run, List.foldl_append]

variable {β : Type}

theorem lookup_dpop (d : List (Str × β)) (k k' : Str) :
    lookup (dpop d k) k' = if k = k' then none else lookup d k' := by
  induction d with
  | nil => simp [dpop, lookup_nil]
  | cons e c ih =>
    by_cases h : e.1 = k
    · have he : dpop (e :: c) k = dpop c k := by simp [dpop, h]
      rw [he, ih, lookup_cons]
      by_cases hk : k = k'
      · simp [hk]
      · simp [hk, h]
    · have he : dpop (e :: c) k = e :: dpop c k := by simp [dpop, h]
      rw [he, lookup_cons, lookup_cons, ih]
      by_cases hk : k = k'
      · subst hk; simp [h]
      · simp [hk]

theorem nodup_dpop (d : List (Str × β)) (k : Str) (h : (Dict.keys d).Nodup) :
    (Dict.keys (dpop d k)).Nodup :=
  List.Nodup.sublist (List.Sublist.map _ List.filter_sublist) h

theorem publish_fields (v : KubeView) (r : Rec) :
    (v.publish r).clusters = Dict.set v.clusters r.name r ∧ (v.publish r).users = addUser v.users r ∧
    (v.publish r).store = v.store ∧ (v.publish r).pending = v.pending ∧ (v.publish r).cur = v.cur ∧
    (v.publish r).waiting = v.waiting := by
  unfold KubeView.publish
  dsimp only
  split
  · unfold KubeView.raise KubeView.flag
    dsimp only
    split <;> exact ⟨rfl, rfl, rfl, rfl, rfl, rfl⟩
  · exact ⟨rfl, rfl, rfl, rfl, rfl, rfl⟩

theorem flag_fields (v : KubeView) (k : Str) :
    (v.flag k).1.clusters = v.clusters ∧ (v.flag k).1.users = v.users ∧
    (v.flag k).1.store = v.store ∧ (v.flag k).1.pending = v.pending ∧ (v.flag k).1.cur = v.cur ∧
    (v.flag k).1.waiting = v.waiting ∧ (v.flag k).1.raised = v.raised := by
  unfold KubeView.flag
  split <;> exact ⟨rfl, rfl, rfl, rfl, rfl, rfl, rfl⟩

/-- The ways a step changes what is known. -/
theorem step_cases (upper : Str → Str) (utf8 : List Nat → Option Str) (v : KubeView) (op : VOp) :
    (∃ o, op = .put o ∧ v.step upper utf8 op =
      { v with store := fun k => if k = fullName o.ns o.name then some o else v.store k,
               pending := fullName o.ns o.name :: v.pending }) ∨
    (∃ ns name, op = .del ns name ∧ v.step upper utf8 op =
      { v with store := fun k => if k = fullName ns name then none else v.store k,
               pending := fullName ns name :: v.pending }) ∨
    (∃ key, op = .take key ∧ v.cur = none ∧ key ∈ v.pending ∧ v.store key = none ∧ v.step upper utf8 op =
      { v.remove key with pending := v.pending.filter (· ≠ key) }) ∨
    (∃ key o r r0, op = .take key ∧ v.cur = none ∧ key ∈ v.pending ∧ v.store key = some o ∧
      record upper key o = some r0 ∧
      ((∃ old, lookup v.clusters key = some old ∧ old.tlsCert ≠ [] ∧
        r = { r0 with tlsCert := old.tlsCert, tlsKey := old.tlsKey, token := old.token }) ∨ r = r0) ∧
      v.step upper utf8 op = { v.publish r with pending := v.pending.filter (· ≠ key) }) ∨
    (∃ key o r, op = .take key ∧ v.cur = none ∧ key ∈ v.pending ∧ v.store key = some o ∧
      record upper key o = some r ∧ (o.credentials.getD [] ≠ [] ∧
      ∀ old, lookup v.clusters key = some old → old.tlsCert = []) ∧ v.step upper utf8 op =
      { v with cur := some (key, o, r), pending := v.pending.filter (· ≠ key) }) ∨
    (∃ secrets key o r, op = .answer secrets ∧ v.cur = some (key, o, r) ∧ v.step upper utf8 op =
      { v with cur := none, pending := key :: v.pending }) ∨
    (∃ secrets key o r sec c, op = .answer secrets ∧ v.cur = some (key, o, r) ∧
      secrets o.ns (o.credentials.getD []) = some sec ∧ Secret.read utf8 sec = some c ∧
      v.step upper utf8 op =
      { v.publish { r with tlsCert := c.1, tlsKey := c.2.1, token := c.2.2 } with cur := none }) ∨
    (∃ key, op = .wait key ∧ v.step upper utf8 op =
      { (v.flag key).1 with waiting := (key, (v.flag key).2) :: v.waiting }) ∨
    v.step upper utf8 op = v := by
  cases op with
  | put o => exact Or.inl ⟨o, rfl, rfl⟩
  | del ns name => exact Or.inr (Or.inl ⟨ns, name, rfl, rfl⟩)
  | take key =>
    by_cases hc : v.cur = none ∧ key ∈ v.pending
    · have e : v.step upper utf8 (.take key) = v.conclude key (v.sync upper key) := by
        change (if _ then _ else _) = _
        rw [if_pos hc]
      rw [e]
      unfold KubeView.sync
      cases hs : v.store key with
      | none => exact Or.inr (Or.inr (Or.inl ⟨key, rfl, hc.1, hc.2, hs, rfl⟩))
      | some o =>
        dsimp only
        cases hr : record upper key o with
        | none => dsimp only; exact Or.inr (Or.inr (Or.inr (Or.inr (Or.inr (Or.inr (Or.inr (Or.inr rfl)))))))
        | some r =>
          dsimp only
          cases hl : lookup v.clusters key with
          | some old =>
            dsimp only
            by_cases ht : old.tlsCert ≠ []
            · rw [if_pos ht]
              exact Or.inr (Or.inr (Or.inr (Or.inl ⟨key, o, _, r, rfl, hc.1, hc.2, hs, hr,
                Or.inl ⟨old, hl, ht, rfl⟩, rfl⟩)))
            · rw [if_neg ht]
              by_cases hq : rank r.status ≤ 2 ∧ o.credentials.getD [] ≠ []
              · rw [if_pos hq]
                exact Or.inr (Or.inr (Or.inr (Or.inr (Or.inl ⟨key, o, r, rfl, hc.1, hc.2, hs, hr,
                  ⟨hq.2, fun old' h' => (by rw [hl] at h'; cases h'; exact Classical.not_not.mp ht)⟩, rfl⟩))))
              · rw [if_neg hq]
                exact Or.inr (Or.inr (Or.inr (Or.inl ⟨key, o, r, r, rfl, hc.1, hc.2, hs, hr, Or.inr rfl, rfl⟩)))
          | none =>
            dsimp only
            by_cases hq : rank r.status ≤ 2 ∧ o.credentials.getD [] ≠ []
            · rw [if_pos hq]
              exact Or.inr (Or.inr (Or.inr (Or.inr (Or.inl ⟨key, o, r, rfl, hc.1, hc.2, hs, hr,
                ⟨hq.2, fun old' h' => (by rw [hl] at h'; cases h')⟩, rfl⟩))))
            · rw [if_neg hq]
              exact Or.inr (Or.inr (Or.inr (Or.inl ⟨key, o, r, r, rfl, hc.1, hc.2, hs, hr, Or.inr rfl, rfl⟩)))
    · have e : v.step upper utf8 (.take key) = v := by
        change (if _ then _ else _) = _
        rw [if_neg hc]
      exact Or.inr (Or.inr (Or.inr (Or.inr (Or.inr (Or.inr (Or.inr (Or.inr e)))))))
  | answer secrets =>
    cases hc : v.cur with
    | none =>
      refine Or.inr (Or.inr (Or.inr (Or.inr (Or.inr (Or.inr (Or.inr (Or.inr ?_)))))))
      simp only [KubeView.step, hc]
    | some x =>
      obtain ⟨key, o, r⟩ := x
      cases hs : (secrets o.ns (o.credentials.getD [])).bind (Secret.read utf8) with
      | none =>
        refine Or.inr (Or.inr (Or.inr (Or.inr (Or.inr (Or.inl ⟨secrets, key, o, r, rfl, rfl, ?_⟩)))))
        simp only [KubeView.step, hc, hs]
      | some c =>
        cases hx : secrets o.ns (o.credentials.getD []) with
        | none => rw [hx] at hs; cases hs
        | some sec =>
          rw [hx] at hs
          refine Or.inr (Or.inr (Or.inr (Or.inr (Or.inr (Or.inr (Or.inl
            ⟨secrets, key, o, r, sec, c, rfl, rfl, hx, hs, ?_⟩))))))
          rw [← hx] at hs
          simp only [KubeView.step, hc]
          rw [hx] at hs ⊢
          simp only [hs]
  | wait key => exact Or.inr (Or.inr (Or.inr (Or.inr (Or.inr (Or.inr (Or.inr (Or.inl ⟨key, rfl, rfl⟩)))))))

private theorem fromName_name {upper : Str → Str} {s : Str} {st : Status} (h : Status.fromName upper s = some st) :
    st.name = upper s := by
  unfold Status.fromName at h
  have := List.find?_some h
  simpa using this

private theorem address_some {o : CR} {st : Status} {scheme port s : Str} (h : o.service = some s) (hs : s ≠ [])
    (hr : st = .running) : address o st scheme port = addressFor scheme s o.ns port := by
  unfold address addressFor
  rw [h]
  dsimp only
  rw [if_pos ⟨hr, hs⟩]

private theorem address_none {o : CR} {st : Status} {scheme port : Str} (h : o.service.getD [] = [] ∨ st ≠ .running) :
    address o st scheme port = [] := by
  unfold address
  cases hs : o.service with
  | none => rfl
  | some s =>
    dsimp only
    rw [if_neg]
    rintro ⟨h1, h2⟩
    rcases h with h | h
    · rw [hs] at h; exact h2 h
    · exact h h1

private theorem record_shows {upper : Str → Str} {key : Str} {o : CR} {r : Rec} (h : record upper key o = some r)
    (hk : fullName o.ns o.name = key) : Shows upper o r ∧ r.name = key ∧ r.tlsCert = [] ∧ r.token = [] := by
  unfold record at h
  cases h1 : Status.fromName upper (o.phase.getD "Pending".toList) with
  | none => rw [h1] at h; cases h
  | some st =>
    cases h2 : o.created with
    | none => rw [h1, h2] at h; cases h
    | some start =>
      cases h3 : stopTime o.completed with
      | none => rw [h1, h2, h3] at h; cases h
      | some stop =>
        rw [h1, h2, h3] at h
        dsimp only at h
        cases h
        refine ⟨⟨hk.symm, rfl, rfl, rfl, fromName_name h1, h2, ?_, ?_, ?_⟩, rfl, rfl, rfl⟩
        · dsimp only
          cases hc : o.completed with
          | none => rw [hc] at h3; cases h3; rfl
          | some x =>
            cases x with
            | none => rw [hc] at h3; cases h3
            | some t => rw [hc] at h3; cases h3; rfl
        · intro s hs hne hr
          exact ⟨address_some hs hne hr, address_some hs hne hr, address_some hs hne hr⟩
        · intro hx
          exact ⟨address_none hx, address_none hx, address_none hx⟩

private theorem shows_creds {upper : Str → Str} {o : CR} {r : Rec} (h : Shows upper o r) (c k : List Nat) (t : Str) :
    Shows upper o { r with tlsCert := c, tlsKey := k, token := t } :=
  ⟨h.name, h.username, h.options, h.maxWorkers, h.status, h.start, h.stop, h.addresses, h.noAddresses⟩

private structure Good (upper : Str → Str) (ops : List VOp) (v : KubeView) : Prop where
  nodup : (Dict.keys v.clusters).Nodup
  names : ∀ k r, lookup v.clusters k = some r → r.name = k
  store : ∀ k, v.store k = objectAfter ops k
  storeKey : ∀ k o, v.store k = some o → fullName o.ns o.name = k
  agree : ∀ k, v.Idle k → (v.store k = none → lookup v.clusters k = none) ∧
    ∀ o, v.store k = some o → ∃ r, lookup v.clusters k = some r ∧ Shows upper o r
  cur : ∀ k o r, v.cur = some (k, o, r) → Shows upper o r ∧ r.name = k ∧ fullName o.ns o.name = k ∧
    r.tlsCert = [] ∧ r.token = [] ∧ (v.store k = some o ∨ k ∈ v.pending)

private theorem good_init (upper : Str → Str) : Good upper [] KubeView.init where
  nodup := by simp [KubeView.init, Dict.keys]
  names := by intro k r h; simp [KubeView.init, lookup_nil] at h
  store := fun k => rfl
  storeKey := by intro k o h; simp [KubeView.init] at h
  agree := by
    intro k _
    exact ⟨fun _ => rfl, fun o h => (by simp [KubeView.init] at h)⟩
  cur := by intro k o r h; simp [KubeView.init] at h

private theorem objectAfter_snoc (ops : List VOp) (op : VOp) (k : Str) :
    objectAfter (ops ++ [op]) k = (match op with
    | .put o => if o.ns ++ '.' :: o.name = k then some o else objectAfter ops k
    | .del ns name => if ns ++ '.' :: name = k then none else objectAfter ops k
    | _ => objectAfter ops k) := by
  simp only [objectAfter, List.foldl_append, List.foldl_cons, List.foldl_nil]

private theorem mem_filter_ne {l : List Str} {k key : Str} :
    k ∈ l.filter (· ≠ key) ↔ k ∈ l ∧ k ≠ key := by simp [List.mem_filter]

private theorem good_step {upper : Str → Str} {utf8 : List Nat → Option Str} {ops : List VOp} {v : KubeView}
    (g : Good upper ops v) (op : VOp) : Good upper (ops ++ [op]) (v.step upper utf8 op) := by
  rcases step_cases upper utf8 v op with ⟨o, rfl, e⟩ | ⟨ns, name, rfl, e⟩ | ⟨key, rfl, hc, hp, hs, e⟩ |
    ⟨key, o, r, r0, rfl, hc, hp, hs, hr, hold, e⟩ | ⟨key, o, r, rfl, hc, hp, hs, hr, hcr, e⟩ |
    ⟨secrets, key, o, r, rfl, hc, e⟩ | ⟨secrets, key, o, r, sec, c, rfl, hc, hsec, hread, e⟩ |
    ⟨key, rfl, e⟩ | e
  · rw [e]
    refine ⟨g.nodup, g.names, ?_, ?_, ?_, ?_⟩
    · intro k
      rw [objectAfter_snoc]
      dsimp only
      rw [g.store k]
      unfold fullName
      by_cases h : k = o.ns ++ '.' :: o.name
      · rw [if_pos h, if_pos h.symm]
      · rw [if_neg h, if_neg (fun x => h x.symm)]
    · intro k o' h
      dsimp only at h
      by_cases hk : k = fullName o.ns o.name
      · rw [if_pos hk] at h; cases h; exact hk.symm
      · rw [if_neg hk] at h; exact g.storeKey k o' h
    · intro k hi
      have hk : k ≠ fullName o.ns o.name := fun h => hi.1 (h ▸ List.mem_cons_self)
      dsimp only
      rw [if_neg hk]
      exact g.agree k ⟨fun h => hi.1 (List.mem_cons_of_mem _ h), hi.2⟩
    · intro k o' r' h
      obtain ⟨a, b, c, d, d', f⟩ := g.cur k o' r' h
      refine ⟨a, b, c, d, d', ?_⟩
      dsimp only
      by_cases hk : k = fullName o.ns o.name
      · right; rw [hk]; exact List.mem_cons_self
      · rw [if_neg hk]
        exact f.imp id (List.mem_cons_of_mem _)
  · rw [e]
    refine ⟨g.nodup, g.names, ?_, ?_, ?_, ?_⟩
    · intro k
      rw [objectAfter_snoc]
      dsimp only
      rw [g.store k]
      unfold fullName
      by_cases h : k = ns ++ '.' :: name
      · rw [if_pos h, if_pos h.symm]
      · rw [if_neg h, if_neg (fun x => h x.symm)]
    · intro k o' h
      dsimp only at h
      by_cases hk : k = fullName ns name
      · rw [if_pos hk] at h; cases h
      · rw [if_neg hk] at h; exact g.storeKey k o' h
    · intro k hi
      have hk : k ≠ fullName ns name := fun h => hi.1 (h ▸ List.mem_cons_self)
      dsimp only
      rw [if_neg hk]
      exact g.agree k ⟨fun h => hi.1 (List.mem_cons_of_mem _ h), hi.2⟩
    · intro k o' r' h
      obtain ⟨a, b, c, d, d', f⟩ := g.cur k o' r' h
      refine ⟨a, b, c, d, d', ?_⟩
      dsimp only
      by_cases hk : k = fullName ns name
      · right; rw [hk]; exact List.mem_cons_self
      · rw [if_neg hk]
        exact f.imp id (List.mem_cons_of_mem _)
  · rw [e]
    refine ⟨nodup_dpop _ _ g.nodup, ?_, ?_, g.storeKey, ?_, ?_⟩
    · intro k r h
      replace h : lookup (dpop v.clusters key) k = some r := h
      rw [lookup_dpop] at h
      by_cases hk : key = k
      · rw [if_pos hk] at h; cases h
      · rw [if_neg hk] at h; exact g.names k r h
    · intro k; rw [objectAfter_snoc]; exact g.store k
    · intro k hi
      change (v.store k = none → lookup (dpop v.clusters key) k = none) ∧
        ∀ o, v.store k = some o → ∃ r, lookup (dpop v.clusters key) k = some r ∧ Shows upper o r
      rw [lookup_dpop]
      by_cases hk : key = k
      · subst hk
        rw [if_pos rfl, hs]
        exact ⟨fun _ => rfl, fun o h => (by cases h)⟩
      · rw [if_neg hk]
        exact g.agree k ⟨fun h => hi.1 (mem_filter_ne.mpr ⟨h, fun x => hk x.symm⟩), hi.2⟩
    · intro k o r h
      replace h : v.cur = some (k, o, r) := h
      rw [hc] at h; cases h
  · have hkey := g.storeKey key o hs
    obtain ⟨s0, n0, t0, tk0⟩ := record_shows hr hkey
    have hsh : Shows upper o r ∧ r.name = key := by
      rcases hold with ⟨old, _, _, rfl⟩ | rfl
      · exact ⟨shows_creds s0 _ _ _, n0⟩
      · exact ⟨s0, n0⟩
    obtain ⟨p1, p2, p3, p4, p5, p6⟩ := publish_fields v r
    rw [e]
    refine ⟨?_, ?_, ?_, ?_, ?_, ?_⟩
    · change (Dict.keys (v.publish r).clusters).Nodup
      rw [p1]; exact nodup_set g.nodup
    · intro k r' h
      replace h : lookup (v.publish r).clusters k = some r' := h
      rw [p1, lookup_set] at h
      by_cases hk : r.name = k
      · rw [if_pos hk] at h; cases h; exact hk
      · rw [if_neg hk] at h; exact g.names k r' h
    · intro k; rw [objectAfter_snoc]; change (v.publish r).store k = _; rw [p3]; exact g.store k
    · intro k o' h; replace h : (v.publish r).store k = some o' := h; rw [p3] at h; exact g.storeKey k o' h
    · intro k hi
      replace hi : k ∉ v.pending.filter (· ≠ key) ∧ ∀ x, (v.publish r).cur = some x → x.1 ≠ k := hi
      change ((v.publish r).store k = none → lookup (v.publish r).clusters k = none) ∧
        ∀ o, (v.publish r).store k = some o → ∃ r', lookup (v.publish r).clusters k = some r' ∧ Shows upper o r'
      rw [p3, p1, lookup_set]
      by_cases hk : r.name = k
      · rw [if_pos hk]
        have hk' : k = key := by rw [← hk]; exact hsh.2
        rw [hk', hs]
        exact ⟨fun h => (by cases h), fun o' h => (by cases h; exact ⟨r, rfl, hsh.1⟩)⟩
      · rw [if_neg hk]
        have hk' : k ≠ key := fun h => hk (by rw [hsh.2, h])
        rw [p5] at hi
        exact g.agree k ⟨fun h => hi.1 (mem_filter_ne.mpr ⟨h, hk'⟩), hi.2⟩
    · intro k o' r' h
      replace h : (v.publish r).cur = some (k, o', r') := h
      rw [p5, hc] at h; cases h
  · have hkey := g.storeKey key o hs
    obtain ⟨s0, n0, t0, tk0⟩ := record_shows hr hkey
    rw [e]
    refine ⟨g.nodup, g.names, ?_, g.storeKey, ?_, ?_⟩
    · intro k; rw [objectAfter_snoc]; exact g.store k
    · intro k hi
      have hk : key ≠ k := hi.2 (key, o, r) rfl
      exact g.agree k ⟨fun h => hi.1 (mem_filter_ne.mpr ⟨h, fun x => hk x.symm⟩),
        fun x hx => (by rw [hc] at hx; cases hx)⟩
    · intro k o' r' h
      cases h
      exact ⟨s0, n0, hkey, t0, tk0, Or.inl hs⟩
  · rw [e]
    refine ⟨g.nodup, g.names, ?_, g.storeKey, ?_, ?_⟩
    · intro k; rw [objectAfter_snoc]; exact g.store k
    · intro k hi
      have hk : k ≠ key := fun h => hi.1 (h ▸ List.mem_cons_self)
      refine g.agree k ⟨fun h => hi.1 (List.mem_cons_of_mem _ h), fun x hx => ?_⟩
      rw [hc] at hx; cases hx; exact fun h => hk h.symm
    · intro k o' r' h; cases h
  · obtain ⟨s0, n0, hkey, t0, tk0, hst⟩ := g.cur key o r hc
    obtain ⟨p1, p2, p3, p4, p5, p6⟩ := publish_fields v { r with tlsCert := c.1, tlsKey := c.2.1, token := c.2.2 }
    have hsh := shows_creds s0 c.1 c.2.1 c.2.2
    revert e p1 p2 p3 p4 p5 p6 hsh
    generalize hr' : { r with tlsCert := c.1, tlsKey := c.2.1, token := c.2.2 } = r'
    have hn : r'.name = key := by rw [← hr']; exact n0
    intro e p1 p2 p3 p4 p5 p6 hsh
    rw [e]
    refine ⟨?_, ?_, ?_, ?_, ?_, ?_⟩
    · change (Dict.keys (v.publish r').clusters).Nodup
      rw [p1]; exact nodup_set g.nodup
    · intro k r'' h
      replace h : lookup (v.publish r').clusters k = some r'' := h
      rw [p1, lookup_set] at h
      by_cases hk : r'.name = k
      · rw [if_pos hk] at h; cases h; exact hk
      · rw [if_neg hk] at h; exact g.names k r'' h
    · intro k; rw [objectAfter_snoc]; change (v.publish r').store k = _; rw [p3]; exact g.store k
    · intro k o' h; replace h : (v.publish r').store k = some o' := h; rw [p3] at h; exact g.storeKey k o' h
    · intro k hi
      replace hi : k ∉ (v.publish r').pending ∧ _ := hi
      change ((v.publish r').store k = none → lookup (v.publish r').clusters k = none) ∧
        ∀ o, (v.publish r').store k = some o → ∃ r'', lookup (v.publish r').clusters k = some r'' ∧ Shows upper o r''
      rw [p3, p1, lookup_set]
      rw [p4] at hi
      by_cases hk : r'.name = k
      · rw [if_pos hk]
        have hk' : k = key := by rw [← hk]; exact hn
        subst hk'
        have hst' := hst.resolve_right hi.1
        rw [hst']
        exact ⟨fun h => (by cases h), fun o' h => (by cases h; exact ⟨r', rfl, hsh⟩)⟩
      · rw [if_neg hk]
        have hk' : k ≠ key := fun h => hk (by rw [hn, h])
        refine g.agree k ⟨hi.1, fun x hx => ?_⟩
        rw [hc] at hx; cases hx; exact fun h => hk' h.symm
    · intro k o' r'' h; cases h
  · obtain ⟨p1, p2, p3, p4, p5, p6, p7⟩ := flag_fields v key
    rw [e]
    refine ⟨?_, ?_, ?_, ?_, ?_, ?_⟩
    · change (Dict.keys (v.flag key).1.clusters).Nodup; rw [p1]; exact g.nodup
    · intro k r h; replace h : lookup (v.flag key).1.clusters k = some r := h; rw [p1] at h; exact g.names k r h
    · intro k; rw [objectAfter_snoc]; change (v.flag key).1.store k = _; rw [p3]; exact g.store k
    · intro k o' h; replace h : (v.flag key).1.store k = some o' := h; rw [p3] at h; exact g.storeKey k o' h
    · intro k hi
      replace hi : k ∉ (v.flag key).1.pending ∧ ∀ x, (v.flag key).1.cur = some x → x.1 ≠ k := hi
      change ((v.flag key).1.store k = none → lookup (v.flag key).1.clusters k = none) ∧
        ∀ o, (v.flag key).1.store k = some o → ∃ r'', lookup (v.flag key).1.clusters k = some r'' ∧ Shows upper o r''
      rw [p4, p5] at hi
      rw [p3, p1]
      exact g.agree k hi
    · intro k o' r' h
      replace h : (v.flag key).1.cur = some (k, o', r') := h
      rw [p5] at h
      change _ ∧ _ ∧ _ ∧ _ ∧ _ ∧ ((v.flag key).1.store k = some o' ∨ k ∈ (v.flag key).1.pending)
      rw [p3, p4]
      exact g.cur k o' r' h
  · rw [e]
    refine ⟨g.nodup, g.names, ?_, g.storeKey, g.agree, g.cur⟩
    intro k
    rw [objectAfter_snoc]
    cases op with
    | put o =>
      dsimp only
      exfalso
      have := congrArg KubeView.pending e
      replace this : fullName o.ns o.name :: v.pending = v.pending := this
      exact absurd (congrArg List.length this) (by simp)
    | del ns name =>
      dsimp only
      exfalso
      have := congrArg KubeView.pending e
      replace this : fullName ns name :: v.pending = v.pending := this
      exact absurd (congrArg List.length this) (by simp)
    | take _ => exact g.store k
    | answer _ => exact g.store k
    | wait _ => exact g.store k

private theorem good_run (upper : Str → Str) (utf8 : List Nat → Option Str) (ops : List VOp) :
    Good upper ops (KubeView.run upper utf8 ops) := by
  induction ops using snoc_ind with
  | h0 => exact good_init upper
  | h1 l a ih => rw [run_snoc]; exact good_step ih a

/-! ### C88 -/

/-- C88: once nothing remains to be done for a name, the gateway knows a cluster of this name if and only
if there is an object, and then shows what the object says. -/
theorem C88_agrees (upper : Str → Str) (utf8 : List Nat → Option Str) (ops : List VOp) (key : Str)
    (h : (KubeView.run upper utf8 ops).Idle key) :
    (objectAfter ops key = none → (KubeView.run upper utf8 ops).get key = none) ∧
    ∀ o, objectAfter ops key = some o →
      ∃ r, (KubeView.run upper utf8 ops).get key = some r ∧ Shows upper o r := by
  have g := good_run upper utf8 ops
  rw [← g.store key]
  exact g.agree key h

/-- The gateway can make sense of an object: its phase is the name of a status, and its times are. -/
def Readable (upper : Str → Str) (o : CR) : Prop :=
  (∃ st : Status, st.name = upper (o.phase.getD "Pending".toList)) ∧ o.created.isSome ∧ o.completed ≠ some none

private theorem record_isSome {upper : Str → Str} {o : CR} (h : Readable upper o) (key : Str) :
    ∃ r, record upper key o = some r := by
  obtain ⟨⟨st, hst⟩, hc, hd⟩ := h
  have h1 : (Status.fromName upper (o.phase.getD "Pending".toList)).isSome := by
    unfold Status.fromName
    rw [List.find?_isSome]
    exact ⟨st, by cases st <;> simp [Status.all], by simp [hst]⟩
  obtain ⟨st', h1⟩ := Option.isSome_iff_exists.mp h1
  obtain ⟨c, hc⟩ := Option.isSome_iff_exists.mp hc
  have h3 : ∃ t, stopTime o.completed = some t := by
    cases hx : o.completed with
    | none => exact ⟨_, rfl⟩
    | some x =>
      cases x with
      | none => exact absurd hx hd
      | some t => exact ⟨_, rfl⟩
  obtain ⟨t, h3⟩ := h3
  unfold record
  rw [h1, hc, h3]
  exact ⟨_, rfl⟩

private theorem answer_cur (upper : Str → Str) (utf8 : List Nat → Option Str) (v : KubeView)
    (s : Str → Str → Option Secret) : (v.step upper utf8 (.answer s)).cur = none ∧
      (v.step upper utf8 (.answer s)).store = v.store := by
  rcases step_cases upper utf8 v (.answer s) with ⟨o, h, e⟩ | ⟨ns, name, h, e⟩ | ⟨key, h, hc, hp, hs, e⟩ |
    ⟨key, o, r, r0, h, hc, hp, hs, hr, hold, e⟩ | ⟨key, o, r, h, hc, hp, hs, hr, hcr, e⟩ |
    ⟨secrets, key, o, r, h, hc, e⟩ | ⟨secrets, key, o, r, sec, c, h, hc, hsec, hread, e⟩ |
    ⟨key, h, e⟩ | e
  · cases h
  · cases h
  · cases h
  · cases h
  · cases h
  · rw [e]; exact ⟨rfl, rfl⟩
  · rw [e]; exact ⟨rfl, (publish_fields v _).2.2.1⟩
  · cases h
  · cases hc : v.cur with
    | none => rw [e]; exact ⟨hc, rfl⟩
    | some x =>
      exfalso
      obtain ⟨key, o, r⟩ := x
      have h2 := congrArg KubeView.cur e
      rw [hc] at h2
      simp only [KubeView.step, hc] at h2
      split at h2 <;> cases h2

/-- C88: an object the gateway can make sense of is caught up with as soon as the loop takes its key and
its secret can be read; `other` is the answer to what was in progress before. -/
theorem C88_catches_up (upper : Str → Str) (utf8 : List Nat → Option Str) (ops : List VOp) (key : Str)
    (other secrets : Str → Str → Option Secret)
    (h : ∀ o, objectAfter ops key = some o → Readable upper o ∧
      (o.credentials.getD [] ≠ [] → ∃ sec, secrets o.ns (o.credentials.getD []) = some sec ∧
        (Secret.read utf8 sec).isSome)) :
    (KubeView.run upper utf8 (ops ++ [.answer other, .take key, .answer secrets])).Idle key := by
  have e3 : KubeView.run upper utf8 (ops ++ [.answer other, .take key, .answer secrets]) =
      (((KubeView.run upper utf8 ops).step upper utf8 (.answer other)).step upper utf8 (.take key)).step upper utf8
        (.answer secrets) := by simp [KubeView.run, List.foldl_append]
  rw [e3]
  obtain ⟨a1, a2⟩ := answer_cur upper utf8 (KubeView.run upper utf8 ops) other
  have g := good_run upper utf8 ops
  have hst : ((KubeView.run upper utf8 ops).step upper utf8 (.answer other)).store key = objectAfter ops key := by
    rw [a2, g.store]
  revert a1 hst
  generalize (KubeView.run upper utf8 ops).step upper utf8 (.answer other) = w
  intro hcur hst
  have fin : ∀ w' : KubeView, w'.cur = none → key ∉ w'.pending →
      (w'.step upper utf8 (.answer secrets)).Idle key := by
    intro w' hc hp
    have : w'.step upper utf8 (.answer secrets) = w' := by simp only [KubeView.step, hc]
    rw [this]
    exact ⟨hp, fun x hx => (by rw [hc] at hx; cases hx)⟩
  have notin : key ∉ w.pending.filter (· ≠ key) := fun hx => (mem_filter_ne.mp hx).2 rfl
  by_cases hp : key ∈ w.pending
  · have e : w.step upper utf8 (.take key) = w.conclude key (w.sync upper key) := by
      change (if _ then _ else _) = _
      rw [if_pos ⟨hcur, hp⟩]
    rw [e]
    have done : ∀ r, ((w.conclude key (.done r)).step upper utf8 (.answer secrets)).Idle key := fun r =>
      fin _ (by change (w.publish r).cur = none; rw [(publish_fields w r).2.2.2.2.1]; exact hcur) notin
    have reads : ∀ o r, objectAfter ops key = some o → o.credentials.getD [] ≠ [] →
        ((w.conclude key (.reads o r)).step upper utf8 (.answer secrets)).Idle key := by
      intro o r ho hne
      obtain ⟨sec, h1, h2⟩ := (h o ho).2 hne
      obtain ⟨c, h2⟩ := Option.isSome_iff_exists.mp h2
      have : (w.conclude key (.reads o r)).step upper utf8 (.answer secrets) =
          { ({ w with cur := some (key, o, r), pending := w.pending.filter (· ≠ key) } : KubeView).publish
              { r with tlsCert := c.1, tlsKey := c.2.1, token := c.2.2 } with cur := none } := by
        simp only [KubeView.conclude, KubeView.step, h1, Option.bind_some, h2]
      rw [this]
      refine ⟨?_, fun x hx => (by cases hx)⟩
      change key ∉ (KubeView.publish _ _).pending
      rw [(publish_fields _ _).2.2.2.1]
      exact notin
    unfold KubeView.sync
    rw [hst]
    cases ho : objectAfter ops key with
    | none => exact fin _ hcur notin
    | some o =>
      dsimp only
      obtain ⟨r, hr⟩ := record_isSome (h o ho).1 key
      rw [hr]
      dsimp only
      cases hl : lookup w.clusters key with
      | some old =>
        dsimp only
        by_cases ht : old.tlsCert ≠ []
        · rw [if_pos ht]; exact done _
        · rw [if_neg ht]
          by_cases hq : rank r.status ≤ 2 ∧ o.credentials.getD [] ≠ []
          · rw [if_pos hq]; exact reads o r ho hq.2
          · rw [if_neg hq]; exact done _
      | none =>
        dsimp only
        by_cases hq : rank r.status ≤ 2 ∧ o.credentials.getD [] ≠ []
        · rw [if_pos hq]; exact reads o r ho hq.2
        · rw [if_neg hq]; exact done _
  · have e : w.step upper utf8 (.take key) = w := by
      change (if _ then _ else _) = _
      rw [if_neg (fun hx => hp hx.2)]
    rw [e]
    exact fin w hcur hp

/-- A case that meets the hypotheses, with a change while the secret is read and a failed reading: the
phase that is shown is the last one. -/
example :
    let ops := [VOp.put { someCR with phase := none, credentials := some "s".toList },
      .take "default.abc".toList, .put { someCR with credentials := some "s".toList },
      .answer (fun _ _ => none), .take "default.abc".toList,
      .answer (fun _ _ => some (makeSecret "t0".toList [1, 2] [3]))]
    let v := KubeView.run (fun s => s.map Char.toUpper) (fun b => some (b.map Char.ofNat)) ops
    ("default.abc".toList ∉ v.pending ∧ v.cur = none) ∧
    (v.get "default.abc".toList).map (fun r => (r.status, r.token, r.tlsCert)) =
      some (.running, "t0".toList, [1, 2]) := by decide +kernel

/-! ### C89: listings -/

/-- The entry of a cluster in the index of a user. -/
private def inIndex (users : List (Str × List (Str × Rec))) (u n : Str) : Option Rec :=
  (lookup users u).bind (fun d => lookup d n)

private theorem inIndex_add (users : List (Str × List (Str × Rec))) (r : Rec) (u n : Str) :
    inIndex (addUser users r) u n = if r.username = u ∧ r.name = n then some r else inIndex users u n := by
  unfold inIndex addUser
  rw [lookup_set]
  by_cases hu : r.username = u
  · rw [if_pos hu]
    simp only [Option.bind_some]
    rw [lookup_set]
    by_cases hn : r.name = n
    · rw [if_pos hn, if_pos ⟨hu, hn⟩]
    · rw [if_neg hn, if_neg (fun h => hn h.2), ← hu]
      cases lookup users r.username with
      | none => rfl
      | some d => rfl
  · rw [if_neg hu, if_neg (fun h => hu h.1)]

private theorem inIndex_drop (users : List (Str × List (Str × Rec))) (r : Rec) (u n : Str) :
    inIndex (dropUser users r) u n = if r.username = u ∧ r.name = n then none else inIndex users u n := by
  unfold dropUser
  cases hd : lookup users r.username with
  | none =>
    dsimp only
    by_cases h : r.username = u ∧ r.name = n
    · rw [if_pos h]; unfold inIndex; rw [← h.1, hd]; rfl
    · rw [if_neg h]
  | some d =>
    dsimp only
    have hin : ∀ n, lookup (dpop d r.name) n = if r.name = n then none else lookup d n := lookup_dpop d r.name
    by_cases he : dpop d r.name = []
    · rw [if_pos he]
      unfold inIndex
      rw [lookup_dpop]
      by_cases hu : r.username = u
      · rw [if_pos hu, ← hu, hd]
        have := hin n
        rw [he, lookup_nil] at this
        by_cases hn : r.name = n
        · rw [if_pos ⟨rfl, hn⟩]; rfl
        · rw [if_neg (fun h => hn h.2)]
          rw [if_neg hn] at this
          exact this
      · rw [if_neg hu, if_neg (fun h => hu h.1)]
    · rw [if_neg he]
      unfold inIndex
      rw [lookup_set]
      by_cases hu : r.username = u
      · rw [if_pos hu, ← hu, hd]
        simp only [Option.bind_some]
        rw [hin n]
        by_cases hn : r.name = n
        · rw [if_pos hn, if_pos ⟨trivial, hn⟩]
        · rw [if_neg hn, if_neg (fun h => hn h.2)]
      · rw [if_neg hu, if_neg (fun h => hu h.1)]

private structure Tidy (users : List (Str × List (Str × Rec))) : Prop where
  keys : (Dict.keys users).Nodup
  inner : ∀ u d, lookup users u = some d → (Dict.keys d).Nodup

private theorem tidy_add {users : List (Str × List (Str × Rec))} (h : Tidy users) (r : Rec) : Tidy (addUser users r) := by
  refine ⟨nodup_set h.keys, ?_⟩
  intro u d hd
  unfold addUser at hd
  rw [lookup_set] at hd
  by_cases hu : r.username = u
  · rw [if_pos hu] at hd
    cases hd
    apply nodup_set
    cases hx : lookup users r.username with
    | none => simp [Dict.keys]
    | some d => exact h.inner _ d hx
  · rw [if_neg hu] at hd; exact h.inner u d hd

private theorem tidy_drop {users : List (Str × List (Str × Rec))} (h : Tidy users) (r : Rec) : Tidy (dropUser users r) := by
  unfold dropUser
  cases hx : lookup users r.username with
  | none => exact h
  | some d =>
    dsimp only
    by_cases he : dpop d r.name = []
    · rw [if_pos he]
      refine ⟨nodup_dpop _ _ h.keys, ?_⟩
      intro u d' hd
      rw [lookup_dpop] at hd
      by_cases hu : r.username = u
      · rw [if_pos hu] at hd; cases hd
      · rw [if_neg hu] at hd; exact h.inner u d' hd
    · rw [if_neg he]
      refine ⟨nodup_set h.keys, ?_⟩
      intro u d' hd
      rw [lookup_set] at hd
      by_cases hu : r.username = u
      · rw [if_pos hu] at hd; cases hd; exact nodup_dpop _ _ (h.inner _ d hx)
      · rw [if_neg hu] at hd; exact h.inner u d' hd

private theorem tidy_run (upper : Str → Str) (utf8 : List Nat → Option Str) (ops : List VOp) :
    Tidy (KubeView.run upper utf8 ops).users := by
  induction ops using snoc_ind with
  | h0 => exact ⟨by simp [KubeView.run, KubeView.init, Dict.keys], fun u d h => (by simp [KubeView.run, KubeView.init, lookup_nil] at h)⟩
  | h1 l a ih =>
    rw [run_snoc]
    revert ih
    generalize KubeView.run upper utf8 l = v
    intro ih
    rcases step_cases upper utf8 v a with ⟨o, rfl, e⟩ | ⟨ns, name, rfl, e⟩ | ⟨key, rfl, hc, hp, hs, e⟩ |
      ⟨key, o, r, r0, rfl, hc, hp, hs, hr, hold, e⟩ | ⟨key, o, r, rfl, hc, hp, hs, hr, hcr, e⟩ |
      ⟨secrets, key, o, r, rfl, hc, e⟩ | ⟨secrets, key, o, r, sec, c, rfl, hc, hsec, hread, e⟩ |
      ⟨key, rfl, e⟩ | e <;> rw [e]
    · exact ih
    · exact ih
    · change Tidy (match lookup v.clusters key with
        | none => v.users
        | some r => dropUser v.users r)
      cases lookup v.clusters key with
      | none => exact ih
      | some r => exact tidy_drop ih r
    · change Tidy (v.publish r).users
      rw [(publish_fields v r).2.1]; exact tidy_add ih r
    · exact ih
    · exact ih
    · change Tidy (v.publish _).users
      rw [(publish_fields v _).2.1]; exact tidy_add ih _
    · change Tidy (v.flag key).1.users
      rw [(flag_fields v key).2.1]; exact ih
    · exact ih

/-- The owner of the object of a name never changes (also not by deleting it and making another of the same
name). The names the gateway gives to clusters are never used twice. -/
def OwnersFixed (ops : List VOp) (owner : Str → Str) : Prop :=
  ∀ o, VOp.put o ∈ ops → o.username.getD [] = owner (o.ns ++ '.' :: o.name)

private structure Owned (owner : Str → Str) (v : KubeView) : Prop where
  store : ∀ k o, v.store k = some o → o.username.getD [] = owner k
  clusters : ∀ k r, lookup v.clusters k = some r → r.username = owner k ∧ r.name = k
  cur : ∀ k o r, v.cur = some (k, o, r) → r.username = owner k ∧ r.name = k
  index : ∀ u n r, inIndex v.users u n = some r ↔ lookup v.clusters n = some r ∧ r.username = u

private theorem owned_publish {owner : Str → Str} {v : KubeView} (h : Owned owner v) (r : Rec)
    (hr : r.username = owner r.name) :
    (∀ k r', lookup (Dict.set v.clusters r.name r) k = some r' → r'.username = owner k ∧ r'.name = k) ∧
    ∀ u n r', inIndex (addUser v.users r) u n = some r' ↔
      lookup (Dict.set v.clusters r.name r) n = some r' ∧ r'.username = u := by
  constructor
  · intro k r' hl
    rw [lookup_set] at hl
    by_cases hk : r.name = k
    · rw [if_pos hk] at hl; cases hl; exact ⟨by rw [hr, hk], hk⟩
    · rw [if_neg hk] at hl; exact h.clusters k r' hl
  · intro u n r'
    rw [inIndex_add, lookup_set]
    by_cases hn : r.name = n
    · rw [if_pos hn]
      by_cases hu : r.username = u
      · rw [if_pos ⟨hu, hn⟩]
        exact ⟨fun hx => (by cases hx; exact ⟨rfl, hu⟩), fun hx => hx.1⟩
      · rw [if_neg (fun hx => hu hx.1), h.index]
        constructor
        · rintro ⟨h1, h2⟩
          have := (h.clusters n r' h1).1
          exact absurd (by rw [hr, hn, ← this, h2]) hu
        · rintro ⟨h1, h2⟩
          cases h1; exact absurd h2 hu
    · rw [if_neg hn, if_neg (fun hx => hn hx.2)]
      exact h.index u n r'

private theorem owned_run (upper : Str → Str) (utf8 : List Nat → Option Str) (owner : Str → Str) (ops : List VOp)
    (ho : OwnersFixed ops owner) : Owned owner (KubeView.run upper utf8 ops) := by
  induction ops using snoc_ind with
  | h0 =>
    refine ⟨?_, ?_, ?_, ?_⟩
    · intro k o h; simp [KubeView.run, KubeView.init] at h
    · intro k r h; simp [KubeView.run, KubeView.init, lookup_nil] at h
    · intro k o r h; simp [KubeView.run, KubeView.init] at h
    · intro u n r; simp [KubeView.run, KubeView.init, inIndex, lookup_nil]
  | h1 l a ih =>
    have ih := ih (fun o h => ho o (List.mem_append_left _ h))
    have hg := good_run upper utf8 l
    rw [run_snoc]
    revert ih hg
    generalize KubeView.run upper utf8 l = v
    intro ih hg
    rcases step_cases upper utf8 v a with ⟨o, rfl, e⟩ | ⟨ns, name, rfl, e⟩ | ⟨key, rfl, hc, hp, hs, e⟩ |
      ⟨key, o, r, r0, rfl, hc, hp, hs, hr, hold, e⟩ | ⟨key, o, r, rfl, hc, hp, hs, hr, hcr, e⟩ |
      ⟨secrets, key, o, r, rfl, hc, e⟩ | ⟨secrets, key, o, r, sec, c, rfl, hc, hsec, hread, e⟩ |
      ⟨key, rfl, e⟩ | e <;> rw [e]
    · refine ⟨?_, ih.clusters, ih.cur, ih.index⟩
      intro k o' h
      replace h : (if k = fullName o.ns o.name then some o else v.store k) = some o' := h
      by_cases hk : k = fullName o.ns o.name
      · rw [if_pos hk] at h; cases h
        rw [hk]
        exact ho o (by simp)
      · rw [if_neg hk] at h; exact ih.store k o' h
    · refine ⟨?_, ih.clusters, ih.cur, ih.index⟩
      intro k o' h
      replace h : (if k = fullName ns name then none else v.store k) = some o' := h
      by_cases hk : k = fullName ns name
      · rw [if_pos hk] at h; cases h
      · rw [if_neg hk] at h; exact ih.store k o' h
    · refine ⟨ih.store, ?_, ih.cur, ?_⟩
      · intro k r h
        replace h : lookup (dpop v.clusters key) k = some r := h
        rw [lookup_dpop] at h
        by_cases hk : key = k
        · rw [if_pos hk] at h; cases h
        · rw [if_neg hk] at h; exact ih.clusters k r h
      · intro u n r
        change inIndex (match lookup v.clusters key with
          | none => v.users
          | some r => dropUser v.users r) u n = some r ↔ lookup (dpop v.clusters key) n = some r ∧ r.username = u
        rw [lookup_dpop]
        cases hl : lookup v.clusters key with
        | none =>
          dsimp only
          rw [ih.index]
          by_cases hk : key = n
          · rw [if_pos hk, ← hk, hl]
          · rw [if_neg hk]
        | some r0 =>
          dsimp only
          obtain ⟨o1, o2⟩ := ih.clusters key r0 hl
          rw [inIndex_drop]
          by_cases hk : key = n
          · rw [if_pos hk]
            by_cases hu : r0.username = u
            · rw [if_pos ⟨hu, by rw [o2, hk]⟩]
              exact ⟨fun h => (by cases h), fun h => (by cases h.1)⟩
            · rw [if_neg (fun h => hu h.1), ih.index, ← hk, hl]
              constructor
              · rintro ⟨h1, h2⟩; cases h1; exact absurd h2 hu
              · rintro ⟨h1, _⟩; cases h1
          · rw [if_neg hk, if_neg (fun h => hk (by rw [← o2, h.2]))]
            exact ih.index u n r
    · have hkey := hg.storeKey key o hs
      obtain ⟨s0, n0, _, _⟩ := record_shows hr hkey
      have hr' : r.username = owner r.name := by
        have h0 : r0.username = owner r0.name := by rw [s0.username, ih.store key o hs, n0]
        rcases hold with ⟨old, _, _, rfl⟩ | rfl
        · exact h0
        · exact h0
      obtain ⟨p1, p2, p3, p4, p5, p6⟩ := publish_fields v r
      obtain ⟨q1, q2⟩ := owned_publish ih r hr'
      refine ⟨?_, ?_, ?_, ?_⟩
      · intro k o' h; replace h : (v.publish r).store k = some o' := h; rw [p3] at h; exact ih.store k o' h
      · intro k r' h; replace h : lookup (v.publish r).clusters k = some r' := h; rw [p1] at h; exact q1 k r' h
      · intro k o' r' h; replace h : (v.publish r).cur = some (k, o', r') := h; rw [p5, hc] at h; cases h
      · intro u n r'
        change inIndex (v.publish r).users u n = some r' ↔ lookup (v.publish r).clusters n = some r' ∧ _
        rw [p1, p2]; exact q2 u n r'
    · have hkey := hg.storeKey key o hs
      obtain ⟨s0, n0, _, _⟩ := record_shows hr hkey
      refine ⟨ih.store, ih.clusters, ?_, ih.index⟩
      intro k o' r' h
      cases h
      exact ⟨by rw [s0.username, ih.store key o hs], n0⟩
    · refine ⟨ih.store, ih.clusters, ?_, ih.index⟩
      intro k o' r' h; cases h
    · obtain ⟨c1, c2⟩ := ih.cur key o r hc
      obtain ⟨p1, p2, p3, p4, p5, p6⟩ := publish_fields v { r with tlsCert := c.1, tlsKey := c.2.1, token := c.2.2 }
      obtain ⟨q1, q2⟩ := owned_publish ih { r with tlsCert := c.1, tlsKey := c.2.1, token := c.2.2 }
        (by change r.username = owner r.name; rw [c1, c2])
      refine ⟨?_, ?_, ?_, ?_⟩
      · intro k o' h; replace h : (v.publish _).store k = some o' := h; rw [p3] at h; exact ih.store k o' h
      · intro k r' h; replace h : lookup (v.publish _).clusters k = some r' := h; rw [p1] at h; exact q1 k r' h
      · intro k o' r' h; cases h
      · intro u n r'
        change inIndex (v.publish _).users u n = some r' ↔ lookup (v.publish _).clusters n = some r' ∧ _
        rw [p1, p2]; exact q2 u n r'
    · obtain ⟨p1, p2, p3, p4, p5, p6, p7⟩ := flag_fields v key
      refine ⟨?_, ?_, ?_, ?_⟩
      · intro k o' h; replace h : (v.flag key).1.store k = some o' := h; rw [p3] at h; exact ih.store k o' h
      · intro k r' h; replace h : lookup (v.flag key).1.clusters k = some r' := h; rw [p1] at h; exact ih.clusters k r' h
      · intro k o' r' h; replace h : (v.flag key).1.cur = some (k, o', r') := h; rw [p5] at h; exact ih.cur k o' r' h
      · intro u n r'
        change inIndex (v.flag key).1.users u n = some r' ↔ lookup (v.flag key).1.clusters n = some r' ∧ _
        rw [p1, p2]; exact ih.index u n r'
    · exact ih

private theorem mem_values {d : List (Str × Rec)} (hn : (Dict.keys d).Nodup) (hk : ∀ k r, lookup d k = some r → r.name = k)
    (r : Rec) : r ∈ d.map (·.2) ↔ lookup d r.name = some r := by
  constructor
  · intro h
    obtain ⟨e, he, rfl⟩ := List.mem_map.mp h
    have := lookup_of_mem hn (k := e.1) (v := e.2) he
    rw [hk e.1 e.2 this]; exact this
  · intro h
    exact List.mem_map.mpr ⟨_, mem_of_lookup h, rfl⟩

/-- Whether a listing that asks for some statuses, or for the clusters that are starting or running if it
asks for none, shows a cluster in a status. -/
def Asked (statuses : Option (List Status)) (st : Status) : Prop :=
  match statuses with
  | none => st = .pending ∨ st = .running
  | some l => st ∈ l

private theorem selected_iff (statuses : Option (List Status)) (r : Rec) :
    selected statuses r = true ↔ Asked statuses r.status := by
  cases statuses with
  | none => unfold selected Asked; cases r.status <;> simp [rank]
  | some l => simp [selected, Asked]

/-- C89: a listing of all clusters shows those the gateway knows, in the statuses asked for. -/
theorem C89_all (upper : Str → Str) (utf8 : List Nat → Option Str) (ops : List VOp)
    (statuses : Option (List Status)) (r : Rec) :
    r ∈ (KubeView.run upper utf8 ops).list none statuses ↔
      (KubeView.run upper utf8 ops).get r.name = some r ∧ Asked statuses r.status := by
  have g := good_run upper utf8 ops
  change r ∈ ((KubeView.run upper utf8 ops).clusters.map (·.2)).filter (selected statuses) ↔ _
  rw [List.mem_filter, selected_iff, mem_values g.nodup g.names]
  exact Iff.rfl

/-- C89: as long as the owner of an object never changes, the listing of a user shows exactly the user's
clusters, in the statuses asked for, and each of them once. -/
theorem C89_user_partial (upper : Str → Str) (utf8 : List Nat → Option Str) (owner : Str → Str) (ops : List VOp)
    (ho : OwnersFixed ops owner) (u : Str) (statuses : Option (List Status)) :
    (∀ r, r ∈ (KubeView.run upper utf8 ops).list (some u) statuses ↔
      (KubeView.run upper utf8 ops).get r.name = some r ∧ r.username = u ∧ Asked statuses r.status) ∧
    (((KubeView.run upper utf8 ops).list (some u) statuses).map (·.name)).Nodup := by
  have g := owned_run upper utf8 owner ops ho
  have t := tidy_run upper utf8 ops
  revert g t
  generalize KubeView.run upper utf8 ops = v
  intro g t
  unfold KubeView.list
  dsimp only
  cases hd : lookup v.users u with
  | none =>
    refine ⟨?_, by simp⟩
    intro r
    constructor
    · intro h; simp at h
    · rintro ⟨h1, h2, _⟩
      have := (g.index u r.name r).mpr ⟨h1, h2⟩
      unfold inIndex at this
      rw [hd] at this; cases this
  | some d =>
    dsimp only
    have hn := t.inner u d hd
    have hlook : ∀ n r, lookup d n = some r ↔ lookup v.clusters n = some r ∧ r.username = u := by
      intro n r
      rw [← g.index]
      unfold inIndex
      rw [hd]; rfl
    have hk : ∀ k r, lookup d k = some r → r.name = k := fun k r h => (g.clusters k r ((hlook k r).mp h).1).2
    refine ⟨?_, ?_⟩
    · intro r
      rw [List.mem_filter, selected_iff, mem_values hn hk, hlook]
      exact ⟨fun h => ⟨h.1.1, h.1.2, h.2⟩, fun h => ⟨⟨h.1, h.2.1⟩, h.2.2⟩⟩
    · have : (d.map (·.2)).map (·.name) = Dict.keys d := by
        unfold Dict.keys
        rw [List.map_map]
        apply List.map_congr_left
        intro e he
        exact hk e.1 e.2 (lookup_of_mem hn he)
      exact List.Nodup.sublist (List.Sublist.map _ List.filter_sublist) (this ▸ hn)

/-- C89 in full: the listing of a user shows clusters of that user only, and only those that exist. -/
def C89_full : Prop :=
  ∀ (upper : Str → Str) (utf8 : List Nat → Option Str) (ops : List VOp) (u : Str) (r : Rec),
    r ∈ (KubeView.run upper utf8 ops).list (some u) none → (KubeView.run upper utf8 ops).get r.name = some r

/-- C89: the owner of an object was changed (or the object was replaced by one of another owner before
the gateway noticed): the cluster stays in the listing of the former owner, even when it is deleted. -/
theorem C89_violated : ¬ C89_full := by
  intro h
  have := h id (fun _ => none)
    [.put someCR, .take "default.abc".toList, .put { someCR with username := some "bob".toList },
      .take "default.abc".toList, .del "default".toList "abc".toList, .take "default.abc".toList]
    "alice".toList
    { name := "default.abc".toList, username := "alice".toList, options := .obj [], maxWorkers := some 3,
      status := .running, schedulerAddress := "tls://dask-abc.default:8786".toList,
      dashboardAddress := "http://dask-abc.default:8787".toList,
      apiAddress := "http://dask-abc.default:8788".toList, startTime := 5, stopTime := none, tlsCert := [],
      tlsKey := [], token := [] } (by decide +kernel)
  revert this
  decide +kernel

/-- A case that meets the hypotheses: two clusters of two users, one of them deleted again. -/
example : (KubeView.run id (fun _ => none)
    [.put someCR, .put { someCR with name := "x".toList, username := some "bob".toList },
      .take "default.x".toList, .take "default.abc".toList, .del "default".toList "x".toList,
      .take "default.x".toList]).list (some "alice".toList) none ≠ [] ∧
    (KubeView.run id (fun _ => none)
    [.put someCR, .put { someCR with name := "x".toList, username := some "bob".toList },
      .take "default.x".toList, .take "default.abc".toList, .del "default".toList "x".toList,
      .take "default.x".toList]).list (some "bob".toList) none = [] := by decide +kernel

/-! ### C90: tokens -/

/-- The credentials of a record were read from a secret that an object of this name refers to. -/
def FromSecret (utf8 : List Nat → Option Str) (ops : List VOp) (key : Str) (cert pem : List Nat) (token : Str) : Prop :=
  ∃ o secrets sec, VOp.put o ∈ ops ∧ o.ns ++ '.' :: o.name = key ∧ VOp.answer secrets ∈ ops ∧
    o.credentials.getD [] ≠ [] ∧ secrets o.ns (o.credentials.getD []) = some sec ∧
    Secret.read utf8 sec = some (cert, pem, token)

private structure Origin (upper : Str → Str) (utf8 : List Nat → Option Str) (ops : List VOp) (v : KubeView) : Prop where
  store : ∀ k o, v.store k = some o → VOp.put o ∈ ops ∧ o.ns ++ '.' :: o.name = k
  cur : ∀ k o r, v.cur = some (k, o, r) → VOp.put o ∈ ops ∧ o.ns ++ '.' :: o.name = k ∧ r.name = k ∧
    o.credentials.getD [] ≠ [] ∧ ∀ old, lookup v.clusters k = some old → old.tlsCert = []
  clusters : ∀ k r, lookup v.clusters k = some r →
    (r.tlsCert = [] ∧ r.tlsKey = [] ∧ r.token = []) ∨ FromSecret utf8 ops k r.tlsCert r.tlsKey r.token

private theorem fromSecret_mono {utf8 : List Nat → Option Str} {ops : List VOp} {key token : Str} {c p : List Nat}
    (op : VOp) (h : FromSecret utf8 ops key c p token) : FromSecret utf8 (ops ++ [op]) key c p token := by
  obtain ⟨o, s, sec, h1, h2, h3, h4⟩ := h
  exact ⟨o, s, sec, List.mem_append_left _ h1, h2, List.mem_append_left _ h3, h4⟩

private theorem record_plain {upper : Str → Str} {key : Str} {o : CR} {r : Rec} (h : record upper key o = some r) :
    r.name = key ∧ r.tlsCert = [] ∧ r.tlsKey = [] ∧ r.token = [] := by
  unfold record at h
  split at h
  · cases h; exact ⟨rfl, rfl, rfl, rfl⟩
  · cases h

private theorem origin_run (upper : Str → Str) (utf8 : List Nat → Option Str) (ops : List VOp) :
    Origin upper utf8 ops (KubeView.run upper utf8 ops) := by
  induction ops using snoc_ind with
  | h0 =>
    refine ⟨?_, ?_, ?_⟩
    · intro k o h; simp [KubeView.run, KubeView.init] at h
    · intro k o r h; simp [KubeView.run, KubeView.init] at h
    · intro k r h; simp [KubeView.run, KubeView.init, lookup_nil] at h
  | h1 l a ih =>
    rw [run_snoc]
    revert ih
    generalize KubeView.run upper utf8 l = v
    intro ih
    have s1 : ∀ k o, v.store k = some o → VOp.put o ∈ l ++ [a] ∧ o.ns ++ '.' :: o.name = k := fun k o h =>
      ⟨List.mem_append_left _ (ih.store k o h).1, (ih.store k o h).2⟩
    have s2 : ∀ k o r, v.cur = some (k, o, r) → VOp.put o ∈ l ++ [a] ∧ o.ns ++ '.' :: o.name = k ∧ r.name = k ∧
        o.credentials.getD [] ≠ [] ∧ ∀ old, lookup v.clusters k = some old → old.tlsCert = [] := fun k o r h =>
      ⟨List.mem_append_left _ (ih.cur k o r h).1, (ih.cur k o r h).2⟩
    have s3 : ∀ k r, lookup v.clusters k = some r →
        (r.tlsCert = [] ∧ r.tlsKey = [] ∧ r.token = []) ∨ FromSecret utf8 (l ++ [a]) k r.tlsCert r.tlsKey r.token :=
      fun k r h => (ih.clusters k r h).imp id (fromSecret_mono a)
    rcases step_cases upper utf8 v a with ⟨o, rfl, e⟩ | ⟨ns, name, rfl, e⟩ | ⟨key, rfl, hc, hp, hs, e⟩ |
      ⟨key, o, r, r0, rfl, hc, hp, hs, hr, hold, e⟩ | ⟨key, o, r, rfl, hc, hp, hs, hr, hcr, e⟩ |
      ⟨secrets, key, o, r, rfl, hc, e⟩ | ⟨secrets, key, o, r, sec, c, rfl, hc, hsec, hread, e⟩ |
      ⟨key, rfl, e⟩ | e <;> rw [e]
    · refine ⟨?_, s2, s3⟩
      intro k o' h
      replace h : (if k = fullName o.ns o.name then some o else v.store k) = some o' := h
      by_cases hk : k = fullName o.ns o.name
      · rw [if_pos hk] at h; cases h; exact ⟨by simp, hk.symm⟩
      · rw [if_neg hk] at h; exact s1 k o' h
    · refine ⟨?_, s2, s3⟩
      intro k o' h
      replace h : (if k = fullName ns name then none else v.store k) = some o' := h
      by_cases hk : k = fullName ns name
      · rw [if_pos hk] at h; cases h
      · rw [if_neg hk] at h; exact s1 k o' h
    · refine ⟨s1, ?_, ?_⟩
      · intro k o r h; replace h : v.cur = some (k, o, r) := h; rw [hc] at h; cases h
      · intro k r h
        replace h : lookup (dpop v.clusters key) k = some r := h
        rw [lookup_dpop] at h
        by_cases hk : key = k
        · rw [if_pos hk] at h; cases h
        · rw [if_neg hk] at h; exact s3 k r h
    · obtain ⟨p1, p2, p3, p4, p5, p6⟩ := publish_fields v r
      obtain ⟨n0, t1, t2, t3⟩ := record_plain hr
      refine ⟨?_, ?_, ?_⟩
      · intro k o' h; replace h : (v.publish r).store k = some o' := h; rw [p3] at h; exact s1 k o' h
      · intro k o' r' h; replace h : (v.publish r).cur = some (k, o', r') := h; rw [p5, hc] at h; cases h
      · intro k r' h
        replace h : lookup (v.publish r).clusters k = some r' := h
        rw [p1, lookup_set] at h
        by_cases hk : r.name = k
        · rw [if_pos hk] at h
          cases h
          rcases hold with ⟨old, ho, hne, rfl⟩ | rfl
          · replace hk : r0.name = k := hk
            rw [n0] at hk
            rw [hk] at ho
            exact s3 k old ho
          · exact Or.inl ⟨t1, t2, t3⟩
        · rw [if_neg hk] at h; exact s3 k r' h
    · refine ⟨s1, ?_, s3⟩
      intro k o' r' h
      cases h
      exact ⟨(s1 key o hs).1, (s1 key o hs).2, (record_plain hr).1, hcr.1, hcr.2⟩
    · refine ⟨s1, ?_, s3⟩
      intro k o' r' h; cases h
    · obtain ⟨p1, p2, p3, p4, p5, p6⟩ := publish_fields v { r with tlsCert := c.1, tlsKey := c.2.1, token := c.2.2 }
      obtain ⟨c1, c2, c3, c4, c5⟩ := s2 key o r hc
      refine ⟨?_, ?_, ?_⟩
      · intro k o' h; replace h : (v.publish _).store k = some o' := h; rw [p3] at h; exact s1 k o' h
      · intro k o' r' h; cases h
      · intro k r' h
        replace h : lookup (v.publish _).clusters k = some r' := h
        rw [p1, lookup_set] at h
        by_cases hk : r.name = k
        · rw [if_pos hk] at h
          cases h
          refine Or.inr ⟨o, secrets, sec, c1, by rw [c2, ← hk, c3], by simp, c4, hsec, hread⟩
        · rw [if_neg hk] at h; exact s3 k r' h
    · obtain ⟨p1, p2, p3, p4, p5, p6, p7⟩ := flag_fields v key
      refine ⟨?_, ?_, ?_⟩
      · intro k o' h; replace h : (v.flag key).1.store k = some o' := h; rw [p3] at h; exact s1 k o' h
      · intro k o' r' h
        replace h : (v.flag key).1.cur = some (k, o', r') := h
        rw [p5] at h
        change _ ∧ _ ∧ _ ∧ _ ∧ ∀ old, lookup (v.flag key).1.clusters k = some old → old.tlsCert = []
        rw [p1]
        exact s2 k o' r' h
      · intro k r' h; replace h : lookup (v.flag key).1.clusters k = some r' := h; rw [p1] at h; exact s3 k r' h
    · exact ⟨s1, s2, s3⟩

/-- C90: what the gateway holds as the credentials of a cluster was read from a secret that an object of
this name refers to, or is empty. -/
theorem C90_origin (upper : Str → Str) (utf8 : List Nat → Option Str) (ops : List VOp) (key : Str) (r : Rec)
    (h : (KubeView.run upper utf8 ops).get key = some r) :
    (r.tlsCert = [] ∧ r.tlsKey = [] ∧ r.token = []) ∨ FromSecret utf8 ops key r.tlsCert r.tlsKey r.token :=
  (origin_run upper utf8 ops).clusters key r h

/-- C90: credentials that were read stay the same until the record is removed. -/
theorem C90_kept (upper : Str → Str) (utf8 : List Nat → Option Str) (ops : List VOp) (op : VOp) (key : Str) (r r' : Rec)
    (h : (KubeView.run upper utf8 ops).get key = some r) (hc : r.tlsCert ≠ [])
    (h' : (KubeView.run upper utf8 (ops ++ [op])).get key = some r') :
    r'.tlsCert = r.tlsCert ∧ r'.tlsKey = r.tlsKey ∧ r'.token = r.token := by
  have g := origin_run upper utf8 ops
  rw [run_snoc] at h'
  unfold KubeView.get at h h'
  revert g h h'
  generalize KubeView.run upper utf8 ops = v
  intro h h' g
  have same : lookup v.clusters key = some r' → r'.tlsCert = r.tlsCert ∧ r'.tlsKey = r.tlsKey ∧ r'.token = r.token := by
    intro hx; rw [h] at hx; cases hx; exact ⟨rfl, rfl, rfl⟩
  rcases step_cases upper utf8 v op with ⟨o, rfl, e⟩ | ⟨ns, name, rfl, e⟩ | ⟨key', rfl, hc', hp, hs, e⟩ |
    ⟨key', o, r1, r0, rfl, hc', hp, hs, hr, hold, e⟩ | ⟨key', o, r1, rfl, hc', hp, hs, hr, hcr, e⟩ |
    ⟨secrets, key', o, r1, rfl, hc', e⟩ | ⟨secrets, key', o, r1, sec, c, rfl, hc', hsec, hread, e⟩ |
    ⟨key', rfl, e⟩ | e <;> rw [e] at h'
  · exact same h'
  · exact same h'
  · replace h' : lookup (dpop v.clusters key') key = some r' := h'
    rw [lookup_dpop] at h'
    by_cases hk : key' = key
    · rw [if_pos hk] at h'; cases h'
    · rw [if_neg hk] at h'; exact same h'
  · replace h' : lookup (v.publish r1).clusters key = some r' := h'
    obtain ⟨n0, t1, t2, t3⟩ := record_plain hr
    rw [(publish_fields v r1).1, lookup_set] at h'
    by_cases hk : r1.name = key
    · rw [if_pos hk] at h'
      cases h'
      rcases hold with ⟨old, ho, hne, rfl⟩ | rfl
      · replace hk : r0.name = key := hk
        rw [n0] at hk
        rw [hk, h] at ho
        cases ho
        exact ⟨rfl, rfl, rfl⟩
      · exfalso
        rw [n0] at hk
        subst hk
        have e2 : v.step upper utf8 (.take key') = v.conclude key' (v.sync upper key') := by
          change (if _ then _ else _) = _
          rw [if_pos ⟨hc', hp⟩]
        rw [e2] at e
        unfold KubeView.sync at e
        rw [hs] at e
        dsimp only at e
        rw [hr, h] at e
        dsimp only at e
        rw [if_pos hc] at e
        have e3 := congrArg (fun w : KubeView => (lookup w.clusters key').map (·.tlsCert)) e
        dsimp only [KubeView.conclude] at e3
        rw [(publish_fields v _).1, (publish_fields v _).1, lookup_set, lookup_set] at e3
        dsimp only at e3
        rw [if_pos n0, if_pos n0] at e3
        simp only [Option.map_some, Option.some.injEq] at e3
        rw [t1] at e3
        exact hc e3
    · rw [if_neg hk] at h'; exact same h'
  · exact same h'
  · exact same h'
  · replace h' : lookup (v.publish _).clusters key = some r' := h'
    obtain ⟨_, _, c3, _, c5⟩ := g.cur key' o r1 hc'
    rw [(publish_fields v _).1, lookup_set] at h'
    by_cases hk : r1.name = key
    · exfalso
      rw [c3] at hk
      subst hk
      exact hc (c5 r h)
    · rw [if_neg hk] at h'; exact same h'
  · replace h' : lookup (v.flag key').1.clusters key = some r' := h'
    rw [(flag_fields v key').1] at h'
    exact same h'
  · exact same h'

/-- The secrets are those the controller makes: `issued` is the token of each cluster. -/
structure Issued (utf8 : List Nat → Option Str) (issued : Str → Str) (ops : List VOp) : Prop where
  /-- tokens are ASCII and not empty (`uuid.uuid4().hex`) -/
  tokens : ∀ k, issued k ≠ [] ∧ ∀ c ∈ issued k, c.toNat < 128
  /-- ASCII is decoded as such -/
  utf8 : ∀ s : Str, (∀ c ∈ s, c.toNat < 128) → utf8 (s.map Char.toNat) = some s
  refers : ∀ o, VOp.put o ∈ ops → o.credentials.getD [] = [] ∨ o.credentials = some ("dask-credentials-".toList ++ o.name)
  secrets : ∀ s, VOp.answer s ∈ ops → ∀ ns name sec, s ns ("dask-credentials-".toList ++ name) = some sec →
    ∃ cert key, sec = makeSecret (issued (ns ++ '.' :: name)) cert key

private theorem read_made {utf8 : List Nat → Option Str} {token : Str} {cert key : List Nat} {c : List Nat × List Nat × Str}
    (hu : utf8 (token.map Char.toNat) = some token) (ht : ∀ x ∈ token, x.toNat < 128)
    (h : Secret.read utf8 (makeSecret token cert key) = some c) : c.2.2 = token := by
  unfold Secret.read makeSecret at h
  dsimp only [Option.bind_some] at h
  have hb : Auth.b64decode (Auth.b64encode (token.map Char.toNat)) = some (token.map Char.toNat) := by
    apply Auth.b64_roundtrip
    intro x hx
    obtain ⟨y, hy, rfl⟩ := List.mem_map.mp hx
    have := ht y hy
    omega
  rw [hb] at h
  simp only [Option.bind_some] at h
  rw [hu] at h
  split at h
  · rename_i _ _ _ h3
    cases h3
    cases h
    rfl
  · cases h

/-- C90: with the controller's secrets, the token of a cluster is the one issued for it, or unknown yet. -/
theorem C90_issued (upper : Str → Str) (utf8 : List Nat → Option Str) (issued : Str → Str) (ops : List VOp)
    (hi : Issued utf8 issued ops) (key : Str) (r : Rec)
    (h : (KubeView.run upper utf8 ops).get key = some r) : r.token = [] ∨ r.token = issued key := by
  rcases C90_origin upper utf8 ops key r h with ⟨_, _, h⟩ | ⟨o, s, sec, h1, h2, h3, h4, h5, h6⟩
  · exact Or.inl h
  · right
    rcases hi.refers o h1 with hx | hx
    · exact absurd hx h4
    · rw [hx] at h5
      obtain ⟨cert, key', rfl⟩ := hi.secrets s h3 o.ns o.name sec h5
      rw [h2] at h6
      exact read_made (hi.utf8 _ (hi.tokens key).2) (hi.tokens key).2 h6

/-- The clusters as the HTTP handlers see them. -/
def KubeView.known (v : KubeView) : List Api.Cluster := v.clusters.map (fun e => e.2.toApi)

theorem find_known (d : List (Str × Rec)) (hk : ∀ k r, lookup d k = some r → r.name = k)
    (hn : (Dict.keys d).Nodup) (n : Str) :
    Api.find (d.map (fun e => e.2.toApi)) n = (lookup d n).map Rec.toApi := by
  have hk' : ∀ e ∈ d, e.2.name = e.1 := fun e he => hk e.1 e.2 (lookup_of_mem hn he)
  clear hk hn
  induction d with
  | nil => rfl
  | cons e d ih =>
    rw [lookup_cons]
    have h0 := hk' e List.mem_cons_self
    unfold Api.find
    rw [List.map_cons, List.find?_cons]
    by_cases h : e.1 = n
    · have : e.2.toApi.name = n := by rw [← h, ← h0]; rfl
      simp [this, h]
    · have : e.2.toApi.name ≠ n := by rw [← h0] at h; exact h
      simp only [this, decide_false, h, if_false]
      exact ih (fun e' he => hk' e' (List.mem_cons_of_mem _ he))

/-- C90: a request is accepted as coming from a cluster only if it presents the token issued for this very
cluster. HTTP servers strip white space at the end of a header. -/
theorem C90_accepted (upper : Str → Str) (utf8 : List Nat → Option Str) (issued : Str → Str) (ops : List VOp)
    (hi : Issued utf8 issued ops) (req : Api.Request) (n : Str)
    (hs : ∀ h, req.header = some h → h.getLast? ≠ some ' ')
    (hok : Api.tokenOk (KubeView.run upper utf8 ops).known req n = some true) :
    req.header = some ("token ".toList ++ issued n) ∧ (KubeView.run upper utf8 ops).get n ≠ none := by
  have g := good_run upper utf8 ops
  have hiss := fun key r => C90_issued upper utf8 issued ops hi key r
  unfold KubeView.get at hiss ⊢
  revert g hiss hok
  generalize KubeView.run upper utf8 ops = v
  intro hok g hiss
  unfold Api.tokenOk at hok
  cases hh : req.header with
  | none => rw [hh] at hok; cases hok
  | some h =>
    rw [hh] at hok
    cases h with
    | nil => cases hok
    | cons x h =>
      dsimp only at hok
      cases hp : Auth.split1 ' ' (x :: h) with
      | none => rw [hp] at hok; cases hok
      | some p =>
        obtain ⟨kind, token⟩ := p
        rw [hp] at hok
        dsimp only at hok
        unfold KubeView.known at hok
        rw [find_known _ g.names g.nodup] at hok
        have hsp := (Auth.split1_eq_some hp).1
        simp only [Option.some.injEq, Bool.and_eq_true, decide_eq_true_eq] at hok
        obtain ⟨rfl, hok⟩ := hok
        cases hl : lookup v.clusters n with
        | none => rw [hl] at hok; cases hok
        | some r =>
          rw [hl] at hok
          simp only [Option.map_some, decide_eq_true_eq] at hok
          replace hok : r.token = token := hok
          subst hok
          refine ⟨?_, by simp⟩
          rcases hiss n r hl with h0 | h0
          · exfalso
            apply hs _ hh
            rw [hsp, h0]
            rfl
          · rw [hsp, h0]
            rfl

/-- C90: and a request that presents the token of a cluster whose credentials are known is accepted. -/
theorem C90_accepts (upper : Str → Str) (utf8 : List Nat → Option Str) (ops : List VOp) (req : Api.Request) (n : Str)
    (r : Rec) (hr : (KubeView.run upper utf8 ops).get n = some r)
    (hh : req.header = some ("token ".toList ++ r.token)) :
    Api.tokenOk (KubeView.run upper utf8 ops).known req n = some true := by
  have g := good_run upper utf8 ops
  unfold KubeView.get at hr
  revert g hr
  generalize KubeView.run upper utf8 ops = v
  intro hr g
  have hp : Auth.split1 ' ' ("token".toList ++ ' ' :: r.token) = some ("token".toList, r.token) :=
    Auth.split1_append ' ' _ _ (by decide)
  have hp' : "token ".toList ++ r.token = 't' :: ("oken".toList ++ ' ' :: r.token) := rfl
  have hp'' : "token".toList ++ ' ' :: r.token = 't' :: ("oken".toList ++ ' ' :: r.token) := rfl
  rw [hp''] at hp
  unfold Api.tokenOk
  rw [hh, hp']
  dsimp only
  rw [hp]
  dsimp only
  unfold KubeView.known
  rw [find_known _ g.names g.nodup, hr]
  simp [Rec.toApi]

/-- A case that meets the hypotheses: the token of a cluster is known and its owner is accepted. -/
example : Api.tokenOk (KubeView.run (fun s => s.map Char.toUpper) (fun b => some (b.map Char.ofNat))
      [.put { someCR with credentials := some "dask-credentials-abc".toList }, .take "default.abc".toList,
       .answer (fun _ _ => some (makeSecret "0a".toList [1] [2]))]).known
      { route := .heartbeat "default.abc".toList, header := some "token 0a".toList } "default.abc".toList = some true ∧
    Issued (fun b => some (b.map Char.ofNat)) (fun _ => "0a".toList)
      [.put { someCR with credentials := some "dask-credentials-abc".toList }, .take "default.abc".toList,
       .answer (fun _ _ => some (makeSecret "0a".toList [1] [2]))] := by
  refine ⟨by decide +kernel, ⟨fun _ => by decide, ?_, ?_, ?_⟩⟩
  · intro s _
    rw [List.map_map]
    congr 1
    rw [List.map_congr_left (g := id)]
    · simp
    · intro c _; simp
  · intro o ho
    simp only [List.mem_cons, VOp.put.injEq, reduceCtorEq, List.not_mem_nil, or_false] at ho
    subst ho
    right; decide
  · intro s hs ns name sec hx
    simp only [List.mem_cons, VOp.answer.injEq, reduceCtorEq, List.not_mem_nil, or_false, false_or] at hs
    subst hs
    cases hx
    exact ⟨_, _, rfl⟩

/-! ### C91: what the gateway changes in the objects -/

theorem splitName_full {ns name : Str} (h1 : '.' ∉ ns) (h2 : '.' ∉ name) :
    splitName (ns ++ '.' :: name) = some (ns, name) := by
  unfold splitName
  rw [Api.splitAll_append _ _ _ h1, Api.splitAll_piece _ _ h2]

/-- C91: a heartbeat of a cluster that the gateway knows sets the number of workers of this cluster, and of
no other, to the number asked for, or to the cluster's limit if that is lower; one of an unknown cluster
changes nothing. -/
theorem C91_heartbeat_partial (v : KubeView) (ns name : Str) (count : Int) (h1 : '.' ∉ ns) (h2 : '.' ∉ name) :
    (v.get (ns ++ '.' :: name) = none → v.heartbeat (ns ++ '.' :: name) count = some none) ∧
    ∀ r, v.get (ns ++ '.' :: name) = some r →
      ∃ k, v.heartbeat (ns ++ '.' :: name) count = some (some (.replicas ns name k)) ∧ k ≤ count ∧
        (∀ m, r.maxWorkers = some m → k ≤ m) ∧ (k = count ∨ ∃ m, r.maxWorkers = some m ∧ k = m) := by
  unfold KubeView.heartbeat
  rw [splitName_full h1 h2]
  dsimp only
  constructor
  · intro h; rw [h]
  · intro r h
    rw [h]
    dsimp only
    cases hm : r.maxWorkers with
    | none => exact ⟨count, rfl, Int.le_refl _, fun m h => (by cases h), Or.inl rfl⟩
    | some m =>
      refine ⟨_, rfl, ?_, ?_, ?_⟩
      · split <;> omega
      · intro m' hm'; cases hm'; split <;> omega
      · split
        · exact Or.inr ⟨m, rfl, rfl⟩
        · exact Or.inl rfl

/-- C91: and once nothing remains to be done for the cluster, the limit is the one in its object. -/
theorem C91_limit_partial (upper : Str → Str) (utf8 : List Nat → Option Str) (ops : List VOp) (o : CR) (count : Int)
    (h1 : '.' ∉ o.ns) (h2 : '.' ∉ o.name) (hi : (KubeView.run upper utf8 ops).Idle (o.ns ++ '.' :: o.name))
    (ho : objectAfter ops (o.ns ++ '.' :: o.name) = some o) :
    (KubeView.run upper utf8 ops).heartbeat (o.ns ++ '.' :: o.name) count =
      some (some (.replicas o.ns o.name (match o.maxWorkers with | none => count | some m => min count m))) := by
  obtain ⟨r, hr, hs⟩ := (C88_agrees upper utf8 ops _ hi).2 o ho
  unfold KubeView.heartbeat
  rw [splitName_full h1 h2]
  dsimp only
  rw [hr]
  dsimp only
  rw [hs.maxWorkers]
  cases o.maxWorkers with
  | none => rfl
  | some m =>
    dsimp only
    congr 3
    split <;> omega

/-- C91: stopping a cluster asks to stop this cluster, and no other, unless it is known to have ended. -/
theorem C91_stop_partial (v : KubeView) (ns name : Str) (h1 : '.' ∉ ns) (h2 : '.' ∉ name) :
    v.stop (ns ++ '.' :: name) = some none ∨
      v.stop (ns ++ '.' :: name) = some (some (.active ns name false)) ∧
        ∀ r, v.get (ns ++ '.' :: name) = some r → r.status ≠ .stopped ∧ r.status ≠ .failed := by
  unfold KubeView.stop
  rw [splitName_full h1 h2]
  cases h : v.get (ns ++ '.' :: name) with
  | none => exact Or.inr ⟨rfl, fun r hr => (by cases hr)⟩
  | some r =>
    dsimp only
    by_cases hr : 4 ≤ rank r.status
    · rw [if_pos hr]; exact Or.inl rfl
    · rw [if_neg hr]
      refine Or.inr ⟨rfl, ?_⟩
      intro r' h'
      cases h'
      constructor <;> (intro hx; rw [hx] at hr; exact hr (by decide))

/-- C91: nothing is asked for a cluster that is known to have ended. -/
theorem C91_ended (v : KubeView) (key : Str) (r : Rec) (h : v.get key = some r)
    (hs : r.status = .stopped ∨ r.status = .failed) : v.stop key = some none := by
  unfold KubeView.stop
  rw [h]
  dsimp only
  rw [if_pos]
  rcases hs with hs | hs <;> rw [hs] <;> decide

/-- C91 in full: every cluster that the gateway shows and that did not end can be stopped. -/
def C91_full : Prop :=
  ∀ (upper : Str → Str) (utf8 : List Nat → Option Str) (ops : List VOp) (key : Str) (r : Rec),
    (KubeView.run upper utf8 ops).get key = some r → r.status = .running →
      ∃ ns name, (KubeView.run upper utf8 ops).stop key = some (some (.active ns name false))

/-- C91: a cluster object whose name has a dot (which Kubernetes allows) is shown, but cannot be stopped,
and its heartbeats fail. -/
theorem C91_violated : ¬ C91_full := by
  intro h
  obtain ⟨ns, name, h⟩ := h id (fun _ => none) [.put { someCR with name := "a.b".toList }, .take "default.a.b".toList]
    "default.a.b".toList
    { name := "default.a.b".toList, username := "alice".toList, options := .obj [], maxWorkers := some 3,
      status := .running, schedulerAddress := "tls://dask-abc.default:8786".toList,
      dashboardAddress := "http://dask-abc.default:8787".toList,
      apiAddress := "http://dask-abc.default:8788".toList, startTime := 5, stopTime := none, tlsCert := [],
      tlsKey := [], token := [] } (by decide +kernel) rfl
  have e : (KubeView.run id (fun _ => none)
    [.put { someCR with name := "a.b".toList }, .take "default.a.b".toList]).stop "default.a.b".toList = none := by
    decide +kernel
  rw [e] at h
  cases h

/-- A case that meets the hypotheses: seven workers asked for, three allowed. -/
example : (KubeView.run id (fun _ => none) [.put someCR, .take "default.abc".toList]).heartbeat
      ("default".toList ++ '.' :: "abc".toList) 7 = some (some (.replicas "default".toList "abc".toList 3)) ∧
    (KubeView.run id (fun _ => none) [.put someCR, .take "default.abc".toList]).stop "default.abc".toList =
      some (some (.active "default".toList "abc".toList false)) := by decide +kernel

/-! ### C92: waiting for a cluster -/

private structure Waits (v : KubeView) : Prop where
  below : ∀ k f, lookup v.flags k = some f → f < v.next
  waitBelow : ∀ k f, (k, f) ∈ v.waiting → f < v.next
  inj : ∀ k k' f, lookup v.flags k = some f → lookup v.flags k' = some f → k = k'
  wait : ∀ k f, (k, f) ∈ v.waiting → f ∈ v.raised ∨ lookup v.flags k = some f
  up : ∀ k r, lookup v.clusters k = some r → 2 ≤ rank r.status → ∃ f, lookup v.flags k = some f ∧ f ∈ v.raised
  raisedBelow : ∀ f ∈ v.raised, f < v.next

private theorem flag_spec (v : KubeView) (h : Waits v) (key : Str) :
    lookup (v.flag key).1.flags key = some (v.flag key).2 ∧
    (∀ k, k ≠ key → lookup (v.flag key).1.flags k = lookup v.flags k) ∧
    (∀ f, lookup v.flags key = some f → (v.flag key).2 = f) ∧
    v.next ≤ (v.flag key).1.next ∧ Waits (v.flag key).1 ∧
    ((v.flag key).2 ∈ v.raised → lookup v.flags key = some (v.flag key).2) := by
  unfold KubeView.flag
  cases hl : lookup v.flags key with
  | some f =>
    dsimp only
    exact ⟨hl, fun _ _ => rfl, fun f' h => (by cases h; rfl), Nat.le_refl _, h, fun _ => rfl⟩
  | none =>
    dsimp only
    refine ⟨?_, ?_, ?_, Nat.le_succ _, ⟨?_, ?_, ?_, ?_, ?_, ?_⟩, ?_⟩
    · rw [lookup_set, if_pos rfl]
    · intro k hk; rw [lookup_set, if_neg (fun x => hk x.symm)]
    · intro f hf; cases hf
    · intro k f hf
      replace hf : lookup (Dict.set v.flags key v.next) k = some f := hf
      change f < v.next + 1
      rw [lookup_set] at hf
      by_cases hk : key = k
      · rw [if_pos hk] at hf; cases hf; exact Nat.lt_succ_self _
      · rw [if_neg hk] at hf; exact Nat.lt_succ_of_lt (h.below k f hf)
    · intro k f hf; exact Nat.lt_succ_of_lt (h.waitBelow k f hf)
    · intro k k' f hf hf'
      replace hf : lookup (Dict.set v.flags key v.next) k = some f := hf
      replace hf' : lookup (Dict.set v.flags key v.next) k' = some f := hf'
      rw [lookup_set] at hf hf'
      by_cases hk : key = k
      · rw [if_pos hk] at hf
        cases hf
        by_cases hk' : key = k'
        · rw [← hk, hk']
        · rw [if_neg hk'] at hf'
          exact absurd (h.below k' _ hf') (Nat.lt_irrefl _)
      · rw [if_neg hk] at hf
        by_cases hk' : key = k'
        · rw [if_pos hk'] at hf'
          cases hf'
          exact absurd (h.below k _ hf) (Nat.lt_irrefl _)
        · rw [if_neg hk'] at hf'
          exact h.inj k k' f hf hf'
    · intro k f hf
      change f ∈ v.raised ∨ lookup (Dict.set v.flags key v.next) k = some f
      rcases h.wait k f hf with hx | hx
      · exact Or.inl hx
      · right
        rw [lookup_set, if_neg]
        · exact hx
        · intro hk; rw [← hk, hl] at hx; cases hx
    · intro k r hr h2
      obtain ⟨f, hf, hf'⟩ := h.up k r hr h2
      refine ⟨f, ?_, hf'⟩
      change lookup (Dict.set v.flags key v.next) k = some f
      rw [lookup_set, if_neg]
      · exact hf
      · intro hk; rw [← hk, hl] at hf; cases hf
    · intro f hf; exact Nat.lt_succ_of_lt (h.raisedBelow f hf)
    · intro hf; exact absurd (h.raisedBelow _ hf) (Nat.lt_irrefl _)

private theorem waits_publish (v : KubeView) (h : Waits v) (r : Rec) : Waits (v.publish r) ∧
    (∀ f ∈ v.raised, f ∈ (v.publish r).raised) ∧
    (2 ≤ rank r.status → ∃ f, lookup (v.publish r).flags r.name = some f ∧ f ∈ (v.publish r).raised) ∧
    (∀ f ∈ (v.publish r).raised, f ∈ v.raised ∨ 2 ≤ rank r.status ∧ lookup (v.publish r).flags r.name = some f) := by
  unfold KubeView.publish
  dsimp only
  by_cases hr : 2 ≤ rank r.status
  · rw [if_pos hr]
    -- the flag of the state with the new record
    have hw : ∀ w : KubeView, w = { v with clusters := Dict.set v.clusters r.name r, users := addUser v.users r } →
        Waits (w.raise r.name) ∧ (∀ f ∈ v.raised, f ∈ (w.raise r.name).raised) ∧
        (2 ≤ rank r.status → ∃ f, lookup (w.raise r.name).flags r.name = some f ∧ f ∈ (w.raise r.name).raised) ∧
        (∀ f ∈ (w.raise r.name).raised, f ∈ v.raised ∨ 2 ≤ rank r.status ∧
          lookup (w.raise r.name).flags r.name = some f) := by
      intro w hw
      have hflag : (w.flag r.name).1.flags = (v.flag r.name).1.flags ∧ (w.flag r.name).2 = (v.flag r.name).2 ∧
          (w.flag r.name).1.next = (v.flag r.name).1.next := by
        rw [hw]; unfold KubeView.flag
        dsimp only
        cases lookup v.flags r.name <;> exact ⟨rfl, rfl, rfl⟩
      obtain ⟨q1, q2, q3⟩ := hflag
      obtain ⟨f1, f2, f3, f4, f5, f6⟩ := flag_spec v h r.name
      obtain ⟨a1, a2, a3, a4, a5, a6, a7⟩ := flag_fields w r.name
      have e1 : (w.raise r.name).flags = (v.flag r.name).1.flags := q1
      have e2 : (w.raise r.name).raised = (v.flag r.name).2 :: v.raised := by
        change (w.flag r.name).2 :: (w.flag r.name).1.raised = _
        rw [q2, a7, hw]
      have e3 : (w.raise r.name).next = (v.flag r.name).1.next := q3
      have e4 : (w.raise r.name).waiting = v.waiting := by
        change (w.flag r.name).1.waiting = _
        rw [a6, hw]
      have e5 : (w.raise r.name).clusters = Dict.set v.clusters r.name r := by
        change (w.flag r.name).1.clusters = _
        rw [a1, hw]
      refine ⟨⟨?_, ?_, ?_, ?_, ?_, ?_⟩, ?_, ?_, ?_⟩
      · rw [e1, e3]; exact f5.below
      · rw [e4, e3]; intro k f hf; exact Nat.lt_of_lt_of_le (h.waitBelow k f hf) f4
      · rw [e1]; exact f5.inj
      · rw [e4, e1, e2]
        intro k f hf
        rcases h.wait k f hf with hx | hx
        · exact Or.inl (List.mem_cons_of_mem _ hx)
        · by_cases hk : k = r.name
          · left; rw [hk] at hx; rw [f3 f hx]; exact List.mem_cons_self
          · right; rw [f2 k hk]; exact hx
      · rw [e5, e1, e2]
        intro k r' hr' h2
        by_cases hk : r.name = k
        · rw [← hk]; exact ⟨_, f1, List.mem_cons_self⟩
        · rw [lookup_set, if_neg hk] at hr'
          obtain ⟨f, hf, hf'⟩ := h.up k r' hr' h2
          exact ⟨f, by rw [f2 k (fun x => hk x.symm)]; exact hf, List.mem_cons_of_mem _ hf'⟩
      · rw [e2, e3]
        intro f hf
        rcases List.mem_cons.mp hf with hf | hf
        · rw [hf]; exact f5.below _ _ f1
        · exact Nat.lt_of_lt_of_le (h.raisedBelow f hf) f4
      · rw [e2]; intro f hf; exact List.mem_cons_of_mem _ hf
      · intro _; rw [e1, e2]; exact ⟨_, f1, List.mem_cons_self⟩
      · rw [e1, e2]
        intro f hf
        rcases List.mem_cons.mp hf with hf | hf
        · right; rw [hf]; exact ⟨hr, f1⟩
        · exact Or.inl hf
    exact hw _ rfl
  · rw [if_neg hr]
    refine ⟨⟨h.below, h.waitBelow, h.inj, h.wait, ?_, h.raisedBelow⟩, fun f hf => hf, fun hx => absurd hx hr,
      fun f hf => Or.inl hf⟩
    intro k r' hr' h2
    replace hr' : lookup (Dict.set v.clusters r.name r) k = some r' := hr'
    rw [lookup_set] at hr'
    by_cases hk : r.name = k
    · rw [if_pos hk] at hr'; cases hr'; exact absurd h2 hr
    · rw [if_neg hk] at hr'; exact h.up k r' hr' h2

private theorem waits_remove (v : KubeView) (h : Waits v) (key : Str) : Waits (v.remove key) ∧
    (∀ f ∈ v.raised, f ∈ (v.remove key).raised) ∧
    (∀ f, lookup v.flags key = some f → f ∈ (v.remove key).raised) ∧
    (∀ f ∈ (v.remove key).raised, f ∈ v.raised ∨ lookup v.flags key = some f) := by
  have e2 : (v.remove key).raised = (match lookup v.flags key with
      | none => v.raised
      | some f => f :: v.raised) := rfl
  have hsub : ∀ f ∈ v.raised, f ∈ (v.remove key).raised := by
    intro f hf; rw [e2]; cases lookup v.flags key with
    | none => exact hf
    | some _ => exact List.mem_cons_of_mem _ hf
  have hnew : ∀ f, lookup v.flags key = some f → f ∈ (v.remove key).raised := by
    intro f hf; rw [e2, hf]; exact List.mem_cons_self
  have hback : ∀ f ∈ (v.remove key).raised, f ∈ v.raised ∨ lookup v.flags key = some f := by
    intro f hf
    rw [e2] at hf
    cases hl : lookup v.flags key with
    | none => rw [hl] at hf; exact Or.inl hf
    | some g =>
      rw [hl] at hf
      rcases List.mem_cons.mp hf with hf | hf
      · right; rw [hf]
      · exact Or.inl hf
  refine ⟨⟨?_, h.waitBelow, ?_, ?_, ?_, ?_⟩, hsub, hnew, hback⟩
  · intro k f hf
    replace hf : lookup (dpop v.flags key) k = some f := hf
    rw [lookup_dpop] at hf
    by_cases hk : key = k
    · rw [if_pos hk] at hf; cases hf
    · rw [if_neg hk] at hf; exact h.below k f hf
  · intro k k' f hf hf'
    replace hf : lookup (dpop v.flags key) k = some f := hf
    replace hf' : lookup (dpop v.flags key) k' = some f := hf'
    rw [lookup_dpop] at hf hf'
    by_cases hk : key = k
    · rw [if_pos hk] at hf; cases hf
    · rw [if_neg hk] at hf
      by_cases hk' : key = k'
      · rw [if_pos hk'] at hf'; cases hf'
      · rw [if_neg hk'] at hf'; exact h.inj k k' f hf hf'
  · intro k f hf
    rcases h.wait k f hf with hx | hx
    · exact Or.inl (hsub f hx)
    · by_cases hk : key = k
      · rw [← hk] at hx; exact Or.inl (hnew f hx)
      · right
        change lookup (dpop v.flags key) k = some f
        rw [lookup_dpop, if_neg hk]; exact hx
  · intro k r hr h2
    replace hr : lookup (dpop v.clusters key) k = some r := hr
    rw [lookup_dpop] at hr
    by_cases hk : key = k
    · rw [if_pos hk] at hr; cases hr
    · rw [if_neg hk] at hr
      obtain ⟨f, hf, hf'⟩ := h.up k r hr h2
      refine ⟨f, ?_, hsub f hf'⟩
      change lookup (dpop v.flags key) k = some f
      rw [lookup_dpop, if_neg hk]; exact hf
  · intro f hf
    rcases hback f hf with hx | hx
    · exact h.raisedBelow f hx
    · exact h.below key f hx

private theorem waits_step {upper : Str → Str} {utf8 : List Nat → Option Str} {v : KubeView} (h : Waits v) (op : VOp) :
    Waits (v.step upper utf8 op) := by
  rcases step_cases upper utf8 v op with ⟨o, rfl, e⟩ | ⟨ns, name, rfl, e⟩ | ⟨key, rfl, hc, hp, hs, e⟩ |
    ⟨key, o, r, r0, rfl, hc, hp, hs, hr, hold, e⟩ | ⟨key, o, r, rfl, hc, hp, hs, hr, hcr, e⟩ |
    ⟨secrets, key, o, r, rfl, hc, e⟩ | ⟨secrets, key, o, r, sec, c, rfl, hc, hsec, hread, e⟩ |
    ⟨key, rfl, e⟩ | e <;> rw [e]
  · exact ⟨h.below, h.waitBelow, h.inj, h.wait, h.up, h.raisedBelow⟩
  · exact ⟨h.below, h.waitBelow, h.inj, h.wait, h.up, h.raisedBelow⟩
  · have g := (waits_remove v h key).1
    exact ⟨g.below, g.waitBelow, g.inj, g.wait, g.up, g.raisedBelow⟩
  · have g := (waits_publish v h r).1
    exact ⟨g.below, g.waitBelow, g.inj, g.wait, g.up, g.raisedBelow⟩
  · exact ⟨h.below, h.waitBelow, h.inj, h.wait, h.up, h.raisedBelow⟩
  · exact ⟨h.below, h.waitBelow, h.inj, h.wait, h.up, h.raisedBelow⟩
  · have g := (waits_publish v h { r with tlsCert := c.1, tlsKey := c.2.1, token := c.2.2 }).1
    exact ⟨g.below, g.waitBelow, g.inj, g.wait, g.up, g.raisedBelow⟩
  · obtain ⟨f1, f2, f3, f4, g, f6⟩ := flag_spec v h key
    refine ⟨g.below, ?_, g.inj, ?_, g.up, g.raisedBelow⟩
    · intro k f hf
      rcases List.mem_cons.mp hf with hf | hf
      · cases hf; exact g.below key _ f1
      · exact Nat.lt_of_lt_of_le (h.waitBelow k f hf) f4
    · intro k f hf
      rcases List.mem_cons.mp hf with hf | hf
      · cases hf; exact Or.inr f1
      · rw [← (flag_fields v key).2.2.2.2.2.1] at hf
        exact g.wait k f hf
  · exact h

private theorem waits_run (upper : Str → Str) (utf8 : List Nat → Option Str) (ops : List VOp) :
    Waits (KubeView.run upper utf8 ops) := by
  induction ops using snoc_ind with
  | h0 =>
    refine ⟨?_, ?_, ?_, ?_, ?_, ?_⟩ <;> simp [KubeView.run, KubeView.init, lookup_nil]
  | h1 l a ih => rw [run_snoc]; exact waits_step ih a

/-- A request that waits for a cluster is released: its flag was set. -/
def KubeView.Released (v : KubeView) (w : Str × Nat) : Prop := w.2 ∈ v.raised

/-- C92: whenever the gateway knows that a cluster runs or ended, no request waits for it. -/
theorem C92_released (upper : Str → Str) (utf8 : List Nat → Option Str) (ops : List VOp) (key : Str) (f : Nat) (r : Rec)
    (hw : (key, f) ∈ (KubeView.run upper utf8 ops).waiting) (hr : (KubeView.run upper utf8 ops).get key = some r)
    (hs : r.status ≠ .pending) : (KubeView.run upper utf8 ops).Released (key, f) := by
  have g := waits_run upper utf8 ops
  rcases g.wait key f hw with h | h
  · exact h
  · obtain ⟨f', h1, h2⟩ := g.up key r hr (by cases hx : r.status <;> first | exact absurd hx hs | (simp [rank]))
    rw [h] at h1
    cases h1
    exact h2

/-- C92: when the gateway learns that a cluster is gone, all requests that wait for it are released. -/
theorem C92_gone (upper : Str → Str) (utf8 : List Nat → Option Str) (ops : List VOp) (key : Str) (f : Nat)
    (hc : (KubeView.run upper utf8 ops).cur = none) (hp : key ∈ (KubeView.run upper utf8 ops).pending)
    (hg : objectAfter ops key = none) (hw : (key, f) ∈ (KubeView.run upper utf8 ops).waiting) :
    (KubeView.run upper utf8 (ops ++ [.take key])).Released (key, f) := by
  have g := waits_run upper utf8 ops
  have hst := (good_run upper utf8 ops).store key
  rw [run_snoc]
  revert hc hp hw g hst
  generalize KubeView.run upper utf8 ops = v
  intro hc hp hw g hst
  rw [hg] at hst
  have e : v.step upper utf8 (.take key) = v.conclude key (v.sync upper key) := by
    change (if _ then _ else _) = _
    rw [if_pos ⟨hc, hp⟩]
  rw [e]
  unfold KubeView.sync
  rw [hst]
  dsimp only
  change f ∈ (v.remove key).raised
  rcases g.wait key f hw with h | h
  · exact (waits_remove v g key).2.1 f h
  · exact (waits_remove v g key).2.2.1 f h

/-- C92: a request is released only when the gateway learns that its cluster runs, ended or is gone. -/
theorem C92_not_early (upper : Str → Str) (utf8 : List Nat → Option Str) (ops : List VOp) (op : VOp) (key : Str)
    (f : Nat) (hw : (key, f) ∈ (KubeView.run upper utf8 ops).waiting)
    (h0 : ¬ (KubeView.run upper utf8 ops).Released (key, f))
    (h1 : (KubeView.run upper utf8 (ops ++ [op])).Released (key, f)) :
    ∀ r, (KubeView.run upper utf8 (ops ++ [op])).get key = some r → r.status ≠ .pending := by
  have g := waits_run upper utf8 ops
  rw [run_snoc] at h1 ⊢
  unfold KubeView.Released at h0 h1
  unfold KubeView.get
  revert hw h0 h1 g
  generalize KubeView.run upper utf8 ops = v
  intro hw h0 h1 g
  dsimp only at h0 h1
  have hf := (g.wait key f hw).resolve_left h0
  have pub : ∀ r, f ∈ (v.publish r).raised → ∀ r', lookup (v.publish r).clusters key = some r' → r'.status ≠ .pending := by
    intro r h r' hr'
    obtain ⟨gw, q1, q2, q3⟩ := waits_publish v g r
    rcases q3 f h with hx | ⟨hx, hy⟩
    · exact absurd hx h0
    · have hk : r.name = key := by
        rcases gw.wait key f (by rw [(publish_fields v r).2.2.2.2.2]; exact hw) with hz | hz
        · -- the flag of `key` is unchanged or its own
          by_cases hk : r.name = key
          · exact hk
          · exfalso
            have : lookup (v.publish r).flags key = some f := by
              unfold KubeView.publish
              dsimp only
              rw [if_pos hx]
              unfold KubeView.raise KubeView.flag
              dsimp only
              cases lookup v.flags r.name with
              | some _ => exact hf
              | none =>
                dsimp only
                rw [lookup_set, if_neg hk]; exact hf
            exact hk (gw.inj _ _ f hy this)
        · exact gw.inj _ _ f hy hz
      rw [(publish_fields v r).1, lookup_set, if_pos hk] at hr'
      cases hr'
      intro hz; rw [hz] at hx; exact absurd hx (by decide)
  rcases step_cases upper utf8 v op with ⟨o, rfl, e⟩ | ⟨ns, name, rfl, e⟩ | ⟨key', rfl, hc, hp, hs, e⟩ |
    ⟨key', o, r, r0, rfl, hc, hp, hs, hr, hold, e⟩ | ⟨key', o, r, rfl, hc, hp, hs, hr, hcr, e⟩ |
    ⟨secrets, key', o, r, rfl, hc, e⟩ | ⟨secrets, key', o, r, sec, c, rfl, hc, hsec, hread, e⟩ |
    ⟨key', rfl, e⟩ | e <;> rw [e] at h1 ⊢
  · exact absurd h1 h0
  · exact absurd h1 h0
  · intro r hr
    replace hr : lookup (dpop v.clusters key') key = some r := hr
    rcases (waits_remove v g key').2.2.2 f h1 with hx | hx
    · exact absurd hx h0
    · rw [lookup_dpop, if_pos (g.inj _ _ f hx hf)] at hr; cases hr
  · exact pub r h1
  · exact absurd h1 h0
  · exact absurd h1 h0
  · exact pub _ h1
  · replace h1 : f ∈ (v.flag key').1.raised := h1
    rw [(flag_fields v key').2.2.2.2.2.2] at h1
    exact absurd h1 h0
  · exact absurd h1 h0

/-- C92: a request that need not wait asks for a cluster that the gateway knows. -/
theorem C92_immediate (upper : Str → Str) (utf8 : List Nat → Option Str) (ops : List VOp) (key : Str)
    (h : ∀ f, (KubeView.run upper utf8 (ops ++ [.wait key])).waiting.head? = some (key, f) →
      (KubeView.run upper utf8 (ops ++ [.wait key])).Released (key, f)) :
    (KubeView.run upper utf8 ops).get key ≠ none := by
  have own : ∀ ops : List VOp, ∀ k f, lookup (KubeView.run upper utf8 ops).flags k = some f →
      f ∈ (KubeView.run upper utf8 ops).raised → lookup (KubeView.run upper utf8 ops).clusters k ≠ none := by
    intro ops
    induction ops using snoc_ind with
    | h0 => intro k f hf; simp [KubeView.run, KubeView.init, lookup_nil] at hf
    | h1 l a ih =>
      have g := waits_run upper utf8 l
      have gn := waits_run upper utf8 (l ++ [a])
      rw [run_snoc] at gn ⊢
      revert ih g gn
      generalize KubeView.run upper utf8 l = v
      intro ih g gn
      have pub : ∀ r, ∀ k f, lookup (v.publish r).flags k = some f → f ∈ (v.publish r).raised →
          lookup (v.publish r).clusters k ≠ none := by
        intro r k f h1 h2
        obtain ⟨gw, q1, q2, q3⟩ := waits_publish v g r
        rw [(publish_fields v r).1, lookup_set]
        by_cases hk : r.name = k
        · rw [if_pos hk]; simp
        · rw [if_neg hk]
          have hfl : lookup v.flags k = some f := by
            revert h1
            unfold KubeView.publish
            dsimp only
            split
            · unfold KubeView.raise KubeView.flag
              dsimp only
              cases lookup v.flags r.name with
              | some _ => exact id
              | none => dsimp only; rw [lookup_set, if_neg hk]; exact id
            · exact id
          rcases q3 f h2 with hx | ⟨hx, hy⟩
          · exact ih k f hfl hx
          · exact absurd (gw.inj _ _ f hy h1) hk
      rcases step_cases upper utf8 v a with ⟨o, rfl, e⟩ | ⟨ns, name, rfl, e⟩ | ⟨key', rfl, hc, hp, hs, e⟩ |
        ⟨key', o, r, r0, rfl, hc, hp, hs, hr, hold, e⟩ | ⟨key', o, r, rfl, hc, hp, hs, hr, hcr, e⟩ |
        ⟨secrets, key', o, r, rfl, hc, e⟩ | ⟨secrets, key', o, r, sec, c, rfl, hc, hsec, hread, e⟩ |
        ⟨key', rfl, e⟩ | e <;> rw [e]
      · exact ih
      · exact ih
      · intro k f h1 h2
        replace h1 : lookup (dpop v.flags key') k = some f := h1
        change lookup (dpop v.clusters key') k ≠ none
        rw [lookup_dpop] at h1 ⊢
        by_cases hk : key' = k
        · rw [if_pos hk] at h1; cases h1
        · rw [if_neg hk] at h1 ⊢
          rcases (waits_remove v g key').2.2.2 f h2 with hx | hx
          · exact ih k f h1 hx
          · exact absurd (g.inj _ _ f hx h1) hk
      · exact pub r
      · exact ih
      · exact ih
      · exact pub _
      · intro k f h1 h2
        replace h1 : lookup (v.flag key').1.flags k = some f := h1
        replace h2 : f ∈ (v.flag key').1.raised := h2
        rw [(flag_fields v key').2.2.2.2.2.2] at h2
        change lookup (v.flag key').1.clusters k ≠ none
        rw [(flag_fields v key').1]
        obtain ⟨f1, f2, f3, f4, _, f6⟩ := flag_spec v g key'
        by_cases hk : k = key'
        · rw [hk] at h1
          rw [f1] at h1
          cases h1
          rw [hk]
          exact ih key' _ (f6 h2) h2
        · rw [f2 k hk] at h1; exact ih k f h1 h2
      · exact ih
  have g := waits_run upper utf8 ops
  rw [run_snoc] at h
  have h2 := h _ rfl
  have h3 : ((KubeView.run upper utf8 ops).flag key).2 ∈ ((KubeView.run upper utf8 ops).flag key).1.raised := h2
  rw [(flag_fields _ key).2.2.2.2.2.2] at h3
  exact own ops key _ ((flag_spec _ g key).2.2.2.2.2 h3) h3

/-- C92: requests that wait for names that do not exist leave an entry each in the gateway's memory. -/
theorem C92_leak (upper : Str → Str) (utf8 : List Nat → Option Str) (names : List Str) (hn : names.Nodup) :
    (KubeView.run upper utf8 (names.map .wait)).flags.length = names.length ∧
    ∀ key, objectAfter (names.map .wait) key = none := by
  have aux : ∀ names : List Str, names.Nodup →
      Dict.keys (KubeView.run upper utf8 (names.map .wait)).flags = names := by
    intro names
    induction names using snoc_ind with
    | h0 => intro _; rfl
    | h1 l a ih =>
      intro hn
      have hl : l.Nodup := (List.nodup_append.mp hn).1
      have ha : a ∉ l := fun h => (List.nodup_append.mp hn).2.2 a h a (by simp) rfl
      rw [List.map_append, List.map_cons, List.map_nil, run_snoc]
      have ih := ih hl
      revert ih
      generalize KubeView.run upper utf8 (l.map .wait) = v
      intro ih
      have hnone : lookup v.flags a = none := by rw [lookup_eq_none, ih]; exact ha
      change Dict.keys (v.flag a).1.flags = l ++ [a]
      unfold KubeView.flag
      rw [hnone]
      change Dict.keys (Dict.set v.flags a v.next) = _
      rw [set_new (by rw [ih]; exact ha)]
      unfold Dict.keys at ih ⊢
      rw [List.map_append, ih]
      rfl
  constructor
  · have := congrArg List.length (aux names hn)
    simpa [Dict.keys] using this
  · intro key
    induction names using snoc_ind with
    | h0 => rfl
    | h1 l a ih =>
      rw [List.map_append, List.map_cons, List.map_nil, objectAfter_snoc]
      exact ih ((List.nodup_append.mp hn).1)

/-- A case that meets the hypotheses: a request waits while the cluster starts, and is released when it
runs. -/
example :
    let ops := [VOp.put { someCR with phase := none }, .take "default.abc".toList, .wait "default.abc".toList,
      .put someCR]
    let v := KubeView.run (fun s => s.map Char.toUpper) (fun _ => none) ops
    let v' := KubeView.run (fun s => s.map Char.toUpper) (fun _ => none) (ops ++ [.take "default.abc".toList])
    v.waiting = [("default.abc".toList, 0)] ∧ v.raised = [] ∧ v'.raised = [0] ∧
      (v'.get "default.abc".toList).map (·.status) = some .running := by decide +kernel

end Verif.Kube

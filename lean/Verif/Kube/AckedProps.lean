import Verif.Kube.Acked
import Verif.Kube.ViewProps
/-
C174: a request to stop a cluster that was answered with success takes effect.
-/
set_option linter.unusedSimpArgs false
set_option linter.unusedVariables false
namespace Verif.Kube

open Verif.Api (Status)

/-! ### Specification -/

/-- The object of a cluster, if there is one, will be stopped by the controller or has ended. -/
def Stops (upper : Str → Str) (s : Site) (key : Str) : Prop :=
  ∀ o a, lookup s.objs key = some (o, a) → a = false ∨
    ∃ st : Status, Status.fromName upper (o.phase.getD "Pending".toList) = some st ∧ (st = .stopped ∨ st = .failed)

/-! ### A view, generically -/

structure VI (P : Str → CR → Prop) (Q : Str → Rec → Prop) (v : KubeView) : Prop where
  nodup : (Dict.keys v.clusters).Nodup
  store : ∀ k o, v.store k = some o → P k o
  cur : ∀ k o r, v.cur = some (k, o, r) → Q k r
  clusters : ∀ k r, lookup v.clusters k = some r → Q k r

def Creds (Q : Str → Rec → Prop) : Prop :=
  ∀ k r (c p : List Nat) (t : Str), Q k r → Q k { r with tlsCert := c, tlsKey := p, token := t }

theorem vi_step {upper : Str → Str} {utf8 : List Nat → Option Str} {P : Str → CR → Prop} {Q : Str → Rec → Prop}
    {v : KubeView} (h : VI P Q v) (hn : ∀ k r, Q k r → r.name = k) (hc : Creds Q)
    (hpq : ∀ k o r, P k o → record upper k o = some r → Q k r) (op : VOp)
    (hop : ∀ o, op = .put o → P (fullName o.ns o.name) o) : VI P Q (v.step upper utf8 op) := by
  have pub : ∀ (k : Str) (r : Rec), Q k r → (Dict.keys (v.publish r).clusters).Nodup ∧
      ∀ k' r', lookup (v.publish r).clusters k' = some r' → Q k' r' := by
    intro k r hq
    rw [(publish_fields v r).1]
    refine ⟨nodup_set h.nodup, fun k' r' e => ?_⟩
    rw [lookup_set] at e
    split at e
    · rename_i hk
      cases e
      rw [← hk, hn k r hq]
      exact hq
    · exact h.clusters k' r' e
  rcases step_cases upper utf8 v op with ⟨o, rfl, e⟩ | ⟨ns, name, rfl, e⟩ | ⟨key, rfl, hc', hp, hs, e⟩ |
    ⟨key, o, r, r0, rfl, hc', hp, hs, hr, hold, e⟩ | ⟨key, o, r, rfl, hc', hp, hs, hr, hcr, e⟩ |
    ⟨secrets, key, o, r, rfl, hc', e⟩ | ⟨secrets, key, o, r, sec, c, rfl, hc', hsec, hread, e⟩ |
    ⟨key, rfl, e⟩ | e
  · rw [e]
    refine ⟨h.nodup, fun k o' hk => ?_, h.cur, h.clusters⟩
    dsimp only at hk
    split at hk
    · rename_i hkk
      cases hk
      rw [hkk]
      exact hop o rfl
    · exact h.store k o' hk
  · rw [e]
    refine ⟨h.nodup, fun k o' hk => ?_, h.cur, h.clusters⟩
    dsimp only at hk
    split at hk
    · cases hk
    · exact h.store k o' hk
  · rw [e]
    refine ⟨nodup_dpop _ _ h.nodup, h.store, h.cur, fun k r hk => ?_⟩
    have hk' : lookup (dpop v.clusters key) k = some r := hk
    rw [lookup_dpop] at hk'
    split at hk'
    · cases hk'
    · exact h.clusters k r hk'
  · have hq : Q key r := by
      have h0 := hpq key o r0 (h.store key o hs) hr
      rcases hold with ⟨old, _, _, rfl⟩ | rfl
      · exact hc key r0 _ _ _ h0
      · exact h0
    rw [e]
    obtain ⟨p1, p2⟩ := pub key r hq
    have f := publish_fields v r
    refine ⟨p1, ?_, ?_, p2⟩
    · intro k o' hk
      have hk' : (v.publish r).store k = some o' := hk
      rw [f.2.2.1] at hk'
      exact h.store k o' hk'
    · intro k o' r' hk
      have hk' : (v.publish r).cur = some (k, o', r') := hk
      rw [f.2.2.2.2.1] at hk'
      exact h.cur k o' r' hk'
  · rw [e]
    refine ⟨h.nodup, h.store, fun k o' r' hk => ?_, h.clusters⟩
    have hk' : some (key, o, r) = some (k, o', r') := hk
    cases hk'
    exact hpq key o r (h.store key o hs) hr
  · rw [e]
    exact ⟨h.nodup, h.store, fun k o' r' hk => (by cases hk), h.clusters⟩
  · rw [e]
    have hq := hc key r c.1 c.2.1 c.2.2 (h.cur key o r hc')
    obtain ⟨p1, p2⟩ := pub key _ hq
    have f := publish_fields v { r with tlsCert := c.1, tlsKey := c.2.1, token := c.2.2 }
    refine ⟨p1, ?_, fun k o' r' hk => (by cases hk), p2⟩
    intro k o' hk
    have hk' : (v.publish { r with tlsCert := c.1, tlsKey := c.2.1, token := c.2.2 }).store k = some o' := hk
    rw [f.2.2.1] at hk'
    exact h.store k o' hk'
  · rw [e]
    have f := flag_fields v key
    refine ⟨?_, ?_, ?_, ?_⟩
    · show (Dict.keys (v.flag key).1.clusters).Nodup
      rw [f.1]; exact h.nodup
    · intro k o' hk
      have hk' : (v.flag key).1.store k = some o' := hk
      rw [f.2.2.1] at hk'
      exact h.store k o' hk'
    · intro k o' r' hk
      have hk' : (v.flag key).1.cur = some (k, o', r') := hk
      rw [f.2.2.2.2.1] at hk'
      exact h.cur k o' r' hk'
    · intro k r' hk
      have hk' : lookup (v.flag key).1.clusters k = some r' := hk
      rw [f.1] at hk'
      exact h.clusters k r' hk'
  · rw [e]; exact h

theorem VI.mono {P P' : Str → CR → Prop} {Q Q' : Str → Rec → Prop} {v : KubeView} (h : VI P Q v)
    (hp : ∀ k o, P k o → P' k o) (hq : ∀ k r, Q k r → Q' k r) : VI P' Q' v :=
  ⟨h.nodup, fun k o e => hp k o (h.store k o e), fun k o r e => hq k r (h.cur k o r e),
    fun k r e => hq k r (h.clusters k r e)⟩

theorem vi_init (P : Str → CR → Prop) (Q : Str → Rec → Prop) : VI P Q KubeView.init :=
  ⟨by simp [KubeView.init, Dict.keys], fun k o e => (by simp [KubeView.init] at e),
    fun k o r e => (by simp [KubeView.init] at e), fun k r e => (by simp [KubeView.init, lookup_nil] at e)⟩

/-! ### The site -/

/-- The object of a name is gone or has ended. -/
def NotLive (upper : Str → Str) (s : Site) (k : Str) : Prop :=
  ∀ o a, lookup s.objs k = some (o, a) → endedCR upper o = true

/-- What holds of every version of an object that is anywhere. -/
def PS (upper : Str → Str) (s : Site) (k : Str) (o : CR) : Prop :=
  fullName o.ns o.name = k ∧ lookup s.names k = some (o.username.getD []) ∧ (endedCR upper o = true → NotLive upper s k)

/-- What holds of every record of a view. -/
def QS (upper : Str → Str) (s : Site) (k : Str) (r : Rec) : Prop :=
  r.name = k ∧ lookup s.names k = some r.username ∧ (4 ≤ rank r.status → NotLive upper s k)

structure SI (upper : Str → Str) (s : Site) : Prop where
  nodup : (Dict.keys s.objs).Nodup
  names : ∀ k u, lookup s.names k = some u → ∃ ns name, k = ns ++ '.' :: name ∧ '.' ∉ ns ∧ '.' ∉ name
  objs : ∀ k o a, lookup s.objs k = some (o, a) → PS upper s k o
  todo : ∀ i o, VOp.put o ∈ (s.reps i).todo → PS upper s (fullName o.ns o.name) o
  views : ∀ i, VI (PS upper s) (QS upper s) (s.reps i).view

theorem ps_qs {upper : Str → Str} {s : Site} {k : Str} {o : CR} {r : Rec} (h : PS upper s k o)
    (hr : record upper k o = some r) : QS upper s k r := by
  unfold record at hr
  split at hr
  · rename_i st start stop h1 h2 h3
    cases hr
    refine ⟨rfl, h.2.1, fun h4 => h.2.2 ?_⟩
    unfold endedCR
    rw [h1]
    simpa using h4
  · cases hr

theorem qs_name {upper : Str → Str} {s : Site} : ∀ k r, QS upper s k r → r.name = k := fun _ _ h => h.1
theorem qs_creds {upper : Str → Str} {s : Site} : Creds (QS upper s) := fun k r c p t h => h

/-- Later sites: names stay, and what has ended stays so. -/
def Later (upper : Str → Str) (s s' : Site) : Prop :=
  (∀ k u, lookup s.names k = some u → lookup s'.names k = some u) ∧
  ∀ k, (lookup s.names k).isSome → NotLive upper s k → NotLive upper s' k

theorem PS.later {upper : Str → Str} {s s' : Site} (h : Later upper s s') {k : Str} {o : CR} (p : PS upper s k o) :
    PS upper s' k o :=
  ⟨p.1, h.1 _ _ p.2.1, fun e => h.2 k (by rw [p.2.1]; rfl) (p.2.2 e)⟩

theorem QS.later {upper : Str → Str} {s s' : Site} (h : Later upper s s') {k : Str} {r : Rec} (p : QS upper s k r) :
    QS upper s' k r :=
  ⟨p.1, h.1 _ _ p.2.1, fun e => h.2 k (by rw [p.2.1]; rfl) (p.2.2 e)⟩

/-- The objects change, and all informers will be told. -/
theorem si_tell {upper : Str → Str} {s s' : Site} (h : SI upper s) (hr : s'.reps = s.reps) (hl : Later upper s s')
    (hnd : (Dict.keys s'.objs).Nodup)
    (hnames : ∀ k u, lookup s'.names k = some u → ∃ ns name, k = ns ++ '.' :: name ∧ '.' ∉ ns ∧ '.' ∉ name)
    (hobjs : ∀ k o a, lookup s'.objs k = some (o, a) → PS upper s' k o) (op : VOp)
    (hop : ∀ o, op = .put o → PS upper s' (fullName o.ns o.name) o) : SI upper (s'.tell op) := by
  refine ⟨hnd, hnames, hobjs, ?_, ?_⟩
  · intro i o ho
    have ho' : VOp.put o ∈ (s'.reps i).todo ++ [op] := ho
    rw [hr] at ho'
    rcases List.mem_append.1 ho' with ho' | ho'
    · exact (h.todo i o ho').later hl
    · exact hop o (List.mem_singleton.1 ho').symm
  · intro i
    show VI _ _ (s'.reps i).view
    rw [hr]
    exact (h.views i).mono (fun k o p => p.later hl) (fun k r p => p.later hl)

theorem si_setRep {upper : Str → Str} {s : Site} (h : SI upper s) (i : Nat) (r : Replica)
    (hv : VI (PS upper s) (QS upper s) r.view) (ht : ∀ o, VOp.put o ∈ r.todo → PS upper s (fullName o.ns o.name) o) :
    SI upper (s.setRep i r) := by
  refine ⟨h.nodup, h.names, h.objs, fun j o ho => ?_, fun j => ?_⟩
  · have ho' : VOp.put o ∈ (if j = i then r else s.reps j).todo := ho
    split at ho'
    · exact ht o ho'
    · exact h.todo j o ho'
  · show VI _ _ (if j = i then r else s.reps j).view
    split
    · exact hv
    · exact h.views j

theorem si_view {upper : Str → Str} {utf8 : List Nat → Option Str} {s : Site} (h : SI upper s) (i : Nat) (op : VOp)
    (hop : ∀ o, op ≠ .put o) : SI upper (s.viewStep upper utf8 i op) :=
  si_setRep h i _ (vi_step (h.views i) qs_name qs_creds (fun k o r => ps_qs) op (fun o e => absurd e (hop o)))
    (h.todo i)

theorem si_listed {upper : Str → Str} {utf8 : List Nat → Option Str} {s : Site} (l : List (Str × (CR × Bool)))
    (hl : ∀ e ∈ l, PS upper s (fullName e.2.1.ns e.2.1.name) e.2.1) : ∀ v, VI (PS upper s) (QS upper s) v →
    VI (PS upper s) (QS upper s) ((l.map (fun e => VOp.put e.2.1)).foldl (KubeView.step upper utf8) v) := by
  induction l with
  | nil => exact fun v h => h
  | cons e l ih =>
    intro v h
    refine ih (fun x hx => hl x (List.mem_cons_of_mem _ hx)) _
      (vi_step h qs_name qs_creds (fun k o r => ps_qs) _ (fun o eo => ?_))
    cases eo
    exact hl e List.mem_cons_self

theorem si_add {upper : Str → Str} {s : Site} (hup : Status.fromName upper "Pending".toList = some .pending)
    (h : SI upper s) (ns : Str) (o : NewCluster) (now : Int) :
    SI upper (s.add ns o (fullName ns o.name) o.username now) := by
  unfold Site.add
  split
  · exact h
  · rename_i hg
    simp only [not_or, Option.not_isSome_iff_eq_none] at hg
    obtain ⟨g1, g2, g3⟩ := hg
    have hl : Later upper s (s.place (fullName ns o.name) (o.stored ns now) o.username) := by
      refine ⟨fun k u e => ?_, fun k e hk => ?_⟩
      · simp only [Site.place]
        rw [lookup_set, if_neg (fun hh => (by rw [hh, e] at g3; cases g3))]
        exact e
      · intro o' a ho
        simp only [Site.place] at ho
        rw [lookup_set, if_neg (fun hh => (by rw [hh] at g3; rw [g3] at e; cases e))] at ho
        exact hk o' a ho
    have hnew : PS upper (s.place (fullName ns o.name) (o.stored ns now) o.username) (fullName ns o.name)
        (o.stored ns now) := by
      refine ⟨rfl, ?_, fun e => ?_⟩
      · simp only [Site.place]
        rw [lookup_set, if_pos rfl]
        rfl
      · exfalso
        unfold endedCR at e
        rw [show (o.stored ns now).phase.getD "Pending".toList = "Pending".toList from rfl, hup] at e
        exact absurd e (by decide)
    refine si_tell (s' := s.place (fullName ns o.name) (o.stored ns now) o.username) h rfl hl (nodup_set h.nodup) ?_ ?_ _
      (fun o' e => (by cases e; exact hnew))
    · intro k u e
      simp only [Site.place] at e
      rw [lookup_set] at e
      split at e
      · rename_i hk
        exact ⟨ns, o.name, hk.symm, g1, g2⟩
      · exact h.names k u e
    · intro k o' a e
      simp only [Site.place] at e
      rw [lookup_set] at e
      split at e
      · rename_i hk
        cases e
        rw [← hk]
        exact hnew
      · exact (h.objs k o' a e).later hl

theorem si_step {upper : Str → Str} {utf8 : List Nat → Option Str} {s : Site}
    (hup : Status.fromName upper "Pending".toList = some .pending) (h : SI upper s) (o : SiteOp) :
    SI upper (s.step upper utf8 o) := by
  cases o with
  | create c hex ns username options mx now => exact si_add hup h ns (makeCluster c hex username options mx) now
  | status key n =>
    simp only [Site.step]
    split
    · exact h
    · rename_i o a ho
      split
      · exact h
      · rename_i hne
        have hl : Later upper s { s with objs := Dict.set s.objs key (o.withStatus n, a) } := by
          refine ⟨fun k u e => e, fun k e hk => ?_⟩
          intro o' a' ho'
          dsimp only at ho'
          rw [lookup_set] at ho'
          split at ho'
          · rename_i hkk
            subst hkk
            exact absurd (hk o a ho) hne
          · exact hk o' a' ho'
        have p0 := h.objs key o a ho
        have hnew : PS upper { s with objs := Dict.set s.objs key (o.withStatus n, a) } key (o.withStatus n) := by
          refine ⟨p0.1, p0.2.1, fun e => ?_⟩
          intro o' a' ho'
          dsimp only at ho'
          rw [lookup_set, if_pos rfl] at ho'
          cases ho'
          exact e
        refine si_tell (s' := { s with objs := Dict.set s.objs key (o.withStatus n, a) }) h rfl hl (nodup_set h.nodup) h.names ?_ _ (fun o' e => ?_)
        · intro k o' a' e
          dsimp only at e
          rw [lookup_set] at e
          split at e
          · rename_i hk
            cases e
            rw [← hk]
            exact hnew
          · exact (h.objs k o' a' e).later hl
        · cases e
          have : fullName (o.withStatus n).ns (o.withStatus n).name = key := p0.1
          rw [this]
          exact hnew
  | remove ns name =>
    simp only [Site.step]
    have hl : Later upper s { s with objs := dpop s.objs (fullName ns name) } := by
      refine ⟨fun k u e => e, fun k e hk => ?_⟩
      intro o' a' ho'
      dsimp only at ho'
      rw [lookup_dpop] at ho'
      split at ho'
      · cases ho'
      · exact hk o' a' ho'
    refine si_tell (s' := { s with objs := dpop s.objs (fullName ns name) }) h rfl hl (nodup_dpop _ _ h.nodup) h.names ?_ _ (fun o' e => (by cases e))
    intro k o' a' e
    dsimp only at e
    rw [lookup_dpop] at e
    split at e
    · cases e
    · exact (h.objs k o' a' e).later hl
  | deliver i =>
    simp only [Site.step]
    split
    · exact h
    · rename_i op l hl
      refine si_setRep h i _ (vi_step (h.views i) qs_name qs_creds (fun k o r => ps_qs) op (fun o e => ?_)) (fun o ho => ?_)
      · subst e
        exact h.todo i o (by rw [hl]; exact List.mem_cons_self)
      · exact h.todo i o (by rw [hl]; exact List.mem_cons_of_mem _ ho)
  | take i key => exact si_view h i _ (fun o e => (by cases e))
  | answer i secrets => exact si_view h i _ (fun o e => (by cases e))
  | wait i key => exact si_view h i _ (fun o e => (by cases e))
  | restart i =>
    refine si_setRep h i _ (si_listed s.objs (fun e he => ?_) _ (vi_init _ _)) (fun o ho => (by cases ho))
    have p := h.objs e.1 e.2.1 e.2.2 (lookup_of_mem h.nodup he)
    rw [p.1]
    exact p

theorem si_patch {upper : Str → Str} {s s' : Site} (h : SI upper s) {p : Patch} (hp : s.patch p = some s') :
    SI upper s' := by
  cases p with
  | replicas ns name v => cases hp; exact h
  | active ns name v =>
    simp only [Site.patch] at hp
    split at hp
    · cases hp
    · rename_i o a ho
      cases hp
      have hl : Later upper s { s with objs := Dict.set s.objs (fullName ns name) (o, v) } := by
        refine ⟨fun k u e => e, fun k e hk => ?_⟩
        intro o' a' ho'
        dsimp only at ho'
        rw [lookup_set] at ho'
        split at ho'
        · rename_i hkk
          subst hkk
          cases ho'
          exact hk o a ho
        · exact hk o' a' ho'
      have p0 := h.objs _ o a ho
      refine si_tell (s' := { s with objs := Dict.set s.objs (fullName ns name) (o, v) }) h rfl hl (nodup_set h.nodup) h.names ?_ _ (fun o' e => ?_)
      · intro k o' a' e
        dsimp only at e
        rw [lookup_set] at e
        split at e
        · rename_i hk
          cases e
          rw [← hk]
          exact p0.later hl
        · exact (h.objs k o' a' e).later hl
      · cases e
        rw [p0.1]
        exact p0.later hl

theorem si_stop {upper : Str → Str} {s : Site} (env : Api.Env) (h : SI upper s) (i : Nat) (u : Auth.User) (key : Str) :
    SI upper (s.stop env i u key).1 := by
  unfold Site.stop
  dsimp only
  split
  · exact h
  · split
    · exact h
    · exact h
    · rename_i p _
      cases hp : s.patch p with
      | none => exact h
      | some s' => exact si_patch h hp

theorem si_run (upper : Str → Str) (utf8 : List Nat → Option Str) (env : Api.Env)
    (hup : Status.fromName upper "Pending".toList = some .pending) (evs : List SiteEv) :
    SI upper (Site.run upper utf8 env evs) := by
  have : ∀ (evs : List SiteEv) s, SI upper s → SI upper (evs.foldl (Site.ev upper utf8 env) s) := by
    intro evs
    induction evs with
    | nil => exact fun s h => h
    | cons e evs ih =>
      intro s h
      refine ih _ ?_
      cases e with
      | op o => exact si_step hup h o
      | stop i u key => exact si_stop env h i u key
  refine this evs _ ⟨by simp [Site.init, Dict.keys], fun k u e => (by simp [Site.init, lookup_nil] at e),
    fun k o a e => (by simp [Site.init, lookup_nil] at e), fun i o e => (by simp [Site.init] at e),
    fun i => vi_init _ _⟩

/-! ### C174 -/

theorem rank_ended {st : Status} (h : 4 ≤ rank st) : st = .stopped ∨ st = .failed := by
  cases st <;> simp [rank] at h ⊢

theorem notLive_stops {upper : Str → Str} {s : Site} {key : Str} (h : NotLive upper s key) : Stops upper s key := by
  intro o a e
  have he := h o a e
  unfold endedCR at he
  split at he
  · rename_i st hst
    exact Or.inr ⟨st, hst, rank_ended (by simpa using he)⟩
  · cases he

/-- C174 on Kubernetes, the part that holds. If a user asks to stop a cluster of theirs that the replica they reach
already knows, and the answer is success, the cluster is stopped by the controller or has ended; any other answer (500)
means that its object is gone. Missing: clusters that the replica does not know yet, see `C174_violated`. -/
theorem C174_kube_partial (upper : Str → Str) (utf8 : List Nat → Option Str) (env : Api.Env)
    (hup : Status.fromName upper "Pending".toList = some .pending) (evs : List SiteEv) (key : Str) (u : Auth.User) (i : Nat)
    (hname : lookup (Site.run upper utf8 env evs).names key = some u.name)
    (hknown : ((Site.run upper utf8 env evs).reps i).view.get key ≠ none) :
    (((Site.run upper utf8 env evs).stop env i u key).2 = 204 ∧
      Stops upper ((Site.run upper utf8 env evs).stop env i u key).1 key) ∨
    (((Site.run upper utf8 env evs).stop env i u key).2 = 500 ∧ lookup (Site.run upper utf8 env evs).objs key = none) := by
  have h := si_run upper utf8 env hup evs
  revert hname hknown h
  generalize Site.run upper utf8 env evs = s
  intro hname hknown h
  have hv := h.views i
  cases hr : (s.reps i).view.get key with
  | none => exact absurd hr hknown
  | some r =>
    obtain ⟨q1, q2, q3⟩ := hv.clusters key r hr
    have hu : u.name = r.username := by
      rw [hname] at q2
      exact Option.some.inj q2
    have hf : Api.find ((s.reps i).view.clusters.map (fun e => e.2.toApi)) key = some r.toApi := by
      rw [find_known _ (fun k r e => (hv.clusters k r e).1) hv.nodup]
      have : lookup (s.reps i).view.clusters key = some r := hr
      rw [this]; rfl
    have hresp : Api.handle env ((s.reps i).view.clusters.map (fun e => e.2.toApi)) { route := .delete key, cached := some u } =
        { code := 204, body := .empty, effects := [.stop key false] } := by
      have hp : Api.hasPermissions u r.toApi = true := by simp [Api.hasPermissions, hu, Rec.toApi]
      simp only [Api.handle, Api.tokenOk, Api.withUser, Auth.identify, Api.deleteHandler, hf, hp]
      rfl
    obtain ⟨ns, name, hk, d1, d2⟩ := h.names key _ hname
    unfold Site.stop
    dsimp only
    rw [hresp]
    dsimp only
    rw [if_neg (by simp)]
    unfold KubeView.stop
    rw [hr]
    dsimp only
    by_cases h4 : 4 ≤ rank r.status
    · rw [if_pos h4]
      exact Or.inl ⟨rfl, notLive_stops (q3 h4)⟩
    · rw [if_neg h4]
      subst hk
      rw [splitName_full d1 d2]
      simp only [Option.map_some, Site.patch]
      have hfn : fullName ns name = ns ++ '.' :: name := rfl
      rw [hfn]
      cases ho : lookup s.objs (ns ++ '.' :: name) with
      | none => exact Or.inr ⟨rfl, rfl⟩
      | some x =>
        obtain ⟨o, a⟩ := x
        refine Or.inl ⟨rfl, fun o' a' e => Or.inl ?_⟩
        have e' : lookup (Dict.set s.objs (ns ++ '.' :: name) (o, false)) (ns ++ '.' :: name) = some (o', a') := e
        rw [lookup_set, if_pos rfl] at e'
        cases e'
        rfl

/-- C174 on Kubernetes in full. -/
def C174_full : Prop :=
  ∀ (upper : Str → Str) (utf8 : List Nat → Option Str) (env : Api.Env),
    Status.fromName upper "Pending".toList = some .pending → ∀ (evs : List SiteEv) (key : Str) (u : Auth.User) (i : Nat),
    lookup (Site.run upper utf8 env evs).names key = some u.name →
    ((Site.run upper utf8 env evs).stop env i u key).2 = 204 →
    Stops upper ((Site.run upper utf8 env evs).stop env i u key).1 key

/-- Nobody but those who ask for it stops a cluster: without a request to stop, an active object stays active until it is
removed. -/
theorem C174_stays (upper : Str → Str) (utf8 : List Nat → Option Str) (ops : List SiteOp) : ∀ (s : Site) (key : Str) (o : CR),
    (lookup s.names key).isSome → lookup s.objs key = some (o, true) →
    ∀ o' a, lookup (ops.foldl (Site.step upper utf8) s).objs key = some (o', a) → a = true := by
  have main : ∀ (ops : List SiteOp) (s : Site) (key : Str), (lookup s.names key).isSome →
      (∀ o a, lookup s.objs key = some (o, a) → a = true) →
      ∀ o' a, lookup (ops.foldl (Site.step upper utf8) s).objs key = some (o', a) → a = true := by
    intro ops
    induction ops with
    | nil => exact fun s key _ h => h
    | cons op ops ih =>
      intro s key hn h
      refine ih _ key ?_ ?_
      · cases op with
        | create c hex ns username options mx now =>
          simp only [Site.step, Site.add]
          split
          · exact hn
          · simp only [Site.tell, Site.place]
            rw [lookup_set]
            split
            · rfl
            · exact hn
        | status k n =>
          simp only [Site.step]
          split
          · exact hn
          · split <;> exact hn
        | deliver i => simp only [Site.step]; split <;> exact hn
        | _ => exact hn
      · intro o a
        cases op with
        | create c hex ns username options mx now =>
          simp only [Site.step, Site.add]
          split
          · exact h o a
          · simp only [Site.tell, Site.place]
            rw [lookup_set]
            split
            · intro e; cases e; rfl
            · exact h o a
        | status k n =>
          simp only [Site.step]
          split
          · exact h o a
          · rename_i x b hx
            split
            · exact h o a
            · simp only [Site.tell]
              rw [lookup_set]
              split
              · rename_i hk
                intro e
                cases e
                subst hk
                exact h _ _ hx
              · exact h o a
        | remove ns name =>
          simp only [Site.step, Site.tell]
          rw [lookup_dpop]
          split
          · intro e; cases e
          · exact h o a
        | deliver i => simp only [Site.step]; split <;> exact h o a
        | _ => exact h o a
  intro s key o hn ho
  exact main ops s key hn (fun o' a e => (by rw [ho] at e; cases e; rfl))

/-! The witnesses. -/

def ctl0 : Ctl := { apiUrl := [], instanceName := "gw".toList, commonLabels := [], commonAnnotations := [], proxyPrefix := [] }

def env0 : Api.Env :=
  { upper := fun s => s.map Char.toUpper, retries := 0, contactOk := fun _ => true, startResult := .otherError,
    heartbeatResult := .ok () }

def up0 : Str → Str := fun s => s.map Char.toUpper

def ann : Auth.User := { name := "ann".toList }

/-- A cluster of ann is created; no informer has heard of it. -/
def justCreated : List SiteEv := [.op (.create ctl0 "ab12".toList "dask".toList "ann".toList (.obj []) none 7)]

/-- The cluster runs, and both replicas know it. -/
def runs : List SiteEv := justCreated ++
  [.op (.status "dask.ab12".toList { phase := some "Running".toList, service := none, credentials := none, completed := none }),
   .op (.deliver 0), .op (.deliver 0), .op (.take 0 "dask.ab12".toList),
   .op (.deliver 1), .op (.deliver 1), .op (.take 1 "dask.ab12".toList)]

/-- On Kubernetes C174 is false of the code: a request to stop a cluster that the replica does not know yet is answered
with success, and nothing is stopped. -/
theorem C174_violated : ¬ C174_full := by
  intro h
  have h1 := h up0 (fun _ => none) env0 (by decide +kernel) justCreated "dask.ab12".toList ann 0 (by decide +kernel)
    (by decide +kernel)
  have h2 : lookup ((Site.run up0 (fun _ => none) env0 justCreated).stop env0 0 ann "dask.ab12".toList).1.objs "dask.ab12".toList =
      some ((makeCluster ctl0 "ab12".toList "ann".toList (.obj []) none).stored "dask".toList 7, true) := by decide +kernel
  rcases h1 _ _ h2 with e | ⟨st, e1, e2⟩
  · cases e
  · have e3 : Status.fromName up0 (((makeCluster ctl0 "ab12".toList "ann".toList (.obj []) none).stored "dask".toList 7).phase.getD
        "Pending".toList) = some .pending := by decide +kernel
    rw [e3] at e1
    cases e1
    rcases e2 with e2 | e2 <;> cases e2

/-- What becomes of such a request: its code, and whether the cluster is still to run. -/
def outcome (evs : List SiteEv) (i : Nat) : Nat × Option Bool :=
  let x := (Site.run up0 (fun _ => none) env0 evs).stop env0 i ann "dask.ab12".toList
  (x.2, (lookup x.1.objs "dask.ab12".toList).map (·.2))

/-- The same happens to a running cluster, if the replica was replaced a moment ago; and to a new one that another replica
knows already. -/
theorem C174_restart_violated : outcome (runs ++ [.op (.restart 1)]) 1 = (204, some true) := by decide +kernel

example : outcome (justCreated ++ [.op (.deliver 0), .op (.take 0 "dask.ab12".toList)]) 1 = (204, some true) := by decide +kernel

/-- The hypotheses of `C174_kube_partial` are met by both replicas, and the cluster is stopped. -/
example : lookup (Site.run up0 (fun _ => none) env0 runs).names "dask.ab12".toList = some ann.name ∧
    ((Site.run up0 (fun _ => none) env0 runs).reps 1).view.get "dask.ab12".toList ≠ none ∧
    outcome runs 1 = (204, some false) := by decide +kernel

/-- A restarted replica that has worked off its list. -/
example : outcome (runs ++ [.op (.restart 1), .op (.take 1 "dask.ab12".toList)]) 1 = (204, some false) := by decide +kernel

end Verif.Kube

import Verif.EndToEnd.Origin
/-
Invariants of gateway and proxy together.
-/
set_option linter.unusedSimpArgs false
set_option linter.unusedVariables false
set_option linter.unusedSectionVars false
namespace Verif.EndToEnd
open Verif.Router (Str Router key walk look snoc_induction)
open Verif.ProxyEvents (Sys UrlLib Config Key Dict dictGet dictSet dictGet_dictSet callKey OkOp GatewayPath ValidTarget
  ValidPrefix SysFrom OpFrom)
open Verif.Backend (SInv AddrOk Routes)
variable {Url : Type}

/-- The names of clusters: different, not empty and without slashes (db_base.py:456: 32 hexadecimal digits). -/
structure Names (nameOf : Nat → Str) : Prop where
  inj : ∀ m n, nameOf m = nameOf n → m = n
  ne : ∀ n, nameOf n ≠ []
  slash : ∀ n, '/' ∉ nameOf n

/-- The operation of an item of the gateway. -/
def Item.op : Item → Option Backend.Op
  | .gateway o => some o
  | .crash o _ _ _ _ => some o
  | .proxy _ => none

/-- The item is a heartbeat from cluster `n` with message `m`. -/
def Item.Reports (n : Nat) (m : Backend.Msg) (i : Item) : Prop := ∃ now, i.op = some (.heartbeat n m now)

/-- The item is not a restart of the gateway that the proxy did not notice. -/
def Item.Noticed : Item → Prop
  | .crash _ _ _ _ noticed => noticed = true
  | _ => True

/-- The gateway's routing table holds exactly these routes of clusters, and its own. -/
structure Corr (d : Deployment Url) (r : Routes) (D : Dict) : Prop where
  sni : ∀ n, dictGet D (.sni, d.nameOf n) = (r n).2.map String.toList
  path : ∀ n, dictGet D (.path, d.pcfg.pfx ++ d.clusterPath n) = (r n).1.map String.toList
  root : dictGet D (.path, d.pcfg.pfx ++ ['/']) = some d.url
  only : ∀ k v, dictGet D k = some v → k = (.path, d.pcfg.pfx ++ ['/']) ∨
    ∃ n, k = (.sni, d.nameOf n) ∨ k = (.path, d.pcfg.pfx ++ d.clusterPath n)

theorem clusters_list : "/clusters/".toList = ['/','c','l','u','s','t','e','r','s','/'] := by decide +kernel

theorem clusterPath_length (d : Deployment Url) (n : Nat) : 10 ≤ (d.clusterPath n).length := by
  unfold Deployment.clusterPath
  rw [clusters_list, List.length_append]
  simp only [List.length_cons, List.length_nil]
  omega

section
variable {d : Deployment Url} (hN : Names d.nameOf)
include hN

theorem path_inj {m n : Nat} : d.pcfg.pfx ++ d.clusterPath m = d.pcfg.pfx ++ d.clusterPath n ↔ m = n := by
  constructor
  · intro h
    have := List.append_cancel_left h
    exact hN.inj _ _ (List.append_cancel_left this)
  · rintro rfl; rfl

theorem path_root (n : Nat) : d.pcfg.pfx ++ d.clusterPath n ≠ d.pcfg.pfx ++ ['/'] := by
  intro h
  have h := congrArg List.length (List.append_cancel_left h)
  have := clusterPath_length d n
  rw [h] at this
  simp at this

theorem Corr.call {r : Routes} {D D' : Dict} (h : Corr d r D) {c : RouteCall}
    (hD : ∀ k', dictGet D' k' = match c with
      | .addPath n t => if k' = (.path, d.pcfg.pfx ++ d.clusterPath n) then some t.toList else dictGet D k'
      | .addSni n t => if k' = (.sni, d.nameOf n) then some t.toList else dictGet D k'
      | .removePath n => if k' = (.path, d.pcfg.pfx ++ d.clusterPath n) then none else dictGet D k'
      | .removeSni n => if k' = (.sni, d.nameOf n) then none else dictGet D k') :
    Corr d (r.call c) D' := by
  have hs : ∀ m n : Nat, ((ProxyEvents.Kind.sni, d.nameOf m) = (ProxyEvents.Kind.sni, d.nameOf n)) ↔ m = n := by
    intro m n
    simp only [Prod.mk.injEq, true_and]
    exact ⟨hN.inj m n, fun e => by rw [e]⟩
  have hp : ∀ m n : Nat, ((ProxyEvents.Kind.path, d.pcfg.pfx ++ d.clusterPath m) =
      (ProxyEvents.Kind.path, d.pcfg.pfx ++ d.clusterPath n)) ↔ m = n := by
    intro m n
    simp only [Prod.mk.injEq, true_and]
    exact path_inj hN
  have hr : ∀ n : Nat, ¬ ((ProxyEvents.Kind.path, d.pcfg.pfx ++ ['/']) =
      (ProxyEvents.Kind.path, d.pcfg.pfx ++ d.clusterPath n)) := by
    intro n e
    simp only [Prod.mk.injEq, true_and] at e
    exact path_root hN n e.symm
  cases c with
  | addPath n t =>
    dsimp only at hD
    refine ⟨fun m => ?_, fun m => ?_, ?_, fun k v hk => ?_⟩
    · rw [hD, if_neg (by simp), h.sni]; simp only [Routes.call]; split <;> rfl
    · rw [hD]; simp only [hp, Routes.call]; split
      · rfl
      · exact h.path m
    · rw [hD, if_neg (hr n)]; exact h.root
    · rw [hD] at hk; split at hk
      · rename_i e; exact Or.inr ⟨n, Or.inr e⟩
      · exact h.only k v hk
  | addSni n t =>
    dsimp only at hD
    refine ⟨fun m => ?_, fun m => ?_, ?_, fun k v hk => ?_⟩
    · rw [hD]; simp only [hs, Routes.call]; split
      · rfl
      · exact h.sni m
    · rw [hD, if_neg (by simp), h.path]; simp only [Routes.call]; split <;> rfl
    · rw [hD, if_neg (by simp)]; exact h.root
    · rw [hD] at hk; split at hk
      · rename_i e; exact Or.inr ⟨n, Or.inl e⟩
      · exact h.only k v hk
  | removePath n =>
    dsimp only at hD
    refine ⟨fun m => ?_, fun m => ?_, ?_, fun k v hk => ?_⟩
    · rw [hD, if_neg (by simp), h.sni]; simp only [Routes.call]; split <;> rfl
    · rw [hD]; simp only [hp, Routes.call]; split
      · rfl
      · exact h.path m
    · rw [hD, if_neg (hr n)]; exact h.root
    · rw [hD] at hk; split at hk
      · cases hk
      · exact h.only k v hk
  | removeSni n =>
    dsimp only at hD
    refine ⟨fun m => ?_, fun m => ?_, ?_, fun k v hk => ?_⟩
    · rw [hD]; simp only [hs, Routes.call]; split
      · rfl
      · exact h.sni m
    · rw [hD, if_neg (by simp), h.path]; simp only [Routes.call]; split <;> rfl
    · rw [hD, if_neg (by simp)]; exact h.root
    · rw [hD] at hk; split at hk
      · cases hk
      · exact h.only k v hk

/-- The routing table after one call. -/
theorem corr_step {r : Routes} {s : Sys Url} (h : Corr d r s.srv.routes) (c : RouteCall) :
    Corr d (r.call c) (s.step d.lib d.pcfg (c.toOp d)).srv.routes := by
  refine h.call hN ?_
  intro k'
  cases c with
  | addPath n t =>
    obtain ⟨s', e, h1, h2, -⟩ := ProxyEvents.add_routes (cfg := d.pcfg) (G := fun _ _ => True) (s := s.srv)
      (kind := some .path) (sni := none) (path := some (d.clusterPath n)) (t := t.toList)
      (k := (.path, d.pcfg.pfx ++ d.clusterPath n)) rfl
    simp only [RouteCall.toOp, Sys.step, h1, h2, dictGet_dictSet]
  | addSni n t =>
    obtain ⟨s', e, h1, h2, -⟩ := ProxyEvents.add_routes (cfg := d.pcfg) (G := fun _ _ => True) (s := s.srv)
      (kind := some .sni) (sni := some (d.nameOf n)) (path := none) (t := t.toList) (k := (.sni, d.nameOf n)) rfl
    simp only [RouteCall.toOp, Sys.step, h1, h2, dictGet_dictSet]
  | removePath n =>
    obtain ⟨s', e, h1, h2, -⟩ := ProxyEvents.remove_routes (cfg := d.pcfg) (G := fun _ _ => True) (s := s.srv)
      (kind := some .path) (sni := none) (path := some (d.clusterPath n)) (k := (.path, d.pcfg.pfx ++ d.clusterPath n)) rfl
    simp only [RouteCall.toOp, Sys.step, h1]
    cases e <;> exact h2 k'
  | removeSni n =>
    obtain ⟨s', e, h1, h2, -⟩ := ProxyEvents.remove_routes (cfg := d.pcfg) (G := fun _ _ => True) (s := s.srv)
      (kind := some .sni) (sni := some (d.nameOf n)) (path := none) (k := (.sni, d.nameOf n)) rfl
    simp only [RouteCall.toOp, Sys.step, h1]
    cases e <;> exact h2 k'

theorem corr_calls (l : List RouteCall) : ∀ {r : Routes} {s : Sys Url}, Corr d r s.srv.routes →
    Corr d (l.foldl Routes.call r) ((l.map (RouteCall.toOp d)).foldl (Sys.step d.lib d.pcfg) s).srv.routes := by
  induction l with
  | nil => exact fun h => h
  | cons c l ih => exact fun h => ih (corr_step hN h c)

theorem corr_setup : Corr d (fun _ => (none, none)) (ProxyEvents.Server.setup d.pcfg d.url).1.routes := by
  rw [ProxyEvents.setup_routes]
  have get : ∀ k, dictGet (dictSet [] (.path, d.pcfg.pfx ++ ['/']) d.url) k =
      if k = (.path, d.pcfg.pfx ++ ['/']) then some d.url else none := by
    intro k; rw [dictGet_dictSet]; rfl
  refine ⟨fun n => ?_, fun n => ?_, ?_, fun k v hk => ?_⟩
  · rw [get, if_neg (by simp)]; rfl
  · rw [get, if_neg]
    · rfl
    · intro e; simp only [Prod.mk.injEq, true_and] at e; exact path_root hN n e
  · rw [get, if_pos rfl]
  · rw [get] at hk
    split at hk
    · rename_i e; exact Or.inl e
    · cases hk

end

/-- The calls of an operation: for a known cluster, with its addresses, which are not empty. -/
theorem routeCalls_mem {cfg : Backend.Cfg} {s : Backend.State} (hi : SInv cfg s) {o : Backend.Op} {x : RouteCall}
    (hx : x ∈ routeCalls s o) :
    match x with
    | .addPath n t => ∃ c ∈ s.clusters, c.row.name = n ∧ c.row.dash = t ∧ t ≠ ""
    | .addSni n t => ∃ c ∈ s.clusters, c.row.name = n ∧ c.row.sched = t ∧ t ≠ ""
    | _ => True := by
  cases o with
  | getC m now =>
    simp only [routeCalls] at hx
    cases hf : s.find m with
    | none => simp [hf] at hx
    | some c =>
      obtain ⟨hc, hn⟩ := Backend.sfind_spec hf
      simp only [hf] at hx
      split at hx
      · split at hx
        · rename_i hg hr
          unfold proxiedCalls at hx
          split at hx
          · cases hx
          · rcases List.mem_append.1 hx with hx | hx
            · split at hx
              · cases hx
              · rename_i hd
                rw [List.mem_singleton] at hx; subst hx
                exact ⟨c, hc, rfl, rfl, hd⟩
            · rw [List.mem_singleton] at hx; subst hx
              refine ⟨c, hc, rfl, rfl, ?_⟩
              simp only [reachesProxied, Bool.and_eq_true, decide_eq_true_eq, Bool.or_eq_true] at hr
              rcases hr.2 with h3 | h3
              · exact (hi.inv c hc).1.sch (by rw [h3]; rfl)
              · exact h3.2
        · cases hx
      · cases hx
  | endStopC m now =>
    simp only [routeCalls] at hx
    cases hf : s.find m with
    | none => simp [hf] at hx
    | some c =>
      simp only [hf] at hx
      split at hx
      · simp only [List.mem_cons, List.not_mem_nil, or_false] at hx
        rcases hx with rfl | rfl <;> trivial
      · cases hx
  | _ => simp [routeCalls] at hx

/-- Addresses that heartbeats reported: of schedulers. -/
def SchedFrom (items : List Item) (n : Nat) (a : String) : Prop := a = "" ∨ ∃ i ∈ items, ∃ m, i.Reports n m ∧ m.sched = a

/-- Of dashboards. -/
def DashFrom (items : List Item) (n : Nat) (a : String) : Prop := a = "" ∨ ∃ i ∈ items, ∃ m, i.Reports n m ∧ m.dash = a

/-- The routes that may ever be added. -/
def RouteOrigin (d : Deployment Url) (items : List Item) (k : Key) (v : Str) : Prop :=
  (k = (.path, d.pcfg.pfx ++ ['/']) ∧ v = d.url) ∨
  (∃ n a, k = (.sni, d.nameOf n) ∧ v = a.toList ∧ a ≠ "" ∧ SchedFrom items n a) ∨
  (∃ n a, k = (.path, d.pcfg.pfx ++ d.clusterPath n) ∧ v = a.toList ∧ a ≠ "" ∧ DashFrom items n a)

/-- The invariant; `all` is the whole history, of which a part has happened. -/
structure WInv (d : Deployment Url) (all : List Item) (ok : Prop) (w : World Url) : Prop where
  inv : SInv d.cfg w.backend
  addr : AddrOk (SchedFrom all) (DashFrom all) w.backend
  ops : ∃ ops, w.proxy = Sys.run d.lib d.pcfg d.url ops ∧ (ok → ∀ o ∈ ops, OkOp d.lib d.pcfg (GatewayPath d.pcfg) o)
  corr : Corr d w.backend.routes w.proxy.srv.routes
  orig : SysFrom d.lib (RouteOrigin d all) w.proxy

/-- Reported dashboards have URLs that the proxy accepts, and restarts are noticed. -/
def Sound (d : Deployment Url) (items : List Item) : Prop :=
  ∀ i ∈ items, i.Noticed ∧ ∀ n m, i.Reports n m → m.dash = "" ∨ (d.lib.target m.dash.toList).isSome

theorem toList_ne {a : String} (h : a ≠ "") : a.toList ≠ [] := by
  intro e
  exact h (String.toList_eq_nil_iff.1 e)

section
variable {d : Deployment Url} {all : List Item} (hN : Names d.nameOf) (hurl : ValidTarget d.lib .path d.url)
include hN

theorem call_ok {w : World Url} {ok : Prop} (h : WInv d all ok w) {o : Backend.Op} {x : RouteCall}
    (hx : x ∈ routeCalls w.backend o) :
    OpFrom d.pcfg (RouteOrigin d all) (x.toOp d) ∧
    (Sound d all → OkOp d.lib d.pcfg (GatewayPath d.pcfg) (x.toOp d)) := by
  have hm := routeCalls_mem h.inv hx
  have gp : ∀ n, GatewayPath d.pcfg (d.pcfg.pfx ++ d.clusterPath n) := fun n =>
    Or.inr ⟨d.nameOf n, hN.ne n, hN.slash n, by unfold Deployment.clusterPath; rw [List.append_assoc]⟩
  have pne : ∀ n, d.pcfg.pfx ++ d.clusterPath n ≠ [] := by
    intro n e
    have := clusterPath_length d n
    rw [(List.append_eq_nil_iff.1 e).2] at this
    simp at this
  cases x with
  | addPath n t =>
    obtain ⟨c, hc, rfl, rfl, hne⟩ := hm
    have ha := (h.addr c hc).2
    refine ⟨?_, fun hs => ?_⟩
    · rintro k t hk ht
      simp only [callKey, Option.map_some, Option.some.injEq] at hk
      simp only [Option.some.injEq] at ht
      subst hk ht
      exact Or.inr (Or.inr ⟨_, _, rfl, rfl, hne, ha⟩)
    · rintro k t hk ht
      simp only [callKey, Option.map_some, Option.some.injEq] at hk
      simp only [Option.some.injEq] at ht
      subst hk ht
      refine ⟨⟨toList_ne hne, fun _ => ?_⟩, pne _, fun _ => gp _⟩
      rcases ha with e | ⟨i, hi, m, hr, e⟩
      · exact absurd e hne
      · rcases (hs i hi).2 _ m hr with e' | e'
        · rw [e] at e'; exact absurd e' hne
        · rw [e] at e'; exact e'
  | addSni n t =>
    obtain ⟨c, hc, rfl, rfl, hne⟩ := hm
    have ha := (h.addr c hc).1
    refine ⟨?_, fun hs => ?_⟩
    · rintro k t hk ht
      simp only [callKey, Option.map_some, Option.some.injEq] at hk
      simp only [Option.some.injEq] at ht
      subst hk ht
      exact Or.inr (Or.inl ⟨_, _, rfl, rfl, hne, ha⟩)
    · rintro k t hk ht
      simp only [callKey, Option.map_some, Option.some.injEq] at hk
      simp only [Option.some.injEq] at ht
      subst hk ht
      exact ⟨⟨toList_ne hne, fun e => by cases e⟩, hN.ne _, fun e => by cases e⟩
  | removePath n =>
    refine ⟨trivial, fun _ => ?_⟩
    intro k hk
    simp only [callKey, Option.map_some, Option.some.injEq] at hk
    subst hk
    exact ⟨pne _, fun _ => gp _⟩
  | removeSni n =>
    refine ⟨trivial, fun _ => ?_⟩
    intro k hk
    simp only [callKey, Option.map_some, Option.some.injEq] at hk
    subst hk
    exact ⟨hN.ne _, fun e => by cases e⟩

theorem fold_from {G : Key → Str → Prop} (ops : List ProxyEvents.Op) : ∀ {s : Sys Url}, SysFrom d.lib G s →
    (∀ o ∈ ops, OpFrom d.pcfg G o) → SysFrom d.lib G (ops.foldl (Sys.step d.lib d.pcfg) s) := by
  induction ops with
  | nil => exact fun h _ => h
  | cons o ops ih => exact fun h ho => ih (ProxyEvents.step_from h (ho o (by simp))) (fun x hx => ho x (by simp [hx]))

theorem proxyStep_srv (p : ProxyStep) (s : Sys Url) : (s.step d.lib d.pcfg p.toOp).srv = s.srv := by
  obtain ⟨srv, tb, li, ph⟩ := s
  cases p <;> simp only [ProxyStep.toOp, Sys.step]
  case watch =>
    cases ph <;> dsimp only
    cases srv.eventsAfter (li : Int) <;> rfl
  case deliver =>
    cases ph with
    | streaming ch =>
      cases ch with
      | nil => rfl
      | cons es ch =>
        dsimp only
        unfold Sys.processBatch
        cases es.getLast? <;> rfl
    | _ => rfl
  all_goals (cases ph <;> rfl)

include hurl

theorem winv_step {w : World Url} (h : WInv d all (Sound d all) w) {i : Item} (hi : i ∈ all) :
    WInv d all (Sound d all) (w.step d i) := by
  obtain ⟨ops, hops, hok⟩ := h.ops
  have rootOk : OpFrom d.pcfg (RouteOrigin d all) (.restart d.url true) ∧ ∀ b, OpFrom d.pcfg (RouteOrigin d all) (.restart d.url b) :=
    ⟨Or.inl ⟨rfl, rfl⟩, fun _ => Or.inl ⟨rfl, rfl⟩⟩
  have opsOk : (∀ o ∈ itemOps d w.backend i, OpFrom d.pcfg (RouteOrigin d all) o) ∧
      (Sound d all → ∀ o ∈ itemOps d w.backend i, OkOp d.lib d.pcfg (GatewayPath d.pcfg) o) := by
    cases i with
    | gateway o =>
      refine ⟨fun x hx => ?_, fun hs x hx => ?_⟩ <;> obtain ⟨c, hc, rfl⟩ := List.mem_map.1 hx
      · exact (call_ok hN h hc).1
      · exact (call_ok hN h hc).2 hs
    | crash o k now calls noticed =>
      refine ⟨fun x hx => ?_, fun hs x hx => ?_⟩ <;> rcases List.mem_append.1 hx with hx | hx
      · obtain ⟨c, hc, rfl⟩ := List.mem_map.1 hx
        exact (call_ok hN h (List.mem_of_mem_take hc)).1
      · rw [List.mem_singleton] at hx; subst hx; exact rootOk.2 noticed
      · obtain ⟨c, hc, rfl⟩ := List.mem_map.1 hx
        exact (call_ok hN h (List.mem_of_mem_take hc)).2 hs
      · rw [List.mem_singleton] at hx; subst hx
        exact ⟨(hs _ hi).1, hurl⟩
    | proxy p =>
      refine ⟨fun x hx => ?_, fun hs x hx => ?_⟩ <;> (rw [List.mem_singleton.1 hx]; cases p <;> trivial)
  refine ⟨?_, ?_, ?_, ?_, ?_⟩
  · cases i with
    | gateway o => exact Backend.ev_inv h.inv (.op o)
    | crash o k now calls noticed => exact Backend.ev_inv h.inv (.crash o k now)
    | proxy p => exact h.inv
  · cases i with
    | gateway o =>
      refine Backend.ev_addr h.inv (.op o) (fun n => ⟨Or.inl rfl, Or.inl rfl⟩) ?_ h.addr
      intro n m now e
      have : (Item.gateway o).Reports n m := ⟨now, by rw [← e]; rfl⟩
      exact ⟨Or.inr ⟨_, hi, m, this, rfl⟩, Or.inr ⟨_, hi, m, this, rfl⟩⟩
    | crash o k now calls noticed =>
      refine Backend.ev_addr h.inv (.crash o k now) (fun n => ⟨Or.inl rfl, Or.inl rfl⟩) ?_ h.addr
      intro n m now' e
      have : (Item.crash o k now calls noticed).Reports n m := ⟨now', by rw [← e]; rfl⟩
      exact ⟨Or.inr ⟨_, hi, m, this, rfl⟩, Or.inr ⟨_, hi, m, this, rfl⟩⟩
    | proxy p => exact h.addr
  · refine ⟨ops ++ itemOps d w.backend i, ?_, fun hs o ho => ?_⟩
    · simp only [World.step, hops, Sys.run, List.foldl_append]
    · rcases List.mem_append.1 ho with ho | ho
      · exact hok hs o ho
      · exact opsOk.2 hs o ho
  · cases i with
    | gateway o =>
      have := corr_calls hN (routeCalls w.backend o) h.corr
      rw [← Backend.step_routes h.inv] at this
      exact this
    | crash o k now calls noticed =>
      have e : (w.step d (.crash o k now calls noticed)).proxy.srv = (ProxyEvents.Server.setup d.pcfg d.url).1 := by
        simp only [World.step, itemOps, List.foldl_append, List.foldl_cons, List.foldl_nil]
        rfl
      rw [e]
      have e2 : (w.step d (.crash o k now calls noticed)).backend.routes = fun _ => (none, none) :=
        Backend.crash_routes h.inv o k now
      rw [e2]
      exact corr_setup hN
    | proxy p =>
      have e : (w.step d (.proxy p)).proxy.srv = w.proxy.srv := proxyStep_srv hN p w.proxy
      rw [e]
      exact h.corr
  · exact fold_from hN _ h.orig opsOk.1

theorem winv_run : WInv d all (Sound d all) (World.run d all) := by
  suffices h : ∀ items : List Item, (∀ i ∈ items, i ∈ all) → WInv d all (Sound d all) (World.run d items) from
    h all (fun _ h => h)
  intro items
  induction items using snoc_induction with
  | nil =>
    intro _
    refine ⟨Backend.sinv_init d.cfg, fun c hc => (by cases hc), ⟨[], rfl, fun _ o ho => (by cases ho)⟩, corr_setup hN, ?_⟩
    exact ProxyEvents.init_from d.url (Or.inl ⟨rfl, rfl⟩)
  | snoc items i ih =>
    intro hall
    have e : World.run d (items ++ [i]) = (World.run d items).step d i := by
      simp only [World.run, List.foldl_append, List.foldl_cons, List.foldl_nil]
    rw [e]
    exact winv_step hN hurl (ih (fun x hx => hall x (by simp [hx]))) (hall i (by simp))

end

end Verif.EndToEnd

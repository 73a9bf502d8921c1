import Verif.ProxyEvents.Lemmas
set_option linter.unusedSectionVars false
set_option linter.unusedSimpArgs false
set_option linter.unusedVariables false
namespace Verif.ProxyEvents
open Verif.Router (Str Router key walk look snoc_induction)
variable {Url : Type} {lib : UrlLib Url} {cfg : Config} {P : Str → Prop}

/-- The log holds the events after `offset`, with consecutive ids. -/
structure LogInv (full : List Event) (s : Server) : Prop where
  ids : ∀ i e, full[i]? = some e → e.id = i + 1
  next : s.nextId = full.length + 1
  off : s.offset ≤ full.length
  evs : s.events = full.drop s.offset

theorem LogInv.congr {full : List Event} {s s' : Server} (h : LogInv full s)
    (h1 : s'.nextId = s.nextId) (h2 : s'.offset = s.offset) (h3 : s'.events = s.events) :
    LogInv full s' := ⟨h.ids, by rw [h1, h.next], by rw [h2]; exact h.off, by rw [h3, h2]; exact h.evs⟩

theorem appendEvent_spec {full : List Event} {s : Server} (h : LogInv full s) (t : EventType)
    (r : Route) : (s.appendEvent cfg t r).2 = ⟨full.length + 1, t, r⟩ ∧
      (s.appendEvent cfg t r).1.routes = s.routes ∧
      LogInv (full ++ [⟨full.length + 1, t, r⟩]) (s.appendEvent cfg t r).1 := by
  have hids : ∀ i e, (full ++ [(⟨full.length + 1, t, r⟩ : Event)])[i]? = some e → e.id = i + 1 := by
    intro i e hi
    rw [List.getElem?_append] at hi
    split at hi
    · exact h.ids i e hi
    · rename_i hlt
      have : i = full.length := by
        by_cases e1 : i - full.length = 0
        · omega
        · have : ([(⟨full.length + 1, t, r⟩ : Event)])[i - full.length]? = none := by
            rw [List.getElem?_eq_none]; simp; omega
          rw [this] at hi; cases hi
      subst this
      simp at hi; subst hi; rfl
  unfold Server.appendEvent
  dsimp only
  have hn := h.next
  have hlen : s.events.length = full.length - s.offset := by rw [h.evs]; simp
  split
  · rename_i hge
    have hdr : cfg.maxEvents / 2 ≤ s.events.length := by
      have := Nat.div_le_self cfg.maxEvents 2; omega
    have ho := h.off
    refine ⟨by rw [hn], rfl, ⟨hids, ?_, ?_, ?_⟩⟩
    · dsimp only; rw [hn]; simp
    · dsimp only; rw [List.length_append]; omega
    · dsimp only
      rw [h.evs, hn, List.drop_drop, List.drop_append_of_le_length (by omega)]
  · have ho := h.off
    refine ⟨by rw [hn], rfl, ⟨hids, ?_, ?_, ?_⟩⟩
    · dsimp only; rw [hn]; simp
    · dsimp only; rw [List.length_append]; omega
    · dsimp only
      rw [h.evs, hn, List.drop_append_of_le_length ho]

theorem addRoute_cases {full : List Event} {s : Server} (h : LogInv full s) (kind : Option Kind)
    (sni path target : Option Str) :
    (s.addRoute cfg kind sni path target = none) ∨
    (∃ k t s', callKey cfg kind sni path = some k ∧ target = some t ∧
      s.addRoute cfg kind sni path target = some (s', ⟨full.length + 1, .put, putRouteOf k t⟩) ∧
      s'.routes = dictSet s.routes k t ∧
      LogInv (full ++ [⟨full.length + 1, .put, putRouteOf k t⟩]) s') := by
  unfold Server.addRoute
  cases target with
  | none => left; rfl
  | some t =>
    cases hk : callKey cfg kind sni path with
    | none => left; rfl
    | some k =>
      right
      have h' : LogInv full { s with routes := dictSet s.routes k t } := h.congr rfl rfl rfl
      obtain ⟨h1, h2, h3⟩ := appendEvent_spec (cfg := cfg) h' .put (putRouteOf k t)
      refine ⟨k, t, _, rfl, rfl, ?_, h2, h3⟩
      dsimp only
      rw [← h1]

theorem removeRoute_cases {full : List Event} {s : Server} (h : LogInv full s) (kind : Option Kind)
    (sni path : Option Str) :
    (s.removeRoute cfg kind sni path = none) ∨ (s.removeRoute cfg kind sni path = some (s, none)) ∨
    (∃ k s', callKey cfg kind sni path = some k ∧
      s.removeRoute cfg kind sni path = some (s', some ⟨full.length + 1, .delete, delRouteOf k⟩) ∧
      s'.routes = dictPop s.routes k ∧
      LogInv (full ++ [⟨full.length + 1, .delete, delRouteOf k⟩]) s') := by
  unfold Server.removeRoute
  cases hk : callKey cfg kind sni path with
  | none => left; rfl
  | some k =>
    right
    dsimp only
    cases hg : dictGet s.routes k with
    | none => left; rfl
    | some v =>
      right
      have h' : LogInv full { s with routes := dictPop s.routes k } := h.congr rfl rfl rfl
      obtain ⟨h1, h2, h3⟩ := appendEvent_spec (cfg := cfg) h' .delete (delRouteOf k)
      refine ⟨k, _, rfl, ?_, h2, h3⟩
      dsimp only
      rw [← h1]

theorem logInv_init : LogInv [] Server.init := ⟨by simp, rfl, by simp [Server.init], rfl⟩

theorem setup_cases (cfg : Config) (url : Str) :
    ∃ s', Server.setup cfg url =
        (s', some ⟨1, .put, putRouteOf (.path, cfg.pfx ++ ['/']) url⟩) ∧
      s'.routes = dictSet [] (.path, cfg.pfx ++ ['/']) url ∧
      LogInv [⟨1, .put, putRouteOf (.path, cfg.pfx ++ ['/']) url⟩] s' := by
  rcases addRoute_cases (cfg := cfg) logInv_init (some .path) none (some ['/']) (some url) with
    h | ⟨k, t, s', h1, h2, h3, h4, h5⟩
  · simp [Server.addRoute, callKey] at h
  · simp [callKey] at h1 h2
    subst h1 h2
    refine ⟨s', ?_, h4, h5⟩
    unfold Server.setup
    rw [h3]; rfl

theorem logOf_snoc (cfg : Config) (url : Str) (calls : List Call) (c : Call) :
    logOf cfg url (calls ++ [c]) = callStep cfg (logOf cfg url calls) c := by
  simp only [logOf, List.foldl_append, List.foldl_cons, List.foldl_nil]

theorem logOf_inv (cfg : Config) (url : Str) (calls : List Call) :
    LogInv (logOf cfg url calls).2 (logOf cfg url calls).1 := by
  induction calls using snoc_induction with
  | nil =>
    obtain ⟨s', h1, -, h2⟩ := setup_cases cfg url
    simp only [logOf, List.foldl_nil, h1, Option.toList]
    exact h2
  | snoc calls c ih =>
    rw [logOf_snoc]
    revert ih
    generalize logOf cfg url calls = st
    obtain ⟨s, all⟩ := st
    intro ih
    dsimp only at ih
    unfold callStep
    cases c with
    | add k sn p t =>
      dsimp only
      rcases addRoute_cases (cfg := cfg) ih k sn p t with h | ⟨k', t', s', -, -, h3, -, h5⟩
      · rw [h]; exact ih
      · rw [h3]; exact h5
    | remove k sn p =>
      dsimp only
      rcases removeRoute_cases (cfg := cfg) ih k sn p with h | h | ⟨k', s', -, h3, -, h5⟩
      · rw [h]; exact ih
      · rw [h]; simpa using ih
      · rw [h3]; exact h5

theorem appendEvent_length {s : Server} (t : EventType) (r : Route) (hm : 2 ≤ cfg.maxEvents)
    (h : s.events.length ≤ cfg.maxEvents) : (s.appendEvent cfg t r).1.events.length ≤ cfg.maxEvents := by
  unfold Server.appendEvent
  dsimp only
  split
  · simp only [List.length_append, List.length_drop, List.length_cons, List.length_nil]; omega
  · rename_i hn
    simp only [ge_iff_le, Nat.not_le] at hn
    simp only [List.length_append, List.length_cons, List.length_nil]; omega

theorem addRoute_length {s s' : Server} {e : Event} {kind : Option Kind} {sni path target : Option Str}
    (hm : 2 ≤ cfg.maxEvents) (h : s.events.length ≤ cfg.maxEvents)
    (hr : s.addRoute cfg kind sni path target = some (s', e)) : s'.events.length ≤ cfg.maxEvents := by
  unfold Server.addRoute at hr
  cases target with
  | none => cases hr
  | some t =>
    cases hk : callKey cfg kind sni path with
    | none => rw [hk] at hr; cases hr
    | some k =>
      rw [hk] at hr
      dsimp only at hr
      have := appendEvent_length (cfg := cfg) (s := { s with routes := dictSet s.routes k t }) .put
        (putRouteOf k t) hm h
      rw [Option.some.inj hr] at this
      exact this

theorem removeRoute_length {s s' : Server} {e : Option Event} {kind : Option Kind}
    {sni path : Option Str} (hm : 2 ≤ cfg.maxEvents) (h : s.events.length ≤ cfg.maxEvents)
    (hr : s.removeRoute cfg kind sni path = some (s', e)) : s'.events.length ≤ cfg.maxEvents := by
  unfold Server.removeRoute at hr
  cases hk : callKey cfg kind sni path with
  | none => rw [hk] at hr; cases hr
  | some k =>
    rw [hk] at hr
    dsimp only at hr
    cases hg : dictGet s.routes k with
    | none =>
      rw [hg] at hr
      cases hr; exact h
    | some v =>
      rw [hg] at hr
      have := appendEvent_length (cfg := cfg) (s := { s with routes := dictPop s.routes k }) .delete
        (delRouteOf k) hm h
      simp only [Option.some.injEq, Prod.mk.injEq] at hr
      rw [← hr.1]; exact this

/-! ### The system -/

/-- The proxy's part of the invariant. -/
def CliInv (lib : UrlLib Url) (full : List Event) (s : Sys Url) : Prop :=
  match s.phase with
  | .needFetch => True
  | .gotTable rs id => id ≤ full.length ∧ ∃ d : Dict, NodupKeys d ∧
      rs = d.map (fun e => putRouteOf e.1 e.2) ∧
      dictGet d = absRun (fun _ => none) (full.take id)
  | .needWatch => s.lastId ≤ full.length ∧
      HoldsM lib (absRun (fun _ => none) (full.take s.lastId)) s.tables
  | .streaming ch => s.lastId ≤ full.length ∧
      HoldsM lib (absRun (fun _ => none) (full.take s.lastId)) s.tables ∧
      ch.flatten = full.drop s.lastId ∧ ∀ b ∈ ch, b ≠ []

structure SysInv (lib : UrlLib Url) (P : Str → Prop) (full : List Event) (s : Sys Url) : Prop where
  log : LogInv full s.srv
  nodup : NodupKeys s.srv.routes
  routes : dictGet s.srv.routes = absRun (fun _ => none) full
  fine : ∀ e ∈ full, Fine lib P e
  cli : CliInv lib full s

theorem absRun_append (m : RMap) (a b : List Event) : absRun m (a ++ b) = absRun (absRun m a) b := by
  simp [absRun]

theorem absStep_put {k : Key} (hk : k.2 ≠ []) (m : RMap) (i : Nat) (v : Str) :
    absStep m ⟨i, .put, putRouteOf k v⟩ = fun k' => if k' = k then some v else m k' := by
  unfold absStep
  simp only [validKey_putRouteOf hk, target_putRouteOf]

theorem absStep_delete {k : Key} (hk : k.2 ≠ []) (m : RMap) (i : Nat) :
    absStep m ⟨i, .delete, delRouteOf k⟩ = fun k' => if k' = k then none else m k' := by
  unfold absStep delRouteOf
  simp only [validKey_putRouteOf hk]

/-- The proxy's invariant survives a new event. -/
theorem CliInv.push {full : List Event} {s : Sys Url} (h : CliInv lib full s) (srv : Server)
    (e : Event) : CliInv lib (full ++ [e]) { s with srv := srv, phase := s.phase.push e } := by
  obtain ⟨s0, tb, li, ph⟩ := s
  cases ph with
  | needFetch => trivial
  | gotTable rs id =>
    obtain ⟨h1, d, h2, h3, h4⟩ := h
    exact ⟨by simp; omega, d, h2, h3, by rw [List.take_append_of_le_length h1]; exact h4⟩
  | needWatch =>
    obtain ⟨h1, h2⟩ := h
    dsimp only at h1 h2
    exact ⟨by simp; omega, by dsimp only; rw [List.take_append_of_le_length h1]; exact h2⟩
  | streaming ch =>
    obtain ⟨h1, h2, h3, h4⟩ := h
    dsimp only at h1 h2 h3
    refine ⟨by simp; omega, by dsimp only; rw [List.take_append_of_le_length h1]; exact h2, ?_, ?_⟩
    · dsimp only
      rw [List.drop_append_of_le_length h1, List.flatten_append, h3]; simp
    · intro b hb
      rcases List.mem_append.1 hb with h | h
      · exact h4 b h
      · simp at h; subst h; simp

theorem SysInv.domOk (hP : NoAlias P) {full : List Event} (h : ∀ e ∈ full, Fine lib P e) :
    DomOk lib P (absRun (fun _ => none) full) :=
  (holds_run hP full domOk_empty holds_empty h).1

theorem getLast?_ids {full : List Event} (h : ∀ i e, full[i]? = some e → e.id = i + 1) {n : Nat}
    {b : List Event} {e : Event} (hb : b = (full.drop n).take b.length) (he : b.getLast? = some e)
    : e.id = n + b.length := by
  have hb0 : b.length ≠ 0 := by
    intro h0; have : b = [] := List.length_eq_zero_iff.1 h0; subst this; simp at he
  rw [List.getLast?_eq_getElem?] at he
  replace he : ((full.drop n).take b.length)[b.length - 1]? = some e := by rw [← hb]; exact he
  rw [List.getElem?_take] at he
  split at he
  · rw [List.getElem?_drop] at he
    have := h _ _ he
    omega
  · cases he

/-- Every allowed step keeps the invariant. -/
theorem SysInv.step (hP : NoAlias P) (hroot : P (cfg.pfx ++ ['/'])) {full : List Event} {s : Sys Url}
    (h : SysInv lib P full s) (op : Op) (hop : OkOp lib cfg P op) :
    ∃ full', SysInv lib P full' (s.step lib cfg op) := by
  obtain ⟨hl, hn, hr, hf, hc⟩ := h
  cases op with
  | add kind sni path target =>
    unfold Sys.step
    dsimp only
    rcases addRoute_cases (cfg := cfg) hl kind sni path target with h | ⟨k, t, s', h1, h2, h3, h4, h5⟩
    · rw [h]; exact ⟨full, hl, hn, hr, hf, hc⟩
    · rw [h3]
      obtain ⟨o1, o2, o3⟩ := hop k t h1 h2
      refine ⟨_, h5, ?_, ?_, ?_, hc.push _ _⟩
      · dsimp only; rw [h4]; exact nodup_dictSet hn _ _
      · dsimp only
        rw [absRun_append, ← hr, h4]
        simp only [absRun, List.foldl_cons, List.foldl_nil, absStep_put o2]
        funext k'; rw [dictGet_dictSet]
      · intro e he
        rcases List.mem_append.1 he with h | h
        · exact hf e h
        · simp at h; subst h; exact ⟨k, ⟨o2, o3⟩, Or.inl ⟨rfl, t, rfl, o1⟩⟩
  | remove kind sni path =>
    unfold Sys.step
    dsimp only
    rcases removeRoute_cases (cfg := cfg) hl kind sni path with h | h | ⟨k, s', h1, h3, h4, h5⟩
    · rw [h]; exact ⟨full, hl, hn, hr, hf, hc⟩
    · rw [h]; exact ⟨full, hl, hn, hr, hf, hc⟩
    · rw [h3]
      obtain ⟨o2, o3⟩ := hop k h1
      refine ⟨_, h5, ?_, ?_, ?_, hc.push _ _⟩
      · dsimp only; rw [h4]; exact nodup_dictPop hn _
      · dsimp only
        rw [absRun_append, ← hr, h4]
        simp only [absRun, List.foldl_cons, List.foldl_nil, absStep_delete o2]
        funext k'; rw [dictGet_dictPop]
      · intro e he
        rcases List.mem_append.1 he with h | h
        · exact hf e h
        · simp at h; subst h; exact ⟨k, ⟨o2, o3⟩, Or.inr ⟨rfl, rfl⟩⟩
  | fetch =>
    refine ⟨full, ?_⟩
    obtain ⟨s0, tb, li, ph⟩ := s
    cases ph with
    | needFetch =>
      refine ⟨hl, hn, hr, hf, ?_⟩
      have hx : s0.nextId = full.length + 1 := hl.next
      refine ⟨by simp only [Server.table, hx]; omega, s0.routes, hn, rfl, ?_⟩
      simp only [Server.table, hx]
      rw [List.take_of_length_le (by omega)]
      exact hr
    | gotTable rs id => exact ⟨hl, hn, hr, hf, hc⟩
    | needWatch => exact ⟨hl, hn, hr, hf, hc⟩
    | streaming ch => exact ⟨hl, hn, hr, hf, hc⟩
  | fetchFail =>
    refine ⟨full, ?_⟩
    obtain ⟨s0, tb, li, ph⟩ := s
    cases ph with
    | gotTable rs id => exact ⟨hl, hn, hr, hf, trivial⟩
    | needFetch => exact ⟨hl, hn, hr, hf, hc⟩
    | needWatch => exact ⟨hl, hn, hr, hf, hc⟩
    | streaming ch => exact ⟨hl, hn, hr, hf, hc⟩
  | applyTable =>
    refine ⟨full, ?_⟩
    obtain ⟨s0, tb, li, ph⟩ := s
    cases ph with
    | gotTable rs id =>
      obtain ⟨h1, d, h2, rfl, h4⟩ := hc
      refine ⟨hl, hn, hr, hf, h1, ?_⟩
      show HoldsM lib (absRun (fun _ => none) (full.take id)) (updateFromRoutes lib _)
      rw [← h4]
      apply holds_table hP h2
      rw [h4]
      exact SysInv.domOk hP (fun e he => hf e (List.mem_of_mem_take he))
    | needFetch => exact ⟨hl, hn, hr, hf, hc⟩
    | needWatch => exact ⟨hl, hn, hr, hf, hc⟩
    | streaming ch => exact ⟨hl, hn, hr, hf, hc⟩
  | watch =>
    refine ⟨full, ?_⟩
    obtain ⟨s0, tb, li, ph⟩ := s
    cases ph with
    | needWatch =>
      obtain ⟨h1, h2⟩ := hc
      unfold Sys.step
      dsimp only
      unfold Server.eventsAfter
      dsimp only
      by_cases hi : (li : Int) - s0.offset ≥ 0
      · rw [if_pos hi]
        dsimp only
        have he : s0.events.drop ((li : Int) - s0.offset).toNat = full.drop li := by
          have := hl.evs; dsimp only at this
          rw [this, List.drop_drop]; congr 1; omega
        rw [he]
        refine ⟨hl, hn, hr, hf, h1, h2, ?_, ?_⟩
        · split
          · rename_i h0; dsimp only; rw [h0]; rfl
          · simp
        · intro b hb
          split at hb
          · simp at hb
          · rename_i h0; simp at hb; subst hb; exact h0
      · rw [if_neg hi]
        exact ⟨hl, hn, hr, hf, trivial⟩
    | needFetch => exact ⟨hl, hn, hr, hf, hc⟩
    | gotTable rs id => exact ⟨hl, hn, hr, hf, hc⟩
    | streaming ch => exact ⟨hl, hn, hr, hf, hc⟩
  | watchFail =>
    refine ⟨full, ?_⟩
    obtain ⟨s0, tb, li, ph⟩ := s
    cases ph with
    | needWatch => exact ⟨hl, hn, hr, hf, trivial⟩
    | needFetch => exact ⟨hl, hn, hr, hf, hc⟩
    | gotTable rs id => exact ⟨hl, hn, hr, hf, hc⟩
    | streaming ch => exact ⟨hl, hn, hr, hf, hc⟩
  | deliver =>
    refine ⟨full, ?_⟩
    obtain ⟨s0, tb, li, ph⟩ := s
    cases ph with
    | streaming ch =>
      cases ch with
      | nil => exact ⟨hl, hn, hr, hf, hc⟩
      | cons b ch =>
        obtain ⟨h1, h2, h3, h4⟩ := hc
        dsimp only at h1 h2 h3
        have hb0 := h4 b (by simp)
        rw [List.flatten_cons] at h3
        have hbt : b = (full.drop li).take b.length := by rw [← h3]; simp
        unfold Sys.step Sys.processBatch
        dsimp only
        cases he : b.getLast? with
        | none => rw [List.getLast?_eq_none_iff] at he; exact absurd he hb0
        | some e =>
          dsimp only
          have hid := getLast?_ids hl.ids hbt he
          have hlen : li + b.length ≤ full.length := by
            have := congrArg List.length h3
            simp only [List.length_append, List.length_drop] at this
            omega
          have htake : full.take e.id = full.take li ++ b := by
            rw [hid, List.take_add, ← hbt]
          refine ⟨hl, hn, hr, hf, by dsimp only; omega, ?_, ?_, ?_⟩
          · dsimp only
            rw [htake, absRun_append]
            refine (holds_run hP b ?_ h2 ?_).2
            · exact SysInv.domOk hP (fun x hx => hf x (List.mem_of_mem_take hx))
            · intro x hx
              rw [hbt] at hx
              exact hf x (List.mem_of_mem_drop (List.mem_of_mem_take hx))
          · dsimp only
            rw [hid, ← List.drop_drop, ← h3]; simp
          · intro x hx; exact h4 x (by simp [hx])
    | needFetch => exact ⟨hl, hn, hr, hf, hc⟩
    | gotTable rs id => exact ⟨hl, hn, hr, hf, hc⟩
    | needWatch => exact ⟨hl, hn, hr, hf, hc⟩
  | eof =>
    refine ⟨full, ?_⟩
    obtain ⟨s0, tb, li, ph⟩ := s
    cases ph with
    | streaming ch => exact ⟨hl, hn, hr, hf, hc.1, hc.2.1⟩
    | needFetch => exact ⟨hl, hn, hr, hf, hc⟩
    | gotTable rs id => exact ⟨hl, hn, hr, hf, hc⟩
    | needWatch => exact ⟨hl, hn, hr, hf, hc⟩
  | garbled =>
    refine ⟨full, ?_⟩
    obtain ⟨s0, tb, li, ph⟩ := s
    cases ph with
    | streaming ch => exact ⟨hl, hn, hr, hf, trivial⟩
    | needFetch => exact ⟨hl, hn, hr, hf, hc⟩
    | gotTable rs id => exact ⟨hl, hn, hr, hf, hc⟩
    | needWatch => exact ⟨hl, hn, hr, hf, hc⟩
  | restart url noticed =>
    obtain ⟨rfl, hv⟩ := hop
    obtain ⟨s', e1, e2, e3⟩ := setup_cases cfg url
    refine ⟨[⟨1, .put, putRouteOf (.path, cfg.pfx ++ ['/']) url⟩], ?_, ?_, ?_, ?_, ?_⟩
    · unfold Sys.step; dsimp only; rw [e1]; exact e3
    · unfold Sys.step; dsimp only; rw [e1]; dsimp only; rw [e2]; exact nodup_dictSet (d := []) List.nodup_nil _ _
    · unfold Sys.step; dsimp only; rw [e1]; dsimp only; rw [e2]
      funext k'
      rw [dictGet_dictSet]
      simp only [absRun, List.foldl_cons, List.foldl_nil, absStep_put (k := (.path, cfg.pfx ++ ['/'])) (by simp)]
      rfl
    · intro e he
      simp at he; subst he
      exact ⟨(.path, cfg.pfx ++ ['/']), ⟨by simp, fun _ => hroot⟩, Or.inl ⟨rfl, url, rfl, hv⟩⟩
    · unfold Sys.step; simp [CliInv]

theorem run_snoc (url : Str) (ops : List Op) (o : Op) :
    Sys.run lib cfg url (ops ++ [o]) = (Sys.run lib cfg url ops).step lib cfg o := by
  simp [Sys.run]

theorem run_inv (hP : NoAlias P) (hroot : P (cfg.pfx ++ ['/'])) (url : Str)
    (hurl : ValidTarget lib .path url) (ops : List Op) (hops : ∀ o ∈ ops, OkOp lib cfg P o) :
    ∃ full, SysInv lib P full (Sys.run lib cfg url ops) := by
  induction ops using snoc_induction with
  | nil =>
    obtain ⟨s', e1, e2, e3⟩ := setup_cases cfg url
    refine ⟨[⟨1, .put, putRouteOf (.path, cfg.pfx ++ ['/']) url⟩], ?_, ?_, ?_, ?_, ?_⟩
    · simp only [Sys.run, List.foldl_nil, Sys.init, e1]; exact e3
    · simp only [Sys.run, List.foldl_nil, Sys.init, e1, e2]; exact nodup_dictSet (d := []) List.nodup_nil _ _
    · simp only [Sys.run, List.foldl_nil, Sys.init, e1, e2]
      funext k'
      rw [dictGet_dictSet]
      simp only [absRun, List.foldl_cons, List.foldl_nil, absStep_put (k := (.path, cfg.pfx ++ ['/'])) (by simp)]
      rfl
    · intro e he
      simp at he; subst he
      exact ⟨(.path, cfg.pfx ++ ['/']), ⟨by simp, fun _ => hroot⟩, Or.inl ⟨rfl, url, rfl, hurl⟩⟩
    · simp [Sys.run, Sys.init, CliInv]
  | snoc ops o ih =>
    obtain ⟨full, h⟩ := ih (fun o ho => hops o (by simp [ho]))
    rw [run_snoc]
    exact h.step hP hroot o (hops o (by simp))

end Verif.ProxyEvents

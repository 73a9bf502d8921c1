import Verif.ProxyEvents.Props
import Verif.Auth.Lemmas
import Verif.Watch.Model
/-
C110, C111, C112: the routes that proxies are told.
-/
set_option linter.unusedSimpArgs false
set_option linter.unusedVariables false
namespace Verif.Watch
open Verif.Router (Str snoc_induction)
open Verif.ProxyEvents
open Verif.Auth (split1 split1_append split1_eq_some)

/-! ### Specification -/

/-- The route changes of a history. -/
def callsOf (ops : List Op) : List Call :=
  ops.filterMap fun o => match o with | .call c => some c | _ => none

/-- All events of a history, oldest first: one for each change of the routes, numbered 1, 2, ... -/
def log (cfg : Config) (url : Str) (ops : List Op) : List Event := (logOf cfg url (callsOf ops)).2

/-! ### C110: the token -/

/-- An answer that tells something about the routes. -/
def Resp.Tells : Resp → Prop
  | .table _ _ => True
  | .stream _ => True
  | .gone => True
  | _ => False

/-- C110: only a request that presents the proxy's API token learns anything about the routes: any other is refused,
and leaves the gateway as it was. -/
theorem C110_token_needed (apiToken : Str) (s : State) (r : Req) (h : r.auth ≠ some ("token ".toList ++ apiToken)) :
    ¬ (handle apiToken s r).2.Tells ∧ ((handle apiToken s r).2 = .unauthorized ∨ (handle apiToken s r).2 = .failed) ∧
      (handle apiToken s r).1 = s := by
  have key : checkAuth apiToken r.auth = some .unauthorized ∨ checkAuth apiToken r.auth = some .failed := by
    cases ha : r.auth with
    | none => exact Or.inl rfl
    | some x =>
      cases x with
      | nil => exact Or.inl rfl
      | cons c cs =>
        unfold checkAuth
        dsimp only
        cases hs : split1 ' ' (c :: cs) with
        | none => exact Or.inr rfl
        | some p =>
          obtain ⟨kind, token⟩ := p
          dsimp only
          by_cases hk : kind ≠ "token".toList ∨ token ≠ apiToken
          · rw [if_pos hk]; exact Or.inl rfl
          · exfalso
            apply h
            rw [ha, (split1_eq_some hs).1]
            have h1 : kind = "token".toList := Classical.not_not.mp fun hh => hk (Or.inl hh)
            have h2 : token = apiToken := Classical.not_not.mp fun hh => hk (Or.inr hh)
            rw [h1, h2]
            rfl
  unfold handle
  rcases key with e | e <;> rw [e] <;> dsimp only
  · exact ⟨fun h => h, Or.inl rfl, rfl⟩
  · exact ⟨fun h => h, Or.inr rfl, rfl⟩

/-- C110: the proxy that the gateway starts is let in: with the token it is given it gets the table, and is watching
unless it is told that it has to fetch the table first. -/
theorem C110_proxy_let_in (apiToken : Str) (s : State) (last : Nat) :
    (handle apiToken s (proxyReq apiToken false last)).2 = .table s.srv.table.1 s.srv.table.2 ∧
    ((handle apiToken s (proxyReq apiToken true last)).2 = .gone ∨
      (handle apiToken s (proxyReq apiToken true last)).2 = .stream s.conns.length) := by
  have hc : checkAuth apiToken (some ("token ".toList ++ apiToken)) = none := by
    have hs : split1 ' ' ("token ".toList ++ apiToken) = some ("token".toList, apiToken) :=
      split1_append ' ' "token".toList apiToken (by decide)
    have hsh : "token ".toList ++ apiToken = 't' :: ("oken ".toList ++ apiToken) := rfl
    rw [hsh] at hs ⊢
    unfold checkAuth
    dsimp only
    rw [hs]
    dsimp only
    rw [if_neg (by simp)]
  refine ⟨?_, ?_⟩
  · unfold handle proxyReq
    dsimp only
    rw [hc]
    rfl
  · unfold handle proxyReq
    dsimp only
    rw [hc]
    dsimp only
    rw [if_pos rfl]
    cases s.srv.eventsAfter (last : Int) with
    | none => exact Or.inl rfl
    | some es => exact Or.inr rfl

/-! ### Invariants -/

theorem run_snoc (tok : Str) (cfg : Config) (url : Str) (ops : List Op) (o : Op) :
    run tok cfg url (ops ++ [o]) = (run tok cfg url ops).step tok cfg o := by
  unfold run; rw [List.foldl_append]; rfl

theorem callsOf_snoc (ops : List Op) (o : Op) :
    callsOf (ops ++ [o]) = callsOf ops ++ (match o with | .call c => [c] | _ => []) := by
  unfold callsOf
  rw [List.filterMap_append]
  cases o <;> rfl

/-- What a watcher is owed. -/
def owed (full : List Event) (c : Conn) : List Event := full.drop (min c.last.toNat c.seen)

structure ConnInv (full : List Event) (c : Conn) : Prop where
  seen : c.seen ≤ full.length
  live : c.phase ≠ .ended → c.sent.flatten ++ c.queue.flatten = owed full c
  pre : c.sent.flatten <+: owed full c

theorem owed_snoc (full more : List Event) (c : Conn) (h : c.seen ≤ full.length) :
    owed (full ++ more) c = owed full c ++ more := by
  unfold owed
  rw [List.drop_append_of_le_length (by omega)]

theorem ConnInv.push {full : List Event} {c : Conn} (h : ConnInv full c) (e : Event) : ConnInv (full ++ [e]) (c.push e) := by
  have hs : c.seen ≤ (full ++ [e]).length := by rw [List.length_append]; have := h.seen; omega
  unfold Conn.push
  cases hp : c.phase with
  | ended =>
    refine ⟨hs, fun h' => absurd hp h', ?_⟩
    rw [owed_snoc _ _ _ h.seen]
    exact h.pre.trans (List.prefix_append _ _)
  | preparing =>
    refine ⟨hs, fun _ => ?_, ?_⟩
    · have := h.live (by rw [hp]; decide)
      show c.sent.flatten ++ (c.queue ++ [[e]]).flatten = owed (full ++ [e]) c
      rw [owed_snoc _ _ _ h.seen, ← this]
      simp
    · show c.sent.flatten <+: owed (full ++ [e]) c
      rw [owed_snoc _ _ _ h.seen]
      exact h.pre.trans (List.prefix_append _ _)
  | streaming =>
    refine ⟨hs, fun _ => ?_, ?_⟩
    · have := h.live (by rw [hp]; decide)
      show c.sent.flatten ++ (c.queue ++ [[e]]).flatten = owed (full ++ [e]) c
      rw [owed_snoc _ _ _ h.seen, ← this]
      simp
    · show c.sent.flatten <+: owed (full ++ [e]) c
      rw [owed_snoc _ _ _ h.seen]
      exact h.pre.trans (List.prefix_append _ _)

theorem ConnInv.finish {full : List Event} {c : Conn} (h : ConnInv full c) : ConnInv full c.finish :=
  ⟨h.seen, fun h' => absurd rfl h', h.pre⟩

theorem ConnInv.enter {full : List Event} {c : Conn} (h : ConnInv full c) (b : Bool) : ConnInv full (c.enter b) := by
  unfold Conn.enter
  cases hp : c.phase with
  | preparing =>
    dsimp only
    by_cases hb : b = true
    · rw [if_pos hb]; exact h.finish
    · rw [if_neg hb]; exact ⟨h.seen, fun _ => h.live (by rw [hp]; decide), h.pre⟩
  | streaming => exact h
  | ended => exact h

theorem ConnInv.write {full : List Event} {c : Conn} (h : ConnInv full c) : ConnInv full c.write := by
  unfold Conn.write
  cases hp : c.phase with
  | preparing => exact h
  | ended => exact h
  | streaming =>
    cases hq : c.queue with
    | nil => exact h
    | cons b q =>
      have := h.live (by rw [hp]; decide)
      rw [hq] at this
      have e : (c.sent ++ [b]).flatten ++ q.flatten = owed full c := by
        rw [← this]; simp
      exact ⟨h.seen, fun _ => e, ⟨q.flatten, e⟩⟩

theorem ConnInv.cancel {full : List Event} {c : Conn} (h : ConnInv full c) : ConnInv full c.cancel := by
  unfold Conn.cancel
  cases hp : c.phase with
  | streaming => exact h.finish
  | preparing => exact h
  | ended => exact h

theorem modify_nil (f : Conn → Conn) (i : Nat) : modify f i [] = [] := by unfold modify; rfl

theorem modify_get (f : Conn → Conn) : ∀ (i : Nat) (l : List Conn) (j : Nat),
    (modify f i l)[j]? = if i = j then l[j]?.map f else l[j]?
  | i, [], j => by rw [modify_nil]; simp
  | 0, c :: cs, 0 => by simp [modify]
  | 0, c :: cs, j + 1 => by simp [modify]
  | i + 1, c :: cs, 0 => by simp [modify]
  | i + 1, c :: cs, j + 1 => by
    have := modify_get f i cs j
    simp only [modify, List.getElem?_cons_succ]
    rw [this]
    by_cases h : i = j
    · rw [if_pos h, if_pos (by omega)]
    · rw [if_neg h, if_neg (by omega)]

theorem mem_modify {f : Conn → Conn} {c : Conn} {i : Nat} {l : List Conn} (h : c ∈ modify f i l) :
    c ∈ l ∨ ∃ d ∈ l, c = f d := by
  obtain ⟨j, hj⟩ := List.getElem?_of_mem h
  rw [modify_get] at hj
  by_cases e : i = j
  · rw [if_pos e] at hj
    cases hl : l[j]? with
    | none => rw [hl] at hj; cases hj
    | some d =>
      rw [hl] at hj
      injection hj with hj
      exact Or.inr ⟨d, List.mem_of_getElem? hl, hj.symm⟩
  · rw [if_neg e] at hj
    exact Or.inl (List.mem_of_getElem? hj)

structure Inv (st : Server × List Event) (s : State) : Prop where
  srv : s.srv = st.1
  log : LogInv st.2 s.srv
  conns : ∀ c ∈ s.conns, ConnInv st.2 c
  stopped : s.cancelled = true → ∀ c ∈ s.conns, c.phase ≠ .streaming

theorem push_phase (e : Event) (c : Conn) : (c.push e).phase = c.phase := by
  unfold Conn.push
  cases hp : c.phase <;> first | rfl | exact hp

theorem write_phase (c : Conn) : c.write.phase = c.phase := by
  unfold Conn.write
  cases hp : c.phase with
  | preparing => exact hp
  | ended => exact hp
  | streaming => cases hq : c.queue with
    | nil => exact hp
    | cons b q => rfl

theorem enter_phase (c : Conn) (h : c.phase ≠ .streaming) : (c.enter true).phase ≠ .streaming := by
  unfold Conn.enter
  cases hp : c.phase with
  | preparing => intro e; cases e
  | streaming => exact absurd hp h
  | ended => rw [hp]; decide

theorem cancel_phase (c : Conn) : c.cancel.phase ≠ .streaming := by
  unfold Conn.cancel
  cases hp : c.phase with
  | streaming => intro e; cases e
  | preparing => rw [hp]; decide
  | ended => rw [hp]; decide

theorem handle_cases (tok : Str) (s : State) (r : Req) :
    (handle tok s r).1 = s ∨ ∃ last es, r.lastId = some last ∧ s.srv.eventsAfter last = some es ∧
      (handle tok s r).1 = { srv := s.srv, conns := s.conns ++ [Conn.new es last (s.srv.nextId - 1)], cancelled := s.cancelled } ∧
      (handle tok s r).2 = .stream s.conns.length := by
  unfold handle
  cases checkAuth tok r.auth with
  | some resp => exact Or.inl rfl
  | none =>
    dsimp only
    by_cases hw : r.watch = true
    · rw [if_pos hw]
      cases hl : r.lastId with
      | none => exact Or.inl rfl
      | some last =>
        dsimp only
        cases he : s.srv.eventsAfter last with
        | none => exact Or.inl rfl
        | some es => exact Or.inr ⟨last, es, rfl, he, rfl, rfl⟩
    · rw [if_neg hw]; exact Or.inl rfl

theorem new_inv {full : List Event} {srv : Server} (h : LogInv full srv) (last : Int) (es : List Event)
    (he : srv.eventsAfter last = some es) : ConnInv full (Conn.new es last (srv.nextId - 1)) := by
  have hn : srv.nextId - 1 = full.length := by rw [h.next]; omega
  have ho : es = full.drop (min last.toNat full.length) := by
    unfold Server.eventsAfter at he
    dsimp only at he
    by_cases hi : last - (srv.offset : Int) ≥ 0
    · rw [if_pos hi] at he
      injection he with he
      rw [← he, h.evs, List.drop_drop]
      by_cases hle : last.toNat ≤ full.length
      · rw [Nat.min_eq_left hle]; congr 1; omega
      · rw [Nat.min_eq_right (by omega), List.drop_of_length_le (by omega), List.drop_of_length_le (Nat.le_refl _)]
    · rw [if_neg hi] at he; cases he
  refine ⟨by show srv.nextId - 1 ≤ _; omega, fun _ => ?_, ?_⟩
  · show [].flatten ++ (if es = [] then [] else [es]).flatten = full.drop (min last.toNat (srv.nextId - 1))
    rw [hn, ← ho]
    by_cases hes : es = []
    · rw [if_pos hes, hes]; rfl
    · rw [if_neg hes]; simp
  · exact List.nil_prefix

theorem inv_run (tok : Str) (cfg : Config) (url : Str) (ops : List Op) :
    Inv (logOf cfg url (callsOf ops)) (run tok cfg url ops) := by
  induction ops using snoc_induction with
  | nil => exact ⟨rfl, logOf_inv cfg url [], fun c hc => (by cases hc), fun h => (by cases h)⟩
  | snoc ops o ih =>
    rw [run_snoc, callsOf_snoc]
    revert ih
    generalize run tok cfg url ops = s
    intro ih
    have keep : ∀ f : Conn → Conn, (∀ full c, ConnInv full c → ConnInv full (f c)) →
        (s.cancelled = true → ∀ c, c.phase ≠ .streaming → (f c).phase ≠ .streaming) → ∀ i,
        Inv (logOf cfg url (callsOf ops)) { srv := s.srv, conns := modify f i s.conns, cancelled := s.cancelled } := by
      intro f hf hp i
      refine ⟨ih.srv, ih.log, ?_, ?_⟩
      · intro c hc
        rcases mem_modify hc with h1 | ⟨d, h1, rfl⟩
        · exact ih.conns c h1
        · exact hf _ d (ih.conns d h1)
      · intro hca c hc
        rcases mem_modify hc with h1 | ⟨d, h1, rfl⟩
        · exact ih.stopped hca c h1
        · exact hp hca d (ih.stopped hca d h1)
    cases o with
    | call c =>
      dsimp only
      rw [logOf_snoc]
      have hsrv := ih.srv
      have hlog := ih.log
      revert ih
      generalize logOf cfg url (callsOf ops) = st at *
      intro ih
      have push : ∀ srv' e, LogInv (st.2 ++ [e]) srv' → Inv (srv', st.2 ++ [e]) (broadcast srv' (some e) s) := by
        intro srv' e hl
        refine ⟨rfl, hl, ?_, ?_⟩
        · intro c hc
          obtain ⟨d, hd, rfl⟩ := List.mem_map.mp hc
          exact (ih.conns d hd).push e
        · intro hca c hc
          obtain ⟨d, hd, rfl⟩ := List.mem_map.mp hc
          rw [push_phase]; exact ih.stopped hca d hd
      cases c with
      | add k sn p t =>
        unfold callStep State.step
        dsimp only
        rw [← hsrv]
        rcases addRoute_cases (cfg := cfg) hlog k sn p t with h | ⟨k', t', s', -, -, h3, -, h5⟩
        · rw [h]; exact ih
        · rw [h3]; exact push _ _ h5
      | remove k sn p =>
        unfold callStep State.step
        dsimp only
        rw [← hsrv]
        rcases removeRoute_cases (cfg := cfg) hlog k sn p with h | h | ⟨k', s', -, h3, -, h5⟩
        · rw [h]; exact ih
        · rw [h]
          dsimp only [Option.toList]
          rw [List.append_nil]
          exact ⟨rfl, hlog, ih.conns, ih.stopped⟩
        · rw [h3]; exact push _ _ h5
    | request r =>
      dsimp only
      rw [List.append_nil]
      show Inv _ (handle tok s r).1
      rcases handle_cases tok s r with e | ⟨last, es, _, he, e, _⟩
      · rw [e]; exact ih
      · rw [e]
        refine ⟨ih.srv, ih.log, ?_, ?_⟩
        · intro c hc
          rcases List.mem_append.mp hc with h1 | h1
          · exact ih.conns c h1
          · rw [List.mem_singleton.mp h1]; exact new_inv ih.log last es he
        · intro hca c hc
          rcases List.mem_append.mp hc with h1 | h1
          · exact ih.stopped hca c h1
          · rw [List.mem_singleton.mp h1]; intro e'; cases e'
    | prepared i =>
      dsimp only
      rw [List.append_nil]
      exact keep (Conn.enter s.cancelled) (fun full c h => h.enter _) (fun hca c h => by rw [hca]; exact enter_phase c h) i
    | write i =>
      dsimp only
      rw [List.append_nil]
      exact keep Conn.write (fun full c h => h.write) (fun _ c h => by rw [write_phase]; exact h) i
    | broken i =>
      dsimp only
      rw [List.append_nil]
      exact keep Conn.finish (fun full c h => h.finish) (fun _ c h e => by cases e) i
    | shutdown =>
      dsimp only
      rw [List.append_nil]
      unfold State.step
      dsimp only
      by_cases hc : s.cancelled = true
      · rw [if_pos hc]; exact ih
      · rw [if_neg hc]
        refine ⟨ih.srv, ih.log, ?_, ?_⟩
        · intro c hc
          obtain ⟨d, hd, rfl⟩ := List.mem_map.mp hc
          exact (ih.conns d hd).cancel
        · intro _ c hc
          obtain ⟨d, hd, rfl⟩ := List.mem_map.mp hc
          exact cancel_phase d

/-! ### C111 -/

/-- C111: whatever else happens and however many proxies watch, what is written to a proxy that asked for the events
after number `last_id` (one that the gateway had issued) is a part of the events after that number, from the first on, in
order and without gap or repetition; and as long as the connection is there, the rest is waiting for it. -/
theorem C111_each_watcher (tok : Str) (cfg : Config) (url : Str) (ops : List Op) (c : Conn)
    (hc : c ∈ (run tok cfg url ops).conns) (hl : c.last ≤ c.seen) :
    c.sent.flatten <+: (log cfg url ops).drop c.last.toNat ∧
      (c.phase ≠ .ended → c.sent.flatten ++ c.queue.flatten = (log cfg url ops).drop c.last.toNat) := by
  have h := (inv_run tok cfg url ops).conns c hc
  have e : owed (logOf cfg url (callsOf ops)).2 c = (log cfg url ops).drop c.last.toNat := by
    unfold owed log
    rw [Nat.min_eq_left (by omega)]
  rw [← e]
  exact ⟨h.pre, h.live⟩

/-- C111: a proxy that has fetched the table with number `id` and then watches from there misses no event in between:
the number is that of an event the gateway has issued, so `C111_each_watcher` applies; and a request is turned down
only with 410, when events it needs are gone. -/
theorem C111_from_table (tok : Str) (cfg : Config) (url : Str) (ops more : List Op) (id : Nat) (routes : List Route)
    (h : (handle tok (run tok cfg url ops) (proxyReq tok false 0)).2 = .table routes id) :
    id = (log cfg url ops).length ∧
    ∀ c, (run tok cfg url (ops ++ more ++ [.request (proxyReq tok true id)])).conns =
        (run tok cfg url (ops ++ more)).conns ++ [c] →
      c.last ≤ c.seen ∧ c.queue.flatten = (log cfg url (ops ++ more)).drop id ∧ c.sent = [] := by
  have hid : id = (log cfg url ops).length := by
    rw [(C110_proxy_let_in tok _ 0).1] at h
    injection h with _ h
    rw [← h]
    have := (inv_run tok cfg url ops)
    have hn := this.log.next
    show (run tok cfg url ops).srv.nextId - 1 = (logOf cfg url (callsOf ops)).2.length
    rw [hn]; omega
  refine ⟨hid, ?_⟩
  intro c hc
  rw [run_snoc] at hc
  have hi := inv_run tok cfg url (ops ++ more)
  have hmono : ∀ more, (log cfg url ops).length ≤ (log cfg url (ops ++ more)).length := by
    intro more
    induction more using snoc_induction with
    | nil => rw [List.append_nil]; exact Nat.le_refl _
    | snoc l o ih =>
      rw [← List.append_assoc]
      refine Nat.le_trans ih ?_
      unfold log
      rw [callsOf_snoc]
      cases o with
      | call cl =>
        dsimp only
        rw [logOf_snoc]
        generalize logOf cfg url (callsOf (ops ++ l)) = st
        unfold callStep
        cases cl with
        | add k sn p t =>
          dsimp only
          cases st.1.addRoute cfg k sn p t with
          | none => exact Nat.le_refl _
          | some x => dsimp only; rw [List.length_append]; omega
        | remove k sn p =>
          dsimp only
          cases st.1.removeRoute cfg k sn p with
          | none => exact Nat.le_refl _
          | some x => dsimp only; rw [List.length_append]; omega
      | request r => rw [List.append_nil]; exact Nat.le_refl _
      | prepared i => rw [List.append_nil]; exact Nat.le_refl _
      | write i => rw [List.append_nil]; exact Nat.le_refl _
      | broken i => rw [List.append_nil]; exact Nat.le_refl _
      | shutdown => rw [List.append_nil]; exact Nat.le_refl _
  have hm := hmono more
  change (handle tok (run tok cfg url (ops ++ more)) (proxyReq tok true id)).1.conns = _ at hc
  rcases handle_cases tok (run tok cfg url (ops ++ more)) (proxyReq tok true id) with e | ⟨last, es, hl, he, e, _⟩
  · rw [e] at hc
    have := congrArg List.length hc
    rw [List.length_append] at this
    simp at this
  · rw [e] at hc
    have hcn := List.append_cancel_left hc
    injection hcn with hcn _
    have hlast : last = (id : Int) := by injection hl with hl; exact hl.symm
    have hinv := new_inv hi.log last es he
    rw [hcn] at hinv
    have hseen : c.seen = (log cfg url (ops ++ more)).length := by
      rw [← hcn]
      show (run tok cfg url (ops ++ more)).srv.nextId - 1 = _
      have hn := hi.log.next
      rw [hn]
      show (logOf cfg url (callsOf (ops ++ more))).2.length + 1 - 1 = (logOf cfg url (callsOf (ops ++ more))).2.length
      omega
    have hcl : c.last = (id : Int) := by rw [← hcn]; exact hlast
    have hsent : c.sent = [] := by rw [← hcn]; rfl
    have hph : c.phase ≠ .ended := by rw [← hcn]; intro e'; cases e'
    refine ⟨by rw [hcl, hseen]; omega, ?_, hsent⟩
    have := hinv.live hph
    rw [hsent] at this
    have ho : owed (logOf cfg url (callsOf (ops ++ more))).2 c = (log cfg url (ops ++ more)).drop id := by
      unfold owed log
      rw [hcl, hseen, Nat.min_eq_left (by omega)]
      rfl
    rw [ho] at this
    simpa using this

/-! ### C112 -/

/-- What has been written: one list of batches for each watching request. -/
def written (s : State) : List (List (List Event)) := s.conns.map (·.sent)

theorem map_modify (f : Conn → Conn) : ∀ (i : Nat) (l : List Conn), (∀ x ∈ l, (f x).sent = x.sent) →
    (modify f i l).map (·.sent) = l.map (·.sent)
  | i, [], _ => by rw [modify_nil]
  | 0, c :: cs, h => by
    show (f c).sent :: cs.map (·.sent) = c.sent :: cs.map (·.sent)
    rw [h c List.mem_cons_self]
  | i + 1, c :: cs, h => by
    show c.sent :: (modify f i cs).map (·.sent) = c.sent :: cs.map (·.sent)
    rw [map_modify f i cs fun x hx => h x (List.mem_cons_of_mem _ hx)]

theorem push_sent (e : Event) (x : Conn) : (x.push e).sent = x.sent := by
  unfold Conn.push
  cases x.phase <;> rfl

theorem broadcast_written (srv : Server) (e : Option Event) (s : State) : written (broadcast srv e s) = written s := by
  cases e with
  | none => rfl
  | some e =>
    show (s.conns.map (Conn.push e)).map (·.sent) = s.conns.map (·.sent)
    rw [List.map_map]
    exact List.map_congr_left fun x _ => push_sent e x

theorem broadcast_cancelled (srv : Server) (e : Option Event) (s : State) : (broadcast srv e s).cancelled = s.cancelled := by
  cases e <;> rfl

theorem step_stopped (tok : Str) (cfg : Config) (s : State) (o : Op) (hc : s.cancelled = true)
    (hn : ∀ c ∈ s.conns, c.phase ≠ .streaming) :
    (s.step tok cfg o).cancelled = true ∧ ∃ k, written (s.step tok cfg o) = written s ++ List.replicate k [] := by
  have same : ∀ s' : State, s'.cancelled = true → written s' = written s →
      s'.cancelled = true ∧ ∃ k, written s' = written s ++ List.replicate k [] :=
    fun s' h1 h2 => ⟨h1, 0, by rw [h2, List.replicate_zero, List.append_nil]⟩
  cases o with
  | call cl =>
    cases cl with
    | add k sn p t =>
      unfold State.step; dsimp only
      cases s.srv.addRoute cfg k sn p t with
      | none => exact same s hc rfl
      | some x => exact same _ (by rw [broadcast_cancelled]; exact hc) (broadcast_written _ _ _)
    | remove k sn p =>
      unfold State.step; dsimp only
      cases s.srv.removeRoute cfg k sn p with
      | none => exact same s hc rfl
      | some x => exact same _ (by rw [broadcast_cancelled]; exact hc) (broadcast_written _ _ _)
  | request r =>
    show (handle tok s r).1.cancelled = true ∧ ∃ k, written (handle tok s r).1 = written s ++ List.replicate k []
    rcases handle_cases tok s r with e | ⟨last, es, _, he, e, _⟩
    · rw [e]; exact same s hc rfl
    · rw [e]
      refine ⟨hc, 1, ?_⟩
      show (s.conns ++ [Conn.new es last (s.srv.nextId - 1)]).map (·.sent) = s.conns.map (·.sent) ++ [[]]
      rw [List.map_append]; rfl
  | prepared i =>
    refine same _ hc (map_modify _ i _ fun x _ => ?_)
    unfold Conn.enter
    cases x.phase with
    | preparing => dsimp only; by_cases hb : s.cancelled = true
                   · rw [if_pos hb]; rfl
                   · rw [if_neg hb]
    | streaming => rfl
    | ended => rfl
  | write i =>
    refine same _ hc (map_modify _ i _ fun x hx => ?_)
    unfold Conn.write
    cases hp : x.phase with
    | preparing => rfl
    | streaming => exact absurd hp (hn x hx)
    | ended => rfl
  | broken i => exact same _ hc (map_modify _ i _ fun x _ => rfl)
  | shutdown => unfold State.step; dsimp only; rw [if_pos hc]; exact same s hc rfl

/-- C112: when the gateway shuts down, every request that is being told of changes ends, so that the shutdown does not
have to wait for proxies that watch for ever; no request that is still to come gets to this point; and nothing more is
written to any of them, whatever happens then. -/
theorem C112_shutdown (tok : Str) (cfg : Config) (url : Str) (ops more : List Op) :
    (∀ c ∈ (run tok cfg url (ops ++ .shutdown :: more)).conns, c.phase ≠ .streaming) ∧
    ∃ k, written (run tok cfg url (ops ++ .shutdown :: more)) = written (run tok cfg url ops) ++ List.replicate k [] := by
  have key : (run tok cfg url (ops ++ .shutdown :: more)).cancelled = true ∧
      ∃ k, written (run tok cfg url (ops ++ .shutdown :: more)) =
        written (run tok cfg url ops) ++ List.replicate k [] := by
    induction more using snoc_induction with
    | nil =>
      rw [run_snoc]
      unfold State.step
      dsimp only
      by_cases h : (run tok cfg url ops).cancelled = true
      · rw [if_pos h]; exact ⟨h, 0, by rw [List.replicate_zero, List.append_nil]⟩
      · rw [if_neg h]
        refine ⟨rfl, 0, ?_⟩
        rw [List.replicate_zero, List.append_nil]
        show ((run tok cfg url ops).conns.map Conn.cancel).map (·.sent) = _
        rw [List.map_map]
        refine List.map_congr_left fun x _ => ?_
        show x.cancel.sent = x.sent
        unfold Conn.cancel
        cases x.phase <;> rfl
    | snoc l o ih =>
      have e : ops ++ Op.shutdown :: (l ++ [o]) = (ops ++ Op.shutdown :: l) ++ [o] := by simp
      rw [e, run_snoc]
      obtain ⟨h1, k, h2⟩ := ih
      obtain ⟨h3, j, h4⟩ := step_stopped tok cfg _ o h1 ((inv_run tok cfg url _).stopped h1)
      refine ⟨h3, k + j, ?_⟩
      rw [h4, h2, List.append_assoc, List.replicate_append_replicate]
  exact ⟨(inv_run tok cfg url _).stopped key.1, key.2⟩

/-- C112: a request that was being set up at the time of the shutdown, or comes later, ends as soon as its headers are
sent. -/
theorem C112_late_ends (tok : Str) (cfg : Config) (url : Str) (ops more : List Op) (i : Nat) (c : Conn)
    (h : (run tok cfg url (ops ++ .shutdown :: more ++ [.prepared i])).conns[i]? = some c) : c.phase = .ended := by
  have hall := (C112_shutdown tok cfg url ops (more ++ [.prepared i])).1 c
    (by rw [show ops ++ Op.shutdown :: (more ++ [.prepared i]) = ops ++ .shutdown :: more ++ [.prepared i] by simp]
        exact List.mem_of_getElem? h)
  rw [run_snoc] at h
  change (modify (Conn.enter (run tok cfg url (ops ++ .shutdown :: more)).cancelled) i
    (run tok cfg url (ops ++ .shutdown :: more)).conns)[i]? = some c at h
  rw [modify_get, if_pos rfl] at h
  cases hx : (run tok cfg url (ops ++ .shutdown :: more)).conns[i]? with
  | none => rw [hx] at h; cases h
  | some x =>
    rw [hx] at h
    injection h with h
    cases hp : c.phase with
    | ended => rfl
    | streaming => exact absurd hp hall
    | preparing =>
      exfalso
      rw [← h] at hp
      unfold Conn.enter at hp
      cases hq : x.phase with
      | preparing =>
        rw [hq] at hp
        dsimp only at hp
        by_cases hb : (run tok cfg url (ops ++ .shutdown :: more)).cancelled = true
        · rw [if_pos hb] at hp; cases hp
        · rw [if_neg hb] at hp; cases hp
      | streaming => rw [hq] at hp; dsimp only at hp; rw [hq] at hp; cases hp
      | ended => rw [hq] at hp; dsimp only at hp; rw [hq] at hp; cases hp

/-! ### The hypotheses are met -/

/-- Two proxies watch from different points, one of them from before a change; the second connection breaks, a third
request comes during the shutdown. -/
def demoOps : List Op :=
  [.request (proxyReq ['s'] true 1), .call (.add (some .sni) (some ['a']) none (some ['x'])), .prepared 0,
   .request (proxyReq ['s'] true 1), .write 0, .prepared 1, .call (.remove (some .sni) (some ['a']) none), .write 1,
   .broken 1, .request (proxyReq ['s'] true 3), .shutdown, .write 0, .prepared 2]

example : let s := run ['s'] ⟨10, []⟩ ['g'] (demoOps.take 9)
    s.conns.map (fun c => (c.phase, c.sent.map (·.map (·.id)), c.queue.map (·.map (·.id)), c.last, c.seen)) =
      [(.streaming, [[2]], [[3]], 1, 1), (.ended, [[2]], [[3]], 1, 2)] ∧
    (log ⟨10, []⟩ ['g'] (demoOps.take 9)).map (·.id) = [1, 2, 3] := by
  decide +kernel

/-- After the shutdown the first watcher is not sent the event that was waiting for it, and the third ends. -/
example : (run ['s'] ⟨10, []⟩ ['g'] demoOps).conns.map (fun c => (c.phase, c.sent.map (·.map (·.id)))) =
    [(.ended, [[2]]), (.ended, [[2]]), (.ended, [])] := by
  decide +kernel

/-- Wrong tokens, and headers of another form. -/
example : (handle ['s'] (State.init ⟨10, []⟩ ['g']) ⟨some "token t".toList, false, some 0⟩).2 = .unauthorized ∧
    (handle ['s'] (State.init ⟨10, []⟩ ['g']) ⟨some "token".toList, false, some 0⟩).2 = .failed ∧
    (handle ['s'] (State.init ⟨10, []⟩ ['g']) ⟨none, true, some 0⟩).2 = .unauthorized ∧
    (handle ['s'] (State.init ⟨10, []⟩ ['g']) ⟨some "token s".toList, true, none⟩).2 = .invalid ∧
    (handle ['s'] (run ['s'] ⟨2, []⟩ ['g'] [.call (.add (some .sni) (some ['a']) none (some ['x'])),
      .call (.add (some .sni) (some ['b']) none (some ['x']))]) ⟨some "token s".toList, true, some 0⟩).2 = .gone := by
  decide +kernel

end Verif.Watch

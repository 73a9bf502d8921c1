import Verif.Client.Conn
/-
C171: the connections of a client.
-/
namespace Verif.Client.Conn

/-- A session was made and is not closed. -/
def Client.isOpen (c : Client) (s : Nat) : Prop := s < c.made ∧ s ∉ c.closed

instance (c : Client) (s : Nat) : Decidable (c.isOpen s) := inferInstanceAs (Decidable (_ ∧ _))

/-- Which task is closing the client, as far as the calls tell. -/
def busy (b : Option Nat) : Op → Option Nat
  | .close t => some (b.getD t)
  | .closed t => if b = some t then none else b
  | .cancel t => if b = some t then none else b
  | _ => b

/-- Closes come one at a time: none is begun while another one waits. -/
def OneClose : Option Nat → List Op → Prop
  | _, [] => True
  | b, o :: ops => (∀ t, o = .close t → b = none) ∧ OneClose (busy b o) ops

instance OneClose.dec : (b : Option Nat) → (ops : List Op) → Decidable (OneClose b ops)
  | _, [] => .isTrue trivial
  | b, o :: ops =>
    have : Decidable (∀ t, o = .close t → b = none) := by
      cases o with
      | close t => exact decidable_of_iff (b = none) ⟨fun h _ _ => h, fun h => h t rfl⟩
      | _ => exact .isTrue (fun t h => by cases h)
    have := OneClose.dec (busy b o) ops
    inferInstanceAs (Decidable (_ ∧ _))

theorem run_cons (c : Client) (o : Op) (ops : List Op) : c.run (o :: ops) = (c.step o).1.run ops := rfl

theorem run_append (c : Client) (a b : List Op) : c.run (a ++ b) = (c.run a).run b := by
  simp [Client.run]

theorem run_snoc (c : Client) (a : List Op) (o : Op) : c.run (a ++ [o]) = ((c.run a).step o).1 := by
  simp [Client.run]

/-! ### Sessions, whatever happens -/

theorem session_cases (c : Client) :
    (∃ s, c.cur = some s ∧ c.session = (c, s)) ∨
      (c.cur = none ∧ c.session = ({ c with cur := some c.made, made := c.made + 1 }, c.made)) := by
  unfold Client.session
  cases h : c.cur with
  | none => exact Or.inr ⟨rfl, rfl⟩
  | some s => exact Or.inl ⟨s, rfl, rfl⟩

/-- What a step does to the session. -/
inductive Moves (c d : Client) : Prop where
  | same (h1 : d.cur = c.cur) (h2 : d.made = c.made) (h3 : d.closed = c.closed)
  | new (h0 : c.cur = none) (h1 : d.cur = some c.made) (h2 : d.made = c.made + 1) (h3 : d.closed = c.closed)
  | shut (s : Nat) (h0 : c.cur = some s) (h1 : d.cur = some s) (h2 : d.made = c.made) (h3 : d.closed = s :: c.closed)
  | none (h1 : d.cur = none) (h2 : d.made = c.made) (h3 : d.closed = c.closed)

theorem send_same (c : Client) (t s : Nat) (again : Bool) :
    (c.send t s again).1.cur = c.cur ∧ (c.send t s again).1.made = c.made ∧ (c.send t s again).1.closed = c.closed := by
  unfold Client.send; split <;> exact ⟨rfl, rfl, rfl⟩

theorem step_moves (c : Client) (o : Op) : Moves c (c.step o).1 := by
  cases o with
  | request t =>
    simp only [Client.step]
    split
    · exact .same rfl rfl rfl
    · rcases session_cases c with ⟨s, h, e⟩ | ⟨h, e⟩
      · rw [e]; obtain ⟨a, b, d⟩ := send_same c t s false; exact .same a b d
      · rw [e]
        obtain ⟨a, b, d⟩ := send_same { c with cur := some c.made, made := c.made + 1 } t c.made false
        exact .new h a b d
  | answer t login =>
    simp only [Client.step]
    split
    · split
      · rename_i s again _ _
        obtain ⟨a, b, d⟩ := send_same (c.drop t) t s true
        exact .same a b d
      · exact .same rfl rfl rfl
    · exact .same rfl rfl rfl
  | close t =>
    simp only [Client.step]
    split
    · exact .same rfl rfl rfl
    · split
      · exact .same rfl rfl rfl
      · rename_i s hs
        split
        · exact .none rfl rfl rfl
        · exact .shut s hs hs rfl rfl
  | closed t =>
    simp only [Client.step]
    split
    · exact .none rfl rfl rfl
    · exact .same rfl rfl rfl
  | cancel t => exact .same rfl rfl rfl

/-- The session in use and the closed ones were made. -/
theorem were_made (ops : List Op) : ∀ c : Client, (∀ s, c.cur = some s ∨ s ∈ c.closed → s < c.made) →
    ∀ s, (c.run ops).cur = some s ∨ s ∈ (c.run ops).closed → s < (c.run ops).made := by
  induction ops with
  | nil => exact fun c h => h
  | cons o ops ih =>
    intro c h
    rw [run_cons]
    refine ih _ (fun s hs => ?_)
    cases step_moves c o with
    | same h1 h2 h3 => rw [h1, h3] at hs; rw [h2]; exact h s hs
    | new h0 h1 h2 h3 =>
      rw [h1, h3] at hs; rw [h2]
      rcases hs with hs | hs
      · cases hs; omega
      · have := h s (Or.inr hs); omega
    | shut x h0 h1 h2 h3 =>
      rw [h1, h3] at hs; rw [h2]
      rcases hs with hs | hs
      · exact h s (Or.inl (h0.trans hs))
      · rcases List.mem_cons.1 hs with hs | hs
        · exact h s (Or.inl (by rw [h0, hs]))
        · exact h s (Or.inr hs)
    | none h1 h2 h3 =>
      rw [h1, h3] at hs; rw [h2]
      rcases hs with hs | hs
      · cases hs
      · exact h s (Or.inr hs)

/-! ### One close at a time -/

/-- What holds if closes come one at a time: `b` is the task that closes. -/
structure Neat (b : Option Nat) (c : Client) : Prop where
  rest : ∀ s, s < c.made → s ∈ c.closed ∨ c.cur = some s
  one : ∀ t, c.pc t = some .closing → b = some t
  mid : ∀ t, c.pc t = some .closing → ∃ s, c.cur = some s ∧ s ∈ c.closed

theorem pc_wait (c : Client) (t : Nat) (p : Pc) (u : Nat) : (c.wait t p).pc u = if t = u then some p else c.pc u := by
  unfold Client.pc Client.wait
  rw [List.find?_cons]
  by_cases h : t = u
  · subst h; simp
  · have : (t == u) = false := by simpa using h
    simp [this, h]

theorem pc_drop (c : Client) (t u : Nat) : (c.drop t).pc u = if t = u then none else c.pc u := by
  unfold Client.pc Client.drop
  simp only
  induction c.tasks with
  | nil => simp
  | cons x l ih =>
    by_cases h : x.1 = t
    · have h1 : (!(x.1 == t)) = false := by simp [h]
      rw [List.filter_cons_of_neg (by simp [h]), ih]
      by_cases hu : t = u
      · simp [hu]
      · have : (x.1 == u) = false := by simpa [h] using hu
        rw [if_neg hu, if_neg hu, List.find?_cons, this]
    · rw [List.filter_cons_of_pos (by simp [h]), List.find?_cons, List.find?_cons]
      by_cases hu : x.1 = u
      · have h2 : t ≠ u := fun e => h (hu.trans e.symm)
        simp [hu, h2]
      · have : (x.1 == u) = false := by simpa using hu
        rw [this]; simpa using ih

theorem pc_send {c : Client} {t s u : Nat} {again : Bool} (h : (c.send t s again).1.pc u = some .closing) :
    c.pc u = some .closing := by
  unfold Client.send at h
  split at h
  · exact h
  · simp only [pc_wait] at h
    split at h
    · cases h
    · exact h

theorem pc_dropped {c : Client} {t u : Nat} (h : (c.drop t).pc u = some .closing) : c.pc u = some .closing ∧ t ≠ u := by
  rw [pc_drop] at h
  split at h
  · cases h
  · rename_i hn; exact ⟨h, hn⟩

theorem neat_step {b : Option Nat} {c : Client} {o : Op} (h : Neat b c) (ho : ∀ t, o = .close t → b = none) :
    Neat (busy b o) (c.step o).1 := by
  cases o with
  | request t =>
    simp only [Client.step, busy]
    split
    · exact h
    · rcases session_cases c with ⟨s, hs, e⟩ | ⟨hs, e⟩
      · rw [e]
        obtain ⟨e1, e2, e3⟩ := send_same c t s false
        refine ⟨?_, ?_, ?_⟩
        · intro x hx
          simp only [e1, e2, e3] at hx ⊢
          exact h.rest x hx
        · exact fun u hu => h.one u (pc_send hu)
        · intro u hu
          simp only [e1, e3]
          exact h.mid u (pc_send hu)
      · rw [e]
        obtain ⟨e1, e2, e3⟩ := send_same { c with cur := some c.made, made := c.made + 1 } t c.made false
        have hno : ∀ u, c.pc u ≠ some .closing := by
          intro u hu
          obtain ⟨s, h1, -⟩ := h.mid u hu
          rw [hs] at h1; cases h1
        refine ⟨?_, ?_, ?_⟩
        · intro x hx
          simp only [e1, e2, e3] at hx ⊢
          by_cases hxm : x = c.made
          · exact Or.inr (by rw [hxm])
          · rcases h.rest x (by omega) with h1 | h1
            · exact Or.inl h1
            · rw [hs] at h1; cases h1
        · exact fun u hu => absurd (pc_send hu) (hno u)
        · exact fun u hu => absurd (pc_send hu) (hno u)
  | answer t login =>
    simp only [Client.step, busy]
    split
    · rename_i s again _
      split
      · obtain ⟨e1, e2, e3⟩ := send_same (c.drop t) t s true
        refine ⟨?_, ?_, ?_⟩
        · intro x hx
          simp only [e1, e2, e3] at hx ⊢
          exact h.rest x hx
        · exact fun u hu => h.one u (pc_dropped (pc_send hu)).1
        · intro u hu
          simp only [e1, e3]
          exact h.mid u (pc_dropped (pc_send hu)).1
      · exact ⟨h.rest, fun u hu => h.one u (pc_dropped hu).1, fun u hu => h.mid u (pc_dropped hu).1⟩
    · exact h
  | close t =>
    have hb := ho t rfl
    subst hb
    have hno : ∀ u, c.pc u ≠ some .closing := fun u hu => by cases h.one u hu
    simp only [Client.step, busy, Option.getD_none]
    have keep : Neat (some t) c := ⟨h.rest, fun u hu => absurd hu (hno u), fun u hu => absurd hu (hno u)⟩
    split
    · exact keep
    · split
      · exact keep
      · rename_i s hs
        split
        · rename_i hcl
          refine ⟨fun x hx => ?_, fun u hu => absurd hu (hno u), fun u hu => absurd hu (hno u)⟩
          rcases h.rest x hx with h1 | h1
          · exact Or.inl h1
          · rw [hs] at h1; cases h1; exact Or.inl hcl
        · refine ⟨fun x hx => ?_, fun u hu => ?_, fun u hu => ⟨s, hs, List.mem_cons_self⟩⟩
          · rcases h.rest x hx with h1 | h1
            · exact Or.inl (List.mem_cons_of_mem _ h1)
            · exact Or.inr h1
          · simp only [pc_wait] at hu
            split at hu
            · rename_i e; rw [e]
            · exact absurd hu (hno u)
  | closed t =>
    by_cases hp : c.pc t = some .closing
    · have hb := h.one t hp
      obtain ⟨s, hs, hcl⟩ := h.mid t hp
      have hno : ∀ u, (c.drop t).pc u ≠ some .closing := by
        intro u hu
        obtain ⟨h1, h2⟩ := pc_dropped hu
        have := h.one u h1
        rw [hb] at this
        exact h2 (Option.some.inj this)
      simp only [Client.step, hp]
      refine ⟨fun x hx => ?_, fun u hu => absurd hu (hno u), fun u hu => absurd hu (hno u)⟩
      rcases h.rest x hx with h1 | h1
      · exact Or.inl h1
      · rw [hs] at h1; cases h1; exact Or.inl hcl
    · have e : (c.step (.closed t)).1 = c := by
        simp only [Client.step]
      rw [e]
      refine ⟨h.rest, fun u hu => ?_, h.mid⟩
      have h1 := h.one u hu
      simp only [busy]
      rw [h1, if_neg (fun x => ?_)]
      cases Option.some.inj x
      exact hp hu
  | cancel t =>
    simp only [Client.step, busy]
    refine ⟨h.rest, fun u hu => ?_, fun u hu => h.mid u (pc_dropped hu).1⟩
    obtain ⟨h1, h2⟩ := pc_dropped hu
    rw [h.one u h1, if_neg (fun e => h2 (Option.some.inj e).symm)]

theorem neat_run (ops : List Op) : ∀ (b : Option Nat) (c : Client), Neat b c → OneClose b ops → ∃ b', Neat b' (c.run ops) := by
  induction ops with
  | nil => exact fun b c h _ => ⟨b, h⟩
  | cons o ops ih =>
    intro b c h ho
    exact ih _ _ (neat_step h ho.1) ho.2

theorem neat_init : Neat none Client.init :=
  ⟨fun s hs => absurd hs (Nat.not_lt_zero s), fun t h => (by cases h), fun t h => (by cases h)⟩

/-- C171, the part that holds. If closes of a client come one at a time, then, whatever its requests do meanwhile, at most
one session is open at any time, the one that its next request uses; and none once the client is closed. Missing: closes
that overlap, see `C171_leak_violated`. -/
theorem C171_one_open_partial (ops : List Op) (h : OneClose none ops) :
    (∀ s, (Client.init.run ops).isOpen s → (Client.init.run ops).cur = some s) ∧
    ((Client.init.run ops).cur = none → ∀ s, ¬ (Client.init.run ops).isOpen s) := by
  obtain ⟨b, hn⟩ := neat_run ops none _ neat_init h
  have key : ∀ s, (Client.init.run ops).isOpen s → (Client.init.run ops).cur = some s :=
    fun s hs => (hn.rest s hs.1).resolve_left hs.2
  exact ⟨key, fun h0 s hs => by have := key s hs; rw [h0] at this; cases this⟩

/-- C171, close. A close of which nothing else gets in the way leaves no session open: when a task is about to wait for it,
or goes on at once, all sessions are closed. -/
theorem C171_close_partial (ops : List Op) (t : Nat) (h : OneClose none (ops ++ [.close t])) (ht : (Client.init.run ops).pc t = none) :
    ∀ s, ¬ (Client.init.run (ops ++ [.close t])).isOpen s := by
  have one := C171_one_open_partial (ops ++ [.close t]) h
  intro s hs
  have hc := one.1 s hs
  rw [run_snoc] at hc hs
  simp only [Client.step, ht] at hc hs
  cases e : (Client.init.run ops).cur with
  | none => rw [e] at hc; simp only at hc; rw [e] at hc; cases hc
  | some x =>
    rw [e] at hc hs
    simp only at hc hs
    by_cases hx : x ∈ (Client.init.run ops).closed
    · rw [if_pos hx] at hc; cases hc
    · rw [if_neg hx] at hc hs
      have h0 : some x = some s := hc
      cases h0
      exact hs.2 List.mem_cons_self

/-- Two requests, the first answered by a request to log in, a close, and another request. -/
def usual : List Op := [.request 1, .answer 1 true, .request 2, .answer 1 false, .answer 2 false, .close 3, .closed 3, .request 4]

example : OneClose none usual ∧ (Client.init.run usual).isOpen 1 ∧ ¬ (Client.init.run usual).isOpen 0 ∧
    OneClose none (usual ++ [.close 5]) ∧ (Client.init.run usual).pc 5 = none := by decide +kernel

/-- Two tasks close the client at the same time, and a third one uses it. -/
def overlap : List Op := [.request 1, .answer 1 false, .close 2, .close 3, .request 4, .answer 4 false, .closed 2]

theorem lost (s : Nat) (ops : List Op) : ∀ c : Client, s < c.made → c.cur ≠ some s → s ∉ c.closed → (c.run ops).isOpen s := by
  induction ops with
  | nil => exact fun c h1 _ h3 => ⟨h1, h3⟩
  | cons o ops ih =>
    intro c h1 h2 h3
    rw [run_cons]
    cases step_moves c o with
    | same e1 e2 e3 => exact ih _ (by rw [e2]; exact h1) (by rw [e1]; exact h2) (by rw [e3]; exact h3)
    | new e0 e1 e2 e3 =>
      refine ih _ (by rw [e2]; omega) (fun e => ?_) (by rw [e3]; exact h3)
      rw [e1] at e; cases e; omega
    | shut x e0 e1 e2 e3 =>
      refine ih _ (by rw [e2]; exact h1) (by rw [e1, ← e0]; exact h2) ?_
      rw [e3, List.mem_cons, not_or]
      refine ⟨fun e => h2 (by rw [e0, e]), h3⟩
    | none e1 e2 e3 => exact ih _ (by rw [e2]; exact h1) (by rw [e1]; exact fun e => by cases e) (by rw [e3]; exact h3)

/-- C171 does not hold: if two closes overlap and a request is made before the first of them goes on, the session of that
request is forgotten. It stays open whatever happens, however often the client is closed. -/
theorem C171_leak_violated : ∃ (ops : List Op) (s : Nat), ∀ more : List Op,
    (Client.init.run (ops ++ more)).isOpen s ∧
      ((Client.init.run (ops ++ more)).step (.close 9)).1.isOpen s := by
  refine ⟨overlap, 1, fun more => ?_⟩
  have h : ∀ more, (Client.init.run (overlap ++ more)).isOpen 1 := by
    intro more
    rw [run_append]
    exact lost 1 more _ (by decide) (by decide) (by decide)
  refine ⟨h more, ?_⟩
  have := h (more ++ [.close 9])
  rwa [← List.append_assoc, run_snoc] at this

/-! ### The session of requests -/

/-- An operation that is no part of a close. -/
def Op.using : Op → Bool
  | .close _ | .closed _ => false
  | _ => true

theorem cur_kept (s : Nat) (ops : List Op) (ho : ∀ o ∈ ops, o.using = true) : ∀ c : Client, c.cur = some s →
    (c.run ops).cur = some s := by
  induction ops with
  | nil => exact fun c h => h
  | cons o ops ih =>
    intro c h
    rw [run_cons]
    refine ih (fun x hx => ho x (List.mem_cons_of_mem _ hx)) _ ?_
    cases step_moves c o with
    | same e1 e2 e3 => rw [e1]; exact h
    | new e0 e1 e2 e3 => rw [h] at e0; cases e0
    | shut x e0 e1 e2 e3 => rw [e1, ← e0]; exact h
    | none e1 e2 e3 =>
      have h1 := ho o List.mem_cons_self
      revert e1
      cases o with
      | close t => cases h1
      | closed t => cases h1
      | request t =>
        simp only [Client.step]
        split
        · intro e; rw [h] at e; cases e
        · rcases session_cases c with ⟨x, hx, e⟩ | ⟨hx, e⟩
          · rw [e, (send_same _ _ _ _).1, hx]; exact fun e => by cases e
          · rw [h] at hx; cases hx
      | answer t l =>
        simp only [Client.step]
        split
        · split
          · rw [(send_same _ _ _ _).1]; intro e; have : c.cur = none := e; rw [h] at this; cases this
          · intro e; have : c.cur = none := e; rw [h] at this; cases this
        · intro e; rw [h] at e; cases e
      | cancel t => intro e; have : c.cur = none := e; rw [h] at this; cases this

/-- C171, login. From one request to another one between which the client is not closed, everything goes over one session,
with the cookie of the first login. -/
theorem C171_same_session (ops between : List Op) (t u s s' : Nat) (hb : ∀ o ∈ between, o.using = true)
    (h1 : ((Client.init.run ops).step (.request t)).2 = .sent s)
    (h2 : ((Client.init.run (ops ++ .request t :: between)).step (.request u)).2 = .sent s') : s' = s := by
  have sent : ∀ (c : Client) (t x : Nat), (c.step (.request t)).2 = .sent x → (c.step (.request t)).1.cur = some x := by
    intro c t x
    simp only [Client.step]
    split
    · intro h; cases h
    · have key : ∀ (d : Client) (y : Nat), d.cur = some y → (d.send t y false).2 = .sent x → (d.send t y false).1.cur = some x := by
        intro d y hd hs
        rw [(send_same _ _ _ _).1, hd]
        unfold Client.send at hs
        split at hs
        · cases hs
        · cases hs; rfl
      rcases session_cases c with ⟨y, hy, e⟩ | ⟨hy, e⟩
      · rw [e]; exact key c y hy
      · rw [e]; exact key _ c.made rfl
  have e : ops ++ .request t :: between = (ops ++ [.request t]) ++ between := by simp
  have h3 := sent _ _ _ h1
  rw [← run_snoc] at h3
  have h4 := cur_kept s between hb _ h3
  rw [← run_append, ← e] at h4
  have h5 := sent _ _ _ h2
  have h6 := cur_kept s [.request u] (by simp [Op.using]) _ h4
  have h7 : ((Client.init.run (ops ++ .request t :: between)).run [.request u]).cur = some s' := h5
  rw [h7] at h6
  exact Option.some.inj h6

example : ((Client.init.run []).step (.request 1)).2 = .sent 0 ∧
    ((Client.init.run ([] ++ .request 1 :: [.answer 1 true, .answer 1 false])).step (.request 2)).2 = .sent 0 := by
  decide +kernel

/-! ### A closed client can be used again -/

/-- C171, reuse. A client of which a close has ended makes a new session for its next request, which is not refused. -/
theorem C171_reuse (ops : List Op) (t u : Nat) (ht : (Client.init.run ops).pc t = some .closing)
    (hu : (Client.init.run (ops ++ [.closed t])).pc u = none) :
    ∃ s, ((Client.init.run (ops ++ [.closed t])).step (.request u)).2 = .sent s ∧
      ((Client.init.run (ops ++ [.closed t])).step (.request u)).1.isOpen s ∧ s = (Client.init.run ops).made := by
  have hc := were_made ops Client.init (fun s hs => by rcases hs with hs | hs <;> cases hs)
  rw [run_snoc] at hu ⊢
  simp only [Client.step, ht] at hu ⊢
  rw [hu]
  have hm : (Client.init.run ops).made ∉ (Client.init.run ops).closed := fun h => Nat.lt_irrefl _ (hc _ (Or.inr h))
  refine ⟨_, ?_, ⟨?_, ?_⟩, rfl⟩
  · simp only [Client.session, Client.send, Client.drop, hm, if_false]
  · simp only [Client.session, Client.send, Client.drop, hm, if_false, Client.wait]; omega
  · simp only [Client.session, Client.send, Client.drop, hm, if_false, Client.wait]; exact fun h => h

example : (Client.init.run [.request 1, .answer 1 false, .close 2]).pc 2 = some .closing ∧
    (Client.init.run ([.request 1, .answer 1 false, .close 2] ++ [.closed 2])).pc 3 = none ∧
    ((Client.init.run [.request 1, .answer 1 false, .close 2]).step (.request 3)).2 = .refused := by decide +kernel

end Verif.Client.Conn

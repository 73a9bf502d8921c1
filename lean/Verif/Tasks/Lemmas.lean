import Verif.Tasks.Model
/-
Analyses of programs, and that they are right: how a program can end, whether it waits before it ends, and what becomes of
it when it is cancelled.
-/
set_option linter.unusedSimpArgs false
set_option linter.unusedVariables false
namespace Verif.Tasks

/-! ### How a program can end -/

mutual
/-- A program that ends in this way has waited before. -/
def eats (calm : Call → Bool) (al : Exc → Bool) : Prog → Res → Bool
  | .skip, r => r != .fell
  | .pause _, _ => true
  | .await _, _ => true
  | .take _, _ => true
  | .sync _, _ => false
  | .act _, r => r != .fell
  | .raise e, r => r != .raised e
  | .ret, r => r != .returned
  | .brk, r => r != .broke
  | .cont, r => r != .continued
  | .seq a b, r => (r == .fell || eats calm al a r) && (eats calm al a .fell || eats calm al b r)
  | .ite c a b, r => (calm c || eats calm al a r) && eats calm al b r
  | .forever b, r =>
    match r with
    | .fell => eats calm al b .broke
    | .spins => false
    | r => eats calm al b r
  | .guard b ca cl er oe fin, r =>
    (r == .fell || !can calm al fin r) && (!can calm al b r || eats calm al b r) && (eats calm al b .fell || eats calm al oe r) &&
      (eats calm al b (.raised .cancelled) || eats calm al ca r) && (eats calm al b (.raised .closed) || eats calm al cl r) &&
      (eats calm al b (.raised .error) || eats calm al er r)

/-- A program can end in this way. -/
def can (calm : Call → Bool) (al : Exc → Bool) : Prog → Res → Bool
  | .skip, r => r == .fell
  | .pause _, r => r == .fell || (r == .raised .cancelled && al .cancelled)
  | .await _, r => r == .fell || (match r with | .raised e => al e | _ => false)
  | .take _, r => r == .fell || (r == .raised .cancelled && al .cancelled) || (r == .raised .closed && al .closed)
  | .sync c, r => r == .fell || (!calm c && r == .raised .error)
  | .act _, r => r == .fell
  | .raise e, r => r == .raised e
  | .ret, r => r == .returned
  | .brk, r => r == .broke
  | .cont, r => r == .continued
  | .seq a b, r => (r != .fell && can calm al a r) || (can calm al a .fell && can calm al b r)
  | .ite c a b, r => (!calm c && can calm al a r) || can calm al b r
  | .forever b, r =>
    match r with
    | .fell => can calm al b .broke
    | .broke => false
    | .continued => false
    | .spins => can calm al b .spins || (can calm al b .fell && !eats calm al b .fell) ||
        (can calm al b .continued && !eats calm al b .continued)
    | r => can calm al b r
  | .guard b ca cl er oe fin, r =>
    (r != .fell && can calm al fin r) ||
      (match r with | .fell => false | .raised _ => false | r => can calm al b r) ||
      (can calm al b .fell && can calm al oe r) || (can calm al b (.raised .cancelled) && can calm al ca r) ||
      (can calm al b (.raised .closed) && can calm al cl r) || (can calm al b (.raised .error) && can calm al er r)
end

/-- What happens is among what is allowed. -/
def Al (al : Exc → Bool) (st : St) : Prop := ∀ e d, (Out.fails e, d) ∈ st.evs → al e = true

/-- The results of `f` are as the analysis says. -/
def Sound (al : Exc → Bool) (c e : Res → Bool) (f : St → R) : Prop :=
  ∀ st, Al al st → (∃ pre, st.evs = pre ++ (f st).st.evs) ∧
    ((∃ k, (f st).res = .waits k ∧ (f st).st.evs = []) ∨
      (∀ k, (f st).res ≠ .waits k) ∧ c (f st).res = true ∧ (e (f st).res = true → (f st).st.evs.length < st.evs.length))

theorem al_suffix {al : Exc → Bool} {st st' : St} (h : Al al st) (hs : ∃ pre, st.evs = pre ++ st'.evs) : Al al st' := by
  obtain ⟨pre, hp⟩ := hs
  exact fun e d hm => h e d (hp ▸ List.mem_append_right _ hm)

theorem suffix_trans {a b c : List (Out × List Bool)} (h1 : ∃ p, a = p ++ b) (h2 : ∃ p, b = p ++ c) : ∃ p, a = p ++ c := by
  obtain ⟨p, rfl⟩ := h1
  obtain ⟨q, rfl⟩ := h2
  exact ⟨p ++ q, by simp⟩

theorem suffix_le {a b : List (Out × List Bool)} (h : ∃ p, a = p ++ b) : b.length ≤ a.length := by
  obtain ⟨p, rfl⟩ := h
  simp

theorem loop_sound {al : Exc → Bool} {c e : Res → Bool} {f : St → R} (hf : Sound al c e f) (n : Nat) :
    ∀ st, Al al st → st.evs.length < n → (∃ pre, st.evs = pre ++ (doLoop f n st).st.evs) ∧
      ((∃ k, (doLoop f n st).res = .waits k ∧ (doLoop f n st).st.evs = []) ∨
        (∀ k, (doLoop f n st).res ≠ .waits k) ∧
        (match (doLoop f n st).res with
          | .fell => c .broke = true ∧ (e .broke = true → (doLoop f n st).st.evs.length < st.evs.length)
          | .broke => False
          | .continued => False
          | .spins => c .spins = true ∨ (c .fell = true ∧ e .fell = false) ∨ (c .continued = true ∧ e .continued = false)
          | r => c r = true ∧ (e r = true → (doLoop f n st).st.evs.length < st.evs.length))) := by
  induction n with
  | zero => intro st _ h; exact absurd h (Nat.not_lt_zero _)
  | succ n ih =>
    intro st hal hlt
    obtain ⟨hs, hr⟩ := hf st hal
    unfold doLoop
    rcases hr with ⟨k, hk, he⟩ | ⟨hw, hc, he⟩
    · rw [hk]
      simp only []
      exact ⟨hs, .inl ⟨k, hk, he⟩⟩
    · cases hres : (f st).res with
      | waits k => exact absurd hres (hw k)
      | fell =>
        rw [hres] at hc he
        simp only []
        split
        · rename_i hl
          obtain ⟨h1, h2⟩ := ih (f st).st (al_suffix hal hs) (by omega)
          refine ⟨suffix_trans hs h1, ?_⟩
          simp only [R.after]
          rcases h2 with h2 | ⟨h2, h3⟩
          · exact .inl h2
          · refine .inr ⟨h2, ?_⟩
            have hle := suffix_le h1
            revert h3
            cases (doLoop f n (f st).st).res <;> simp only [] <;> intro h3
            · exact ⟨h3.1, fun hx => by omega⟩
            · exact ⟨h3.1, fun hx => by omega⟩
            · exact ⟨h3.1, fun hx => by omega⟩
            · exact ⟨h3.1, fun hx => by omega⟩
            · exact h3
            · exact h3
            · exact h3
        · rename_i hl
          refine ⟨hs, .inr ⟨by simp, ?_⟩⟩
          simp only []
          refine .inr (.inl ⟨hc, ?_⟩)
          cases hx : e .fell
          · rfl
          · exact absurd (he hx) hl
      | continued =>
        rw [hres] at hc he
        simp only []
        split
        · rename_i hl
          obtain ⟨h1, h2⟩ := ih (f st).st (al_suffix hal hs) (by omega)
          refine ⟨suffix_trans hs h1, ?_⟩
          simp only [R.after]
          rcases h2 with h2 | ⟨h2, h3⟩
          · exact .inl h2
          · refine .inr ⟨h2, ?_⟩
            have hle := suffix_le h1
            revert h3
            cases (doLoop f n (f st).st).res <;> simp only [] <;> intro h3
            · exact ⟨h3.1, fun hx => by omega⟩
            · exact ⟨h3.1, fun hx => by omega⟩
            · exact ⟨h3.1, fun hx => by omega⟩
            · exact ⟨h3.1, fun hx => by omega⟩
            · exact h3
            · exact h3
            · exact h3
        · rename_i hl
          refine ⟨hs, .inr ⟨by simp, ?_⟩⟩
          simp only []
          refine .inr (.inr ⟨hc, ?_⟩)
          cases hx : e .continued
          · rfl
          · exact absurd (he hx) hl
      | raised x =>
        rw [hres] at hc he
        simp only []
        rw [hres]
        exact ⟨hs, .inr ⟨by simp, hc, he⟩⟩
      | returned =>
        rw [hres] at hc he
        simp only []
        rw [hres]
        exact ⟨hs, .inr ⟨by simp, hc, he⟩⟩
      | broke =>
        rw [hres] at hc he
        simp only []
        exact ⟨hs, .inr ⟨by simp, hc, he⟩⟩
      | spins =>
        rw [hres] at hc he
        simp only []
        rw [hres]
        exact ⟨hs, .inr ⟨by simp, .inl hc⟩⟩

theorem try_sound {al : Exc → Bool} {cb eb co eo c1 e1 : Res → Bool} {ch eh : Exc → Res → Bool} {f oe : St → R} {h : Exc → St → R}
    (hb : Sound al cb eb f) (hh : ∀ e, Sound al (ch e) (eh e) (h e)) (ho : Sound al co eo oe)
    (p1 : ∀ r, r ≠ .fell → (∀ e, r ≠ .raised e) → cb r = true → c1 r = true)
    (p2 : ∀ r, cb .fell = true → co r = true → c1 r = true)
    (p3 : ∀ e r, cb (.raised e) = true → ch e r = true → c1 r = true)
    (p4 : ∀ r, e1 r = true → (cb r = false ∨ eb r = true) ∧ (eb .fell = true ∨ eo r = true) ∧ ∀ e, eb (.raised e) = true ∨ eh e r = true) :
    Sound al c1 e1 (fun st => doTry h oe (f st)) := by
  intro st hal
  obtain ⟨hs, hr⟩ := hb st hal
  rcases hr with ⟨k, hk, he⟩ | ⟨hw, hc, he⟩
  · have q : doTry h oe (f st) = f st := by simp only [doTry]; rw [hk]
    simp only [q]
    exact ⟨hs, .inl ⟨k, hk, he⟩⟩
  · by_cases hfell : (f st).res = .fell
    · have q : doTry h oe (f st) = (oe (f st).st).after (f st).tr := by simp only [doTry]; rw [hfell]
      simp only [q, R.after]
      obtain ⟨hs2, hr2⟩ := ho (f st).st (al_suffix hal hs)
      refine ⟨suffix_trans hs hs2, hr2.imp id (fun hx => ⟨hx.1, ?_, fun hy => ?_⟩)⟩
      · exact p2 _ (hfell ▸ hc) hx.2.1
      · have l1 := suffix_le hs
        have l2 := suffix_le hs2
        rcases (p4 _ hy).2.1 with h4 | h4
        · have := he (hfell.symm ▸ h4); omega
        · have := hx.2.2 h4; omega
    · by_cases hex : ∃ e, (f st).res = .raised e
      · obtain ⟨e, hrz⟩ := hex
        have q : doTry h oe (f st) = (h e (f st).st).after (f st).tr := by simp only [doTry]; rw [hrz]
        simp only [q, R.after]
        obtain ⟨hs2, hr2⟩ := hh e (f st).st (al_suffix hal hs)
        refine ⟨suffix_trans hs hs2, hr2.imp id (fun hx => ⟨hx.1, ?_, fun hy => ?_⟩)⟩
        · exact p3 e _ (hrz ▸ hc) hx.2.1
        · have l1 := suffix_le hs
          have l2 := suffix_le hs2
          rcases (p4 _ hy).2.2 e with h4 | h4
          · have := he (hrz.symm ▸ h4); omega
          · have := hx.2.2 h4; omega
      · have q : doTry h oe (f st) = f st := by
          simp only [doTry]
          cases hq : (f st).res <;> simp_all
        simp only [q]
        exact ⟨hs, .inr ⟨hw, p1 _ hfell (fun e hx => hex ⟨e, hx⟩) hc, fun hy => he ((p4 _ hy).1.resolve_left (by rw [hc]; simp))⟩⟩

theorem finally_sound {al : Exc → Bool} {c1 e1 cf ef c2 e2 : Res → Bool} {g fin : St → R}
    (hf : Sound al cf ef fin)
    (p1 : ∀ r, c1 r = true → c2 r = true)
    (p2 : ∀ r, r ≠ .fell → cf r = true → c2 r = true)
    (p3 : ∀ r, e2 r = true → (r = .fell ∨ cf r = false) ∧ e1 r = true)
    (hg : Sound al c1 e1 g) :
    Sound al c2 e2 (fun st => doFinally fin (g st)) := by
  intro st hal
  obtain ⟨hs, hr⟩ := hg st hal
  rcases hr with ⟨k, hk, he⟩ | ⟨hw, hc, he⟩
  · have q : doFinally fin (g st) = g st := by simp only [doFinally]; rw [hk]
    simp only [q]
    exact ⟨hs, .inl ⟨k, hk, he⟩⟩
  · by_cases hsp : (g st).res = .spins
    · have q : doFinally fin (g st) = g st := by simp only [doFinally]; rw [hsp]
      simp only [q]
      exact ⟨hs, .inr ⟨hw, p1 _ hc, fun hy => he (p3 _ hy).2⟩⟩
    · obtain ⟨hs2, hr2⟩ := hf (g st).st (al_suffix hal hs)
      have l1 := suffix_le hs
      have l2 := suffix_le hs2
      by_cases hfell : (fin (g st).st).res = .fell
      · have q : doFinally fin (g st) = { (fin (g st).st).after (g st).tr with res := (g st).res } := by
          simp only [doFinally]
          rw [hfell]
        simp only [q, R.after]
        refine ⟨suffix_trans hs hs2, .inr ⟨hw, p1 _ hc, fun hy => ?_⟩⟩
        have := he (p3 _ hy).2
        omega
      · have q : doFinally fin (g st) = (fin (g st).st).after (g st).tr := by
          simp only [doFinally]
        simp only [q, R.after]
        refine ⟨suffix_trans hs hs2, hr2.imp id (fun hx => ⟨hx.1, p2 _ hfell hx.2.1, fun hy => ?_⟩)⟩
        rcases (p3 _ hy).1 with h5 | h5
        · exact absurd h5 hfell
        · rw [hx.2.1] at h5; cases h5

theorem exec_sound (calm : Call → Bool) (al : Exc → Bool) (p : Prog) : Sound al (can calm al p) (eats calm al p) (exec calm p) := by
  induction p with
  | skip => intro st _; exact ⟨⟨[], rfl⟩, .inr ⟨by simp [exec], rfl, by simp [exec, eats]⟩⟩
  | act c => intro st _; exact ⟨⟨[], rfl⟩, .inr ⟨by simp [exec], rfl, by simp [exec, eats]⟩⟩
  | raise e => intro st _; exact ⟨⟨[], rfl⟩, .inr ⟨by simp [exec], by simp [exec, can], by simp [exec, eats]⟩⟩
  | ret => intro st _; exact ⟨⟨[], rfl⟩, .inr ⟨by simp [exec], rfl, by simp [exec, eats]⟩⟩
  | brk => intro st _; exact ⟨⟨[], rfl⟩, .inr ⟨by simp [exec], rfl, by simp [exec, eats]⟩⟩
  | cont => intro st _; exact ⟨⟨[], rfl⟩, .inr ⟨by simp [exec], rfl, by simp [exec, eats]⟩⟩
  | pause c =>
    rintro ⟨d, evs⟩ hal
    match evs with
    | [] => exact ⟨⟨[], rfl⟩, .inl ⟨c, rfl, rfl⟩⟩
    | (.ok, d') :: evs => exact ⟨⟨[_], rfl⟩, .inr ⟨by simp [exec, doPause], rfl, by simp [exec, doPause]⟩⟩
    | (.fails .error, d') :: evs => exact ⟨⟨[_], rfl⟩, .inr ⟨by simp [exec, doPause], rfl, by simp [exec, doPause]⟩⟩
    | (.fails .closed, d') :: evs => exact ⟨⟨[_], rfl⟩, .inr ⟨by simp [exec, doPause], rfl, by simp [exec, doPause]⟩⟩
    | (.fails .cancelled, d') :: evs =>
      have h := hal .cancelled d' List.mem_cons_self
      exact ⟨⟨[_], rfl⟩, .inr ⟨by simp [exec, doPause], by simp [exec, doPause, can, h], by simp [exec, doPause]⟩⟩
  | take c =>
    rintro ⟨d, evs⟩ hal
    match evs with
    | [] => exact ⟨⟨[], rfl⟩, .inl ⟨c, rfl, rfl⟩⟩
    | (.ok, d') :: evs => exact ⟨⟨[_], rfl⟩, .inr ⟨by simp [exec, doTake], rfl, by simp [exec, doTake]⟩⟩
    | (.fails .error, d') :: evs => exact ⟨⟨[_], rfl⟩, .inr ⟨by simp [exec, doTake], rfl, by simp [exec, doTake]⟩⟩
    | (.fails .closed, d') :: evs =>
      have h := hal .closed d' List.mem_cons_self
      exact ⟨⟨[_], rfl⟩, .inr ⟨by simp [exec, doTake], by simp [exec, doTake, can, h], by simp [exec, doTake]⟩⟩
    | (.fails .cancelled, d') :: evs =>
      have h := hal .cancelled d' List.mem_cons_self
      exact ⟨⟨[_], rfl⟩, .inr ⟨by simp [exec, doTake], by simp [exec, doTake, can, h], by simp [exec, doTake]⟩⟩
  | await c =>
    rintro ⟨d, evs⟩ hal
    match evs with
    | [] => exact ⟨⟨[], rfl⟩, .inl ⟨c, rfl, rfl⟩⟩
    | (.ok, d') :: evs => exact ⟨⟨[_], rfl⟩, .inr ⟨by simp [exec, doAwait], rfl, by simp [exec, doAwait]⟩⟩
    | (.fails e, d') :: evs =>
      have h := hal e d' List.mem_cons_self
      exact ⟨⟨[_], rfl⟩, .inr ⟨by simp [exec, doAwait], by simp [exec, doAwait, can, h], by simp [exec, doAwait]⟩⟩
  | sync c =>
    rintro ⟨d, evs⟩ hal
    cases hc : calm c
    · match d with
      | [] => exact ⟨⟨[], by simp [exec, doSync, hc]⟩, .inr ⟨by simp [exec, doSync, hc], by simp [exec, doSync, hc, can], by simp [eats]⟩⟩
      | true :: d =>
        exact ⟨⟨[], by simp [exec, doSync, hc]⟩, .inr ⟨by simp [exec, doSync, hc], by simp [exec, doSync, hc, can], by simp [eats]⟩⟩
      | false :: d =>
        exact ⟨⟨[], by simp [exec, doSync, hc]⟩, .inr ⟨by simp [exec, doSync, hc], by simp [exec, doSync, hc, can], by simp [eats]⟩⟩
    · exact ⟨⟨[], by simp [exec, doSync, hc]⟩, .inr ⟨by simp [exec, doSync, hc], by simp [exec, doSync, hc, can], by simp [eats]⟩⟩
  | seq a b iha ihb =>
    intro st hal
    obtain ⟨hs, hr⟩ := iha st hal
    rcases hr with ⟨k, hk, he⟩ | ⟨hw, hc, he⟩
    · have e1 : exec calm (.seq a b) st = exec calm a st := by simp only [exec]; rw [hk]
      rw [e1]
      exact ⟨hs, .inl ⟨k, hk, he⟩⟩
    · by_cases hfell : (exec calm a st).res = .fell
      · have e1 : exec calm (.seq a b) st = (exec calm b (exec calm a st).st).after (exec calm a st).tr := by
          simp only [exec]; rw [hfell]
        obtain ⟨hs2, hr2⟩ := ihb (exec calm a st).st (al_suffix hal hs)
        rw [e1]
        refine ⟨suffix_trans hs hs2, ?_⟩
        simp only [R.after]
        rcases hr2 with h2 | ⟨hw2, hc2, he2⟩
        · exact .inl h2
        · refine .inr ⟨hw2, ?_, ?_⟩
          · rw [hfell] at hc
            simp [can, hc, hc2]
          · intro hx
            have l1 := suffix_le hs
            have l2 := suffix_le hs2
            simp only [eats, Bool.and_eq_true, Bool.or_eq_true] at hx
            rcases hx.2 with hx | hx
            · rw [hfell] at he
              have := he hx
              omega
            · have := he2 hx
              omega
      · have e1 : exec calm (.seq a b) st = exec calm a st := by
          simp only [exec]
        rw [e1]
        refine ⟨hs, .inr ⟨hw, by simp [can, hc, hfell], fun hx => he ?_⟩⟩
        simp only [eats, Bool.and_eq_true, Bool.or_eq_true, beq_iff_eq, hfell, false_or] at hx
        exact hx.1
  | ite c a b iha ihb =>
    rintro ⟨d, evs⟩ hal
    have viaB : ∀ d', exec calm (.ite c a b) ⟨d, evs⟩ = exec calm b ⟨d', evs⟩ →
        (∃ pre, evs = pre ++ (exec calm (.ite c a b) ⟨d, evs⟩).st.evs) ∧
        ((∃ k, (exec calm (.ite c a b) ⟨d, evs⟩).res = .waits k ∧ (exec calm (.ite c a b) ⟨d, evs⟩).st.evs = []) ∨
          (∀ k, (exec calm (.ite c a b) ⟨d, evs⟩).res ≠ .waits k) ∧ can calm al (.ite c a b) (exec calm (.ite c a b) ⟨d, evs⟩).res = true ∧
          (eats calm al (.ite c a b) (exec calm (.ite c a b) ⟨d, evs⟩).res = true →
            (exec calm (.ite c a b) ⟨d, evs⟩).st.evs.length < evs.length)) := by
      intro d' e1
      obtain ⟨hs, hr⟩ := ihb ⟨d', evs⟩ hal
      rw [e1]
      refine ⟨hs, hr.imp id (fun h => ⟨h.1, by simp [can, h.2.1], fun hx => h.2.2 ?_⟩)⟩
      simp only [eats, Bool.and_eq_true] at hx
      exact hx.2
    have viaA : ∀ d', calm c = false → exec calm (.ite c a b) ⟨d, evs⟩ = exec calm a ⟨d', evs⟩ →
        (∃ pre, evs = pre ++ (exec calm (.ite c a b) ⟨d, evs⟩).st.evs) ∧
        ((∃ k, (exec calm (.ite c a b) ⟨d, evs⟩).res = .waits k ∧ (exec calm (.ite c a b) ⟨d, evs⟩).st.evs = []) ∨
          (∀ k, (exec calm (.ite c a b) ⟨d, evs⟩).res ≠ .waits k) ∧ can calm al (.ite c a b) (exec calm (.ite c a b) ⟨d, evs⟩).res = true ∧
          (eats calm al (.ite c a b) (exec calm (.ite c a b) ⟨d, evs⟩).res = true →
            (exec calm (.ite c a b) ⟨d, evs⟩).st.evs.length < evs.length)) := by
      intro d' hc e1
      obtain ⟨hs, hr⟩ := iha ⟨d', evs⟩ hal
      rw [e1]
      refine ⟨hs, hr.imp id (fun h => ⟨h.1, by simp [can, h.2.1, hc], fun hx => h.2.2 ?_⟩)⟩
      simp only [eats, hc, Bool.false_or, Bool.and_eq_true] at hx
      exact hx.1
    cases hc : calm c
    · match d, viaA, viaB with
      | [], viaA, _ => exact viaA [] hc (by simp [exec, hc])
      | true :: d, viaA, _ => exact viaA d hc (by simp [exec, hc])
      | false :: d, _, viaB => exact viaB d (by simp [exec, hc])
    · exact viaB d (by simp [exec, hc])
  | forever b ih =>
    intro st hal
    obtain ⟨hs, hr⟩ := loop_sound ih (st.evs.length + 1) st hal (Nat.lt_succ_self _)
    refine ⟨hs, hr.imp id (fun h => ⟨h.1, ?_⟩)⟩
    obtain ⟨h1, h2⟩ := h
    simp only [exec]
    revert h1 h2
    cases (doLoop (exec calm b) (st.evs.length + 1) st).res with
    | waits k => intro h1 _; exact absurd rfl (h1 k)
    | fell => exact fun _ h => ⟨h.1, h.2⟩
    | raised e => exact fun _ h => ⟨h.1, h.2⟩
    | returned => exact fun _ h => ⟨h.1, h.2⟩
    | broke => exact fun _ h => h.elim
    | continued => exact fun _ h => h.elim
    | spins =>
      intro _ h
      refine ⟨?_, by simp [eats]⟩
      simp only [can]
      rcases h with h | h | h
      · simp [h]
      · simp [h.1, h.2]
      · simp [h.1, h.2]
  | guard b ca cl er oe fin ihb ihca ihcl iher ihoe ihfin =>
    exact finally_sound (c1 := fun r =>
        (match r with | .fell => false | .raised _ => false | r => can calm al b r) ||
        (can calm al b .fell && can calm al oe r) || (can calm al b (.raised .cancelled) && can calm al ca r) ||
        (can calm al b (.raised .closed) && can calm al cl r) || (can calm al b (.raised .error) && can calm al er r))
      (e1 := fun r => (!can calm al b r || eats calm al b r) && (eats calm al b .fell || eats calm al oe r) &&
        (eats calm al b (.raised .cancelled) || eats calm al ca r) && (eats calm al b (.raised .closed) || eats calm al cl r) &&
        (eats calm al b (.raised .error) || eats calm al er r)) ihfin
      (fun r h => by
        simp only [can]
        simp only [Bool.or_eq_true] at h ⊢
        rcases h with (((h | h) | h) | h) | h <;> simp only [h, or_true, true_or])
      (fun r h1 h2 => by simp only [can, h2, Bool.and_true, bne_iff_ne.2 h1, Bool.true_or])
      (fun r h => by
        simp only [eats, Bool.and_eq_true, Bool.or_eq_true, beq_iff_eq, Bool.not_eq_true'] at h ⊢
        exact ⟨h.1.1.1.1.1, ⟨⟨⟨⟨h.1.1.1.1.2, h.1.1.1.2⟩, h.1.1.2⟩, h.1.2⟩, h.2⟩⟩)
      (try_sound (h := pick (exec calm ca) (exec calm cl) (exec calm er))
        (ch := fun e => match e with | .cancelled => can calm al ca | .closed => can calm al cl | .error => can calm al er)
        (eh := fun e => match e with | .cancelled => eats calm al ca | .closed => eats calm al cl | .error => eats calm al er)
        ihb (fun e => by cases e <;> assumption) ihoe
        (fun r h1 h2 h3 => by cases r <;> simp_all)
        (fun r h1 h2 => by simp [h1, h2])
        (fun e r h1 h2 => by cases e <;> simp_all)
        (fun r h => by
          simp only [Bool.and_eq_true, Bool.or_eq_true, Bool.not_eq_true'] at h
          exact ⟨h.1.1.1.1, h.1.1.1.2, fun e => by
            cases e
            · exact h.2
            · exact h.1.2
            · exact h.1.1.2⟩))

/-! ### What has ended stays as it is -/

/-- More happens. -/
def St.more (st : St) (x : List (Out × List Bool)) : St := ⟨st.data, st.evs ++ x⟩

/-- The same with more left over. -/
def R.more (r : R) (x : List (Out × List Bool)) : R := ⟨r.res, r.st.more x, r.tr⟩

/-- The program has ended. -/
def Ended (r : R) : Prop := (∀ k, r.res ≠ .waits k) ∧ r.res ≠ .spins

/-- What has ended does not change by what happens later. -/
def Ext (f : St → R) : Prop := ∀ st x, Ended (f st) → f (st.more x) = (f st).more x

theorem more_after (r : R) (t : Trace) (x : List (Out × List Bool)) : (r.after t).more x = (r.more x).after t := rfl

theorem ended_after {r : R} {t : Trace} : Ended (r.after t) ↔ Ended r := Iff.rfl

theorem ended_of {r : R} (q : Res) (h : r.res = q) (h1 : ∀ k, q ≠ .waits k) (h2 : q ≠ .spins) : Ended r := by
  subst h; exact ⟨h1, h2⟩

theorem loop_ext {f : St → R} (hf : Ext f) (x : List (Out × List Bool)) (n : Nat) :
    ∀ st, Ended (doLoop f n st) → ∀ m, n ≤ m → doLoop f m (st.more x) = (doLoop f n st).more x := by
  induction n with
  | zero => intro st h; exact absurd rfl h.2
  | succ n ih =>
    intro st h m hm
    obtain ⟨m, rfl⟩ : ∃ k, m = k + 1 := ⟨m - 1, by omega⟩
    have turn : ((f st).res = .fell ∨ (f st).res = .continued) → doLoop f (m + 1) (st.more x) = (doLoop f (n + 1) st).more x := by
      intro hr
      have he : Ended (f st) := by rcases hr with hr | hr <;> exact ended_of _ hr (by simp) (by simp)
      have h1 := hf st x he
      by_cases hl : (f st).st.evs.length < st.evs.length
      · have e1 : doLoop f (n + 1) st = (doLoop f n (f st).st).after (f st).tr := by
          rcases hr with hr | hr <;> (conv => lhs; unfold doLoop) <;> rw [hr] <;> simp only [hl, if_true]
        have e2 : doLoop f (m + 1) (st.more x) = (doLoop f m ((f st).st.more x)).after (f st).tr := by
          have hl' : ((f st).more x).st.evs.length < (st.more x).evs.length := by
            simp only [R.more, St.more, List.length_append]; omega
          have hr' : ((f st).more x).res = (f st).res := rfl
          rcases hr with hr | hr <;> (conv => lhs; unfold doLoop) <;> rw [h1, hr', hr] <;> simp only [hl', if_true] <;> rfl
        rw [e1] at h ⊢
        rw [e2, ih (f st).st (ended_after.1 h) m (by omega)]
        rfl
      · have e1 : doLoop f (n + 1) st = ⟨.spins, (f st).st, (f st).tr⟩ := by
          rcases hr with hr | hr <;> (conv => lhs; unfold doLoop) <;> rw [hr] <;> simp only [hl, if_false]
        rw [e1] at h
        exact absurd rfl h.2
    have stay : ∀ r, r = f st → r.res ≠ .fell → r.res ≠ .continued → Ended r →
        doLoop f (m + 1) (st.more x) = (doLoop f (n + 1) st).more x := by
      intro r e h1 h2 h3
      subst e
      have h4 := hf st x h3
      have hr' : ((f st).more x).res = (f st).res := rfl
      unfold doLoop
      rw [h4, hr']
      revert h1 h2
      cases (f st).res <;> intro h1 h2 <;> first | rfl | exact absurd rfl h1 | exact absurd rfl h2
    cases hr : (f st).res with
    | fell => exact turn (.inl hr)
    | continued => exact turn (.inr hr)
    | waits k =>
      have e1 : (doLoop f (n + 1) st).res = .waits k := by unfold doLoop; rw [hr]; exact hr
      exact absurd e1 (h.1 k)
    | spins =>
      have e1 : (doLoop f (n + 1) st).res = .spins := by unfold doLoop; rw [hr]; exact hr
      exact absurd e1 h.2
    | raised e => exact stay _ rfl (by simp [hr]) (by simp [hr]) (ended_of _ hr (by simp) (by simp))
    | returned => exact stay _ rfl (by simp [hr]) (by simp [hr]) (ended_of _ hr (by simp) (by simp))
    | broke => exact stay _ rfl (by simp [hr]) (by simp [hr]) (ended_of _ hr (by simp) (by simp))

theorem try_ext {f oe : St → R} {h : Exc → St → R} (hf : Ext f) (hh : ∀ e, Ext (h e)) (ho : Ext oe) :
    Ext (fun st => doTry h oe (f st)) := by
  intro st x he
  cases hr : (f st).res with
  | fell =>
    have h1 := hf st x (ended_of _ hr (by simp) (by simp))
    have hr' : ((f st).more x).res = .fell := hr
    simp only [doTry] at he ⊢
    rw [hr] at he
    rw [h1, hr', hr]
    exact congrArg (R.after (f st).tr) (ho (f st).st x he)
  | raised e =>
    have h1 := hf st x (ended_of _ hr (by simp) (by simp))
    have hr' : ((f st).more x).res = .raised e := hr
    simp only [doTry] at he ⊢
    rw [hr] at he
    rw [h1, hr', hr]
    exact congrArg (R.after (f st).tr) (hh e (f st).st x he)
  | waits k => exact absurd (by simp only [doTry]; rw [hr]; exact hr) (he.1 k)
  | spins => exact absurd (by simp only [doTry]; rw [hr]; exact hr) he.2
  | returned =>
    have h1 := hf st x (ended_of _ hr (by simp) (by simp))
    have hr' : ((f st).more x).res = .returned := hr
    simp only [doTry]
    rw [h1, hr', hr]
  | broke =>
    have h1 := hf st x (ended_of _ hr (by simp) (by simp))
    have hr' : ((f st).more x).res = .broke := hr
    simp only [doTry]
    rw [h1, hr', hr]
  | continued =>
    have h1 := hf st x (ended_of _ hr (by simp) (by simp))
    have hr' : ((f st).more x).res = .continued := hr
    simp only [doTry]
    rw [h1, hr', hr]

theorem finally_ended {fin : St → R} {r : R} (h : Ended (doFinally fin r)) : Ended r ∧ Ended (fin r.st) := by
  have hr : Ended r := by
    constructor
    · intro k hk
      exact h.1 k (by simp only [doFinally]; rw [hk]; exact hk)
    · intro hk
      exact h.2 (by simp only [doFinally]; rw [hk]; exact hk)
  refine ⟨hr, ?_⟩
  by_cases hf : (fin r.st).res = .fell
  · exact ended_of _ hf (by simp) (by simp)
  · have q : doFinally fin r = (fin r.st).after r.tr := by
      simp only [doFinally]
      cases hq : r.res <;> cases hq2 : (fin r.st).res <;> simp_all [Ended]
    rw [q] at h
    exact ended_after.1 h

theorem finally_more {fin : St → R} {r : R} {x : List (Out × List Bool)} (hr : Ended r)
    (hf : fin (r.more x).st = (fin r.st).more x) : doFinally fin (r.more x) = (doFinally fin r).more x := by
  simp only [doFinally, hf]
  have e1 : (r.more x).res = r.res := rfl
  have e2 : ((fin r.st).more x).res = (fin r.st).res := rfl
  rw [e1, e2]
  obtain ⟨h1, h2⟩ := hr
  revert h1 h2
  cases r.res with
  | waits k => intro h1; exact absurd rfl (h1 k)
  | spins => intro _ h2; exact absurd rfl h2
  | fell => intro _ _; cases (fin r.st).res <;> rfl
  | raised e => intro _ _; cases (fin r.st).res <;> rfl
  | returned => intro _ _; cases (fin r.st).res <;> rfl
  | broke => intro _ _; cases (fin r.st).res <;> rfl
  | continued => intro _ _; cases (fin r.st).res <;> rfl

theorem exec_ext (calm : Call → Bool) (p : Prog) : Ext (exec calm p) := by
  induction p with
  | skip => intro st x _; rfl
  | act c => intro st x _; rfl
  | raise e => intro st x _; rfl
  | ret => intro st x _; rfl
  | brk => intro st x _; rfl
  | cont => intro st x _; rfl
  | pause c =>
    rintro ⟨d, evs⟩ x he
    match evs, he with
    | [], he => exact absurd rfl (he.1 c)
    | (.ok, d') :: evs, _ => rfl
    | (.fails .error, d') :: evs, _ => rfl
    | (.fails .closed, d') :: evs, _ => rfl
    | (.fails .cancelled, d') :: evs, _ => rfl
  | take c =>
    rintro ⟨d, evs⟩ x he
    match evs, he with
    | [], he => exact absurd rfl (he.1 c)
    | (.ok, d') :: evs, _ => rfl
    | (.fails .error, d') :: evs, _ => rfl
    | (.fails .closed, d') :: evs, _ => rfl
    | (.fails .cancelled, d') :: evs, _ => rfl
  | await c =>
    rintro ⟨d, evs⟩ x he
    match evs, he with
    | [], he => exact absurd rfl (he.1 c)
    | (.ok, d') :: evs, _ => rfl
    | (.fails e, d') :: evs, _ => rfl
  | sync c =>
    rintro ⟨d, evs⟩ x he
    simp only [exec, doSync, St.more]
    cases calm c
    · match d with
      | [] => rfl
      | true :: d => rfl
      | false :: d => rfl
    · rfl
  | seq a b iha ihb =>
    intro st x he
    cases hr : (exec calm a st).res with
    | fell =>
      have h1 := iha st x (ended_of _ hr (by simp) (by simp))
      have hr' : ((exec calm a st).more x).res = .fell := hr
      simp only [exec] at he ⊢
      rw [hr] at he
      rw [h1, hr', hr]
      exact congrArg (R.after (exec calm a st).tr) (ihb (exec calm a st).st x he)
    | waits k => exact absurd (by simp only [exec]; rw [hr]; exact hr) (he.1 k)
    | spins => exact absurd (by simp only [exec]; rw [hr]; exact hr) he.2
    | raised e =>
      have h1 := iha st x (ended_of _ hr (by simp) (by simp))
      have hr' : ((exec calm a st).more x).res = .raised e := hr
      simp only [exec]
      rw [h1, hr', hr]
    | returned =>
      have h1 := iha st x (ended_of _ hr (by simp) (by simp))
      have hr' : ((exec calm a st).more x).res = .returned := hr
      simp only [exec]
      rw [h1, hr', hr]
    | broke =>
      have h1 := iha st x (ended_of _ hr (by simp) (by simp))
      have hr' : ((exec calm a st).more x).res = .broke := hr
      simp only [exec]
      rw [h1, hr', hr]
    | continued =>
      have h1 := iha st x (ended_of _ hr (by simp) (by simp))
      have hr' : ((exec calm a st).more x).res = .continued := hr
      simp only [exec]
      rw [h1, hr', hr]
  | ite c a b iha ihb =>
    rintro ⟨d, evs⟩ x he
    simp only [exec, St.more] at he ⊢
    cases hc : calm c
    · rw [hc] at he
      match d, he with
      | [], he => exact iha ⟨[], evs⟩ x he
      | true :: d, he => exact iha ⟨d, evs⟩ x he
      | false :: d, he => exact ihb ⟨d, evs⟩ x he
    · rw [hc] at he
      exact ihb ⟨d, evs⟩ x he
  | forever b ih =>
    intro st x he
    exact loop_ext ih x _ st he _ (by simp [St.more])
  | guard b ca cl er oe fin ihb ihca ihcl iher ihoe ihfin =>
    intro st x he
    obtain ⟨h1, h2⟩ := finally_ended he
    have h3 := try_ext (h := pick (exec calm ca) (exec calm cl) (exec calm er)) ihb
      (fun e => by cases e <;> assumption) ihoe st x h1
    show doFinally (exec calm fin) (doTry (pick (exec calm ca) (exec calm cl) (exec calm er)) (exec calm oe) (exec calm b (st.more x))) = _
    rw [show doTry (pick (exec calm ca) (exec calm cl) (exec calm er)) (exec calm oe) (exec calm b (st.more x)) = _ from h3]
    exact finally_more h1 (ihfin _ x h2)

/-! ### Cancellation -/

/-- A program that does not wait. -/
def dry : Prog → Bool
  | .pause _ | .await _ | .take _ | .forever _ => false
  | .seq a b => dry a && dry b
  | .ite _ a b => dry a && dry b
  | .guard b ca cl er oe fin => dry b && dry ca && dry cl && dry er && dry oe && dry fin
  | _ => true

/-- A program that does not wait and only falls through. -/
def quiet : Prog → Bool
  | .skip | .act _ => true
  | .seq a b => quiet a && quiet b
  | _ => false

/-- A program that is cancelled where it waits, at one of the given places, can end in this way. -/
def hit (loc : Call → Bool) (calm : Call → Bool) : Prog → Res → Bool
  | .pause c, r => loc c && r == .raised .cancelled
  | .await c, r => loc c && r == .raised .cancelled
  | .take c, r => loc c && r == .raised .cancelled
  | .seq a b, r => hit loc calm a r || hit loc calm b r
  | .ite c a b, r => (!calm c && hit loc calm a r) || hit loc calm b r
  | .forever b, r =>
    match r with
    | .fell => hit loc calm b .broke
    | .broke => false
    | .continued => false
    | r => hit loc calm b r
  | .guard b ca cl er oe _, r =>
    (r != .raised .cancelled && hit loc calm b r) || (hit loc calm b (.raised .cancelled) && can calm (fun _ => true) ca r) ||
      hit loc calm cl r || hit loc calm er r || hit loc calm oe r
  | _, _ => false

/-- Nothing in the program keeps it from ending when it is cancelled at one of the given places. -/
def neat (loc : Call → Bool) (calm : Call → Bool) : Prog → Bool
  | .seq a b => neat loc calm a && neat loc calm b && !hit loc calm a .fell
  | .ite c a b => (calm c || neat loc calm a) && neat loc calm b
  | .forever b => neat loc calm b && !hit loc calm b .fell && !hit loc calm b .continued
  | .guard b ca cl er oe fin => neat loc calm b && neat loc calm cl && neat loc calm er && neat loc calm oe && dry ca && quiet fin &&
      !hit loc calm b .fell && !hit loc calm b (.raised .error) && !hit loc calm b (.raised .closed)
  | _ => true

/-- What becomes of `f` where it waits when it is cancelled. -/
def Stops (loc : Call → Bool) (h : Res → Bool) (f : St → R) : Prop :=
  ∀ st k d, (f st).res = .waits k → loc k = true → Ended (f (st.more [(.fails .cancelled, d)])) ∧
    h (f (st.more [(.fails .cancelled, d)])).res = true ∧ (f (st.more [(.fails .cancelled, d)])).st.evs = []

theorem all_al (st : St) : Al (fun _ => true) st := fun _ _ _ => rfl

theorem waits_empty (calm : Call → Bool) (p : Prog) (st : St) (k : Call) (h : (exec calm p st).res = .waits k) :
    (exec calm p st).st.evs = [] := by
  rcases (exec_sound calm (fun _ => true) p st (all_al st)).2 with ⟨_, _, he⟩ | ⟨hw, _⟩
  · exact he
  · exact absurd h (hw k)

theorem quiet_run (calm : Call → Bool) (p : Prog) (h : quiet p = true) (st : St) :
    (exec calm p st).res = .fell ∧ (exec calm p st).st = st := by
  induction p generalizing st with
  | skip => exact ⟨rfl, rfl⟩
  | act c => exact ⟨rfl, rfl⟩
  | seq a b iha ihb =>
    simp only [quiet, Bool.and_eq_true] at h
    obtain ⟨h1, h2⟩ := iha h.1 st
    obtain ⟨h3, h4⟩ := ihb h.2 st
    simp only [exec]
    rw [h1, h2]
    exact ⟨h3, h4⟩
  | _ => cases h

theorem dry_run (calm : Call → Bool) (p : Prog) (h : dry p = true) (st : St) :
    Ended (exec calm p st) ∧ (exec calm p st).st.evs = st.evs := by
  induction p generalizing st with
  | skip => exact ⟨ended_of .fell rfl (by simp) (by simp), rfl⟩
  | act c => exact ⟨ended_of .fell rfl (by simp) (by simp), rfl⟩
  | raise e => exact ⟨ended_of (.raised e) rfl (by simp) (by simp), rfl⟩
  | ret => exact ⟨ended_of .returned rfl (by simp) (by simp), rfl⟩
  | brk => exact ⟨ended_of .broke rfl (by simp) (by simp), rfl⟩
  | cont => exact ⟨ended_of .continued rfl (by simp) (by simp), rfl⟩
  | pause c => cases h
  | await c => cases h
  | take c => cases h
  | forever b ih => cases h
  | sync c =>
    obtain ⟨d, evs⟩ := st
    simp only [exec, doSync]
    cases calm c
    · match d with
      | [] => exact ⟨ended_of _ rfl (by simp) (by simp), rfl⟩
      | true :: d => exact ⟨ended_of _ rfl (by simp) (by simp), rfl⟩
      | false :: d => exact ⟨ended_of _ rfl (by simp) (by simp), rfl⟩
    · exact ⟨ended_of _ rfl (by simp) (by simp), rfl⟩
  | seq a b iha ihb =>
    simp only [dry, Bool.and_eq_true] at h
    obtain ⟨h1, h2⟩ := iha h.1 st
    obtain ⟨h3, h4⟩ := ihb h.2 (exec calm a st).st
    simp only [exec]
    split
    · exact ⟨ended_after.2 h3, h4.trans h2⟩
    · exact ⟨h1, h2⟩
  | ite c a b iha ihb =>
    simp only [dry, Bool.and_eq_true] at h
    obtain ⟨d, evs⟩ := st
    simp only [exec]
    cases calm c
    · match d with
      | [] => exact iha h.1 ⟨[], evs⟩
      | true :: d => exact iha h.1 ⟨d, evs⟩
      | false :: d => exact ihb h.2 ⟨d, evs⟩
    · exact ihb h.2 ⟨d, evs⟩
  | guard b ca cl er oe fin ihb ihca ihcl iher ihoe ihfin =>
    simp only [dry, Bool.and_eq_true] at h
    obtain ⟨h1, h2⟩ := ihb h.1.1.1.1.1 st
    have h3 : Ended (doTry (pick (exec calm ca) (exec calm cl) (exec calm er)) (exec calm oe) (exec calm b st)) ∧
        (doTry (pick (exec calm ca) (exec calm cl) (exec calm er)) (exec calm oe) (exec calm b st)).st.evs = st.evs := by
      simp only [doTry]
      split
      · rename_i e _
        cases e
        · exact ⟨ended_after.2 (iher h.1.1.2 _).1, (iher h.1.1.2 _).2.trans h2⟩
        · exact ⟨ended_after.2 (ihcl h.1.1.1.2 _).1, (ihcl h.1.1.1.2 _).2.trans h2⟩
        · exact ⟨ended_after.2 (ihca h.1.1.1.1.2 _).1, (ihca h.1.1.1.1.2 _).2.trans h2⟩
      · exact ⟨ended_after.2 (ihoe h.1.2 _).1, (ihoe h.1.2 _).2.trans h2⟩
      · exact ⟨h1, h2⟩
    simp only [exec]
    revert h3
    generalize doTry (pick (exec calm ca) (exec calm cl) (exec calm er)) (exec calm oe) (exec calm b st) = r
    intro h3
    obtain ⟨h4, h5⟩ := ihfin h.2 r.st
    simp only [doFinally]
    split
    · exact h3
    · exact h3
    · split
      · exact ⟨h3.1, h5.trans h3.2⟩
      · exact ⟨ended_after.2 h4, h5.trans h3.2⟩

/-- A loop that waits waits in its body. -/
theorem loop_wait {f : St → R} (hf : Ext f) (n : Nat) : ∀ st k, (doLoop f n st).res = .waits k →
    ∃ st' tr, (f st').res = .waits k ∧ (f st').st = (doLoop f n st).st ∧ (doLoop f n st).tr = tr ++ (f st').tr ∧
      ∀ x m, n ≤ m → ∃ j, doLoop f m (st.more x) = (doLoop f (j + 1) (st'.more x)).after tr := by
  induction n with
  | zero => intro st k h; cases h
  | succ n ih =>
    intro st k h
    by_cases hr : (f st).res = .fell ∨ (f st).res = .continued
    · have he : Ended (f st) := by rcases hr with hr | hr <;> exact ended_of _ hr (by simp) (by simp)
      by_cases hl : (f st).st.evs.length < st.evs.length
      · have e1 : doLoop f (n + 1) st = (doLoop f n (f st).st).after (f st).tr := by
          rcases hr with hr | hr <;> (conv => lhs; unfold doLoop) <;> rw [hr] <;> simp only [hl, if_true]
        rw [e1] at h ⊢
        obtain ⟨st', tr, h1, h2, h3, h4⟩ := ih (f st).st k h
        refine ⟨st', (f st).tr ++ tr, h1, h2, by simp [R.after, h3], fun x m hm => ?_⟩
        obtain ⟨m, rfl⟩ : ∃ k, m = k + 1 := ⟨m - 1, by omega⟩
        obtain ⟨j, hj⟩ := h4 x m (by omega)
        refine ⟨j, ?_⟩
        have h5 := hf st x he
        have e2 : doLoop f (m + 1) (st.more x) = (doLoop f m ((f st).st.more x)).after (f st).tr := by
          have hl' : ((f st).more x).st.evs.length < (st.more x).evs.length := by
            simp only [R.more, St.more, List.length_append]; omega
          have hr' : ((f st).more x).res = (f st).res := rfl
          rcases hr with hr | hr <;> (conv => lhs; unfold doLoop) <;> rw [h5, hr', hr] <;> simp only [hl', if_true] <;> rfl
        rw [e2, hj]
        simp [R.after]
      · have e1 : doLoop f (n + 1) st = ⟨.spins, (f st).st, (f st).tr⟩ := by
          rcases hr with hr | hr <;> (conv => lhs; unfold doLoop) <;> rw [hr] <;> simp only [hl, if_false]
        rw [e1] at h
        cases h
    · have e1 : doLoop f (n + 1) st = f st := by
        cases hq : (f st).res with
        | fell => exact absurd (.inl hq) hr
        | continued => exact absurd (.inr hq) hr
        | broke =>
          have : (doLoop f (n + 1) st).res = .fell := by unfold doLoop; rw [hq]
          rw [this] at h; cases h
        | waits k => unfold doLoop; rw [hq]
        | raised e => unfold doLoop; rw [hq]
        | returned => unfold doLoop; rw [hq]
        | spins => unfold doLoop; rw [hq]
      rw [e1] at h ⊢
      refine ⟨st, [], h, rfl, rfl, fun x m hm => ?_⟩
      obtain ⟨m, rfl⟩ : ∃ k, m = k + 1 := ⟨m - 1, by omega⟩
      exact ⟨m, by simp [R.after]⟩

theorem stops_mono {loc : Call → Bool} {h h' : Res → Bool} {f : St → R} (hs : Stops loc h f)
    (hi : ∀ r, h r = true → h' r = true) : Stops loc h' f :=
  fun st k d hk hl => ⟨(hs st k d hk hl).1, hi _ (hs st k d hk hl).2.1, (hs st k d hk hl).2.2⟩

theorem exec_stops (loc : Call → Bool) (calm : Call → Bool) (p : Prog) : neat loc calm p = true → Stops loc (hit loc calm p) (exec calm p) := by
  induction p with
  | skip => intro _ st k d h hl; cases h
  | act c => intro _ st k d h hl; cases h
  | raise e => intro _ st k d h hl; cases h
  | ret => intro _ st k d h hl; cases h
  | brk => intro _ st k d h hl; cases h
  | cont => intro _ st k d h hl; cases h
  | pause c =>
    rintro _ ⟨d0, evs⟩ k d h hl
    match evs, h with
    | [], h =>
      have hk : c = k := Res.waits.inj h
      subst hk
      exact ⟨ended_of (.raised .cancelled) rfl (by simp) (by simp), by simp [hit, hl, exec, doPause, doAwait, St.more], rfl⟩
    | (.ok, d') :: evs, h => cases h
    | (.fails .error, d') :: evs, h => cases h
    | (.fails .closed, d') :: evs, h => cases h
    | (.fails .cancelled, d') :: evs, h => cases h
  | take c =>
    rintro _ ⟨d0, evs⟩ k d h hl
    match evs, h with
    | [], h =>
      have hk : c = k := Res.waits.inj h
      subst hk
      exact ⟨ended_of (.raised .cancelled) rfl (by simp) (by simp), by simp [hit, hl, exec, doTake, St.more], rfl⟩
    | (.ok, d') :: evs, h => cases h
    | (.fails .error, d') :: evs, h => cases h
    | (.fails .closed, d') :: evs, h => cases h
    | (.fails .cancelled, d') :: evs, h => cases h
  | await c =>
    rintro _ ⟨d0, evs⟩ k d h hl
    match evs, h with
    | [], h =>
      have hk : c = k := Res.waits.inj h
      subst hk
      exact ⟨ended_of (.raised .cancelled) rfl (by simp) (by simp), by simp [hit, hl, exec, doPause, doAwait, St.more], rfl⟩
    | (.ok, d') :: evs, h => cases h
    | (.fails e, d') :: evs, h => cases h
  | sync c =>
    rintro _ ⟨d0, evs⟩ k d h hl
    simp only [exec, doSync] at h
    revert h
    cases calm c
    · match d0 with
      | [] => intro h; cases h
      | true :: d0 => intro h; cases h
      | false :: d0 => intro h; cases h
    · intro h; cases h
  | seq a b iha ihb =>
    intro hn st k d h hl
    simp only [neat, Bool.and_eq_true, Bool.not_eq_true'] at hn
    by_cases hfell : (exec calm a st).res = .fell
    · have h1 := exec_ext calm a st [(.fails .cancelled, d)] (ended_of _ hfell (by simp) (by simp))
      have hr' : ((exec calm a st).more [(.fails .cancelled, d)]).res = .fell := hfell
      have e1 : exec calm (.seq a b) st = (exec calm b (exec calm a st).st).after (exec calm a st).tr := by
        simp only [exec]; rw [hfell]
      have e2 : exec calm (.seq a b) (st.more [(.fails .cancelled, d)]) =
          (exec calm b ((exec calm a st).st.more [(.fails .cancelled, d)])).after (exec calm a st).tr := by
        simp only [exec]; rw [h1, hr']; rfl
      rw [e1] at h
      rw [e2]
      obtain ⟨h2, h3, h4⟩ := ihb hn.1.2 (exec calm a st).st k d h hl
      exact ⟨h2, by simp only [hit, R.after, h3, Bool.or_true], h4⟩
    · have e1 : exec calm (.seq a b) st = exec calm a st := by
        simp only [exec]
      rw [e1] at h
      obtain ⟨h2, h3, h4⟩ := iha hn.1.1 st k d h hl
      have hne : (exec calm a (st.more [(.fails .cancelled, d)])).res ≠ .fell := by
        intro hx
        rw [hx, hn.2] at h3
        cases h3
      have e2 : exec calm (.seq a b) (st.more [(.fails .cancelled, d)]) = exec calm a (st.more [(.fails .cancelled, d)]) := by
        simp only [exec]
      rw [e2]
      exact ⟨h2, by simp only [hit, h3, Bool.true_or], h4⟩
  | ite c a b iha ihb =>
    rintro hn ⟨d0, evs⟩ k d h hl
    simp only [neat, Bool.and_eq_true, Bool.or_eq_true] at hn
    simp only [exec, St.more, hit] at h ⊢
    cases hc : calm c
    · rw [hc] at h
      have hna : neat loc calm a = true := by
        rcases hn.1 with h1 | h1
        · rw [hc] at h1; cases h1
        · exact h1
      match d0, h with
      | [], h =>
        obtain ⟨h2, h3, h4⟩ := iha hna ⟨[], evs⟩ k d h hl
        exact ⟨h2, by rw [Bool.or_eq_true]; exact .inl h3, h4⟩
      | true :: d0, h =>
        obtain ⟨h2, h3, h4⟩ := iha hna ⟨d0, evs⟩ k d h hl
        exact ⟨h2, by rw [Bool.or_eq_true]; exact .inl h3, h4⟩
      | false :: d0, h =>
        obtain ⟨h2, h3, h4⟩ := ihb hn.2 ⟨d0, evs⟩ k d h hl
        exact ⟨h2, by rw [Bool.or_eq_true]; exact .inr h3, h4⟩
    · rw [hc] at h
      obtain ⟨h2, h3, h4⟩ := ihb hn.2 ⟨d0, evs⟩ k d h hl
      exact ⟨h2, by rw [Bool.or_eq_true]; exact .inr h3, h4⟩
  | forever b ih =>
    intro hn st k d h hl
    simp only [neat, Bool.and_eq_true, Bool.not_eq_true'] at hn
    obtain ⟨st', tr, h1, _, _, h2⟩ := loop_wait (exec_ext calm b) _ st k h
    obtain ⟨j, hj⟩ := h2 [(.fails .cancelled, d)] ((st.more [(.fails .cancelled, d)]).evs.length + 1) (by simp [St.more])
    obtain ⟨h3, h4, h5⟩ := ih hn.1.1 st' k d h1 hl
    have e0 : exec calm (.forever b) (st.more [(.fails .cancelled, d)]) =
        (doLoop (exec calm b) (j + 1) (st'.more [(.fails .cancelled, d)])).after tr := hj
    rw [e0]
    simp only [R.after]
    unfold doLoop
    revert h3 h4 h5
    generalize hq : exec calm b (st'.more [(.fails .cancelled, d)]) = r
    intro h3 h4 h5
    cases hr : r.res with
    | waits k => exact absurd hr (h3.1 k)
    | spins => exact absurd hr h3.2
    | fell => rw [hr, hn.1.2] at h4; cases h4
    | continued => rw [hr, hn.2] at h4; cases h4
    | broke =>
      rw [hr] at h4
      exact ⟨ended_of .fell rfl (by simp) (by simp), h4, h5⟩
    | raised e =>
      rw [hr] at h4
      refine ⟨ended_of (.raised e) hr (by simp) (by simp), ?_, h5⟩
      simp only [hr]
      exact h4
    | returned =>
      rw [hr] at h4
      refine ⟨ended_of .returned hr (by simp) (by simp), ?_, h5⟩
      simp only [hr]
      exact h4
  | guard b ca cl er oe fin ihb ihca ihcl iher ihoe ihfin =>
    intro hn st k d h hl
    simp only [neat, Bool.and_eq_true, Bool.not_eq_true'] at hn
    obtain ⟨⟨⟨⟨⟨⟨⟨⟨n1, n2⟩, n3⟩, n4⟩, n5⟩, n6⟩, n7⟩, n8⟩, n9⟩ := hn
    have tryHit : ∀ r : R, Ended r → hit loc calm b r.res = true → r.st.evs = [] →
        Ended (doTry (pick (exec calm ca) (exec calm cl) (exec calm er)) (exec calm oe) r) ∧
        hit loc calm (.guard b ca cl er oe fin) (doTry (pick (exec calm ca) (exec calm cl) (exec calm er)) (exec calm oe) r).res = true ∧
        (doTry (pick (exec calm ca) (exec calm cl) (exec calm er)) (exec calm oe) r).st.evs = [] := by
      intro r h2 h3 h4
      simp only [doTry]
      cases hq : r.res with
      | waits k => exact absurd hq (h2.1 k)
      | spins => exact absurd hq h2.2
      | fell => rw [hq, n7] at h3; cases h3
      | raised e =>
        rw [hq] at h3
        cases e with
        | error => rw [n8] at h3; cases h3
        | closed => rw [n9] at h3; cases h3
        | cancelled =>
          obtain ⟨h5, h6⟩ := dry_run calm ca n5 r.st
          have h7 : can calm (fun _ => true) ca (exec calm ca r.st).res = true := by
            rcases (exec_sound calm (fun _ => true) ca r.st (all_al _)).2 with ⟨k, hk, _⟩ | ⟨_, hc, _⟩
            · exact absurd hk (h5.1 k)
            · exact hc
          refine ⟨h5, ?_, h6.trans h4⟩
          simp only [pick, R.after, hit, h3, h7, Bool.true_and, Bool.or_true, Bool.true_or]
      | returned =>
        rw [hq] at h3
        refine ⟨h2, ?_, h4⟩
        simp [hit, hq, h3]
      | broke =>
        rw [hq] at h3
        refine ⟨h2, ?_, h4⟩
        simp [hit, hq, h3]
      | continued =>
        rw [hq] at h3
        refine ⟨h2, ?_, h4⟩
        simp [hit, hq, h3]
    have key : Stops loc (hit loc calm (.guard b ca cl er oe fin))
        (fun st => doTry (pick (exec calm ca) (exec calm cl) (exec calm er)) (exec calm oe) (exec calm b st)) := by
      intro st k d h hl
      have stay : ∀ g : St → R, ∀ q : St → R, Stops loc (hit loc calm (.guard b ca cl er oe fin)) g → Ended (exec calm b st) →
          (∀ r : R, r.res = (exec calm b st).res → doTry (pick (exec calm ca) (exec calm cl) (exec calm er)) (exec calm oe) r = (g r.st).after r.tr) →
          Ended (doTry (pick (exec calm ca) (exec calm cl) (exec calm er)) (exec calm oe) (exec calm b (st.more [(.fails .cancelled, d)]))) ∧
          hit loc calm (.guard b ca cl er oe fin)
            (doTry (pick (exec calm ca) (exec calm cl) (exec calm er)) (exec calm oe) (exec calm b (st.more [(.fails .cancelled, d)]))).res = true ∧
          (doTry (pick (exec calm ca) (exec calm cl) (exec calm er)) (exec calm oe) (exec calm b (st.more [(.fails .cancelled, d)]))).st.evs = [] := by
        intro g _ hg he hd
        have h1 := exec_ext calm b st [(.fails .cancelled, d)] he
        rw [h1, hd ((exec calm b st).more [(.fails .cancelled, d)]) rfl]
        simp only [hd (exec calm b st) rfl] at h
        exact hg (exec calm b st).st k d h hl
      cases hr : (exec calm b st).res with
      | waits k' =>
        have hk : k' = k := by simp only [doTry, hr] at h; exact Res.waits.inj h
        subst hk
        obtain ⟨h2, h3, h4⟩ := ihb n1 st k' d hr hl
        exact tryHit _ h2 h3 h4
      | fell =>
        exact stay (exec calm oe) (exec calm oe) (stops_mono (ihoe n4) (fun r hx => by simp only [hit, hx, Bool.or_true]))
          (ended_of _ hr (by simp) (by simp)) (fun r hx => by rw [hr] at hx; simp only [doTry, hx])
      | raised e =>
        cases e with
        | cancelled =>
          exfalso
          have := (dry_run calm ca n5 (exec calm b st).st).1
          apply this.1 k
          have e1 : doTry (pick (exec calm ca) (exec calm cl) (exec calm er)) (exec calm oe) (exec calm b st) =
            (exec calm ca (exec calm b st).st).after (exec calm b st).tr := by simp only [doTry, hr, pick]
          simp only [e1] at h
          exact h
        | closed =>
          exact stay (exec calm cl) (exec calm cl)
            (stops_mono (ihcl n2) (fun r hx => by simp only [hit, hx, Bool.or_true, Bool.true_or]))
            (ended_of _ hr (by simp) (by simp)) (fun r hx => by rw [hr] at hx; simp only [doTry, hx, pick])
        | error =>
          exact stay (exec calm er) (exec calm er)
            (stops_mono (iher n3) (fun r hx => by simp only [hit, hx, Bool.or_true, Bool.true_or]))
            (ended_of _ hr (by simp) (by simp)) (fun r hx => by rw [hr] at hx; simp only [doTry, hx, pick])
      | returned => simp only [doTry, hr] at h; cases h
      | broke => simp only [doTry, hr] at h; cases h
      | continued => simp only [doTry, hr] at h; cases h
      | spins => simp only [doTry, hr] at h; cases h
    have pass : ∀ r : R, Ended r → (doFinally (exec calm fin) r).res = r.res ∧ (doFinally (exec calm fin) r).st = r.st := by
      intro r hr
      obtain ⟨q1, q2⟩ := quiet_run calm fin n6 r.st
      simp only [doFinally, q1]
      obtain ⟨p1, p2⟩ := hr
      cases hq : r.res with
      | waits k => exact absurd hq (p1 k)
      | spins => exact absurd hq p2
      | _ => exact ⟨rfl, q2⟩
    simp only [exec] at h ⊢
    by_cases hw : ∃ k, (doTry (pick (exec calm ca) (exec calm cl) (exec calm er)) (exec calm oe) (exec calm b st)).res = .waits k
    · obtain ⟨k', hk⟩ := hw
      have hkk : k' = k := by simp only [doFinally, hk] at h; exact Res.waits.inj h
      subst hkk
      obtain ⟨h1, h2, h3⟩ := key st k' d hk hl
      obtain ⟨h4, h5⟩ := pass _ h1
      exact ⟨ended_of _ h4 h1.1 h1.2, by rw [h4]; exact h2, by rw [h5]; exact h3⟩
    · exfalso
      by_cases hs : (doTry (pick (exec calm ca) (exec calm cl) (exec calm er)) (exec calm oe) (exec calm b st)).res = .spins
      · simp only [doFinally, hs] at h
        cases h
      · obtain ⟨h4, h5⟩ := pass _ ⟨fun k hk => hw ⟨k, hk⟩, hs⟩
        rw [h4] at h
        exact hw ⟨k, h⟩

end Verif.Tasks

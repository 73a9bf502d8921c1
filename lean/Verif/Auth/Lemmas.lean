import Verif.Auth.Spec
/-! Helper lemmas about the cookie cache, base64 and the splitting of strings. -/
set_option linter.unusedSimpArgs false
set_option linter.unusedVariables false
namespace Verif.Auth

/-! ### Histories of the cache -/

theorem run_append (c : Cache) (l m : List Op) :
    c.run (l ++ m) = (((c.run l).1.run m).1, (c.run l).2 ++ ((c.run l).1.run m).2) := by
  induction l generalizing c with
  | nil => simp [Cache.run]
  | cons o l ih => simp [Cache.run, ih]

theorem run_snoc (c : Cache) (l : List Op) (o : Op) :
    c.run (l ++ [o]) = (((c.run l).1.step o).1, (c.run l).2 ++ [((c.run l).1.step o).2]) := by
  rw [run_append]; simp [Cache.run]

theorem run_length (c : Cache) (l : List Op) : (c.run l).2.length = l.length := by
  induction l generalizing c with
  | nil => simp [Cache.run]
  | cons o l ih => simp [Cache.run, ih]

theorem gave_snoc {m : Rat} {ops : List Op} {o : Op} {i : Nat} {u : User} {t : Rat} {k : Nat} :
    Gave m (ops ++ [o]) i u t k ↔
      Gave m ops i u t k ∨
        (i = ops.length ∧ o = .issue u t ∧ (((Cache.empty m).run ops).1.step o).2 = .gave k) := by
  unfold Gave
  rw [run_snoc]
  rcases Nat.lt_trichotomy i ops.length with h | h | h
  · rw [List.getElem?_append_left h, List.getElem?_append_left (by rw [run_length]; exact h)]
    constructor
    · exact Or.inl
    · rintro (h1 | ⟨h1, _⟩)
      · exact h1
      · omega
  · subst h
    have e1 : ops[ops.length]? = none := by simp
    rw [List.getElem?_append_right (Nat.le_refl _),
      List.getElem?_append_right (by rw [run_length]; exact Nat.le_refl _), run_length, e1]
    simp
  · have e1 : ops[i]? = none := by simp; omega
    rw [List.getElem?_append_right (by omega), e1]
    have : i - ops.length ≠ 0 := by omega
    constructor
    · rintro ⟨h1, _⟩
      cases hh : i - ops.length with
      | zero => omega
      | succ n => rw [hh] at h1; simp at h1
    · rintro (⟨h1, _⟩ | ⟨h1, _⟩)
      · simp at h1
      · omega

structure Inv (m : Rat) (ops : List Op) (c : Cache) : Prop where
  age : c.maxAge = m
  /-- an entry was put by its first issue, and the user's name maps to it -/
  entry : ∀ k t u, c.cookieToUser k = some (t, u) →
    c.nameToCookie u.name = some k ∧
      ∃ i, Gave m ops i u t k ∧ ∀ j < i, ∀ u' t', ¬ Gave m ops j u' t' k
  name : ∀ n k, c.nameToCookie n = some k →
    ∃ t u, c.cookieToUser k = some (t, u) ∧ u.name = n
  issued : ∀ i u t k, Gave m ops i u t k → k < c.next
  owner : ∃ own : Nat → Str, (∀ i u t k, Gave m ops i u t k → own k = u.name) ∧
    ∀ k t u, c.cookieToUser k = some (t, u) → own k = u.name

theorem inv_init (m : Rat) : Inv m [] (Cache.empty m) where
  age := rfl
  entry := by intro k t u h; simp [Cache.empty] at h
  name := by intro n k h; simp [Cache.empty] at h
  issued := by intro i u t k h; simp [Gave] at h
  owner := ⟨fun _ => [], by intro i u t k h; simp [Gave] at h,
    by intro k t u h; simp [Cache.empty] at h⟩

theorem gave_lt {m : Rat} {ops : List Op} {i : Nat} {u : User} {t : Rat} {k : Nat}
    (h : Gave m ops i u t k) : i < ops.length := by
  by_cases hl : i < ops.length
  · exact hl
  · rw [Gave, List.getElem?_eq_none (by omega)] at h; simp at h

/-- The four ways a step can go in a state of the invariant. -/
inductive StepCase (c : Cache) : Op → Cache → Out → Prop where
  | keep (k : Nat) (now : Rat) (u : Option User)
      (h : u = none ∧ c.cookieToUser k = none ∨
        ∃ t v, u = some v ∧ c.cookieToUser k = some (t, v) ∧ now ≤ t + c.maxAge) :
      StepCase c (.present k now) c (.who u)
  | expire (k : Nat) (now t : Rat) (u : User) (h : c.cookieToUser k = some (t, u))
      (hn : c.nameToCookie u.name = some k) (ht : t + c.maxAge < now) :
      StepCase c (.present k now)
        { c with cookieToUser := upd c.cookieToUser k none
                 nameToCookie := upd c.nameToCookie u.name none } (.who none)
  | old (u : User) (now t : Rat) (v : User) (k : Nat) (h : c.nameToCookie u.name = some k)
      (hk : c.cookieToUser k = some (t, v)) (hv : v.name = u.name) :
      StepCase c (.issue u now) c (.gave k)
  | new (u : User) (now : Rat) (h : c.nameToCookie u.name = none) :
      StepCase c (.issue u now)
        { c with nameToCookie := upd c.nameToCookie u.name (some c.next)
                 cookieToUser := upd c.cookieToUser c.next (some (now, u))
                 next := c.next + 1 } (.gave c.next)

theorem step_case {m : Rat} {ops : List Op} {c : Cache} (h : Inv m ops c) (o : Op) :
    StepCase c o (c.step o).1 (c.step o).2 := by
  cases o with
  | present k now =>
    simp only [Cache.step, Cache.get]
    cases hk : c.cookieToUser k with
    | none => exact .keep k now none (Or.inl ⟨rfl, hk⟩)
    | some p =>
      obtain ⟨t, u⟩ := p
      try dsimp only
      by_cases ht : t + c.maxAge < now
      · rw [if_pos ht, (h.entry k t u hk).1]
        exact .expire k now t u hk (h.entry k t u hk).1 ht
      · rw [if_neg ht]
        exact .keep k now (some u) (Or.inr ⟨t, u, rfl, hk, by grind⟩)
  | issue u now =>
    simp only [Cache.step, Cache.put]
    cases hn : c.nameToCookie u.name with
    | none => exact .new u now hn
    | some k =>
      obtain ⟨t, v, hk, hv⟩ := h.name _ _ hn
      exact .old u now t v k hn hk hv

theorem inv_step {m : Rat} {ops : List Op} (h : Inv m ops ((Cache.empty m).run ops).1) (o : Op) :
    Inv m (ops ++ [o]) ((Cache.empty m).run (ops ++ [o])).1 := by
  have hs := step_case h o
  have gs : ∀ i u t k, Gave m (ops ++ [o]) i u t k → Gave m ops i u t k ∨
      (i = ops.length ∧ o = .issue u t ∧
        (((Cache.empty m).run ops).1.step o).2 = .gave k) := fun _ _ _ _ => gave_snoc.1
  have gl : ∀ i u t k, Gave m ops i u t k → Gave m (ops ++ [o]) i u t k :=
    fun _ _ _ _ g => gave_snoc.2 (Or.inl g)
  have gn : ∀ u t k, o = .issue u t → (((Cache.empty m).run ops).1.step o).2 = .gave k →
      Gave m (ops ++ [o]) ops.length u t k :=
    fun _ _ _ h1 h2 => gave_snoc.2 (Or.inr ⟨rfl, h1, h2⟩)
  -- the first issue of a cookie stays its first issue
  have keepFirst : ∀ k t u, (∃ i, Gave m ops i u t k ∧ ∀ j < i, ∀ u' t', ¬ Gave m ops j u' t' k) →
      ∃ i, Gave m (ops ++ [o]) i u t k ∧ ∀ j < i, ∀ u' t', ¬ Gave m (ops ++ [o]) j u' t' k := by
    rintro k t u ⟨i, hi, hj⟩
    refine ⟨i, gl _ _ _ _ hi, fun j hji u' t' g => ?_⟩
    rcases gs _ _ _ _ g with g | ⟨g, _⟩
    · exact hj j hji u' t' g
    · have := gave_lt hi; omega
  rw [run_snoc]
  generalize hc : ((Cache.empty m).run ops).1 = c at *
  generalize (c.step o).1 = c' at *
  generalize (c.step o).2 = x at *
  try dsimp only
  obtain ⟨own, ho1, ho2⟩ := h.owner
  cases hs with
  | keep k now u hu =>
    refine ⟨h.age, fun k t u hk => ⟨(h.entry k t u hk).1, keepFirst _ _ _ (h.entry k t u hk).2⟩,
      h.name, ?_, own, ?_, ho2⟩
    · intro i u t k g
      rcases gs _ _ _ _ g with g | ⟨_, g, _⟩
      · exact h.issued _ _ _ _ g
      · simp at g
    · intro i u t k g
      rcases gs _ _ _ _ g with g | ⟨_, g, _⟩
      · exact ho1 _ _ _ _ g
      · simp at g
  | expire k now t u hk hn ht =>
    refine ⟨h.age, ?_, ?_, ?_, own, ?_, ?_⟩
    · intro k' t' u' hk'
      simp only [upd] at hk' ⊢
      by_cases e : k' = k
      · simp [e] at hk'
      · rw [if_neg e] at hk'
        obtain ⟨h1, h2⟩ := h.entry k' t' u' hk'
        refine ⟨?_, keepFirst _ _ _ h2⟩
        have : u'.name ≠ u.name := by
          intro e'; rw [e', hn] at h1; exact e (Option.some.inj h1).symm
        rw [if_neg this]; exact h1
    · intro n k' hn'
      simp only [upd] at hn' ⊢
      by_cases e : n = u.name
      · simp [e] at hn'
      · rw [if_neg e] at hn'
        obtain ⟨t', u', h1, h2⟩ := h.name n k' hn'
        refine ⟨t', u', ?_, h2⟩
        have : k' ≠ k := by
          intro e'; rw [e', hk] at h1
          simp only [Option.some.injEq, Prod.mk.injEq] at h1
          exact e (by rw [← h2, ← h1.2])
        rw [if_neg this]; exact h1
    · intro i u t k g
      rcases gs _ _ _ _ g with g | ⟨_, g, _⟩
      · exact h.issued _ _ _ _ g
      · simp at g
    · intro i u t k g
      rcases gs _ _ _ _ g with g | ⟨_, g, _⟩
      · exact ho1 _ _ _ _ g
      · simp at g
    · intro k' t' u' hk'
      simp only [upd] at hk'
      by_cases e : k' = k
      · simp [e] at hk'
      · rw [if_neg e] at hk'; exact ho2 _ _ _ hk'
  | old u now t v k hn hk hv =>
    refine ⟨h.age, fun k t u hk => ⟨(h.entry k t u hk).1, keepFirst _ _ _ (h.entry k t u hk).2⟩,
      h.name, ?_, own, ?_, ho2⟩
    · intro i u' t' k' g
      rcases gs _ _ _ _ g with g | ⟨_, g, g'⟩
      · exact h.issued _ _ _ _ g
      · simp only [Out.gave.injEq] at g'
        subst g'
        obtain ⟨_, i, gi, _⟩ := h.entry _ _ _ hk
        exact h.issued _ _ _ _ gi
    · intro i u' t' k' g
      rcases gs _ _ _ _ g with g | ⟨_, g1, g2⟩
      · exact ho1 _ _ _ _ g
      · simp only [Out.gave.injEq] at g2
        simp only [Op.issue.injEq] at g1
        rw [← g2, ← g1.1, ← hv]; exact ho2 _ _ _ hk
  | new u now hn =>
    have fresh : ∀ i u t, ¬ Gave m ops i u t c.next := by
      intro i u t g; have := h.issued _ _ _ _ g; omega
    have live : ∀ k t u, c.cookieToUser k = some (t, u) → k ≠ c.next := by
      intro k t u hk e
      obtain ⟨_, i, gi, _⟩ := h.entry _ _ _ hk
      exact fresh _ _ _ (e ▸ gi)
    refine ⟨h.age, ?_, ?_, ?_, fun k => if k = c.next then u.name else own k, ?_, ?_⟩
    · intro k' t' u' hk'
      simp only [upd] at hk' ⊢
      by_cases e : k' = c.next
      · rw [if_pos e] at hk'
        simp only [Option.some.injEq, Prod.mk.injEq] at hk'
        obtain ⟨e1, e2⟩ := hk'
        subst e1 e2 e
        refine ⟨by simp, ops.length, gn _ _ _ rfl rfl, fun j hj u' t' g => ?_⟩
        rcases gs _ _ _ _ g with g | ⟨g, _⟩
        · exact fresh _ _ _ g
        · omega
      · rw [if_neg e] at hk'
        obtain ⟨h1, h2⟩ := h.entry k' t' u' hk'
        refine ⟨?_, keepFirst _ _ _ h2⟩
        have : u'.name ≠ u.name := by
          intro e'; rw [e', hn] at h1; simp at h1
        rw [if_neg this]; exact h1
    · intro n k' hn'
      simp only [upd] at hn' ⊢
      by_cases e : n = u.name
      · rw [if_pos e] at hn'
        have := Option.some.inj hn'
        subst this
        exact ⟨now, u, by simp, e.symm⟩
      · rw [if_neg e] at hn'
        obtain ⟨t', u', h1, h2⟩ := h.name n k' hn'
        exact ⟨t', u', by rw [if_neg (live _ _ _ h1)]; exact h1, h2⟩
    · intro i u' t' k' g
      try dsimp only
      rcases gs _ _ _ _ g with g | ⟨_, g, g'⟩
      · have := h.issued _ _ _ _ g; omega
      · simp only [Out.gave.injEq] at g'
        omega
    · intro i u' t' k' g
      try dsimp only
      rcases gs _ _ _ _ g with g | ⟨_, g, g'⟩
      · have := h.issued _ _ _ _ g
        rw [if_neg (by omega)]; exact ho1 _ _ _ _ g
      · simp only [Out.gave.injEq] at g'
        simp only [Op.issue.injEq] at g
        rw [if_pos g'.symm, g.1]
    · intro k' t' u' hk'
      simp only [upd] at hk'
      by_cases e : k' = c.next
      · rw [if_pos e] at hk'
        simp only [Option.some.injEq, Prod.mk.injEq] at hk'
        try dsimp only
        rw [if_pos e, hk'.2]
      · rw [if_neg e] at hk'
        try dsimp only
        rw [if_neg e]; exact ho2 _ _ _ hk'

theorem snoc_induction {α : Type} {P : List α → Prop} (h0 : P [])
    (h1 : ∀ l a, P l → P (l ++ [a])) (l : List α) : P l := by
  have : ∀ l : List α, P l.reverse := by
    intro l
    induction l with
    | nil => exact h0
    | cons a l ih => rw [List.reverse_cons]; exact h1 _ _ ih
  simpa using this l.reverse

theorem inv_run (m : Rat) (ops : List Op) : Inv m ops ((Cache.empty m).run ops).1 := by
  induction ops using snoc_induction with
  | h0 => exact inv_init m
  | h1 l a ih => exact inv_step ih a

/-- A live entry survives every operation that does not present it too late. -/
theorem entry_survives {m : Rat} {pre : List Op} {k : Nat} {t : Rat} {u : User} (mid : List Op)
    (h : ((Cache.empty m).run pre).1.cookieToUser k = some (t, u))
    (hm : ∀ now, .present k now ∈ mid → now ≤ t + m) :
    ((Cache.empty m).run (pre ++ mid)).1.cookieToUser k = some (t, u) := by
  induction mid using snoc_induction with
  | h0 => simpa using h
  | h1 l a ih =>
    have ih := ih (fun now hn => hm now (by simp [hn]))
    have hi := inv_run m (pre ++ l)
    have hs := step_case hi a
    rw [← List.append_assoc, run_snoc]
    generalize hc : ((Cache.empty m).run (pre ++ l)).1 = c at *
    generalize (c.step a).1 = c' at *
    generalize (c.step a).2 = x at *
    try dsimp only
    cases hs with
    | keep => exact ih
    | old => exact ih
    | expire k' now t' u' hk hn ht =>
      simp only [upd]
      by_cases e : k = k'
      · subst e
        have := hm now (by simp)
        rw [ih] at hk
        simp only [Option.some.injEq, Prod.mk.injEq] at hk
        rw [hi.age, ← hk.1] at ht
        grind
      · rw [if_neg e]; exact ih
    | new u' now hn =>
      simp only [upd]
      have : k ≠ c.next := by
        obtain ⟨_, i, g, _⟩ := hi.entry _ _ _ ih
        have := hi.issued _ _ _ _ g
        omega
      rw [if_neg this]; exact ih

/-! ### Splitting strings -/

theorem split1_append (c : Char) (a b : Str) (h : c ∉ a) : split1 c (a ++ c :: b) = some (a, b) := by
  induction a with
  | nil => simp [split1]
  | cons x a ih =>
    simp only [List.mem_cons, not_or] at h
    simp [split1, Ne.symm h.1, ih h.2]

theorem split1_eq_some {c : Char} {s a b : Str} (h : split1 c s = some (a, b)) :
    s = a ++ c :: b ∧ c ∉ a := by
  induction s generalizing a b with
  | nil => simp [split1] at h
  | cons x s ih =>
    unfold split1 at h
    by_cases e : x = c
    · rw [if_pos e] at h
      simp only [Option.some.injEq, Prod.mk.injEq] at h
      obtain ⟨rfl, rfl⟩ := h
      simp [e]
    · rw [if_neg e] at h
      cases hs : split1 c s with
      | none => rw [hs] at h; simp at h
      | some p =>
        rw [hs] at h
        simp only [Option.map_some, Option.some.injEq, Prod.mk.injEq] at h
        obtain ⟨rfl, rfl⟩ := h
        obtain ⟨h1, h2⟩ := ih (a := p.1) (b := p.2) (by rw [hs])
        refine ⟨by rw [h1]; rfl, ?_⟩
        simp only [List.mem_cons, not_or]
        exact ⟨fun h => e h.symm, h2⟩

/-! ### base64 -/

theorem b64char_props : ∀ n < 64, b64char n ≠ '=' ∧ alphabet.idxOf? (b64char n) = some n ∧
    (b64char n).toNat < 128 := by
  decide +kernel

theorem loop_char (quad left pads n : Nat) (s : Str) (h : n < 64) :
    b64decodeLoop quad left pads (b64char n :: s) =
      match quad with
      | 0 => b64decodeLoop 1 n 0 s
      | 1 => (b64decodeLoop 2 (n % 16) 0 s).map ((left * 4 + n / 16) :: ·)
      | 2 => (b64decodeLoop 3 (n % 4) 0 s).map ((left * 16 + n / 4) :: ·)
      | _ => (b64decodeLoop 0 0 0 s).map ((left * 64 + n) :: ·) := by
  obtain ⟨h1, h2, _⟩ := b64char_props n h
  rw [b64decodeLoop, if_neg h1, h2]
  rcases quad with _ | _ | _ | q <;> rfl

theorem loop0 (left pads n : Nat) (s : Str) (h : n < 64) :
    b64decodeLoop 0 left pads (b64char n :: s) = b64decodeLoop 1 n 0 s := loop_char 0 left pads n s h

theorem loop1 (left pads n : Nat) (s : Str) (h : n < 64) :
    b64decodeLoop 1 left pads (b64char n :: s) =
      (b64decodeLoop 2 (n % 16) 0 s).map ((left * 4 + n / 16) :: ·) := loop_char 1 left pads n s h

theorem loop2 (left pads n : Nat) (s : Str) (h : n < 64) :
    b64decodeLoop 2 left pads (b64char n :: s) =
      (b64decodeLoop 3 (n % 4) 0 s).map ((left * 16 + n / 4) :: ·) := loop_char 2 left pads n s h

theorem loop3 (left pads n : Nat) (s : Str) (h : n < 64) :
    b64decodeLoop 3 left pads (b64char n :: s) =
      (b64decodeLoop 0 0 0 s).map ((left * 64 + n) :: ·) := loop_char 3 left pads n s h

theorem loop_encode (b : List Nat) (h : ∀ x ∈ b, x < 256) :
    b64decodeLoop 0 0 0 (b64encode b) = some b := by
  induction b using b64encode.induct with
  | case1 => simp [b64encode, b64decodeLoop]
  | case2 a =>
    have ha := h a (by simp)
    rw [b64encode, loop0 _ _ _ _ (by omega), loop1 _ _ _ _ (by omega)]
    simp only [b64decodeLoop]
    simp
    omega
  | case3 a b =>
    have ha := h a (by simp)
    have hb := h b (by simp)
    rw [b64encode, loop0 _ _ _ _ (by omega), loop1 _ _ _ _ (by omega), loop2 _ _ _ _ (by omega)]
    simp only [b64decodeLoop]
    simp
    omega
  | case4 a b c r ih =>
    have ha := h a (by simp)
    have hb := h b (by simp)
    have hc := h c (by simp)
    rw [b64encode, loop0 _ _ _ _ (by omega), loop1 _ _ _ _ (by omega), loop2 _ _ _ _ (by omega),
      loop3 _ _ _ _ (by omega), ih (fun x hx => h x (by simp [hx]))]
    simp
    omega

theorem encode_ascii (b : List Nat) (h : ∀ x ∈ b, x < 256) :
    (b64encode b).all (fun x => x.toNat < 128) = true := by
  have p : ∀ n < 64, decide ((b64char n).toNat < 128) = true :=
    fun n hn => decide_eq_true (b64char_props n hn).2.2
  have q : ('='.toNat < 128) := by decide
  induction b using b64encode.induct with
  | case1 => rfl
  | case2 a =>
    have ha := h a (by simp)
    simp only [b64encode, List.all_cons, List.all_nil, Bool.and_true]
    rw [p _ (by omega), p _ (by omega)]; simp [q]
  | case3 a b =>
    have ha := h a (by simp)
    have hb := h b (by simp)
    simp only [b64encode, List.all_cons, List.all_nil, Bool.and_true]
    rw [p _ (by omega), p _ (by omega), p _ (by omega)]; simp [q]
  | case4 a b c r ih =>
    have ha := h a (by simp)
    have hb := h b (by simp)
    have hc := h c (by simp)
    simp only [b64encode, List.all_cons]
    rw [p _ (by omega), p _ (by omega), p _ (by omega), p _ (by omega),
      ih (fun x hx => h x (by simp [hx]))]
    rfl

theorem b64_roundtrip (b : List Nat) (h : ∀ x ∈ b, x < 256) : b64decode (b64encode b) = some b := by
  rw [b64decode, if_pos (encode_ascii b h), loop_encode b h]

end Verif.Auth

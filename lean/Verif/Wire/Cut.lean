import Verif.Wire.Json
/-! A text that was cut short is not taken for another one (C136). -/
set_option linter.unusedSimpArgs false
set_option linter.unusedVariables false
namespace Verif.Wire

/-! ### What is read has been there -/

theorem digits_split (s : Str) : s = digitsOf s ++ afterDigits s := (List.takeWhile_append_dropWhile ..).symm

theorem mem_digits {s : Str} : ∀ c ∈ digitsOf s, c.isDigit = true := by
  intro c hc
  unfold digitsOf at hc
  induction s with
  | nil => simp at hc
  | cons x s ih =>
    rw [List.takeWhile_cons] at hc
    by_cases h : x.isDigit = true
    · rw [if_pos h] at hc
      rcases List.mem_cons.1 hc with rfl | hc
      · exact h
      · exact ih hc
    · rw [if_neg h] at hc; cases hc

theorem readFrac_sound (s : Str) : Frac (readFrac s).1 ∧ s = (readFrac s).1 ++ (readFrac s).2 := by
  unfold readFrac
  split
  · rename_i t
    by_cases h : digitsOf t = []
    · rw [if_pos h]; exact ⟨Or.inl rfl, rfl⟩
    · rw [if_neg h]
      exact ⟨Or.inr ⟨_, rfl, h, mem_digits⟩, by rw [List.cons_append, ← digits_split]⟩
  · exact ⟨Or.inl rfl, rfl⟩

theorem readExp_sound (s : Str) : Exp (readExp s).1 ∧ s = (readExp s).1 ++ (readExp s).2 := by
  unfold readExp
  split
  · exact ⟨Or.inl rfl, rfl⟩
  · rename_i e t
    by_cases h : e = 'e' ∨ e = 'E'
    · rw [if_pos h]
      split
      · exact ⟨Or.inl rfl, rfl⟩
      · rename_i g u
        by_cases h1 : g = '+' ∨ g = '-'
        · rw [if_pos h1]
          by_cases h2 : digitsOf u = []
          · rw [if_pos h2]; exact ⟨Or.inl rfl, rfl⟩
          · rw [if_neg h2]
            refine ⟨Or.inr ⟨e, [g], digitsOf u, rfl, h, ?_, h2, mem_digits⟩, by
              rw [List.cons_append, List.cons_append, ← digits_split]⟩
            rcases h1 with rfl | rfl
            · exact Or.inr (Or.inl rfl)
            · exact Or.inr (Or.inr rfl)
        · rw [if_neg h1]
          by_cases h2 : digitsOf (g :: u) = []
          · rw [if_pos h2]; exact ⟨Or.inl rfl, rfl⟩
          · rw [if_neg h2]
            exact ⟨Or.inr ⟨e, [], digitsOf (g :: u), rfl, h, Or.inl rfl, h2, mem_digits⟩, by
              rw [List.cons_append, ← digits_split]⟩
    · rw [if_neg h]; exact ⟨Or.inl rfl, rfl⟩

/-- The value of a number. -/
def numOf (F : Floats) (neg : Bool) (d f e : Str) : Num :=
  if f = [] ∧ e = [] then .int (if neg then -(Nat.ofDigitChars 10 d 0 : Int) else (Nat.ofDigitChars 10 d 0 : Int))
  else F.read ((if neg then ['-'] else []) ++ d ++ f ++ e)

theorem readAbs_sound (F : Floats) (neg : Bool) (s : Str) (m : Num) (r : Str) (h : readAbs F neg s = some (m, r)) :
    ∃ d f e, Digits d ∧ Frac f ∧ Exp e ∧ s = d ++ f ++ e ++ r ∧ m = numOf F neg d f e := by
  unfold readAbs at h
  dsimp only at h
  by_cases h1 : digitsOf s = []
  · rw [if_pos h1] at h; cases h
  rw [if_neg h1] at h
  by_cases h2 : (digitsOf s).head? = some '0' ∧ digitsOf s ≠ ['0']
  · rw [if_pos h2] at h; cases h
  rw [if_neg h2] at h
  obtain ⟨f1, f2⟩ := readFrac_sound (afterDigits s)
  obtain ⟨e1, e2⟩ := readExp_sound (readFrac (afterDigits s)).2
  have hd : Digits (digitsOf s) :=
    ⟨h1, mem_digits, fun h0 => Classical.byContradiction fun h3 => h2 ⟨h0, h3⟩⟩
  have hs : s = digitsOf s ++ (readFrac (afterDigits s)).1 ++ (readExp (readFrac (afterDigits s)).2).1 ++
      (readExp (readFrac (afterDigits s)).2).2 := by
    rw [List.append_assoc, ← e2, List.append_assoc, ← f2, ← digits_split]
  refine ⟨_, _, _, hd, f1, e1, ?_, ?_⟩
  · split at h
    · cases h; exact hs
    · cases h; exact hs
  · unfold numOf
    split at h
    · rename_i hc; cases h; rw [if_pos hc]
    · rename_i hc; cases h; rw [if_neg hc]

theorem of_prefix {w s : Str} (h : w.isPrefixOf s = true) : s = w ++ s.drop w.length :=
  (List.prefix_iff_eq_append.1 (List.isPrefixOf_iff_prefix.1 h)).symm

/-- What an atom can be. -/
inductive Atom (F : Floats) (py : Bool) : Str → Json → Prop
  | null : Atom F py "null".toList .null
  | t : Atom F py "true".toList (.bool true)
  | f : Atom F py "false".toList (.bool false)
  | nan : py = true → Atom F py "NaN".toList (.num .nan)
  | pinf : py = true → Atom F py "Infinity".toList (.num .pinf)
  | ninf : py = true → Atom F py "-Infinity".toList (.num .ninf)
  | num (neg : Bool) (d f e : Str) : Digits d → Frac f → Exp e →
      Atom F py ((if neg then ['-'] else []) ++ d ++ f ++ e) (.num (numOf F neg d f e))

theorem readAtom_sound (F : Floats) (py : Bool) (s : Str) (v : Json) (r : Str) (h : readAtom F py s = some (v, r)) :
    ∃ w, Atom F py w v ∧ s = w ++ r := by
  unfold readAtom at h
  by_cases h1 : "null".toList.isPrefixOf s = true
  · rw [if_pos h1] at h; cases h; exact ⟨_, .null, of_prefix h1⟩
  rw [if_neg h1] at h
  by_cases h2 : "true".toList.isPrefixOf s = true
  · rw [if_pos h2] at h; cases h; exact ⟨_, .t, of_prefix h2⟩
  rw [if_neg h2] at h
  by_cases h3 : "false".toList.isPrefixOf s = true
  · rw [if_pos h3] at h; cases h; exact ⟨_, .f, of_prefix h3⟩
  rw [if_neg h3] at h
  cases hn : readNum F py s with
  | none => rw [hn] at h; cases h
  | some p =>
    obtain ⟨m, r2⟩ := p
    rw [hn] at h
    cases h
    unfold readNum at hn
    by_cases h4 : (py && "NaN".toList.isPrefixOf s) = true
    · rw [if_pos h4] at hn; cases hn
      rw [Bool.and_eq_true] at h4
      exact ⟨_, .nan h4.1, of_prefix h4.2⟩
    rw [if_neg h4] at hn
    by_cases h5 : (py && "Infinity".toList.isPrefixOf s) = true
    · rw [if_pos h5] at hn; cases hn
      rw [Bool.and_eq_true] at h5
      exact ⟨_, .pinf h5.1, of_prefix h5.2⟩
    rw [if_neg h5] at hn
    by_cases h6 : (py && "-Infinity".toList.isPrefixOf s) = true
    · rw [if_pos h6] at hn; cases hn
      rw [Bool.and_eq_true] at h6
      exact ⟨_, .ninf h6.1, of_prefix h6.2⟩
    rw [if_neg h6] at hn
    split at hn
    · obtain ⟨d, f, e, hd, hf, he, hs, hm⟩ := readAbs_sound F true _ m _ hn
      rw [hm]
      exact ⟨_, Atom.num true d f e hd hf he, by rw [hs]; simp⟩
    · obtain ⟨d, f, e, hd, hf, he, hs, hm⟩ := readAbs_sound F false _ m _ hn
      rw [hm]
      exact ⟨_, Atom.num false d f e hd hf he, by rw [hs]; simp⟩

theorem atom_of_val {F : Floats} {py : Bool} {c : Char} {t : Str} {p : Json × Str} (h1 : c ≠ '"') (h2 : c ≠ '[')
    (h3 : c ≠ '{') (h : readVal F py 1 (c :: t) = some p) : readAtom F py (c :: t) = some p := by
  rw [← readVal_word F py 0 c t h1 h2 h3]; exact h

theorem readAtom_complete (F : Floats) (py : Bool) (w : Str) (v : Json) (r : Str) (h : Atom F py w v) (hr : Stop r) :
    readAtom F py (w ++ r) = some (v, r) := by
  cases h with
  | null => exact atom_of_val (by decide) (by decide) (by decide) (read_null F py 0 r)
  | t => exact atom_of_val (by decide) (by decide) (by decide) (read_true F py 0 r)
  | f => exact atom_of_val (by decide) (by decide) (by decide) (read_false F py 0 r)
  | nan hp => subst hp; exact atom_of_val (by decide) (by decide) (by decide) (read_nan F 0 r)
  | pinf hp => subst hp; exact atom_of_val (by decide) (by decide) (by decide) (read_inf F 0 r)
  | ninf hp => subst hp; exact atom_of_val (by decide) (by decide) (by decide) (read_ninf F 0 r)
  | num neg d f e hd hf he =>
    obtain ⟨c, t, ec, hc⟩ := digits_head hd (f ++ e ++ r)
    have hw : (if neg then ['-'] else []) ++ d ++ f ++ e ++ r = (if neg then ['-'] else []) ++ c :: t := by
      rw [← ec]; simp
    rw [hw, readNum_abs F py neg c t hc, ← ec, show d ++ (f ++ e ++ r) = d ++ f ++ e ++ r by simp,
      readAbs_write F neg hd hf he hr]
    rfl

theorem stop_append {r : Str} (h : Stop r) (hne : r ≠ []) (x : Str) : Stop (r ++ x) := by
  cases r with
  | nil => exact absurd rfl hne
  | cons c r => intro y hy; exact h y hy

theorem readAtom_append (F : Floats) (py : Bool) (s : Str) (v : Json) (r : Str) (h : readAtom F py s = some (v, r))
    (hr : Stop r) (hne : r ≠ []) (x : Str) : readAtom F py (s ++ x) = some (v, r ++ x) := by
  obtain ⟨w, hw, rfl⟩ := readAtom_sound F py s v r h
  rw [List.append_assoc, readAtom_complete F py w v _ hw (stop_append hr hne x)]

theorem readAtom_nil (F : Floats) (py : Bool) : readAtom F py [] = none := by
  cases h : readAtom F py [] with
  | none => rfl
  | some p =>
    obtain ⟨v, r⟩ := p
    obtain ⟨w, hw, e⟩ := readAtom_sound F py [] v r h
    have hw0 : w = [] := by
      cases w with
      | nil => rfl
      | cons c w => cases e
    subst hw0
    generalize hz : ([] : Str) = z at hw
    cases hw with
    | null => cases hz
    | t => cases hz
    | f => cases hz
    | nan _ => cases hz
    | pinf _ => cases hz
    | ninf _ => cases hz
    | num neg d f e hd hf he =>
      obtain ⟨c, t, ec, hc⟩ := digits_head hd (f ++ e)
      rw [List.append_assoc, List.append_assoc, ec] at hz
      cases neg <;> cases hz

/-! ### Reading goes on where it stopped -/

theorem readUnits_append (s : Str) (l : List Nat) (r : Str) (h : readUnits s = some (l, r)) (x : Str) :
    readUnits (s ++ x) = some (l, r ++ x) := by
  induction hk : s.length using Nat.strongRecOn generalizing s l with
  | _ k ih =>
    subst hk
    cases s with
    | nil => simp [readUnits] at h
    | cons c s =>
      by_cases h1 : c = '"'
      · subst h1
        rw [readUnits_quote] at h
        cases h
        rw [List.cons_append, readUnits_quote]
      by_cases h2 : c = '\\'
      · subst h2
        cases s with
        | nil => rw [readUnits.eq_def] at h; simp at h
        | cons y s =>
          by_cases h3 : y = 'u'
          · subst h3
            rcases s with _ | ⟨a, _ | ⟨b, _ | ⟨e, _ | ⟨d, t⟩⟩⟩⟩
            · rw [readUnits.eq_def] at h; simp at h
            · rw [readUnits.eq_def] at h; simp at h
            · rw [readUnits.eq_def] at h; simp at h
            · rw [readUnits.eq_def] at h; simp at h
            · rw [readUnits_hex] at h
              simp only [List.cons_append]
              rw [readUnits_hex]
              cases hv : hexVal4 a b e d with
              | none => rw [hv] at h; simp at h
              | some n =>
                cases ht : readUnits t with
                | none => rw [hv, ht] at h; simp at h
                | some p =>
                  obtain ⟨l2, r2⟩ := p
                  rw [hv, ht] at h
                  simp at h
                  obtain ⟨rfl, rfl⟩ := h
                  rw [ih t.length (by simp; omega) t l2 ht rfl]
          · rw [readUnits_esc y s h3] at h
            simp only [List.cons_append]
            rw [readUnits_esc y _ h3]
            cases hv : unescape y with
            | none => rw [hv] at h; simp at h
            | some n =>
              cases ht : readUnits s with
              | none => rw [hv, ht] at h; simp at h
              | some p =>
                obtain ⟨l2, r2⟩ := p
                rw [hv, ht] at h
                simp at h
                obtain ⟨rfl, rfl⟩ := h
                rw [ih s.length (by simp; omega) s l2 ht rfl]
      · rw [readUnits_plain c s h1 h2] at h
        rw [List.cons_append, readUnits_plain c _ h1 h2]
        by_cases h3 : c.toNat < 32
        · rw [if_pos h3] at h; cases h
        · rw [if_neg h3] at h ⊢
          cases ht : readUnits s with
          | none => rw [ht] at h; simp at h
          | some p =>
            obtain ⟨l2, r2⟩ := p
            rw [ht] at h
            simp at h
            obtain ⟨rfl, rfl⟩ := h
            rw [ih s.length (by simp) s l2 ht rfl]

theorem readStr_append (s : Str) (k r : Str) (h : readStr s = some (k, r)) (x : Str) :
    readStr (s ++ x) = some (k, r ++ x) := by
  unfold readStr at h ⊢
  cases hu : readUnits s with
  | none => rw [hu] at h; cases h
  | some p =>
    obtain ⟨l, r2⟩ := p
    rw [hu] at h
    rw [readUnits_append s l r2 hu x]
    dsimp only at h ⊢
    cases hc : combine l with
    | none => rw [hc] at h; cases h
    | some t => rw [hc] at h; cases h; rfl

theorem skipWs_append {s : Str} {c : Char} {u : Str} (h : skipWs s = c :: u) (x : Str) :
    skipWs (s ++ x) = c :: (u ++ x) := by
  unfold skipWs at h ⊢
  induction s with
  | nil => simp at h
  | cons y s ih =>
    rw [List.cons_append, List.dropWhile_cons] at *
    by_cases hy : isWs y = true
    · rw [if_pos hy] at h ⊢; exact ih h
    · rw [if_neg hy] at h ⊢; cases h; rfl

theorem skipWs_stop {s : Str} {c : Char} {u : Str} (h : skipWs s = c :: u) (hc : c = ',' ∨ c = ']' ∨ c = '}') :
    Stop s ∧ s ≠ [] := by
  cases s with
  | nil => simp [skipWs] at h
  | cons y s =>
    refine ⟨?_, by simp⟩
    unfold skipWs at h
    rw [List.dropWhile_cons] at h
    intro z hz
    cases hz
    by_cases hy : isWs y = true
    · unfold isWs at hy
      simp at hy
      rcases hy with ((rfl | rfl) | rfl) | rfl <;> decide
    · rw [if_neg hy] at h
      cases h
      rcases hc with rfl | rfl | rfl <;> decide

/-- A value that shows where it ends. -/
def Closed (s r : Str) : Prop := (r ≠ [] ∧ Stop r) ∨ s.head? = some '"' ∨ s.head? = some '[' ∨ s.head? = some '{'

theorem readVal_nil (F : Floats) (py : Bool) (n : Nat) : readVal F py n [] = none := by
  cases n with
  | zero => rw [readVal]
  | succ n => rw [readVal_atom _ _ _ _ (by simp) (by simp) (by simp), readAtom_nil]

theorem readItems_nil (F : Floats) (py : Bool) (n : Nat) : readItems F py n [] = none := by
  cases n with
  | zero => rw [readItems]
  | succ n => rw [readItems, readVal_nil]

theorem readEntries_nil (F : Floats) (py : Bool) (n : Nat) : readEntries F py n [] = none := by
  cases n with
  | zero => rw [readEntries]
  | succ n => rw [readEntries.eq_def]

/-- One item and what comes after it. -/
def Items (F : Floats) (py : Bool) (n : Nat) (s : Str) (l : List Json) (r : Str) : Prop :=
  ∃ v r1 c u, readVal F py n s = some (v, r1) ∧ skipWs r1 = c :: u ∧
    ((c = ',' ∧ ∃ l2, readItems F py n (skipWs u) = some (l2, r) ∧ l = v :: l2) ∨ (c = ']' ∧ l = [v] ∧ r = u))

theorem items_inv {F : Floats} {py : Bool} {n : Nat} {s : Str} {l : List Json} {r : Str} :
    readItems F py (n + 1) s = some (l, r) ↔ Items F py n s l r := by
  rw [readItems]
  unfold Items
  cases hv : readVal F py n s with
  | none => simp
  | some p =>
    obtain ⟨v, r1⟩ := p
    dsimp only
    constructor
    · intro h
      split at h
      · rename_i u hu
        cases hi : readItems F py n (skipWs u) with
        | none => rw [hi] at h; cases h
        | some q =>
          obtain ⟨l2, r2⟩ := q
          rw [hi] at h
          cases h
          exact ⟨v, r1, ',', u, rfl, hu, Or.inl ⟨rfl, l2, hi, rfl⟩⟩
      · rename_i u hu
        cases h
        exact ⟨v, r1, ']', _, rfl, hu, Or.inr ⟨rfl, rfl, rfl⟩⟩
      · cases h
    · rintro ⟨v2, r2, c, u, e, hu, hc⟩
      cases e
      rw [hu]
      rcases hc with ⟨rfl, l2, hi, rfl⟩ | ⟨rfl, rfl, rfl⟩
      · show (readItems F py n (skipWs _)).map _ = _
        rw [hi]; rfl
      · rfl

/-- One entry and what comes after it. -/
def Entries (F : Floats) (py : Bool) (n : Nat) (s : Str) (l : List (Str × Json)) (r : Str) : Prop :=
  ∃ t k r0 u0 v r1 c u, s = '"' :: t ∧ readStr t = some (k, r0) ∧ skipWs r0 = ':' :: u0 ∧
    readVal F py n (skipWs u0) = some (v, r1) ∧ skipWs r1 = c :: u ∧
    ((c = ',' ∧ ∃ l2, readEntries F py n (skipWs u) = some (l2, r) ∧ l = (k, v) :: l2) ∨ (c = '}' ∧ l = [(k, v)] ∧ r = u))

theorem entries_inv {F : Floats} {py : Bool} {n : Nat} {s : Str} {l : List (Str × Json)} {r : Str} :
    readEntries F py (n + 1) s = some (l, r) ↔ Entries F py n s l r := by
  unfold Entries
  constructor
  · intro h
    rw [readEntries.eq_def] at h
    dsimp only at h
    split at h
    · rename_i t
      cases hs : readStr t with
      | none => rw [hs] at h; cases h
      | some p =>
        obtain ⟨k, r0⟩ := p
        rw [hs] at h
        dsimp only at h
        split at h
        · rename_i u0 hu0
          cases hv : readVal F py n (skipWs u0) with
          | none => rw [hv] at h; cases h
          | some q =>
            obtain ⟨v, r1⟩ := q
            rw [hv] at h
            dsimp only at h
            split at h
            · rename_i u hu
              cases hi : readEntries F py n (skipWs u) with
              | none => rw [hi] at h; cases h
              | some q =>
                obtain ⟨l2, r2⟩ := q
                rw [hi] at h
                cases h
                exact ⟨t, k, r0, u0, v, r1, ',', u, rfl, hs, hu0, hv, hu, Or.inl ⟨rfl, l2, hi, rfl⟩⟩
            · rename_i u hu
              cases h
              exact ⟨t, k, r0, u0, v, r1, '}', _, rfl, hs, hu0, hv, hu, Or.inr ⟨rfl, rfl, rfl⟩⟩
            · cases h
        · cases h
    · cases h
  · rintro ⟨t, k, r0, u0, v, r1, c, u, rfl, hs, hu0, hv, hu, hc⟩
    rw [readEntries_str, hs]
    dsimp only
    rw [hu0]
    show (match readVal F py n (skipWs u0) with
      | none => none
      | some (v, r2) =>
        match skipWs r2 with
        | ',' :: w => (readEntries F py n (skipWs w)).map (fun (p : List (Str × Json) × Str) => ((k, v) :: p.1, p.2))
        | '}' :: w => some ([(k, v)], w)
        | _ => none) = _
    rw [hv]
    dsimp only
    rw [hu]
    rcases hc with ⟨rfl, l2, hi, rfl⟩ | ⟨rfl, rfl, rfl⟩
    · show (readEntries F py n (skipWs _)).map _ = _
      rw [hi]; rfl
    · rfl

theorem skipWs_items {F : Floats} {py : Bool} {n : Nat} {u : Str} {p : List Json × Str}
    (h : readItems F py n (skipWs u) = some p) (x : Str) : skipWs (u ++ x) = skipWs u ++ x := by
  cases hu : skipWs u with
  | nil => rw [hu, readItems_nil] at h; cases h
  | cons c t => rw [skipWs_append hu]; rfl

theorem skipWs_entries {F : Floats} {py : Bool} {n : Nat} {u : Str} {p : List (Str × Json) × Str}
    (h : readEntries F py n (skipWs u) = some p) (x : Str) : skipWs (u ++ x) = skipWs u ++ x := by
  cases hu : skipWs u with
  | nil => rw [hu, readEntries_nil] at h; cases h
  | cons c t => rw [skipWs_append hu]; rfl

theorem skipWs_val {F : Floats} {py : Bool} {n : Nat} {u : Str} {p : Json × Str}
    (h : readVal F py n (skipWs u) = some p) (x : Str) : skipWs (u ++ x) = skipWs u ++ x := by
  cases hu : skipWs u with
  | nil => rw [hu, readVal_nil] at h; cases h
  | cons c t => rw [skipWs_append hu]; rfl

/-- What was read is read again when the text goes on. -/
theorem read_append (F : Floats) (py : Bool) (n : Nat) :
    (∀ s v r, readVal F py n s = some (v, r) → Closed s r → ∀ m x, n ≤ m → readVal F py m (s ++ x) = some (v, r ++ x)) ∧
    (∀ s l r, readItems F py n s = some (l, r) → ∀ m x, n ≤ m → readItems F py m (s ++ x) = some (l, r ++ x)) ∧
    (∀ s l r, readEntries F py n s = some (l, r) → ∀ m x, n ≤ m → readEntries F py m (s ++ x) = some (l, r ++ x)) := by
  induction n with
  | zero =>
    refine ⟨fun s v r h => ?_, fun s l r h => ?_, fun s l r h => ?_⟩
    · rw [readVal] at h; cases h
    · rw [readItems] at h; cases h
    · rw [readEntries] at h; cases h
  | succ n ih =>
    obtain ⟨ihV, ihI, ihE⟩ := ih
    refine ⟨fun s v r h hc m x hm => ?_, fun s l r h m x hm => ?_, fun s l r h m x hm => ?_⟩
    · obtain ⟨m, rfl⟩ : ∃ k, m = k + 1 := ⟨m - 1, by omega⟩
      have hm' : n ≤ m := by omega
      cases s with
      | nil => rw [readVal_nil] at h; cases h
      | cons c t =>
        by_cases h1 : c = '"'
        · subst h1
          rw [readVal_str] at h
          rw [List.cons_append, readVal_str]
          cases hs : readStr t with
          | none => rw [hs] at h; cases h
          | some p =>
            obtain ⟨k, r2⟩ := p
            rw [hs] at h
            cases h
            rw [readStr_append t k _ hs x]; rfl
        by_cases h2 : c = '['
        · subst h2
          rw [readVal_arr] at h
          rw [List.cons_append, readVal_arr]
          split at h
          · rename_i u hu
            cases h
            rw [skipWs_append hu]
            rfl
          · rename_i u hu
            cases hi : readItems F py n (skipWs t) with
            | none => rw [hi] at h; cases h
            | some p =>
              obtain ⟨l, r2⟩ := p
              rw [hi] at h
              cases h
              rw [skipWs_items hi x]
              have := ihI _ _ _ hi m x hm'
              split
              · rename_i w hw
                cases hk : skipWs t with
                | nil => rw [hk, readItems_nil] at hi; cases hi
                | cons y k =>
                  rw [hk] at hw
                  cases hw
                  exact absurd hk (hu k)
              · rw [this]; rfl
        by_cases h3 : c = '{'
        · subst h3
          rw [readVal_obj] at h
          rw [List.cons_append, readVal_obj]
          split at h
          · rename_i u hu
            cases h
            rw [skipWs_append hu]
            rfl
          · rename_i u hu
            cases hi : readEntries F py n (skipWs t) with
            | none => rw [hi] at h; cases h
            | some p =>
              obtain ⟨l, r2⟩ := p
              rw [hi] at h
              cases h
              rw [skipWs_entries hi x]
              have := ihE _ _ _ hi m x hm'
              split
              · rename_i w hw
                cases hk : skipWs t with
                | nil => rw [hk, readEntries_nil] at hi; cases hi
                | cons y k =>
                  rw [hk] at hw
                  cases hw
                  exact absurd hk (hu k)
              · rw [this]; rfl
        rw [readVal_word F py n c t h1 h2 h3] at h
        rw [List.cons_append, readVal_word F py m c _ h1 h2 h3, ← List.cons_append]
        rcases hc with ⟨a, b⟩ | hc | hc | hc
        · exact readAtom_append F py _ v r h b a x
        · exact absurd (Option.some.inj hc) h1
        · exact absurd (Option.some.inj hc) h2
        · exact absurd (Option.some.inj hc) h3
    · obtain ⟨m, rfl⟩ : ∃ k, m = k + 1 := ⟨m - 1, by omega⟩
      have hm' : n ≤ m := by omega
      obtain ⟨v, r1, c, u, hv, hu, hc⟩ := items_inv.1 h
      have hst := skipWs_stop hu (by rcases hc with ⟨rfl, _⟩ | ⟨rfl, _⟩ <;> simp)
      refine items_inv.2 ⟨v, r1 ++ x, c, u ++ x, ihV _ _ _ hv (Or.inl ⟨hst.2, hst.1⟩) m x hm', skipWs_append hu x, ?_⟩
      rcases hc with ⟨rfl, l2, hi, rfl⟩ | ⟨rfl, rfl, rfl⟩
      · refine Or.inl ⟨rfl, l2, ?_, rfl⟩
        rw [skipWs_items hi x]
        exact ihI _ _ _ hi m x hm'
      · exact Or.inr ⟨rfl, rfl, rfl⟩
    · obtain ⟨m, rfl⟩ : ∃ k, m = k + 1 := ⟨m - 1, by omega⟩
      have hm' : n ≤ m := by omega
      obtain ⟨t, k, r0, u0, v, r1, c, u, rfl, hs, hu0, hv, hu, hc⟩ := entries_inv.1 h
      have hst := skipWs_stop hu (by rcases hc with ⟨rfl, _⟩ | ⟨rfl, _⟩ <;> simp)
      have hv2 : readVal F py m (skipWs (u0 ++ x)) = some (v, r1 ++ x) := by
        rw [skipWs_val hv x]
        exact ihV _ _ _ hv (Or.inl ⟨hst.2, hst.1⟩) m x hm'
      refine entries_inv.2 ⟨t ++ x, k, r0 ++ x, u0 ++ x, v, r1 ++ x, c, u ++ x, rfl, readStr_append t k r0 hs x,
        skipWs_append hu0 x, hv2, skipWs_append hu x, ?_⟩
      rcases hc with ⟨rfl, l2, hi, rfl⟩ | ⟨rfl, rfl, rfl⟩
      · refine Or.inl ⟨rfl, l2, ?_, rfl⟩
        rw [skipWs_entries hi x]
        exact ihE _ _ _ hi m x hm'
      · exact Or.inr ⟨rfl, rfl, rfl⟩

/-- The first value of a cut text is not there. -/
theorem readVal_cut (F : Floats) (py : Bool) (l : List (Str × Json)) (h : Ok F py (.obj l)) (p x : Str)
    (hp : dumps F (.obj l) = p ++ x) (hx : x ≠ []) (n : Nat) : readVal F py n p = none := by
  cases hr : readVal F py n p with
  | none => rfl
  | some q =>
    obtain ⟨v, r⟩ := q
    exfalso
    have hh : ∃ t, dumps F (.obj l) = '{' :: t := by
      cases l with
      | nil => exact ⟨_, by rw [dumps]⟩
      | cons e l => obtain ⟨k, w⟩ := e; exact ⟨_, by rw [dumps]⟩
    obtain ⟨t, ht⟩ := hh
    have hc : Closed p r := by
      cases p with
      | nil => rw [readVal_nil] at hr; cases hr
      | cons c p =>
        rw [ht] at hp
        cases hp
        exact Or.inr (Or.inr (Or.inr rfl))
    have h1 := (read_append F py n).1 p v r hr hc (n + (dumps F (.obj l)).length) x (by omega)
    have h2 := read_dumps F py _ h [] (by intro c hc; cases hc) (n + (dumps F (.obj l)).length) (by omega)
    rw [List.append_nil] at h2
    rw [← hp, h2] at h1
    replace h2 := h1.symm
    have := congrArg (fun o => o.map (·.2.length)) h2
    simp at this
    exact hx this.2

end Verif.Wire

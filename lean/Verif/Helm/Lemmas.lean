import Verif.Helm.Model
import Verif.Kube.ObjectsProps
/-! Lemmas for the properties of the Helm chart. -/
set_option linter.unusedSimpArgs false
set_option linter.unusedVariables false
namespace Verif.Helm

theorem hexVal_digit (n : Nat) (h : n < 16) : hexVal (hexDigit n) = some n := by
  have : ∀ i : Fin 16, hexVal (hexDigit i.1) = some i.1 := by decide
  exact this ⟨n, h⟩

theorem readHex_hex (k : Nat) : ∀ (j a m : Nat) (t : Str), m < 16 ^ k → readHex (k + j) a (hex k m ++ t) = readHex j (a * 16 ^ k + m) t := by
  induction k with
  | zero =>
    intro j a m t h
    have : m = 0 := by simp at h; exact h
    subst this
    simp [hex]
  | succ k ih =>
    intro j a m t h
    have e : k + 1 + j = k + (j + 1) := by omega
    have hd : m / 16 < 16 ^ k := by
      rw [Nat.pow_succ] at h
      exact Nat.div_lt_of_lt_mul (by omega)
    have hm : m % 16 < 16 := Nat.mod_lt _ (by decide)
    simp only [hex, List.append_assoc, List.singleton_append]
    rw [e, ih (j + 1) a (m / 16) _ hd]
    simp only [readHex, hexVal_digit _ hm, Option.bind_some]
    congr 1
    rw [Nat.pow_succ]
    have := Nat.div_add_mod m 16
    rw [Nat.mul_add, ← Nat.mul_assoc, Nat.mul_comm 16 a, Nat.mul_assoc, Nat.mul_comm 16 (16 ^ k)]
    omega

theorem readHex_all (k m : Nat) (t : Str) (h : m < 16 ^ k) : readHex k 0 (hex k m ++ t) = some (m, t) := by
  have := readHex_hex k 0 0 m t h
  simpa [readHex] using this

theorem char_of {c : Char} {n : Nat} (h : c.toNat = n) : c = Char.ofNat n := by
  rw [← h, Char.ofNat_toNat]

theorem char_lt (c : Char) : c.toNat < 16 ^ 8 := by
  have := c.valid
  simp only [UInt32.isValidChar, Nat.isValidChar] at this
  have e : c.toNat = c.val.toNat := rfl
  omega

/-- An escape, as it is read. -/
theorem inside_escape (n : Nat) (e c : Char) (s t : Str) (h : readEscape e s = some (c, t)) :
    readInside (n + 1) ('\\' :: e :: s) = (readInside n t).map (fun q => (c :: q.1, q.2)) := by
  simp [readInside, h]

theorem inside_char (n : Nat) (print : Char → Bool) (h1 : print '\n' = false) (h2 : print '\r' = false) (c : Char) (t : Str) :
    readInside (n + 1) (quoteChar print c ++ t) = (readInside n t).map (fun q => (c :: q.1, q.2)) := by
  unfold quoteChar
  split
  · rename_i h
    exact inside_escape n c c t t (by rcases h with h | h <;> subst h <;> rfl)
  · rename_i h
    split
    · rename_i hp
      have hn : ¬ (c = '\n' ∨ c = '\r') := by
        rintro (e | e) <;> subst e
        · rw [h1] at hp; cases hp
        · rw [h2] at hp; cases hp
      simp only [List.cons_append, List.nil_append, readInside]
      rw [if_neg (fun e => h (.inl e)), if_neg hn, if_neg (fun e => h (.inr e))]
    · repeat' split
      all_goals rename_i hh
      all_goals first
        | (have := char_of hh; subst this; exact inside_escape n _ _ _ _ rfl)
        | skip
      · refine inside_escape n 'x' c _ t ?_
        have : c.toNat < 16 ^ 2 := by omega
        simp [readEscape, simpleEscape, readHex_all 2 c.toNat t this, Char.ofNat_toNat]
      · refine inside_escape n 'u' c _ t ?_
        have : c.toNat < 16 ^ 4 := by omega
        simp [readEscape, simpleEscape, readHex_all 4 c.toNat t this, Char.ofNat_toNat]
      · refine inside_escape n 'U' c _ t ?_
        simp [readEscape, simpleEscape, readHex_all 8 c.toNat t (char_lt c), Char.ofNat_toNat]

theorem quoteChar_pos (print : Char → Bool) (c : Char) : 1 ≤ (quoteChar print c).length := by
  unfold quoteChar
  repeat' split
  all_goals simp

theorem inside_text (print : Char → Bool) (h1 : print '\n' = false) (h2 : print '\r' = false) (s t : Str) : ∀ n, s.length + 1 ≤ n →
    readInside n (s.flatMap (quoteChar print) ++ '"' :: t) = some (s, t) := by
  induction s with
  | nil =>
    intro n hn
    cases n with
    | zero => simp at hn
    | succ n => simp [readInside]
  | cons c s ih =>
    intro n hn
    cases n with
    | zero => simp at hn
    | succ n =>
      simp only [List.flatMap_cons, List.append_assoc]
      rw [inside_char n print h1 h2, ih n (by simpa using hn)]
      rfl

theorem flat_len (print : Char → Bool) (s : Str) : s.length ≤ (s.flatMap (quoteChar print)).length := by
  induction s with
  | nil => simp
  | cons c s ih =>
    have := quoteChar_pos print c
    simp only [List.flatMap_cons, List.length_append, List.length_cons]
    omega

theorem quoteChar_head (print : Char → Bool) (c : Char) : (quoteChar print c).head? ≠ some '"' := by
  have hb : ∀ x : Str, ('\\' :: x).head? ≠ some '"' := fun x h => absurd (Option.some.inj h) (by decide)
  unfold quoteChar
  by_cases h : c = '"' ∨ c = '\\'
  · rw [if_pos h]; exact hb _
  · rw [if_neg h]
    by_cases hp : print c = true
    · rw [if_pos hp]
      exact fun e => h (.inl (Option.some.inj e))
    · rw [if_neg hp]
      repeat' split
      all_goals exact hb _

theorem readLiteral_quote (print : Char → Bool) (h1 : print '\n' = false) (h2 : print '\r' = false) (s t : Str)
    (ht : t.head? ≠ some '"') : readLiteral (quote print s ++ t) = some (s, t) := by
  have key : readInside ((s.flatMap (quoteChar print) ++ '"' :: t).length + 1) (s.flatMap (quoteChar print) ++ '"' :: t) = some (s, t) := by
    apply inside_text print h1 h2
    have := flat_len print s
    simp only [List.length_append, List.length_cons]
    omega
  have e : quote print s ++ t = '"' :: (s.flatMap (quoteChar print) ++ '"' :: t) := by simp [quote]
  rw [e]
  unfold readLiteral
  split
  · rename_i x heq
    injection heq with _ heq
    exfalso
    cases s with
    | nil =>
      simp only [List.flatMap_nil, List.nil_append] at heq
      injection heq with _ heq
      rw [heq] at ht
      exact ht rfl
    | cons c s =>
      have hq := quoteChar_head print c
      have hl := quoteChar_pos print c
      rw [List.flatMap_cons] at heq
      cases hc : quoteChar print c with
      | nil => rw [hc] at hl; simp at hl
      | cons d ds =>
        rw [hc] at heq hq
        injection heq with heq _
        rw [heq] at hq
        exact hq rfl
  · rename_i x _ heq
    injection heq with _ heq
    rw [← heq]
    exact key
  · rename_i hx
    exact absurd rfl (hx _)

/-! ### Blocks -/

theorem lines_ne (s : Str) : lines s ≠ [] := by
  cases s with
  | nil => simp [lines]
  | cons c s =>
    simp only [lines]
    split
    · simp
    · split <;> simp

theorem unlines_lines (s : Str) : unlines (lines s) = s := by
  induction s with
  | nil => rfl
  | cons c s ih =>
    simp only [lines]
    cases h : lines s with
    | nil => exact absurd h (lines_ne s)
    | cons l ls =>
      rw [h] at ih
      by_cases hc : c = '\n'
      · subst hc
        simp only [if_true, unlines, List.nil_append]
        rw [ih]
      · simp only [if_neg hc]
        cases ls with
        | nil => simp only [unlines] at ih ⊢; rw [ih]
        | cons l2 ls => simp only [unlines, List.cons_append] at ih ⊢; rw [ih]

theorem lines_pad (p t l : Str) (ls : List Str) (hp : '\n' ∉ p) (h : lines t = l :: ls) : lines (p ++ t) = (p ++ l) :: ls := by
  induction p with
  | nil => exact h
  | cons c p ih =>
    simp only [List.mem_cons, not_or] at hp
    simp only [List.cons_append, lines, ih hp.2, if_neg (Ne.symm hp.1)]

theorem lines_flat (p s : Str) (hp : '\n' ∉ p) : ∃ l ls, lines s = l :: ls ∧
    lines (s.flatMap (fun c => if c = '\n' then '\n' :: p else [c])) = l :: ls.map (p ++ ·) := by
  induction s with
  | nil => exact ⟨[], [], rfl, rfl⟩
  | cons c s ih =>
    obtain ⟨l, ls, e1, e2⟩ := ih
    by_cases hc : c = '\n'
    · subst hc
      refine ⟨[], l :: ls, ?_, ?_⟩
      · simp [lines, e1]
      · simp only [List.flatMap_cons, if_true, List.cons_append, lines]
        rw [lines_pad p _ l _ hp e2]
        rfl
    · refine ⟨c :: l, ls, ?_, ?_⟩
      · simp [lines, e1, hc]
      · simp only [List.flatMap_cons, if_neg hc, List.cons_append, List.nil_append, lines, e2]

theorem block_indent (k : Nat) (s : Str) : readBlock k (indent (List.replicate k ' ') s) = s := by
  have hp : '\n' ∉ List.replicate k ' ' := by
    intro h
    exact absurd (List.eq_of_mem_replicate h) (by decide)
  obtain ⟨l, ls, e1, e2⟩ := lines_flat (List.replicate k ' ') s hp
  unfold readBlock indent
  rw [lines_pad _ _ _ _ hp e2]
  have : ((List.replicate k ' ' ++ l) :: ls.map (List.replicate k ' ' ++ ·)).map (fun l => l.drop k) = l :: ls := by
    simp [List.map_map, Function.comp_def]
  rw [this, ← e1, unlines_lines]

/-! ### The order of strings -/

theorem leStr_total : ∀ a b : Str, (leStr a b || leStr b a) = true
  | [], b => by simp [leStr]
  | _ :: _, [] => by simp [leStr]
  | a :: s, b :: t => by
    simp only [leStr]
    have ih := leStr_total s t
    by_cases h : a.toNat < b.toNat
    · simp [h]
    · by_cases h2 : a = b
      · subst h2
        simpa using ih
      · have : b.toNat < a.toNat := by
          rcases Nat.lt_trichotomy a.toNat b.toNat with x | x | x
          · exact absurd x h
          · have := char_of x
            rw [Char.ofNat_toNat] at this
            exact absurd this h2
          · exact x
        simp [this, h, h2]

theorem leStr_trans : ∀ a b c : Str, leStr a b = true → leStr b c = true → leStr a c = true
  | [], _, _, _, _ => by simp [leStr]
  | _ :: _, [], _, h, _ => by simp [leStr] at h
  | _ :: _, _ :: _, [], _, h => by simp [leStr] at h
  | a :: s, b :: t, c :: u, h1, h2 => by
    simp only [leStr] at h1 h2 ⊢
    have ih := leStr_trans s t u
    by_cases x : a.toNat < b.toNat
    · by_cases y : b.toNat < c.toNat
      · rw [if_pos (by omega)]
      · rw [if_neg y] at h2
        by_cases z : b = c
        · subst z; rw [if_pos x]
        · rw [if_neg z] at h2; cases h2
    · rw [if_neg x] at h1
      by_cases w : a = b
      · subst w
        rw [if_pos rfl] at h1
        by_cases y : a.toNat < c.toNat
        · rw [if_pos y]
        · rw [if_neg y] at h2 ⊢
          by_cases z : a = c
          · subst z; rw [if_pos rfl] at h2 ⊢; exact ih h1 h2
          · rw [if_neg z] at h2; cases h2
      · rw [if_neg w] at h1; cases h1

theorem leStr_antisymm : ∀ a b : Str, leStr a b = true → leStr b a = true → a = b
  | [], [], _, _ => rfl
  | [], _ :: _, _, h => by simp [leStr] at h
  | _ :: _, [], h, _ => by simp [leStr] at h
  | a :: s, b :: t, h1, h2 => by
    simp only [leStr] at h1 h2
    by_cases x : a.toNat < b.toNat
    · have y : ¬ b.toNat < a.toNat := by omega
      rw [if_neg y] at h2
      by_cases z : b = a
      · subst z; exact absurd x (Nat.lt_irrefl _)
      · rw [if_neg z] at h2; cases h2
    · rw [if_neg x] at h1
      by_cases z : a = b
      · subst z
        rw [if_pos rfl] at h1
        rw [if_neg x, if_pos rfl] at h2
        rw [leStr_antisymm s t h1 h2]
      · rw [if_neg z] at h1; cases h1

/-! ### Names -/

theorem name63_id {s : Str} (h1 : s.length ≤ 63) (h2 : s.getLast? ≠ some '-') : name63 s = s := by
  unfold name63
  simp only [List.take_of_length_le h1]
  rw [if_neg h2]

theorem name63_len (s : Str) : (name63 s).length ≤ 63 := by
  unfold name63
  have : (s.take 63).length ≤ 63 := by simp [Nat.min_le_left]
  dsimp only
  split
  · simp only [List.length_dropLast]; omega
  · exact this

/-! ### Values -/

theorem lookup_without (l : List (Str × Json)) (k k' : Str) (h : k' ≠ k) : lookup (without l k) k' = lookup l k' := by
  induction l with
  | nil => rfl
  | cons e l ih =>
    by_cases he : e.1 = k
    · have : without (e :: l) k = without l k := by simp [without, he]
      rw [this, ih, lookup_cons, if_neg (by rw [he]; exact Ne.symm h)]
    · have : without (e :: l) k = e :: without l k := by simp [without, he]
      rw [this, lookup_cons, lookup_cons, ih]

theorem lookup_without_same (l : List (Str × Json)) (k : Str) : lookup (without l k) k = none := by
  rw [lookup_eq_none]
  intro h
  simp only [Dict.keys, without, List.mem_map, List.mem_filter] at h
  obtain ⟨e, ⟨_, h1⟩, h2⟩ := h
  simp [h2] at h1

theorem without_set (l : List (Str × Json)) (k : Str) (x : Json) : without (Dict.set l k x) k = without l k := by
  induction l with
  | nil => simp [Dict.set, without]
  | cons e l ih =>
    unfold Dict.set
    by_cases h : e.1 = k
    · simp [h, without]
    · rw [if_neg h]
      simp only [without, List.filter_cons, ne_eq, h, not_false_eq_true, decide_true, if_true] at ih ⊢
      rw [ih]

theorem set_set (l : List (Str × Json)) (k : Str) (x y : Json) : Dict.set (Dict.set l k x) k y = Dict.set l k y := by
  induction l with
  | nil => simp [Dict.set]
  | cons e l ih =>
    by_cases h : e.1 = k
    · simp [Dict.set, h]
    · simp [Dict.set, h, ih]

theorem without_set_ne (l : List (Str × Json)) (k k' : Str) (x : Json) (h : k ≠ k') :
    without (Dict.set l k x) k' = Dict.set (without l k') k x := by
  induction l with
  | nil => simp [Dict.set, without, h]
  | cons e l ih =>
    by_cases h1 : e.1 = k
    · have : e.1 ≠ k' := by rw [h1]; exact h
      simp [Dict.set, without, h1, h]
    · by_cases h2 : e.1 = k'
      · simp only [Dict.set, if_neg h1]
        have a : without (e :: Dict.set l k x) k' = without (Dict.set l k x) k' := by simp [without, h2]
        have b : without (e :: l) k' = without l k' := by simp [without, h2]
        rw [a, b, ih]
      · simp only [Dict.set, if_neg h1]
        have a : without (e :: Dict.set l k x) k' = e :: without (Dict.set l k x) k' := by simp [without, h2]
        have b : without (e :: l) k' = e :: without l k' := by simp [without, h2]
        rw [a, b, ih]
        simp [Dict.set, h1]

theorem field_obj (l : List (Str × Json)) (k : Str) : field (.obj l) k = (lookup l k).getD .null := rfl

end Verif.Helm

import Verif.Wire.Model
/-! Property C136: what is written as JSON is read as it was meant. -/
set_option linter.unusedSimpArgs false
set_option linter.unusedVariables false
namespace Verif.Wire

/-! ### Specification -/

/-- A decimal number as integers are written. -/
def Digits (d : Str) : Prop := d ≠ [] ∧ (∀ c ∈ d, c.isDigit = true) ∧ (d.head? = some '0' → d = ['0'])

/-- Nothing, or a fraction. -/
def Frac (f : Str) : Prop := f = [] ∨ ∃ t, f = '.' :: t ∧ t ≠ [] ∧ ∀ c ∈ t, c.isDigit = true

/-- Nothing, or an exponent. -/
def Exp (e : Str) : Prop :=
  e = [] ∨ ∃ x g t, e = x :: (g ++ t) ∧ (x = 'e' ∨ x = 'E') ∧ (g = [] ∨ g = ['+'] ∨ g = ['-']) ∧ t ≠ [] ∧
    ∀ c ∈ t, c.isDigit = true

/-- What is assumed of the text of a float: it is a decimal fraction or has an exponent, and reads back. -/
structure Floats.Ok (F : Floats) (q : Rat) : Prop where
  back : F.read (F.write q) = .fin q
  shape : ∃ (neg : Bool) (d f e : Str), F.write q = (if neg then ['-'] else []) ++ d ++ f ++ e ∧ Digits d ∧ Frac f ∧
    Exp e ∧ (f ≠ [] ∨ e ≠ [])

mutual
/-- The values for which this is claimed: with floats as assumed, and infinities only between Python programs. -/
def Ok (F : Floats) (py : Bool) : Json → Prop
  | .num (.fin q) => F.Ok q
  | .num .pinf => py = true
  | .num .ninf => py = true
  | .num .nan => py = true
  | .num (.int _) => True
  | .arr l => OkL F py l
  | .obj l => OkO F py l
  | .null => True
  | .bool _ => True
  | .str _ => True
/-- All items are such. -/
def OkL (F : Floats) (py : Bool) : List Json → Prop
  | [] => True
  | v :: l => Ok F py v ∧ OkL F py l
/-- All values are such. -/
def OkO (F : Floats) (py : Bool) : List (Str × Json) → Prop
  | [] => True
  | (_, v) :: l => Ok F py v ∧ OkO F py l
end

mutual
/-- No object has two entries for a key, as in Python. -/
def Keyed : Json → Prop
  | .arr l => KeyedL l
  | .obj l => (Dict.keys l).Nodup ∧ KeyedO l
  | .null => True
  | .bool _ => True
  | .num _ => True
  | .str _ => True
/-- All items are such. -/
def KeyedL : List Json → Prop
  | [] => True
  | v :: l => Keyed v ∧ KeyedL l
/-- All values are such. -/
def KeyedO : List (Str × Json) → Prop
  | [] => True
  | (_, v) :: l => Keyed v ∧ KeyedO l
end

/-! ### Strings -/

theorem hexVal_digit (n : Nat) (h : n < 16) : hexVal (hexDigit n) = some n := by
  have : ∀ n : Fin 16, hexVal (hexDigit n.val) = some n.val := by decide
  exact this ⟨n, h⟩

theorem hexDigit_range (n : Nat) (h : n < 16) : 32 ≤ (hexDigit n).toNat ∧ (hexDigit n).toNat ≤ 126 := by
  have : ∀ n : Fin 16, 32 ≤ (hexDigit n.val).toNat ∧ (hexDigit n.val).toNat ≤ 126 := by decide
  exact this ⟨n, h⟩

theorem hexVal4_digits (n : Nat) (h : n < 65536) :
    hexVal4 (hexDigit (n / 4096 % 16)) (hexDigit (n / 256 % 16)) (hexDigit (n / 16 % 16)) (hexDigit (n % 16)) = some n := by
  unfold hexVal4
  rw [hexVal_digit _ (by omega), hexVal_digit _ (by omega), hexVal_digit _ (by omega), hexVal_digit _ (by omega)]
  dsimp only
  congr 1
  omega

theorem readUnits_quote (s : Str) : readUnits ('"' :: s) = some ([], s) := by
  rw [readUnits.eq_def]
  rfl

theorem readUnits_hex (a b c d : Char) (t : Str) : readUnits ('\\' :: 'u' :: a :: b :: c :: d :: t) =
    (match hexVal4 a b c d, readUnits t with
      | some n, some (l, r) => some (n :: l, r)
      | _, _ => none) := by
  rw [readUnits.eq_def]; rfl

theorem readUnits_esc (x : Char) (s : Str) (h : x ≠ 'u') : readUnits ('\\' :: x :: s) =
    (match unescape x, readUnits s with
      | some n, some (l, r) => some (n :: l, r)
      | _, _ => none) := by
  rw [readUnits.eq_def]
  split
  · cases ‹_ = []›
  · rename_i e; simp at e
  · rename_i e; simp at e
  · rename_i e
    simp at e
    exact absurd e.1 h
  · rename_i e
    simp at e
    obtain ⟨rfl, rfl⟩ := e
    rfl
  · rename_i e
    simp at e
    obtain ⟨rfl, rfl⟩ := e
    simp_all

theorem readUnits_plain (x : Char) (s : Str) (h1 : x ≠ '"') (h2 : x ≠ '\\') : readUnits (x :: s) =
    (if x.toNat < 32 then none
    else match readUnits s with
      | some (l, r) => some (x.toNat :: l, r)
      | none => none) := by
  rw [readUnits.eq_def]
  split <;> rename_i e <;> simp at e
  · exact absurd e.1 h1
  · exact absurd e.1 h2
  · exact absurd e.1 h2
  · exact absurd e.1 h2
  · obtain ⟨rfl, rfl⟩ := e
    rfl

/-- The code units of a character. -/
def unitsOf (c : Char) : List Nat :=
  if c.toNat < 65536 then [c.toNat]
  else [55296 + (c.toNat - 65536) / 1024, 56320 + (c.toNat - 65536) % 1024]

theorem char_bound (c : Char) : c.toNat < 1114112 := by
  have := c.valid
  unfold UInt32.isValidChar Nat.isValidChar at this
  have h : c.toNat = c.val.toNat := rfl
  omega

theorem char_surr (c : Char) : ¬ (55296 ≤ c.toNat ∧ c.toNat < 57344) := by
  have := c.valid
  unfold UInt32.isValidChar Nat.isValidChar at this
  have h : c.toNat = c.val.toNat := rfl
  omega

theorem readUnits_hex4 (n : Nat) (h : n < 65536) (t : Str) : readUnits (hex4 n ++ t) =
    (readUnits t).map (fun p => (n :: p.1, p.2)) := by
  unfold hex4
  simp only [List.cons_append, List.nil_append]
  rw [readUnits_hex, hexVal4_digits n h]
  cases readUnits t <;> rfl

theorem readUnits_escape (c : Char) (t : Str) : readUnits (escape c ++ t) =
    (readUnits t).map (fun p => (unitsOf c ++ p.1, p.2)) := by
  have hb := char_bound c
  unfold escape
  have esc : ∀ (x : Char) (n : Nat), x ≠ 'u' → unescape x = some n → c.toNat = n → n < 65536 →
      readUnits (['\\', x] ++ t) = (readUnits t).map (fun p => (unitsOf c ++ p.1, p.2)) := by
    intro x n hx hu hn hlt
    show readUnits ('\\' :: x :: t) = _
    rw [readUnits_esc x t hx, hu]
    unfold unitsOf
    rw [hn, if_pos hlt]
    cases readUnits t <;> rfl
  by_cases h1 : c = '"'
  · rw [if_pos h1]; exact esc '"' 34 (by decide) rfl (by rw [h1]; rfl) (by decide)
  rw [if_neg h1]
  by_cases h2 : c = '\\'
  · rw [if_pos h2]; exact esc '\\' 92 (by decide) rfl (by rw [h2]; rfl) (by decide)
  rw [if_neg h2]
  by_cases h3 : c = '\n'
  · rw [if_pos h3]; exact esc 'n' 10 (by decide) rfl (by rw [h3]; rfl) (by decide)
  rw [if_neg h3]
  by_cases h4 : c = '\r'
  · rw [if_pos h4]; exact esc 'r' 13 (by decide) rfl (by rw [h4]; rfl) (by decide)
  rw [if_neg h4]
  by_cases h5 : c = '\t'
  · rw [if_pos h5]; exact esc 't' 9 (by decide) rfl (by rw [h5]; rfl) (by decide)
  rw [if_neg h5]
  by_cases h6 : c.toNat = 12
  · rw [if_pos h6]; exact esc 'f' 12 (by decide) rfl h6 (by decide)
  rw [if_neg h6]
  by_cases h7 : c.toNat = 8
  · rw [if_pos h7]; exact esc 'b' 8 (by decide) rfl h7 (by decide)
  rw [if_neg h7]
  by_cases h8 : 32 ≤ c.toNat ∧ c.toNat ≤ 126
  · rw [if_pos h8]
    show readUnits (c :: t) = _
    rw [readUnits_plain c t h1 h2, if_neg (by omega)]
    unfold unitsOf
    rw [if_pos (by omega)]
    cases readUnits t <;> rfl
  rw [if_neg h8]
  by_cases h9 : c.toNat < 65536
  · rw [if_pos h9, readUnits_hex4 _ h9]
    unfold unitsOf
    rw [if_pos h9]
    rfl
  rw [if_neg h9, List.append_assoc, readUnits_hex4 _ (by omega), readUnits_hex4 _ (by omega)]
  unfold unitsOf
  rw [if_neg h9]
  cases readUnits t <;> rfl

theorem readUnits_chars (s t : Str) : readUnits (writeChars s ++ t) = some (s.flatMap unitsOf, t) := by
  induction s with
  | nil => exact readUnits_quote t
  | cons c s ih =>
    rw [writeChars, List.append_assoc, readUnits_escape, ih]
    rfl

theorem combine_one (c : Char) (h : c.toNat < 65536) (l : List Nat) :
    combine (c.toNat :: l) = (combine l).map (fun s => c :: s) := by
  have hs := char_surr c
  have h1 : isHigh c.toNat = false := by unfold isHigh; simp; omega
  have h2 : isLow c.toNat = false := by unfold isLow; simp; omega
  cases l with
  | nil => simp [combine, h1, h2, Char.ofNat_toNat]
  | cons v l => rw [combine, h1, h2]; simp [Char.ofNat_toNat]

theorem combine_units (s : Str) : combine (s.flatMap unitsOf) = some s := by
  induction s with
  | nil => rfl
  | cons c s ih =>
    rw [List.flatMap_cons]
    by_cases h : c.toNat < 65536
    · have hu : unitsOf c = [c.toNat] := if_pos h
      rw [hu]
      rw [List.singleton_append, combine_one c h, ih]
      rfl
    · have hu : unitsOf c = [55296 + (c.toNat - 65536) / 1024, 56320 + (c.toNat - 65536) % 1024] := if_neg h
      rw [hu]
      have hb := char_bound c
      have h1 : isHigh (55296 + (c.toNat - 65536) / 1024) = true := by unfold isHigh; simp; omega
      have h2 : isLow (56320 + (c.toNat - 65536) % 1024) = true := by unfold isLow; simp; omega
      have e : 65536 + (55296 + (c.toNat - 65536) / 1024 - 55296) * 1024 +
          (56320 + (c.toNat - 65536) % 1024 - 56320) = c.toNat := by omega
      simp only [List.cons_append, List.nil_append]
      rw [combine, h1, h2, e, Char.ofNat_toNat, ih]
      rfl

theorem readStr_write (s t : Str) : readStr (writeChars s ++ t) = some (s, t) := by
  unfold readStr
  rw [readUnits_chars]
  dsimp only
  rw [combine_units]
  rfl

/-! ### Numbers -/

/-- What may come after a value. -/
def Stop (r : Str) : Prop := ∀ c, r.head? = some c → c.isDigit = false ∧ c ≠ '.' ∧ c ≠ 'e' ∧ c ≠ 'E'

theorem digits_append {d r : Str} (hd : ∀ c ∈ d, c.isDigit = true)
    (hr : ∀ c, r.head? = some c → c.isDigit = false) : digitsOf (d ++ r) = d ∧ afterDigits (d ++ r) = r := by
  induction d with
  | nil =>
    cases r with
    | nil => exact ⟨rfl, rfl⟩
    | cons c r =>
      have h := hr c rfl
      unfold digitsOf afterDigits
      simp [List.takeWhile_cons, List.dropWhile_cons, h]
  | cons c d ih =>
    obtain ⟨a, b⟩ := ih (fun x hx => hd x (List.mem_cons_of_mem _ hx))
    have h := hd c (List.mem_cons_self ..)
    unfold digitsOf at a ⊢
    unfold afterDigits at b ⊢
    rw [List.cons_append, List.takeWhile_cons, if_pos h, List.dropWhile_cons, if_pos h, a, b]
    exact ⟨rfl, rfl⟩

theorem readFrac_write {f r : Str} (hf : Frac f) (hr : Stop r) (hr2 : True) :
    readFrac (f ++ r) = (f, r) := by
  rcases hf with rfl | ⟨t, rfl, ht, hd⟩
  · rw [List.nil_append]
    unfold readFrac
    split
    · rename_i t
      exact absurd rfl (hr '.' rfl).2.1
    · rfl
  · obtain ⟨a, b⟩ := digits_append hd (r := r) (fun c hc => (hr c hc).1)
    rw [List.cons_append]
    show (if digitsOf (t ++ r) = [] then ([], '.' :: (t ++ r)) else ('.' :: digitsOf (t ++ r), afterDigits (t ++ r))) = _
    rw [a, if_neg ht, b]

theorem frac_then {f e r : Str} (hf : Frac f) (he : Exp e) (hr : Stop r) : readFrac (f ++ (e ++ r)) = (f, e ++ r) := by
  rcases he with rfl | ⟨x, g, t, rfl, hx, hg, ht, hd⟩
  · exact readFrac_write hf hr trivial
  · have h1 : x.isDigit = false ∧ x ≠ '.' := by rcases hx with rfl | rfl <;> decide
    rcases hf with rfl | ⟨u, rfl, hu, hdu⟩
    · rw [List.nil_append]
      unfold readFrac
      split
      · rename_i heq
        exact absurd (List.cons.inj heq).1 h1.2
      · rfl
    · obtain ⟨a, b⟩ := digits_append hdu (r := x :: (g ++ t) ++ r) (fun c hc => by cases hc; exact h1.1)
      rw [List.cons_append]
      show (if digitsOf (u ++ (x :: (g ++ t) ++ r)) = [] then ([], '.' :: (u ++ (x :: (g ++ t) ++ r)))
        else ('.' :: digitsOf (u ++ (x :: (g ++ t) ++ r)), afterDigits (u ++ (x :: (g ++ t) ++ r)))) = _
      rw [a, if_neg hu, b]

theorem readExp_write {e r : Str} (he : Exp e) (hr : Stop r) : readExp (e ++ r) = (e, r) := by
  rcases he with rfl | ⟨x, g, t, rfl, hx, hg, ht, hd⟩
  · rw [List.nil_append]
    cases r with
    | nil => rfl
    | cons c r =>
      have h := hr c rfl
      unfold readExp
      dsimp only
      rw [if_neg (by rintro (h1 | h1); exact h.2.2.1 h1; exact h.2.2.2 h1)]
  · obtain ⟨a, b⟩ := digits_append hd (r := r) (fun c hc => (hr c hc).1)
    rcases hg with rfl | rfl | rfl
    · rw [List.nil_append, List.cons_append]
      unfold readExp
      dsimp only
      rw [if_pos hx]
      cases t with
      | nil => exact absurd rfl ht
      | cons y t =>
        have hy : y.isDigit = true := hd y (List.mem_cons_self ..)
        have hn : ¬ (y = '+' ∨ y = '-') := by rintro (rfl | rfl) <;> revert hy <;> decide
        rw [List.cons_append] at a b ⊢
        dsimp only
        rw [if_neg hn, a, if_neg (by simp), b]
    · simp only [List.cons_append, List.nil_append]
      unfold readExp
      dsimp only
      rw [if_pos hx, if_pos (Or.inl rfl), a, if_neg ht, b]
    · simp only [List.cons_append, List.nil_append]
      unfold readExp
      dsimp only
      rw [if_pos hx, if_pos (Or.inr rfl), a, if_neg ht, b]

theorem readAbs_write (F : Floats) (neg : Bool) {d f e r : Str} (hd : Digits d) (hf : Frac f) (he : Exp e)
    (hr : Stop r) : readAbs F neg (d ++ f ++ e ++ r) =
      some (if f = [] ∧ e = [] then .int (if neg then -(Nat.ofDigitChars 10 d 0 : Int) else (Nat.ofDigitChars 10 d 0 : Int))
        else F.read ((if neg then ['-'] else []) ++ d ++ f ++ e), r) := by
  have hnext : ∀ c, (f ++ (e ++ r)).head? = some c → c.isDigit = false := by
    intro c hc
    rcases hf with rfl | ⟨t, rfl, ht, hdt⟩
    · rw [List.nil_append] at hc
      rcases he with rfl | ⟨x, g, t, rfl, hx, hg, ht, hdt⟩
      · exact (hr c hc).1
      · cases hc
        rcases hx with rfl | rfl <;> decide
    · cases hc; decide
  obtain ⟨a, b⟩ := digits_append hd.2.1 hnext
  rw [List.append_assoc, List.append_assoc]
  unfold readAbs
  dsimp only
  rw [a, b, frac_then hf he hr]
  dsimp only
  rw [readExp_write he hr, if_neg hd.1, if_neg (by rintro ⟨h1, h2⟩; exact h2 (hd.2.2 h1))]
  dsimp only
  by_cases h : f = [] ∧ e = []
  · rw [if_pos h, if_pos h]
  · rw [if_neg h, if_neg h]

theorem head_zero (n : Nat) : (Nat.toDigits 10 n).head? = some '0' → n = 0 := by
  induction n using Nat.strongRecOn with
  | _ n ih =>
    intro h
    rw [Nat.toDigits_eq_if (by decide)] at h
    by_cases hn : n < 10
    · rw [if_pos hn] at h
      have : ∀ m : Fin 10, (some (Nat.digitChar m.val) = some '0') → m.val = 0 := by decide
      exact this ⟨n, hn⟩ h
    · rw [if_neg hn, List.head?_append] at h
      cases hh : (Nat.toDigits 10 (n / 10)).head? with
      | none => exact absurd (List.head?_eq_none_iff.1 hh) Nat.toDigits_ne_nil
      | some c =>
        rw [hh] at h
        have := ih (n / 10) (by omega) (by rw [hh]; exact h)
        omega

theorem toDigits_digits (n : Nat) : Digits (Nat.toDigits 10 n) := by
  refine ⟨Nat.toDigits_ne_nil, fun c hc => Nat.isDigit_of_mem_toDigits (by decide) (by decide) hc, fun h => ?_⟩
  rw [head_zero n h]
  rfl

theorem digits_head {d : Str} (h : Digits d) (x : Str) : ∃ c t, d ++ x = c :: t ∧ c.isDigit = true := by
  obtain ⟨h1, h2, _⟩ := h
  cases d with
  | nil => exact absurd rfl h1
  | cons c d => exact ⟨c, d ++ x, rfl, h2 c (List.mem_cons_self ..)⟩

theorem prefix_cons (w : Str) (x c : Char) (t : Str) (h : x ≠ c) : (x :: w).isPrefixOf (c :: t) = false := by
  simp [List.isPrefixOf, h]

/-- The number begins with a digit, or with a minus and a digit. -/
theorem readNum_abs (F : Floats) (py neg : Bool) (c : Char) (t : Str) (hc : c.isDigit = true) :
    readAtom F py ((if neg then ['-'] else []) ++ c :: t) =
      (readAbs F neg (c :: t)).map (fun p => (.num p.1, p.2)) := by
  have hne : ∀ x : Char, x.isDigit = false → x ≠ c := fun x hx e => by rw [e, hc] at hx; cases hx
  have key : readNum F py ((if neg then ['-'] else []) ++ c :: t) = readAbs F neg (c :: t) := by
    unfold readNum
    cases neg with
    | false =>
      simp only [Bool.false_eq_true, if_false, List.nil_append]
      have e1 : "NaN".toList.isPrefixOf (c :: t) = false := prefix_cons _ _ _ _ (hne _ (by decide))
      have e2 : "Infinity".toList.isPrefixOf (c :: t) = false := prefix_cons _ _ _ _ (hne _ (by decide))
      have e3 : "-Infinity".toList.isPrefixOf (c :: t) = false := prefix_cons _ _ _ _ (hne _ (by decide))
      rw [e1, e2, e3]
      simp only [Bool.and_false, Bool.false_eq_true, if_false]
      split
      · rename_i heq
        exact absurd (List.cons.inj heq).1.symm (hne '-' (by decide))
      · rfl
    | true =>
      simp only [if_true, List.cons_append, List.nil_append]
      have e1 : "NaN".toList.isPrefixOf ('-' :: c :: t) = false := prefix_cons _ _ _ _ (by decide)
      have e2 : "Infinity".toList.isPrefixOf ('-' :: c :: t) = false := prefix_cons _ _ _ _ (by decide)
      have e3 : "-Infinity".toList.isPrefixOf ('-' :: c :: t) = false := by
        have : "Infinity".toList.isPrefixOf (c :: t) = false := prefix_cons _ _ _ _ (hne _ (by decide))
        show (('-' == '-') && "Infinity".toList.isPrefixOf (c :: t)) = false
        rw [this]; rfl
      rw [e1, e2, e3]
      simp only [Bool.and_false, Bool.false_eq_true, if_false]
  unfold readAtom
  rw [key]
  have hh : ∀ (w : Str) (x : Char), x ≠ '-' → x ≠ c →
      (x :: w).isPrefixOf ((if neg then ['-'] else []) ++ c :: t) = false := by
    intro w x h1 h2
    cases neg with
    | false => exact prefix_cons _ _ _ _ h2
    | true => exact prefix_cons _ _ _ _ h1
  have e1 : "null".toList.isPrefixOf ((if neg then ['-'] else []) ++ c :: t) = false :=
    hh _ _ (by decide) (hne _ (by decide))
  have e2 : "true".toList.isPrefixOf ((if neg then ['-'] else []) ++ c :: t) = false :=
    hh _ _ (by decide) (hne _ (by decide))
  have e3 : "false".toList.isPrefixOf ((if neg then ['-'] else []) ++ c :: t) = false :=
    hh _ _ (by decide) (hne _ (by decide))
  rw [e1, e2, e3]
  simp only [Bool.false_eq_true, if_false]

theorem read_int (F : Floats) (py : Bool) (i : Int) (r : Str) (hr : Stop r) :
    readAtom F py (writeInt i ++ r) = some (.num (.int i), r) := by
  have hd := toDigits_digits i.natAbs
  obtain ⟨c, t, e, hc⟩ := digits_head hd r
  have hw : writeInt i ++ r = (if decide (i < 0) then ['-'] else []) ++ c :: t := by
    rw [← e]
    unfold writeInt
    by_cases h : i < 0 <;> simp [h]
  rw [hw, readNum_abs F py _ c t hc, ← e]
  have := readAbs_write F (decide (i < 0)) hd (f := []) (e := []) (Or.inl rfl) (Or.inl rfl) hr
  simp only [List.append_nil] at this
  rw [this]
  simp only [true_and, if_true, Option.map_some]
  congr 3
  rw [Nat.ofDigitChars_ten_toDigits]
  by_cases h : i < 0
  · simp only [h, decide_true, if_true]; congr 1; omega
  · simp only [h, decide_false, Bool.false_eq_true, if_false]; congr 1; omega

theorem read_float (F : Floats) (py : Bool) (q : Rat) (h : F.Ok q) (r : Str) (hr : Stop r) :
    readAtom F py (F.write q ++ r) = some (.num (.fin q), r) := by
  obtain ⟨neg, d, f, e, hw, hd, hf, he, hne⟩ := h.shape
  obtain ⟨c, t, ec, hc⟩ := digits_head hd (f ++ e ++ r)
  have hw2 : F.write q ++ r = (if neg then ['-'] else []) ++ c :: t := by
    rw [hw, ← ec]; simp
  rw [hw2, readNum_abs F py _ c t hc, ← ec]
  have := readAbs_write F neg hd hf he hr
  rw [show d ++ (f ++ e ++ r) = d ++ f ++ e ++ r by simp, this, if_neg (by rintro ⟨h1, h2⟩; simp_all), ← hw, h.back]
  rfl

/-! ### Values -/

theorem stop_of {c : Char} (r : Str) (h : c = ',' ∨ c = ']' ∨ c = '}') : Stop (c :: r) := by
  intro x hx
  cases hx
  rcases h with rfl | rfl | rfl <;> decide

theorem skipWs_cons {c : Char} (h : isWs c = false) (r : Str) : skipWs (c :: r) = c :: r := by
  unfold skipWs; rw [List.dropWhile_cons, if_neg (by rw [h]; decide)]

theorem skipWs_blank (r : Str) : skipWs (' ' :: r) = skipWs r := by
  unfold skipWs; rw [List.dropWhile_cons, if_pos (by decide)]

theorem items_stop (F : Floats) (l : List Json) (r : Str) : Stop (dumpsItems F l ++ r) := by
  cases l with
  | nil => rw [dumpsItems]; exact stop_of _ (by decide)
  | cons v l => rw [dumpsItems]; exact stop_of _ (by decide)

theorem entries_stop (F : Floats) (l : List (Str × Json)) (r : Str) : Stop (dumpsEntries F l ++ r) := by
  cases l with
  | nil => rw [dumpsEntries]; exact stop_of _ (by decide)
  | cons e l => obtain ⟨k, v⟩ := e; rw [dumpsEntries]; exact stop_of _ (by decide)

/-- The first character of a value. -/
theorem dumps_head (F : Floats) (py : Bool) (v : Json) (h : Ok F py v) :
    ∃ c t, dumps F v = c :: t ∧ isWs c = false ∧ c ≠ ']' ∧ c ≠ '}' ∧ c ≠ ',' := by
  have dig : ∀ c : Char, c.isDigit = true → isWs c = false ∧ c ≠ ']' ∧ c ≠ '}' ∧ c ≠ ',' := by
    intro c hc
    have hne : ∀ x : Char, x.isDigit = false → c ≠ x := fun x hx e => by rw [← e, hc] at hx; cases hx
    refine ⟨?_, hne _ (by decide), hne _ (by decide), hne _ (by decide)⟩
    unfold isWs
    simp [hne ' ' (by decide), hne '\t' (by decide), hne '\n' (by decide), hne '\r' (by decide)]
  cases v with
  | null => exact ⟨'n', "ull".toList, by rw [dumps]; rfl, by decide, by decide, by decide, by decide⟩
  | bool b =>
    cases b with
    | true => exact ⟨'t', "rue".toList, by rw [dumps]; rfl, by decide, by decide, by decide, by decide⟩
    | false => exact ⟨'f', "alse".toList, by rw [dumps]; rfl, by decide, by decide, by decide, by decide⟩
  | num n =>
    rw [dumps]
    cases n with
    | int i =>
      unfold writeNum writeInt
      dsimp only
      by_cases hi : i < 0
      · rw [if_pos hi]; exact ⟨'-', _, rfl, by decide, by decide, by decide, by decide⟩
      · rw [if_neg hi]
        obtain ⟨c, t, e, hc⟩ := digits_head (toDigits_digits i.natAbs) []
        rw [List.append_nil] at e
        exact ⟨c, t, e, dig c hc⟩
    | fin q =>
      unfold writeNum
      dsimp only
      unfold Ok at h
      obtain ⟨neg, d, f, e, hw, hd, hf, he, hne⟩ := h.shape
      obtain ⟨c, t, ec, hc⟩ := digits_head hd (f ++ e)
      rw [hw]
      cases neg with
      | true => exact ⟨'-', d ++ f ++ e, by simp, by decide, by decide, by decide, by decide⟩
      | false => exact ⟨c, t, by rw [← ec]; simp, dig c hc⟩
    | pinf => exact ⟨'I', "nfinity".toList, rfl, by decide, by decide, by decide, by decide⟩
    | ninf => exact ⟨'-', "Infinity".toList, rfl, by decide, by decide, by decide, by decide⟩
    | nan => exact ⟨'N', "aN".toList, rfl, by decide, by decide, by decide, by decide⟩
  | str s => exact ⟨'"', writeChars s, by rw [dumps]; rfl, by decide, by decide, by decide, by decide⟩
  | arr l =>
    cases l with
    | nil => exact ⟨'[', [']'], by rw [dumps], by decide, by decide, by decide, by decide⟩
    | cons v l => exact ⟨'[', _, by rw [dumps], by decide, by decide, by decide, by decide⟩
  | obj l =>
    cases l with
    | nil => exact ⟨'{', ['}'], by rw [dumps], by decide, by decide, by decide, by decide⟩
    | cons e l =>
      obtain ⟨k, v⟩ := e
      exact ⟨'{', _, by rw [dumps], by decide, by decide, by decide, by decide⟩

theorem readVal_str (F : Floats) (py : Bool) (n : Nat) (t : Str) :
    readVal F py (n + 1) ('"' :: t) = (readStr t).map (fun p => (.str p.1, p.2)) := by
  rw [readVal.eq_def]; rfl

theorem readVal_arr (F : Floats) (py : Bool) (n : Nat) (t : Str) :
    readVal F py (n + 1) ('[' :: t) =
      (match skipWs t with
      | ']' :: r => some (.arr [], r)
      | u => (readItems F py n u).map (fun p => (.arr p.1, p.2))) := by
  rw [readVal.eq_def]; rfl

theorem readVal_obj (F : Floats) (py : Bool) (n : Nat) (t : Str) :
    readVal F py (n + 1) ('{' :: t) =
      (match skipWs t with
      | '}' :: r => some (.obj [], r)
      | u => (readEntries F py n u).map (fun p => (.obj p.1, p.2))) := by
  rw [readVal.eq_def]; rfl

theorem readVal_atom (F : Floats) (py : Bool) (n : Nat) (s : Str) (h1 : s.head? ≠ some '"')
    (h2 : s.head? ≠ some '[') (h3 : s.head? ≠ some '{') : readVal F py (n + 1) s = readAtom F py s := by
  rw [readVal.eq_def]
  dsimp only
  split
  · exact absurd rfl h1
  · exact absurd rfl h2
  · exact absurd rfl h3
  · rfl

theorem readItems_step (F : Floats) (py : Bool) (n : Nat) (s : Str) (v : Json) (c : Char) (u : Str)
    (h : readVal F py n s = some (v, c :: u)) (hc : isWs c = false) :
    readItems F py (n + 1) s =
      (if c = ',' then (readItems F py n (skipWs u)).map (fun p => (v :: p.1, p.2))
       else if c = ']' then some ([v], u) else none) := by
  rw [readItems, h]
  dsimp only
  rw [skipWs_cons hc]
  by_cases h1 : c = ','
  · subst h1; rfl
  · rw [if_neg h1]
    by_cases h2 : c = ']'
    · subst h2; rfl
    · rw [if_neg h2]
      split
      · rename_i e; exact absurd (List.cons.inj e).1 h1
      · rename_i e; exact absurd (List.cons.inj e).1 h2
      · rfl

theorem readEntries_str (F : Floats) (py : Bool) (n : Nat) (t : Str) : readEntries F py (n + 1) ('"' :: t) =
    (match readStr t with
      | none => none
      | some (k, r) =>
        match skipWs r with
        | ':' :: u =>
          match readVal F py n (skipWs u) with
          | none => none
          | some (v, r2) =>
            match skipWs r2 with
            | ',' :: w => (readEntries F py n (skipWs w)).map (fun p => ((k, v) :: p.1, p.2))
            | '}' :: w => some ([(k, v)], w)
            | _ => none
        | _ => none) := by
  rw [readEntries.eq_def]; rfl

theorem readEntries_step (F : Floats) (py : Bool) (n : Nat) (k t : Str) (v : Json) (c : Char) (u : Str)
    (h : readVal F py n (skipWs t) = some (v, c :: u)) (hc : isWs c = false) :
    readEntries F py (n + 1) (writeStr k ++ ':' :: ' ' :: t) =
      (if c = ',' then (readEntries F py n (skipWs u)).map (fun p => ((k, v) :: p.1, p.2))
       else if c = '}' then some ([(k, v)], u) else none) := by
  unfold writeStr
  rw [List.cons_append, readEntries_str, readStr_write]
  dsimp only
  rw [skipWs_cons (by decide)]
  show (match readVal F py n (skipWs (' ' :: t)) with
    | none => none
    | some (v, r2) =>
      match skipWs r2 with
      | ',' :: w => (readEntries F py n (skipWs w)).map (fun (p : List (Str × Json) × Str) => ((k, v) :: p.1, p.2))
      | '}' :: w => some ([(k, v)], w)
      | _ => none) = _
  rw [skipWs_blank, h]
  dsimp only
  rw [skipWs_cons hc]
  by_cases h1 : c = ','
  · subst h1; rfl
  · rw [if_neg h1]
    by_cases h2 : c = '}'
    · subst h2; rfl
    · rw [if_neg h2]
      split
      · rename_i e; exact absurd (List.cons.inj e).1 h1
      · rename_i e; exact absurd (List.cons.inj e).1 h2
      · rfl

theorem skipWs_dumps {F : Floats} {py : Bool} {v : Json} (h : Ok F py v) (r : Str) :
    skipWs (dumps F v ++ r) = dumps F v ++ r := by
  obtain ⟨c, t, e, hc, _⟩ := dumps_head F py v h
  rw [e, List.cons_append, skipWs_cons hc]

theorem skipWs_key (k r : Str) : skipWs (writeStr k ++ r) = writeStr k ++ r := by
  unfold writeStr
  rw [List.cons_append, skipWs_cons (by decide)]

theorem len_items (F : Floats) (l : List Json) : 1 ≤ (dumpsItems F l).length := by
  cases l <;> simp [dumpsItems]

theorem len_entries (F : Floats) (l : List (Str × Json)) : 1 ≤ (dumpsEntries F l).length := by
  cases l with
  | nil => simp [dumpsEntries]
  | cons e l => obtain ⟨k, v⟩ := e; simp [dumpsEntries]

theorem null_eq : "null".toList = ['n', 'u', 'l', 'l'] := rfl
theorem true_eq : "true".toList = ['t', 'r', 'u', 'e'] := rfl
theorem false_eq : "false".toList = ['f', 'a', 'l', 's', 'e'] := rfl
theorem nan_eq : "NaN".toList = ['N', 'a', 'N'] := rfl
theorem inf_eq : "Infinity".toList = ['I', 'n', 'f', 'i', 'n', 'i', 't', 'y'] := rfl
theorem ninf_eq : "-Infinity".toList = ['-', 'I', 'n', 'f', 'i', 'n', 'i', 't', 'y'] := rfl

theorem readVal_word (F : Floats) (py : Bool) (n : Nat) (c : Char) (t : Str) (h1 : c ≠ '"') (h2 : c ≠ '[')
    (h3 : c ≠ '{') : readVal F py (n + 1) (c :: t) = readAtom F py (c :: t) :=
  readVal_atom F py n _ (by simpa using h1) (by simpa using h2) (by simpa using h3)

theorem read_null (F : Floats) (py : Bool) (n : Nat) (r : Str) :
    readVal F py (n + 1) ("null".toList ++ r) = some (.null, r) := by
  rw [null_eq, List.cons_append, readVal_word F py n _ _ (by decide) (by decide) (by decide)]
  unfold readAtom
  rw [null_eq]
  simp [List.isPrefixOf]

theorem read_true (F : Floats) (py : Bool) (n : Nat) (r : Str) :
    readVal F py (n + 1) ("true".toList ++ r) = some (.bool true, r) := by
  rw [true_eq, List.cons_append, readVal_word F py n _ _ (by decide) (by decide) (by decide)]
  unfold readAtom
  rw [null_eq, true_eq]
  simp [List.isPrefixOf]

theorem read_false (F : Floats) (py : Bool) (n : Nat) (r : Str) :
    readVal F py (n + 1) ("false".toList ++ r) = some (.bool false, r) := by
  rw [false_eq, List.cons_append, readVal_word F py n _ _ (by decide) (by decide) (by decide)]
  unfold readAtom
  rw [null_eq, true_eq, false_eq]
  simp [List.isPrefixOf]

theorem read_nan (F : Floats) (n : Nat) (r : Str) :
    readVal F true (n + 1) ("NaN".toList ++ r) = some (.num .nan, r) := by
  rw [nan_eq, List.cons_append, readVal_word F true n _ _ (by decide) (by decide) (by decide)]
  unfold readAtom readNum
  rw [null_eq, true_eq, false_eq, nan_eq]
  simp [List.isPrefixOf]

theorem read_inf (F : Floats) (n : Nat) (r : Str) :
    readVal F true (n + 1) ("Infinity".toList ++ r) = some (.num .pinf, r) := by
  rw [inf_eq, List.cons_append, readVal_word F true n _ _ (by decide) (by decide) (by decide)]
  unfold readAtom readNum
  rw [null_eq, true_eq, false_eq, nan_eq, inf_eq]
  simp [List.isPrefixOf]

theorem read_ninf (F : Floats) (n : Nat) (r : Str) :
    readVal F true (n + 1) ("-Infinity".toList ++ r) = some (.num .ninf, r) := by
  rw [ninf_eq, List.cons_append, readVal_word F true n _ _ (by decide) (by decide) (by decide)]
  unfold readAtom readNum
  rw [null_eq, true_eq, false_eq, nan_eq, inf_eq, ninf_eq]
  simp [List.isPrefixOf]

theorem signed_head {neg : Bool} {c : Char} {t : Str} (hc : c.isDigit = true) {x : Char} (hx : x.isDigit = false)
    (hm : x ≠ '-') : ((if neg then ['-'] else []) ++ c :: t).head? ≠ some x := by
  cases neg with
  | true =>
    intro e
    exact hm (Option.some.inj e).symm
  | false =>
    intro e
    rw [← Option.some.inj e] at hx
    rw [hc] at hx
    cases hx

theorem read_signed (F : Floats) (py : Bool) (n : Nat) (neg : Bool) (c : Char) (t : Str)
    (hc : c.isDigit = true) : readVal F py (n + 1) ((if neg then ['-'] else []) ++ c :: t) =
      readAtom F py ((if neg then ['-'] else []) ++ c :: t) :=
  readVal_atom _ _ _ _ (signed_head hc (by decide) (by decide)) (signed_head hc (by decide) (by decide))
    (signed_head hc (by decide) (by decide))

theorem read_intV (F : Floats) (py : Bool) (n : Nat) (i : Int) (r : Str) (hr : Stop r) :
    readVal F py (n + 1) (writeInt i ++ r) = some (.num (.int i), r) := by
  obtain ⟨c, t, e, hc⟩ := digits_head (toDigits_digits i.natAbs) r
  have hw : writeInt i ++ r = (if decide (i < 0) then ['-'] else []) ++ c :: t := by
    rw [← e]
    unfold writeInt
    by_cases h : i < 0 <;> simp [h]
  have := read_int F py i r hr
  rw [hw] at this ⊢
  rw [read_signed F py n _ c t hc, this]

theorem read_floatV (F : Floats) (py : Bool) (n : Nat) (q : Rat) (h : F.Ok q) (r : Str) (hr : Stop r) :
    readVal F py (n + 1) (F.write q ++ r) = some (.num (.fin q), r) := by
  obtain ⟨neg, d, f, e, hw, hd, hf, he, hne⟩ := h.shape
  obtain ⟨c, t, ec, hc⟩ := digits_head hd (f ++ e ++ r)
  have hw2 : F.write q ++ r = (if neg then ['-'] else []) ++ c :: t := by
    rw [hw, ← ec]; simp
  have := read_float F py q h r hr
  rw [hw2] at this ⊢
  rw [read_signed F py n _ c t hc, this]

theorem read_all (F : Floats) (py : Bool) (n : Nat) :
    (∀ v, Ok F py v → ∀ r, Stop r → (dumps F v).length ≤ n → readVal F py n (dumps F v ++ r) = some (v, r)) ∧
    (∀ v l, OkL F py (v :: l) → ∀ r, (dumps F v).length + (dumpsItems F l).length ≤ n →
      readItems F py n (dumps F v ++ dumpsItems F l ++ r) = some (v :: l, r)) ∧
    (∀ k v l, OkO F py ((k, v) :: l) → ∀ r,
      (writeStr k).length + (2 + ((dumps F v).length + (dumpsEntries F l).length)) ≤ n →
      readEntries F py n (writeStr k ++ ':' :: ' ' :: (dumps F v ++ dumpsEntries F l ++ r)) = some ((k, v) :: l, r)) := by
  induction n with
  | zero =>
    refine ⟨fun v h r _ hn => ?_, fun v l _ r hn => ?_, fun k v l _ r hn => ?_⟩
    · obtain ⟨c, t, e, _⟩ := dumps_head F py v h
      rw [e] at hn; simp at hn
    · have := len_items F l; omega
    · omega
  | succ n ih =>
    obtain ⟨ihV, ihI, ihE⟩ := ih
    refine ⟨fun v h r hr hn => ?_, fun v l h r hn => ?_, fun k v l h r hn => ?_⟩
    · match v, h with
      | .null, _ => simp only [dumps]; exact read_null F py n r
      | .bool true, _ => simp only [dumps]; exact read_true F py n r
      | .bool false, _ => simp only [dumps]; exact read_false F py n r
      | .num (.int i), _ => simp only [dumps]; exact read_intV F py n i r hr
      | .num (.fin q), h => simp only [dumps]; exact read_floatV F py n q h r hr
      | .num .pinf, h =>
        unfold Ok at h; subst h
        simp only [dumps]; exact read_inf F n r
      | .num .ninf, h =>
        unfold Ok at h; subst h
        simp only [dumps]; exact read_ninf F n r
      | .num .nan, h =>
        unfold Ok at h; subst h
        simp only [dumps]; exact read_nan F n r
      | .str s, _ =>
        rw [dumps, writeStr, List.cons_append, readVal_str, readStr_write]; rfl
      | .arr [], _ =>
        rw [dumps, List.cons_append, readVal_arr, List.cons_append, skipWs_cons (by decide)]; rfl
      | .arr (v :: l), h =>
        rw [Ok] at h
        have := ihI v l h r (by rw [dumps] at hn; simpa using hn)
        unfold OkL at h
        obtain ⟨c, t, e, hc, h1, _⟩ := dumps_head F py v h.1
        rw [dumps, List.cons_append, readVal_arr, List.append_assoc, skipWs_dumps h.1]
        rw [e] at this ⊢
        simp only [List.cons_append] at this ⊢
        split
        · rename_i e2; exact absurd (List.cons.inj e2).1 h1
        · rw [← List.append_assoc, this]; rfl
      | .obj [], _ =>
        rw [dumps, List.cons_append, readVal_obj, List.cons_append, skipWs_cons (by decide)]; rfl
      | .obj ((k, v) :: l), h =>
        rw [Ok] at h
        have := ihE k v l h r (by rw [dumps] at hn; simp at hn; omega)
        rw [dumps, List.cons_append, readVal_obj]
        have e0 : writeStr k ++ [':', ' '] ++ dumps F v ++ dumpsEntries F l ++ r =
            writeStr k ++ ':' :: ' ' :: (dumps F v ++ dumpsEntries F l ++ r) := by simp
        rw [e0, skipWs_key]
        generalize hg : writeStr k ++ ':' :: ' ' :: (dumps F v ++ dumpsEntries F l ++ r) = g at *
        split
        · unfold writeStr at hg; simp at hg
        · rw [this]; rfl
    · have hl := len_items F l
      unfold OkL at h
      have hv := ihV v h.1 (dumpsItems F l ++ r) (items_stop F l r) (by omega)
      rw [List.append_assoc]
      match l, h.2 with
      | [], _ =>
        rw [dumpsItems] at hv ⊢
        rw [readItems_step F py n _ v ']' r hv (by decide), if_neg (by decide), if_pos rfl]
      | w :: l, h2 =>
        rw [dumpsItems] at hv ⊢
        have hw := ihI w l h2 r (by rw [dumpsItems] at hn; simp at hn; omega)
        unfold OkL at h2
        rw [readItems_step F py n _ v ',' (' ' :: (dumps F w ++ dumpsItems F l) ++ r) hv (by decide), if_pos rfl,
          List.cons_append, skipWs_blank, List.append_assoc, skipWs_dumps h2.1, ← List.append_assoc, hw]
        rfl
    · have hl := len_entries F l
      unfold OkO at h
      have hv := ihV v h.1 (dumpsEntries F l ++ r) (entries_stop F l r) (by omega)
      rw [List.append_assoc]
      rw [← skipWs_dumps h.1] at hv
      match l, h.2 with
      | [], _ =>
        rw [dumpsEntries] at hv ⊢
        rw [readEntries_step F py n k _ v '}' r hv (by decide), if_neg (by decide), if_pos rfl]
      | (k2, w) :: l, h2 =>
        rw [dumpsEntries] at hv ⊢
        have hw := ihE k2 w l h2 r (by rw [dumpsEntries] at hn; simp at hn; omega)
        have e0 : writeStr k2 ++ [':', ' '] ++ dumps F w ++ dumpsEntries F l ++ r =
            writeStr k2 ++ ':' :: ' ' :: (dumps F w ++ dumpsEntries F l ++ r) := by simp
        rw [readEntries_step F py n k _ v ',' (' ' :: (writeStr k2 ++ [':', ' '] ++ dumps F w ++ dumpsEntries F l) ++ r)
          hv (by decide), if_pos rfl, List.cons_append, skipWs_blank, e0, skipWs_key, hw]
        rfl

theorem read_dumps (F : Floats) (py : Bool) (v : Json) (h : Ok F py v) (r : Str) (hr : Stop r) (n : Nat)
    (hn : (dumps F v).length ≤ n) : readVal F py n (dumps F v ++ r) = some (v, r) := (read_all F py n).1 v h r hr hn

theorem readAll_dumps (F : Floats) (py : Bool) (v : Json) (h : Ok F py v) : readAll F py (dumps F v) = some v := by
  have e := skipWs_dumps h []
  have := read_dumps F py v h [] (by intro c hc; cases hc) ((dumps F v).length + 1) (by omega)
  rw [List.append_nil] at e this
  unfold readAll
  rw [e, this]
  rfl

mutual
theorem asDicts_keyed (v : Json) (h : Keyed v) : asDicts v = v := by
  match v, h with
  | .arr l, h => rw [Keyed] at h; rw [asDicts, asDictsL_keyed l h]
  | .obj l, h => rw [Keyed] at h; rw [asDicts, asDictsO_keyed l h.2, ofList_nodup h.1]
  | .null, _ => rw [asDicts]
  | .bool b, _ => rw [asDicts]
  | .num n, _ => rw [asDicts]
  | .str s, _ => rw [asDicts]
theorem asDictsL_keyed (l : List Json) (h : KeyedL l) : asDictsL l = l := by
  match l, h with
  | [], _ => rw [asDictsL]
  | v :: l, h => rw [KeyedL] at h; rw [asDictsL, asDicts_keyed v h.1, asDictsL_keyed l h.2]
theorem asDictsO_keyed (l : List (Str × Json)) (h : KeyedO l) : asDictsO l = l := by
  match l, h with
  | [], _ => rw [asDictsO]
  | (k, v) :: l, h => rw [KeyedO] at h; rw [asDictsO, asDicts_keyed v h.1, asDictsO_keyed l h.2]
end

end Verif.Wire

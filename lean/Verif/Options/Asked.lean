import Verif.Options.Lemmas
/-
C173: the options a user gets are the ones they asked for.
-/
set_option linter.unusedVariables false
set_option exponentiation.threshold 1100
namespace Verif.Options

variable {V : Type}

/-! ### Specification -/

/-- `q` is a number that a double can hold, if its exponent is in range: 53 significant bits. -/
def IsDouble (q : Rat) : Prop := ∃ (m : Int) (e : Nat), q = (m : Rat) * 2 ^ e ∧ m.natAbs ≤ 2 ^ 53

/-- `q` is `i` up to the precision of a double, and `i` itself if that has at most 53 bits. -/
def CloseTo (i : Int) (q : Rat) : Prop :=
  2 ^ 53 * (q - i) ≤ (i.natAbs : Rat) ∧ 2 ^ 53 * ((i : Rat) - q) ≤ (i.natAbs : Rat) ∧
    (i.natAbs ≤ 2 ^ 53 → q = i) ∧ IsDouble q

/-- What a field of this kind may make of the value `x` in a request: nothing but `x`, except that a field of floats makes
a float of an integer or a boolean. -/
def Keeps (k : Kind V) (x v : Json) : Prop :=
  match k, x with
  | .float _ _, .num (.int i) => ∃ q, v = .num (.fin q) ∧ CloseTo i q
  | .float _ _, .bool b => v = .num (.fin (if b then 1 else 0))
  | _, _ => v = x

/-! ### Rounding -/

theorem half_near (n d : Nat) (hd : 0 < d) :
    2 * n ≤ 2 * (d * roundHalfEven n d) + d ∧ 2 * (d * roundHalfEven n d) ≤ 2 * n + d ∧
      n / d ≤ roundHalfEven n d ∧ roundHalfEven n d ≤ n / d + 1 := by
  have h := Nat.div_add_mod n d
  have hm := Nat.mod_lt n hd
  unfold roundHalfEven
  dsimp only
  have h2 : n / d % 2 = 0 ∨ n / d % 2 = 1 := by omega
  split
  · omega
  · split
    · rw [Nat.mul_add, Nat.mul_one]; omega
    · rcases h2 with e | e
      · rw [e, Nat.add_zero]; omega
      · rw [e, Nat.mul_add, Nat.mul_one]; omega

/-- The grid that a large number is rounded to. -/
theorem grid {n : Nat} (hn : 2 ^ 53 ≤ n) : ∃ e, e = n.log2 - 52 ∧ 2 ^ 52 * 2 ^ e ≤ n ∧ n < 2 ^ 53 * 2 ^ e := by
  have h0 : n ≠ 0 := by
    have : 0 < 2 ^ 53 := by decide
    omega
  have hl : 53 ≤ n.log2 := (Nat.le_log2 h0).2 hn
  have h1 : 2 ^ n.log2 ≤ n := Nat.log2_self_le h0
  have h2 : n < 2 ^ (n.log2 + 1) := Nat.lt_log2_self
  refine ⟨_, rfl, ?_, ?_⟩
  · rw [← Nat.pow_add]
    have : 52 + (n.log2 - 52) = n.log2 := by omega
    rw [this]; exact h1
  · rw [← Nat.pow_add]
    have : 53 + (n.log2 - 52) = n.log2 + 1 := by omega
    rw [this]; exact h2

theorem rounded {n e : Nat} (h1 : 2 ^ 52 * 2 ^ e ≤ n) (h2 : n < 2 ^ 53 * 2 ^ e) :
    2 ^ 53 * (roundHalfEven n (2 ^ e) * 2 ^ e) ≤ 2 ^ 53 * n + n ∧
    2 ^ 53 * n ≤ 2 ^ 53 * (roundHalfEven n (2 ^ e) * 2 ^ e) + n ∧
    roundHalfEven n (2 ^ e) ≤ 2 ^ 53 ∧ 2 ^ 52 ≤ roundHalfEven n (2 ^ e) := by
  have hd : 0 < 2 ^ e := Nat.two_pow_pos e
  revert h1 h2 hd
  generalize 2 ^ e = d
  intro h1 h2 hd
  obtain ⟨a, b, c, c'⟩ := half_near n d hd
  have hq : 2 ^ 52 ≤ n / d := (Nat.le_div_iff_mul_le hd).2 h1
  have hq2 : n / d < 2 ^ 53 := (Nat.div_lt_iff_lt_mul hd).2 h2
  rw [Nat.mul_comm d] at a b
  generalize roundHalfEven n d * d = r at a b
  refine ⟨?_, ?_, ?_, ?_⟩ <;> omega

theorem floatOfNat_some {n r : Nat} (h : floatOfNat n = some r) :
    2 ^ 53 * r ≤ 2 ^ 53 * n + n ∧ 2 ^ 53 * n ≤ 2 ^ 53 * r + n ∧ (n ≤ 2 ^ 53 → r = n) ∧
      ∃ m e, r = m * 2 ^ e ∧ m ≤ 2 ^ 53 := by
  unfold floatOfNat at h
  split at h
  · rename_i hn
    cases h
    exact ⟨by omega, by omega, fun _ => rfl, n, 0, by simp, by omega⟩
  · rename_i hn
    obtain ⟨e, he, h1, h2⟩ := grid (n := n) (by omega)
    dsimp only at h
    rw [← he] at h
    split at h
    · cases h
      obtain ⟨a, b, c, d⟩ := rounded h1 h2
      refine ⟨a, b, fun hle => ?_, _, e, rfl, c⟩
      have hn' : n = 2 ^ 53 := by omega
      subst hn'
      have : e = 1 := by rw [he]; decide +kernel
      subst this
      decide +kernel
    · cases h

theorem floatOfNat_small {n : Nat} (h : n < 2 ^ 1023) : ∃ r, floatOfNat n = some r := by
  unfold floatOfNat
  split
  · exact ⟨_, rfl⟩
  · rename_i hn
    obtain ⟨e, he, h1, h2⟩ := grid (n := n) (by omega)
    dsimp only
    rw [← he]
    obtain ⟨a, b, c, d⟩ := rounded h1 h2
    refine ⟨_, if_pos ?_⟩
    generalize roundHalfEven n (2 ^ e) * 2 ^ e = r at a
    have h3 : (2 : Nat) ^ 1024 = 2 * 2 ^ 1023 := by decide +kernel
    rw [h3]
    revert h
    generalize (2 : Nat) ^ 1023 = B
    intro h
    omega

theorem floatOfNat_large {n : Nat} (h : 2 ^ 1024 ≤ n) : floatOfNat n = none := by
  have h53 : (2 : Nat) ^ 53 ≤ 2 ^ 1024 := Nat.pow_le_pow_right (by decide) (by decide)
  have hn : ¬ n < 2 ^ 53 := by
    intro hh
    exact absurd (Nat.lt_of_lt_of_le hh (Nat.le_trans h53 h)) (Nat.lt_irrefl n)
  unfold floatOfNat
  rw [if_neg hn]
  obtain ⟨e, he, h1, h2⟩ := grid (n := n) (Nat.le_of_not_lt hn)
  dsimp only
  rw [← he]
  obtain ⟨a, b, c, d⟩ := rounded h1 h2
  have h0 : n ≠ 0 := by
    intro hz; rw [hz] at hn; exact hn (by decide)
  have hl : 1024 ≤ n.log2 := (Nat.le_log2 h0).2 h
  have h3 : 2 ^ 1024 ≤ 2 ^ 52 * 2 ^ e := by
    rw [← Nat.pow_add]
    exact Nat.pow_le_pow_right (by decide) (by omega)
  rw [if_neg (Nat.not_lt.2 (Nat.le_trans h3 (Nat.mul_le_mul_right _ d)))]

theorem close_nat {n r : Nat} (h : floatOfNat n = some r) : CloseTo (n : Int) (r : Rat) := by
  obtain ⟨a, b, c, m, e, d1, d2⟩ := floatOfNat_some h
  have a' : (2 : Rat) ^ 53 * r ≤ 2 ^ 53 * n + n := by exact_mod_cast a
  have b' : (2 : Rat) ^ 53 * n ≤ 2 ^ 53 * r + n := by exact_mod_cast b
  have hc : ((n : Int) : Rat) = (n : Rat) := rfl
  refine ⟨?_, ?_, ?_, (m : Int), e, ?_, by simpa using d2⟩
  · rw [hc, Int.natAbs_natCast]; grind
  · rw [hc, Int.natAbs_natCast]; grind
  · rw [hc, Int.natAbs_natCast]; intro hh; rw [c hh]
  · rw [d1]; push_cast; rfl

theorem close_neg {n r : Nat} (h : floatOfNat n = some r) : CloseTo (-(n : Int)) (-(r : Rat)) := by
  obtain ⟨a, b, c, m, e, d1, d2⟩ := floatOfNat_some h
  have a' : (2 : Rat) ^ 53 * r ≤ 2 ^ 53 * n + n := by exact_mod_cast a
  have b' : (2 : Rat) ^ 53 * n ≤ 2 ^ 53 * r + n := by exact_mod_cast b
  have hc : ((-(n : Int) : Int) : Rat) = -(n : Rat) := by rw [Rat.intCast_neg]; rfl
  refine ⟨?_, ?_, ?_, -(m : Int), e, ?_, by simpa using d2⟩
  · rw [hc, Int.natAbs_neg, Int.natAbs_natCast]; grind
  · rw [hc, Int.natAbs_neg, Int.natAbs_natCast]; grind
  · rw [hc, Int.natAbs_neg, Int.natAbs_natCast]; intro hh; rw [c hh]
  · rw [d1, Rat.intCast_neg, Rat.neg_mul]; push_cast; rfl

theorem floatOfInt_close {i : Int} {q : Rat} (h : floatOfInt i = some q) : CloseTo i q := by
  cases i with
  | ofNat n =>
    cases hr : floatOfNat n with
    | none => simp only [floatOfInt, hr] at h; cases h
    | some r =>
      simp only [floatOfInt, hr] at h
      cases h
      exact close_nat hr
  | negSucc n =>
    cases hr : floatOfNat (n + 1) with
    | none => simp only [floatOfInt, hr] at h; cases h
    | some r =>
      simp only [floatOfInt, hr] at h
      cases h
      exact close_neg hr

theorem validate_keeps {k : Kind V} {x v : Json} (h : validate k x = .ok v) : Keeps k x v := by
  have hn : ∀ {lo hi y v : Json}, numberValidate lo hi y = .ok v → v = y := fun h => (numberValidate_ok h).1
  cases k with
  | float lo hi =>
    simp only [validate, floatValidate] at h
    split at h
    · exact hn h
    · rename_i i
      cases hf : floatOfInt i with
      | none => rw [hf] at h; cases h
      | some q => rw [hf] at h; exact ⟨q, hn h, floatOfInt_close hf⟩
    · rename_i n hi
      have := hn h
      cases n with
      | int i => exact absurd rfl (hi i)
      | _ => exact this
    · cases h
  | integer lo hi =>
    simp only [validate, integerValidate] at h
    split at h
    · exact hn h
    · exact hn h
    · cases h
  | string => simp only [validate] at h; split at h <;> cases h; rfl
  | bool => simp only [validate] at h; split at h <;> cases h; rfl
  | mapping => simp only [validate] at h; split at h <;> cases h; rfl
  | select o =>
    simp only [validate] at h
    split at h
    · split at h <;> cases h; rfl
    · cases h

/-- C173. If the gateway accepts a request, every option in it has the value that was asked for; only an integer for a
field of floats becomes a float, which is as close to it as floats are. -/
theorem C173_kept (fields : List (Field V)) (hd : Distinct fields) (r out : List (Str × Json))
    (h : parseOptions fields (.obj r) = .ok out) (f : Field V) (hf : f ∈ fields) (x : Json)
    (hx : lookup r f.name = some x) : ∃ v, lookup out f.name = some v ∧ Keeps f.kind x v := by
  obtain ⟨v, h1, h2⟩ := parseOptions_field hd h hf
  rw [hx] at h2
  exact ⟨v, h1, validate_keeps h2⟩

/-- C173, integers: an unbounded field of floats takes every integer that is in the range of floats (up to the last power
of two), and refuses every one that is not. -/
theorem C173_range (i : Int) :
    (i.natAbs < 2 ^ 1023 → ∃ q, validate (V := V) (.float .null .null) (.num (.int i)) = .ok (.num (.fin q)) ∧ CloseTo i q) ∧
    (2 ^ 1024 ≤ i.natAbs → ∀ lo hi, validate (V := V) (.float lo hi) (.num (.int i)) = .error .overflow) := by
  constructor
  · intro h
    have : ∃ q, floatOfInt i = some q := by
      cases i with
      | ofNat n => obtain ⟨r, hr⟩ := floatOfNat_small (n := n) h; exact ⟨_, by simp only [floatOfInt, hr]; rfl⟩
      | negSucc n => obtain ⟨r, hr⟩ := floatOfNat_small (n := n + 1) h; exact ⟨_, by simp only [floatOfInt, hr]; rfl⟩
    obtain ⟨q, hq⟩ := this
    refine ⟨q, ?_, floatOfInt_close hq⟩
    simp only [validate, floatValidate, hq]
    rfl
  · intro h lo hi
    have : floatOfInt i = none := by
      cases i with
      | ofNat n => simp only [floatOfInt, floatOfNat_large (n := n) h]; rfl
      | negSucc n => simp only [floatOfInt, floatOfNat_large (n := n + 1) h]; rfl
    simp only [validate, floatValidate, this]

/-- 2^53 + 3 is halfway between two floats, and becomes the even one; -7 stays -7. -/
example : validate (V := Unit) (.float .null .null) (.num (.int (2 ^ 53 + 3))) = .ok (.num (.fin (2 ^ 53 + 4))) := by
  decide +kernel
example : validate (V := Unit) (.float (.num (.fin (-8))) .null) (.num (.int (-7))) = .ok (.num (.fin (-7))) := by
  decide +kernel

end Verif.Options

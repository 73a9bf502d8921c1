import Verif.Wire.Cut
import Verif.Wire.Stream
import Verif.ProxyEvents.Props
/-! Properties C136 and C137: messages between the programs. -/
set_option linter.unusedSimpArgs false
set_option linter.unusedVariables false
namespace Verif.Wire
open Verif.ProxyEvents

/-! ### C136: what is written is read as it was meant -/

/-- C136: a value that one Python program writes is read by another as the same value. -/
theorem C136_python (F : Floats) (v : Json) (h : Ok F true v) (hk : Keyed v) : loads F (dumps F v) = some v := by
  unfold loads
  rw [readAll_dumps F true v h, Option.map_some, asDicts_keyed v hk]

/-- C136: the proxy, written in Go, reads the same value, if it has no infinities. -/
theorem C136_go (F : Floats) (v : Json) (h : Ok F false v) : readAll F false (dumps F v) = some v :=
  readAll_dumps F false v h

/-- Only printable characters of ASCII, so that bytes are characters and no line ends within. -/
def Printable (s : Str) : Prop := ∀ c ∈ s, 32 ≤ c.toNat ∧ c.toNat ≤ 126

theorem Printable.nil : Printable [] := fun _ h => by cases h

theorem Printable.cons {c : Char} {s : Str} (hc : 32 ≤ c.toNat ∧ c.toNat ≤ 126) (h : Printable s) : Printable (c :: s) := by
  intro x hx
  rcases List.mem_cons.1 hx with rfl | hx
  · exact hc
  · exact h x hx

theorem Printable.append {s t : Str} (hs : Printable s) (ht : Printable t) : Printable (s ++ t) := by
  intro x hx
  rcases List.mem_append.1 hx with hx | hx
  · exact hs x hx
  · exact ht x hx

theorem digit_printable {c : Char} (h : c.isDigit = true) : 32 ≤ c.toNat ∧ c.toNat ≤ 126 := by
  unfold Char.isDigit at h
  simp [UInt32.le_iff_toNat_le] at h
  have e : c.toNat = c.val.toNat := rfl
  omega

theorem hex4_printable (n : Nat) : Printable (hex4 n) := by
  have h (m : Nat) : 32 ≤ (hexDigit (m % 16)).toNat ∧ (hexDigit (m % 16)).toNat ≤ 126 :=
    hexDigit_range _ (Nat.mod_lt _ (by decide))
  unfold hex4
  exact .cons (by decide) (.cons (by decide) (.cons (h _) (.cons (h _) (.cons (h _) (.cons (h _) .nil)))))

theorem escape_printable (c : Char) : Printable (escape c) := by
  unfold escape
  have two (x : Char) (hx : 32 ≤ x.toNat ∧ x.toNat ≤ 126) : Printable ['\\', x] := .cons (by decide) (.cons hx .nil)
  by_cases h1 : c = '"'
  · rw [if_pos h1]; exact two _ (by decide)
  rw [if_neg h1]
  by_cases h2 : c = '\\'
  · rw [if_pos h2]; exact two _ (by decide)
  rw [if_neg h2]
  by_cases h3 : c = '\n'
  · rw [if_pos h3]; exact two _ (by decide)
  rw [if_neg h3]
  by_cases h4 : c = '\r'
  · rw [if_pos h4]; exact two _ (by decide)
  rw [if_neg h4]
  by_cases h5 : c = '\t'
  · rw [if_pos h5]; exact two _ (by decide)
  rw [if_neg h5]
  by_cases h6 : c.toNat = 12
  · rw [if_pos h6]; exact two _ (by decide)
  rw [if_neg h6]
  by_cases h7 : c.toNat = 8
  · rw [if_pos h7]; exact two _ (by decide)
  rw [if_neg h7]
  by_cases h8 : 32 ≤ c.toNat ∧ c.toNat ≤ 126
  · rw [if_pos h8]; exact .cons h8 .nil
  rw [if_neg h8]
  by_cases h9 : c.toNat < 65536
  · rw [if_pos h9]; exact hex4_printable _
  rw [if_neg h9]; exact (hex4_printable _).append (hex4_printable _)

theorem chars_printable (s : Str) : Printable (writeChars s) := by
  induction s with
  | nil => exact .cons (by decide) .nil
  | cons c s ih => exact (escape_printable c).append ih

theorem str_printable (s : Str) : Printable (writeStr s) := .cons (by decide) (chars_printable s)

theorem digits_printable {d : Str} (h : ∀ c ∈ d, c.isDigit = true) : Printable d :=
  fun c hc => digit_printable (h c hc)

theorem frac_printable {f : Str} (h : Frac f) : Printable f := by
  rcases h with rfl | ⟨t, rfl, _, h⟩
  · exact .nil
  · exact .cons (by decide) (digits_printable h)

theorem exp_printable {e : Str} (h : Exp e) : Printable e := by
  rcases h with rfl | ⟨x, g, t, rfl, hx, hg, _, h⟩
  · exact .nil
  · refine .cons (by rcases hx with rfl | rfl <;> decide) (.append ?_ (digits_printable h))
    rcases hg with rfl | rfl | rfl
    · exact .nil
    · exact .cons (by decide) .nil
    · exact .cons (by decide) .nil

theorem num_printable (F : Floats) (py : Bool) (n : Num) (h : Ok F py (.num n)) : Printable (writeNum F n) := by
  cases n with
  | int i =>
    show Printable (writeInt i)
    unfold writeInt
    by_cases hi : i < 0
    · rw [if_pos hi]; exact .cons (by decide) (digits_printable (toDigits_digits _).2.1)
    · rw [if_neg hi]; exact digits_printable (toDigits_digits _).2.1
  | fin q =>
    unfold Ok at h
    obtain ⟨neg, d, f, e, hw, hd, hf, he, _⟩ := h.shape
    show Printable (F.write q)
    rw [hw]
    refine .append (.append (.append ?_ (digits_printable hd.2.1)) (frac_printable hf)) (exp_printable he)
    cases neg with
    | false => exact .nil
    | true => exact .cons (by decide) .nil
  | pinf => show Printable "Infinity".toList; rw [inf_eq]; unfold Printable; decide
  | ninf => show Printable "-Infinity".toList; rw [ninf_eq]; unfold Printable; decide
  | nan => show Printable "NaN".toList; rw [nan_eq]; unfold Printable; decide

mutual
theorem dumps_printable (F : Floats) (py : Bool) (v : Json) (h : Ok F py v) : Printable (dumps F v) := by
  match v, h with
  | .null, _ => rw [dumps, null_eq]; unfold Printable; decide
  | .bool true, _ => rw [dumps, true_eq]; unfold Printable; decide
  | .bool false, _ => rw [dumps, false_eq]; unfold Printable; decide
  | .num n, h => rw [dumps]; exact num_printable F py n h
  | .str s, _ => rw [dumps]; exact str_printable s
  | .arr [], _ => rw [dumps]; unfold Printable; decide
  | .arr (v :: l), h =>
    rw [Ok, OkL] at h
    rw [dumps]
    exact .cons (by decide) ((dumps_printable F py v h.1).append (items_printable F py l h.2))
  | .obj [], _ => rw [dumps]; unfold Printable; decide
  | .obj ((k, v) :: l), h =>
    rw [Ok, OkO] at h
    rw [dumps]
    exact .cons (by decide) ((((str_printable k).append (.cons (by decide) (.cons (by decide) .nil))).append
      (dumps_printable F py v h.1)).append (entries_printable F py l h.2))
theorem items_printable (F : Floats) (py : Bool) (l : List Json) (h : OkL F py l) : Printable (dumpsItems F l) := by
  match l, h with
  | [], _ => rw [dumpsItems]; unfold Printable; decide
  | v :: l, h =>
    rw [OkL] at h
    rw [dumpsItems]
    exact .cons (by decide) (.cons (by decide) ((dumps_printable F py v h.1).append (items_printable F py l h.2)))
theorem entries_printable (F : Floats) (py : Bool) (l : List (Str × Json)) (h : OkO F py l) :
    Printable (dumpsEntries F l) := by
  match l, h with
  | [], _ => rw [dumpsEntries]; unfold Printable; decide
  | (k, v) :: l, h =>
    rw [OkO] at h
    rw [dumpsEntries]
    exact .cons (by decide) (.cons (by decide) ((((str_printable k).append (.cons (by decide) (.cons (by decide) .nil))).append
      (dumps_printable F py v h.1)).append (entries_printable F py l h.2)))
end

/-- C136: the text of a message has no line breaks and no characters outside ASCII. -/
theorem C136_one_line (F : Floats) (py : Bool) (v : Json) (h : Ok F py v) :
    ∀ c ∈ dumps F v, 32 ≤ c.toNat ∧ c.toNat ≤ 126 := dumps_printable F py v h

/-- C136: of an object that was cut anywhere nothing is read, neither in Python nor in Go. -/
theorem C136_cut (F : Floats) (py : Bool) (l : List (Str × Json)) (h : Ok F py (.obj l)) (p x : Str)
    (hp : dumps F (.obj l) = p ++ x) (hx : x ≠ []) : readAll F py p = none := by
  have hs : skipWs p = p := by
    cases p with
    | nil => rfl
    | cons c p =>
      obtain ⟨d, t, e, hd, _⟩ := dumps_head F py _ h
      rw [e] at hp
      cases hp
      exact skipWs_cons hd p
  unfold readAll
  rw [hs, readVal_cut F py l h p x hp hx]

/-- C136 does not extend to numbers: cut numbers are numbers. -/
example (F : Floats) : readAll F true (dumps F (.num (.int 12))) = some (.num (.int 12)) ∧
    readAll F true ((dumps F (.num (.int 12))).take 1) = some (.num (.int 1)) := by
  constructor
  · exact readAll_dumps F true _ (by simp [Ok])
  · have : (dumps F (.num (.int 12))).take 1 = dumps F (.num (.int 1)) := by rw [dumps, dumps]; rfl
    rw [this]; exact readAll_dumps F true _ (by simp [Ok])

/-- C136, the boundary: what Python writes for an infinity is no JSON for Go. None is sent to the proxy. -/
theorem C136_infinity (F : Floats) : readAll F false (dumps F (.num .pinf)) = none ∧
    readAll F true (dumps F (.num .pinf)) = some (.num .pinf) := by
  refine ⟨?_, readAll_dumps F true _ (by simp [Ok])⟩
  rw [dumps]
  show readAll F false "Infinity".toList = none
  rw [inf_eq]
  unfold readAll
  rw [skipWs_cons (by decide), readVal_word F false _ _ _ (by decide) (by decide) (by decide)]
  simp [readAtom, readNum, readAbs, digitsOf, List.isPrefixOf]

end Verif.Wire

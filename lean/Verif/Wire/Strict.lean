import Verif.Wire.StreamProps
/-
C136 and C137: what is not JSON is refused, and what a message leaves out is zero.
-/
namespace Verif.Wire

/-- The digits of hexadecimal numbers. -/
def hexDigits : Str := "0123456789abcdefABCDEF".toList

private theorem hexVal_digits {c : Char} {n : Nat} (h : hexVal c = some n) : c ∈ hexDigits := by
  have small : ∀ k : Fin 128, (hexVal (Char.ofNat k.val)).isSome = true → Char.ofNat k.val ∈ hexDigits := by decide +kernel
  have hc : c.toNat < 128 := by
    unfold hexVal at h
    split at h
    · omega
    · split at h
      · omega
      · split at h
        · omega
        · cases h
  have e : Char.ofNat c.toNat = c := Char.ofNat_toNat c
  have := small ⟨c.toNat, hc⟩ (by rw [e, h]; rfl)
  rwa [e] at this

/-- C136: a text with an escape that is not followed by four hexadecimal digits is refused, by Python and by Go. -/
theorem C136_escape (F : Floats) (py : Bool) (a b c d : Char) (t : Str)
    (h : a ∉ hexDigits ∨ b ∉ hexDigits ∨ c ∉ hexDigits ∨ d ∉ hexDigits) :
    readAll F py ('"' :: '\\' :: 'u' :: a :: b :: c :: d :: t) = none := by
  have h4 : hexVal4 a b c d = none := by
    unfold hexVal4
    cases ha : hexVal a with
    | none => rfl
    | some x =>
      cases hb : hexVal b with
      | none => rfl
      | some y =>
        cases hc : hexVal c with
        | none => rfl
        | some z =>
          cases hd : hexVal d with
          | none => rfl
          | some w =>
            exfalso
            rcases h with h | h | h | h
            · exact h (hexVal_digits ha)
            · exact h (hexVal_digits hb)
            · exact h (hexVal_digits hc)
            · exact h (hexVal_digits hd)
  have hu : readUnits ('\\' :: 'u' :: a :: b :: c :: d :: t) = none := by
    rw [readUnits_hex, h4]
  have hs : skipWs ('"' :: '\\' :: 'u' :: a :: b :: c :: d :: t) = '"' :: '\\' :: 'u' :: a :: b :: c :: d :: t := rfl
  simp only [readAll, hs, readVal, readStr, hu, Option.map_none]

example : 'g' ∉ hexDigits := by decide

/-- C137: an event that does not say its number has the number zero. -/
theorem C137_no_number (l : List (Str × Json)) (e : RawEvent) (hl : ∀ x ∈ l, x.1.map Char.toLower ≠ "id".toList)
    (h : goEvent (.obj l) = some e) : e.id = 0 := by
  have key : ∀ (l : List (Str × Json)) (e0 : RawEvent), (∀ x ∈ l, x.1.map Char.toLower ≠ "id".toList) →
      goEventFields e0 l = some e → e.id = e0.id := by
    intro l
    induction l with
    | nil => intro e0 _ h; cases h; rfl
    | cons x l ih =>
      intro e0 hl h
      obtain ⟨k, v⟩ := x
      have hk : fieldIs "id".toList k = false := by
        simp only [fieldIs, beq_eq_false_iff_ne]
        exact hl (k, v) List.mem_cons_self
      simp only [goEventFields] at h
      cases hf : goEventField e0 k v with
      | none => rw [hf] at h; cases h
      | some e1 =>
        rw [hf] at h
        rw [ih e1 (fun y hy => hl y (List.mem_cons_of_mem _ hy)) h]
        simp only [goEventField, hk, if_false, Bool.false_eq_true] at hf
        split at hf
        · cases hg : goStr e0.type v with
          | none => rw [hg] at hf; cases hf
          | some s => rw [hg] at hf; cases hf; rfl
        · split at hf
          · cases hg : goRoute e0.route v with
            | none => rw [hg] at hf; cases hf
            | some s => rw [hg] at hf; cases hf; rfl
          · cases hf; rfl
  exact key l .zero hl h

/-- C137: a table that does not say its number has the number zero. -/
theorem C137_no_number_table (l : List (Str × Json)) (t : List RawRoute × Nat) (hl : ∀ x ∈ l, x.1.map Char.toLower ≠ "id".toList)
    (h : goTableMsg (.obj l) = some t) : t.2 = 0 := by
  have key : ∀ (l : List (Str × Json)) (t0 : List RawRoute × Nat), (∀ x ∈ l, x.1.map Char.toLower ≠ "id".toList) →
      goTableFields t0 l = some t → t.2 = t0.2 := by
    intro l
    induction l with
    | nil => intro t0 _ h; cases h; rfl
    | cons x l ih =>
      intro t0 hl h
      obtain ⟨k, v⟩ := x
      have hk : fieldIs "id".toList k = false := by
        simp only [fieldIs, beq_eq_false_iff_ne]
        exact hl (k, v) List.mem_cons_self
      simp only [goTableFields, hk, if_false, Bool.false_eq_true] at h
      split at h
      · split at h
        · cases h
        · exact (ih _ (fun y hy => hl y (List.mem_cons_of_mem _ hy)) h).trans rfl
      · exact ih _ (fun y hy => hl y (List.mem_cons_of_mem _ hy)) h
  exact key l _ hl h

example : (goTableMsg (.obj [("routes".toList, .arr [])])).map (·.2) = some 0 := by decide +kernel

end Verif.Wire

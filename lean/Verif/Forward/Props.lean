import Verif.Router.Props
import Verif.Forward.Model
/-
C107: the URL of a proxied request.
-/
set_option linter.unusedSimpArgs false
set_option linter.unusedVariables false
namespace Verif.Forward
open Verif.Router (Str Op Longest tableOf key joinSlash trailing stripLead stripTrail)

/-! ### Specification -/

/-- Each character stands for a byte. -/
def Bytes (s : Str) : Prop := ∀ c ∈ s, c.toNat < 256

/-- The path of a request target as it is written: what is before the first question mark. -/
def pathOf (s : Str) : Str := s.takeWhile (· != '?')

/-- The query of a request target: what is behind the first question mark. -/
def queryOf (s : Str) : Str := (s.dropWhile (· != '?')).drop 1

/-- A target's own query and the query of a request, joined by "&" if both are there. -/
def joined (a b : Str) : Str := if a = [] then b else if b = [] then a else a ++ '&' :: b

/-- The hexadecimal digits for 0 to 15. -/
def capitalDigits : Str := "0123456789ABCDEF".toList
def smallDigits : Str := "0123456789abcdef".toList

/-- `Spelled w m`: the written path `w` means the bytes `m`: each "%" with two hexadecimal digits stands for the byte
with that number, and everything else for itself. -/
inductive Spelled : Str → Str → Prop
  | nil : Spelled [] []
  | plain (c : Char) (w m : Str) : c ≠ '%' → Spelled w m → Spelled (c :: w) (c :: m)
  | esc (x y : Nat) (a b : Char) (w m : Str) : (capitalDigits[x]? = some a ∨ smallDigits[x]? = some a) →
      (capitalDigits[y]? = some b ∨ smallDigits[y]? = some b) → Spelled w m →
      Spelled ('%' :: a :: b :: w) (Char.ofNat (16 * x + y) :: m)

/-- The characters that need no escape in a path. -/
def Plain (c : Char) : Prop := c.isAlphanum = true ∨ c ∈ ['-', '_', '.', '~', '$', '&', '+', ',', '/', ':', ';', '=', '@']

/-- A path written the usual way: escapes, in capitals, for exactly the bytes that need one. -/
inductive Canonical : Str → Prop
  | nil : Canonical []
  | plain (c : Char) (w : Str) : Plain c → Canonical w → Canonical (c :: w)
  | esc (x y : Nat) (a b : Char) (w : Str) : capitalDigits[x]? = some a → capitalDigits[y]? = some b →
      ¬ Plain (Char.ofNat (16 * x + y)) → Canonical w → Canonical ('%' :: a :: b :: w)

/-- The path `out` is that of the target `t` followed by what is behind the route `k` in the path `p` of
the request as it is written. -/
def AsSent (t : Url) (k : List Str) (p out : Str) : Prop :=
  ∃ lead wk sep w wt, (lead = [] ∨ lead = ['/']) ∧ Spelled wk (joinSlash k) ∧ (sep = [] ∨ sep = ['/']) ∧
    p = lead ++ wk ++ sep ++ w ∧ Spelled wt (stripTrail t.path) ∧ out = wt ++ '/' :: stripLead w

/-! ### Escapes -/

theorem char_ofNat_toNat (c : Char) : Char.ofNat c.toNat = c := Char.ofNat_toNat c

theorem unhex_upperhex : ∀ n : Nat, n < 16 → unhex (upperhex n) = some n := by decide +kernel

theorem escape_cons (c : Char) (s : Str) : escape (c :: s) = escape1 c ++ escape s := rfl

theorem escape_append (a b : Str) : escape (a ++ b) = escape a ++ escape b := by
  simp [escape, List.flatMap_append]

theorem escape_nil : escape [] = [] := rfl

theorem percent_escaped : shouldEscape '%' = true := by decide +kernel
theorem question_escaped : shouldEscape '?' = true := by decide +kernel
theorem slash_kept : shouldEscape '/' = false := by decide +kernel

theorem unescape_step (c : Char) (hc : c.toNat < 256) (s : Str) :
    unescape (escape1 c ++ s) = (unescape s).map (c :: ·) := by
  unfold escape1
  by_cases h : shouldEscape c = true
  · rw [if_pos h]
    have h1 := unhex_upperhex (c.toNat / 16) (by omega)
    have h2 := unhex_upperhex (c.toNat % 16) (by omega)
    have h3 : c.toNat / 16 * 16 + c.toNat % 16 = c.toNat := by omega
    simp only [List.cons_append, List.nil_append]
    rw [unescape, if_pos rfl, h1, h2]
    dsimp only
    rw [h3, char_ofNat_toNat]
  · rw [if_neg h]
    have hne : c ≠ '%' := fun e => h (e ▸ percent_escaped)
    simp only [List.cons_append, List.nil_append]
    rw [unescape.eq_def]
    dsimp only
    rw [if_neg hne]

theorem unescape_escape (s : Str) (hs : Bytes s) : unescape (escape s) = some s := by
  induction s with
  | nil => rfl
  | cons c s ih =>
    rw [escape_cons, unescape_step c (hs c (by simp)), ih (fun d hd => hs d (by simp [hd]))]
    rfl

theorem upperhex_ne : ∀ n : Nat, n < 16 → upperhex n ≠ '?' ∧ upperhex n ≠ '/' := by decide +kernel

theorem escape1_no_question (c : Char) (hc : c.toNat < 256) : '?' ∉ escape1 c := by
  unfold escape1
  by_cases h : shouldEscape c = true
  · rw [if_pos h]
    have h1 := upperhex_ne (c.toNat / 16) (by omega)
    have h2 := upperhex_ne (c.toNat % 16) (by omega)
    intro hm
    simp only [List.mem_cons, List.not_mem_nil, or_false] at hm
    rcases hm with e | e | e
    · revert e; decide
    · exact h1.1 e.symm
    · exact h2.1 e.symm
  · rw [if_neg h]
    intro hm
    rw [List.mem_singleton] at hm
    exact h (hm ▸ question_escaped)

theorem escape_no_question (s : Str) (hs : Bytes s) : '?' ∉ escape s := by
  intro h
  rw [escape, List.mem_flatMap] at h
  obtain ⟨c, hc, hm⟩ := h
  exact escape1_no_question c (hs c hc) hm

theorem valid_no_question (s : Str) (h : validEncoded s = true) : '?' ∉ s := by
  intro hm
  unfold validEncoded at h
  rw [List.all_eq_true] at h
  have := h '?' hm
  revert this
  decide +kernel

theorem unhex_lt (c : Char) (n : Nat) (h : unhex c = some n) : n < 16 := by
  unfold unhex at h
  by_cases h1 : 48 ≤ c.toNat ∧ c.toNat ≤ 57
  · rw [if_pos h1] at h; injection h; omega
  · rw [if_neg h1] at h
    by_cases h2 : 97 ≤ c.toNat ∧ c.toNat ≤ 102
    · rw [if_pos h2] at h; injection h; omega
    · rw [if_neg h2] at h
      by_cases h3 : 65 ≤ c.toNat ∧ c.toNat ≤ 70
      · rw [if_pos h3] at h; injection h; omega
      · rw [if_neg h3] at h; cases h

theorem toNat_ofNat_lt : ∀ n : Nat, n < 256 → (Char.ofNat n).toNat = n := by decide +kernel

/-! The model's decoder and encoder against the specification. -/

theorem unhex_digit : ∀ x, x < 16 → ∀ a, (capitalDigits[x]? = some a ∨ smallDigits[x]? = some a) → unhex a = some x := by
  have h : ∀ x, x < 16 → (capitalDigits[x]?.bind unhex = some x ∧ smallDigits[x]?.bind unhex = some x) := by decide +kernel
  intro x hx a ha
  rcases ha with e | e
  · have := (h x hx).1; rw [e] at this; exact this
  · have := (h x hx).2; rw [e] at this; exact this

theorem digit_lt (x : Nat) (a : Char) (h : capitalDigits[x]? = some a ∨ smallDigits[x]? = some a) : x < 16 := by
  rcases h with h | h
  · have := (List.getElem?_eq_some_iff.mp h).1
    exact this
  · have := (List.getElem?_eq_some_iff.mp h).1
    exact this

theorem digit_unhex (a : Char) (x : Nat) (h : unhex a = some x) : capitalDigits[x]? = some a ∨ smallDigits[x]? = some a := by
  have key : ∀ n : Nat, n < 128 → ∀ x, unhex (Char.ofNat n) = some x →
      capitalDigits[x]? = some (Char.ofNat n) ∨ smallDigits[x]? = some (Char.ofNat n) := by
    have : ∀ n : Nat, n < 128 → (match unhex (Char.ofNat n) with
      | none => true
      | some x => decide (capitalDigits[x]? = some (Char.ofNat n) ∨ smallDigits[x]? = some (Char.ofNat n))) = true := by
      decide +kernel
    intro n hn x hx
    have := this n hn
    rw [hx] at this
    exact of_decide_eq_true this
  have hlt : a.toNat < 128 := by
    unfold unhex at h
    by_cases h1 : 48 ≤ a.toNat ∧ a.toNat ≤ 57
    · omega
    · rw [if_neg h1] at h
      by_cases h2 : 97 ≤ a.toNat ∧ a.toNat ≤ 102
      · omega
      · rw [if_neg h2] at h
        by_cases h3 : 65 ≤ a.toNat ∧ a.toNat ≤ 70
        · omega
        · rw [if_neg h3] at h; cases h
  have := key a.toNat hlt x (by rw [char_ofNat_toNat]; exact h)
  rw [char_ofNat_toNat] at this
  exact this

theorem unescape_of_spelled {w m : Str} (h : Spelled w m) : unescape w = some m := by
  induction h with
  | nil => rfl
  | plain c w m hc _ ih => rw [unescape.eq_def]; dsimp only; rw [if_neg hc, ih]; rfl
  | esc x y a b w m ha hb _ ih =>
    rw [unescape, if_pos rfl, unhex_digit x (digit_lt x a ha) a ha, unhex_digit y (digit_lt y b hb) b hb]
    dsimp only
    rw [ih, Nat.mul_comm x 16]
    rfl

theorem spelled_of_unescape : ∀ (n : Nat) (w m : Str), w.length ≤ n → unescape w = some m → Spelled w m := by
  intro n
  induction n with
  | zero =>
    intro w m hn h
    have : w = [] := List.eq_nil_of_length_eq_zero (by omega)
    subst this
    rw [unescape] at h
    injection h with h
    subst h
    exact .nil
  | succ n ih =>
    intro w m hn h
    cases w with
    | nil => rw [unescape] at h; injection h with h; subst h; exact .nil
    | cons c cs =>
      rw [unescape.eq_def] at h
      dsimp only at h
      by_cases hc : c = '%'
      · rw [if_pos hc] at h
        subst hc
        cases cs with
        | nil => cases h
        | cons a cs =>
          cases cs with
          | nil => cases h
          | cons b ds =>
            dsimp only at h
            cases ha : unhex a with
            | none => rw [ha] at h; cases h
            | some x =>
              cases hb : unhex b with
              | none => rw [ha, hb] at h; cases h
              | some y =>
                rw [ha, hb] at h
                dsimp only at h
                cases hd : unescape ds with
                | none => rw [hd] at h; cases h
                | some m' =>
                  rw [hd] at h
                  injection h with h
                  subst h
                  rw [Nat.mul_comm x 16]
                  exact .esc x y a b ds m' (digit_unhex a x ha) (digit_unhex b y hb)
                    (ih ds m' (by simp only [List.length_cons] at hn; omega) hd)
      · rw [if_neg hc] at h
        cases hd : unescape cs with
        | none => rw [hd] at h; cases h
        | some m' =>
          rw [hd] at h
          injection h with h
          subst h
          exact .plain c cs m' hc (ih cs m' (by simp only [List.length_cons] at hn; omega) hd)

theorem spelled_iff (w m : Str) : Spelled w m ↔ unescape w = some m :=
  ⟨unescape_of_spelled, spelled_of_unescape _ w m (Nat.le_refl _)⟩

theorem shouldEscape_iff (c : Char) : shouldEscape c = false ↔ Plain c := by
  unfold shouldEscape Plain
  by_cases h1 : c.isAlphanum = true
  · rw [if_pos h1]; exact ⟨fun _ => Or.inl h1, fun _ => rfl⟩
  · rw [if_neg h1]
    by_cases h2 : ['-', '_', '.', '~'].contains c = true
    · rw [if_pos h2]
      refine ⟨fun _ => Or.inr ?_, fun _ => rfl⟩
      simp only [List.contains_iff_mem, List.mem_cons, List.not_mem_nil, or_false] at h2 ⊢
      rcases h2 with h | h | h | h <;> simp [h]
    · rw [if_neg h2]
      by_cases h3 : ['$', '&', '+', ',', '/', ':', ';', '=', '?', '@'].contains c = true
      · rw [if_pos h3]
        simp only [List.contains_iff_mem, List.mem_cons, List.not_mem_nil, or_false] at h2 h3 ⊢
        constructor
        · intro h4
          have : c ≠ '?' := by simpa using h4
          grind
        · intro h4
          have : c ≠ '?' := by
            intro e
            subst e
            rcases h4 with h4 | h4
            · exact h1 h4
            · revert h4; decide
          simpa using this
      · rw [if_neg h3]
        simp only [List.contains_iff_mem, List.mem_cons, List.not_mem_nil, or_false] at h2 h3 ⊢
        constructor
        · intro h; cases h
        · intro h4; exfalso; grind

theorem canonical_escape {w : Str} (h : Canonical w) : ∀ m, unescape w = some m → w = escape m := by
  induction h with
  | nil => intro m hm; rw [unescape] at hm; injection hm with hm; subst hm; rfl
  | plain c w hc _ ih =>
    intro m hm
    have hns : shouldEscape c = false := (shouldEscape_iff c).mpr hc
    have hne : c ≠ '%' := by
      intro e
      rw [e, percent_escaped] at hns
      cases hns
    rw [unescape.eq_def] at hm
    dsimp only at hm
    rw [if_neg hne] at hm
    cases hd : unescape w with
    | none => rw [hd] at hm; cases hm
    | some m' =>
      rw [hd] at hm
      injection hm with hm
      subst hm
      rw [escape_cons, ← ih m' hd]
      unfold escape1
      rw [if_neg (by rw [hns]; decide)]
      rfl
  | esc x y a b w ha hb hp _ ih =>
    intro m hm
    have hx := digit_lt x a (Or.inl ha)
    have hy := digit_lt y b (Or.inl hb)
    rw [unescape, if_pos rfl, unhex_digit x hx a (Or.inl ha), unhex_digit y hy b (Or.inl hb)] at hm
    dsimp only at hm
    cases hd : unescape w with
    | none => rw [hd] at hm; cases hm
    | some m' =>
      rw [hd] at hm
      injection hm with hm
      subst hm
      rw [escape_cons, ← ih m' hd]
      have hs : shouldEscape (Char.ofNat (x * 16 + y)) = true := by
        cases hh : shouldEscape (Char.ofNat (x * 16 + y)) with
        | true => rfl
        | false => exact absurd ((shouldEscape_iff _).mp hh) (by rw [Nat.mul_comm x 16]; exact hp)
      unfold escape1
      rw [if_pos hs, toNat_ofNat_lt _ (by omega)]
      have e1 : (x * 16 + y) / 16 = x := by omega
      have e2 : (x * 16 + y) % 16 = y := by omega
      have hup : ∀ x, x < 16 → capitalDigits[x]? = some (upperhex x) := by decide +kernel
      rw [e1, e2]
      have := (hup x hx).symm.trans ha
      injection this with this
      have := (hup y hy).symm.trans hb
      injection this with this
      simp [*]

/-- What is decoded from bytes is bytes. -/
theorem unescape_bytes : ∀ (n : Nat) (s t : Str), s.length ≤ n → Bytes s → unescape s = some t → Bytes t := by
  intro n
  induction n with
  | zero =>
    intro s t hn _ h
    have : s = [] := List.eq_nil_of_length_eq_zero (by omega)
    subst this
    rw [unescape] at h
    injection h with h
    subst h
    intro c hc
    cases hc
  | succ n ih =>
    intro s t hn hs h
    cases s with
    | nil =>
      rw [unescape] at h
      injection h with h
      subst h
      intro c hc
      cases hc
    | cons c cs =>
      rw [unescape.eq_def] at h
      dsimp only at h
      by_cases hc : c = '%'
      · rw [if_pos hc] at h
        cases cs with
        | nil => cases h
        | cons a cs =>
          cases cs with
          | nil => cases h
          | cons b ds =>
            dsimp only at h
            cases ha : unhex a with
            | none => rw [ha] at h; cases h
            | some x =>
              cases hb : unhex b with
              | none => rw [ha, hb] at h; cases h
              | some y =>
                rw [ha, hb] at h
                dsimp only at h
                cases hd : unescape ds with
                | none => rw [hd] at h; cases h
                | some r =>
                  rw [hd] at h
                  injection h with h
                  subst h
                  have hx := unhex_lt a x ha
                  have hy := unhex_lt b y hb
                  intro d hd'
                  rcases List.mem_cons.mp hd' with e | e
                  · rw [e, toNat_ofNat_lt _ (by omega)]; omega
                  · refine ih ds r ?_ ?_ hd d e
                    · simp only [List.length_cons] at hn; omega
                    · intro z hz; exact hs z (by simp [hz])
      · rw [if_neg hc] at h
        cases hd : unescape cs with
        | none => rw [hd] at h; cases h
        | some r =>
          rw [hd] at h
          injection h with h
          subst h
          intro d hd'
          rcases List.mem_cons.mp hd' with e | e
          · rw [e]; exact hs c (by simp)
          · refine ih cs r ?_ ?_ hd d e
            · simp only [List.length_cons] at hn; omega
            · intro z hz; exact hs z (by simp [hz])

/-! ### Written URLs -/

theorem takeWhile_append_question (a q : Str) (h : '?' ∉ a) :
    (a ++ '?' :: q).takeWhile (· != '?') = a ∧ (a ++ '?' :: q).dropWhile (· != '?') = '?' :: q := by
  induction a with
  | nil => simp
  | cons c a ih =>
    simp only [List.mem_cons, not_or] at h
    obtain ⟨h1, h2⟩ := ih h.2
    have hc : (c != '?') = true := by simpa using fun e => h.1 e.symm
    simp [List.takeWhile_cons, List.dropWhile_cons, hc, h1, h2]

theorem takeWhile_question (a : Str) (h : '?' ∉ a) :
    a.takeWhile (· != '?') = a ∧ a.dropWhile (· != '?') = [] := by
  induction a with
  | nil => simp
  | cons c a ih =>
    simp only [List.mem_cons, not_or] at h
    obtain ⟨h1, h2⟩ := ih h.2
    have hc : (c != '?') = true := by simpa using fun e => h.1 e.symm
    simp [List.takeWhile_cons, List.dropWhile_cons, hc, h1, h2]

theorem escapedPath_cases (u : Url) :
    (escapedPath u = u.rawPath ∧ u.rawPath ≠ [] ∧ validEncoded u.rawPath = true ∧ unescape u.rawPath = some u.path) ∨
    (escapedPath u = ['*'] ∧ u.path = ['*']) ∨ escapedPath u = escape u.path := by
  unfold escapedPath
  by_cases h : u.rawPath ≠ [] ∧ validEncoded u.rawPath = true ∧ unescape u.rawPath = some u.path
  · rw [if_pos h]; exact Or.inl ⟨rfl, h⟩
  · rw [if_neg h]
    by_cases h' : u.path = ['*']
    · rw [if_pos h']; exact Or.inr (Or.inl ⟨rfl, h'⟩)
    · rw [if_neg h']; exact Or.inr (Or.inr rfl)

theorem escapedPath_no_question (u : Url) (h : Bytes u.path) : '?' ∉ escapedPath u := by
  rcases escapedPath_cases u with ⟨e, _, hv, _⟩ | ⟨e, _⟩ | e <;> rw [e]
  · exact valid_no_question _ hv
  · decide
  · exact escape_no_question _ h

/-- However it is written, the path decodes to the path. -/
theorem escapedPath_decodes (u : Url) (h : Bytes u.path) : unescape (escapedPath u) = some u.path := by
  rcases escapedPath_cases u with ⟨e, _, _, hd⟩ | ⟨e, hp⟩ | e <;> rw [e]
  · exact hd
  · rw [hp]; decide +kernel
  · exact unescape_escape _ h

theorem escapedPath_ne_nil (u : Url) (h : u.path ≠ []) : escapedPath u ≠ [] := by
  rcases escapedPath_cases u with ⟨e, hr, _, _⟩ | ⟨e, hp⟩ | e <;> rw [e]
  · exact hr
  · decide
  · intro hn
    cases hp : u.path with
    | nil => exact h hp
    | cons c s =>
      rw [hp, escape_cons] at hn
      have := (List.append_eq_nil_iff.mp hn).1
      unfold escape1 at this
      by_cases hc : shouldEscape c = true
      · rw [if_pos hc] at this; cases this
      · rw [if_neg hc] at this; cases this

theorem pathOf_requestURI (u : Url) (h : Bytes u.path) (hne : u.path ≠ []) :
    pathOf (requestURI u) = escapedPath u ∧ queryOf (requestURI u) = u.rawQuery := by
  have h1 := escapedPath_no_question u h
  have h2 := escapedPath_ne_nil u hne
  unfold pathOf queryOf requestURI
  rw [if_neg h2]
  by_cases hq : u.forceQuery ∨ u.rawQuery ≠ []
  · rw [if_pos hq, (takeWhile_append_question _ _ h1).1, (takeWhile_append_question _ _ h1).2]
    exact ⟨rfl, rfl⟩
  · rw [if_neg hq, List.append_nil, (takeWhile_question _ h1).1, (takeWhile_question _ h1).2]
    refine ⟨rfl, ?_⟩
    simp only [List.drop_nil]
    exact (Classical.not_not.mp (fun hh => hq (Or.inr hh))).symm

/-! ### Requests that are read -/

theorem bytes_sub {a b : Str} (h : ∀ c ∈ a, c ∈ b) (hb : Bytes b) : Bytes a := fun c hc => hb c (h c hc)

theorem mem_takeWhile {p : Char → Bool} : ∀ {l : Str} {c : Char}, c ∈ l.takeWhile p → c ∈ l
  | a :: l, c, h => by
    rw [List.takeWhile_cons] at h
    by_cases ha : p a = true
    · rw [if_pos ha] at h
      rcases List.mem_cons.mp h with e | e
      · rw [e]; simp
      · exact List.mem_cons_of_mem _ (mem_takeWhile e)
    · rw [if_neg ha] at h; cases h

/-- What is read from a request target. -/
theorem parse_spec (s : Str) (u : Url) (h : parseTarget s = some u) :
    unescape (pathOf s) = some u.path ∧ u.rawQuery = queryOf s ∧ (pathOf s).head? = some '/' ∧
      u.rawPath = (if pathOf s = escape u.path then [] else pathOf s) ∧
      u.forceQuery = (decide (s ≠ pathOf s) && decide (queryOf s = [])) := by
  unfold parseTarget at h
  by_cases h1 : hasCtl s = true
  · rw [if_pos h1] at h; cases h
  · rw [if_neg h1] at h
    dsimp only at h
    change (if (pathOf s).head? ≠ some '/' then none else setPath ⟨[], [], [], [],
      decide (s ≠ pathOf s) && decide (queryOf s = []), queryOf s⟩ (pathOf s)) = some u at h
    by_cases h2 : (pathOf s).head? = some '/'
    · rw [if_neg (Classical.not_not.mpr h2)] at h
      unfold setPath at h
      cases hp : unescape (pathOf s) with
      | none => rw [hp] at h; cases h
      | some p =>
        rw [hp] at h
        injection h with h
        subst h
        exact ⟨rfl, rfl, h2, rfl, rfl⟩
    · rw [if_pos h2] at h; cases h

theorem path_head (p path : Str) (h : p.head? = some '/') (hd : unescape p = some path) : ∃ r, path = '/' :: r := by
  cases p with
  | nil => cases h
  | cons c cs =>
    simp only [List.head?_cons, Option.some.injEq] at h
    subst h
    rw [unescape.eq_def] at hd
    dsimp only at hd
    rw [if_neg (by decide)] at hd
    cases hr : unescape cs with
    | none => rw [hr] at hd; cases hd
    | some r =>
      rw [hr] at hd
      injection hd with hd
      exact ⟨r, hd.symm⟩

theorem escape_slash (b : Str) : escape ('/' :: b) = '/' :: escape b := rfl

theorem escape_stripLead (b : Str) (hb : Bytes b) : escape (stripLead b) = stripLead (escape b) := by
  cases b with
  | nil => rfl
  | cons c b =>
    by_cases h : c = '/'
    · subst h; rfl
    · have h1 : stripLead (c :: b) = c :: b := by
        unfold stripLead
        split
        · rename_i e; injection e with e _; exact absurd e h
        · rfl
      rw [h1, escape_cons]
      have : ∀ d r, escape1 c = d :: r → d ≠ '/' := by
        intro d r e
        unfold escape1 at e
        by_cases hc : shouldEscape c = true
        · rw [if_pos hc] at e
          injection e with e _
          rw [← e]; decide
        · rw [if_neg hc] at e
          injection e with e _
          rw [← e]; exact h
      cases he : escape1 c with
      | nil =>
        exfalso
        unfold escape1 at he
        by_cases hc : shouldEscape c = true
        · rw [if_pos hc] at he; cases he
        · rw [if_neg hc] at he; cases he
      | cons d r =>
        have hd := this d r he
        rw [List.cons_append]
        unfold stripLead
        split
        · rename_i e; injection e with e _; exact absurd e hd
        · rfl

/-! ### C107 -/

/-- C107: a request is answered with 404 exactly if no route is a prefix of its path. -/
theorem C107_not_found (ops : List (Op Url)) (u : Url) :
    serveHTTP (Router.Router.run ops) u = .notFound ↔ ∀ k, k <+: key u.path → tableOf ops k = none := by
  have h := Router.match_longest_prefix ops u.path
  unfold serveHTTP
  cases hm : (Router.Router.run ops).match_ u.path with
  | none =>
    rw [hm] at h
    exact ⟨fun _ => h, fun _ => rfl⟩
  | some x =>
    obtain ⟨t, rest⟩ := x
    rw [hm] at h
    obtain ⟨k, hk⟩ := h
    constructor
    · intro e; cases e
    · intro hn
      have := hn k hk.1
      rw [hk.2.1] at this
      cases this

theorem serve_spec (ops : List (Op Url)) (u v : Url) (h : serveHTTP (Router.Router.run ops) u = .forward v) :
    ∃ k post t, key u.path = k ++ post ∧ Longest (tableOf ops) (key u.path) k t ∧
      v.scheme = t.scheme ∧ v.host = t.host ∧
      v.path = stripTrail t.path ++ '/' :: stripLead (joinSlash post ++ trailing u.path) ∧
      v.rawPath = u.rawPath ∧ v.forceQuery = u.forceQuery ∧ v.rawQuery = joined t.rawQuery u.rawQuery := by
  unfold serveHTTP at h
  cases hm : (Router.Router.run ops).match_ u.path with
  | none => rw [hm] at h; cases h
  | some x =>
    obtain ⟨t, rest⟩ := x
    rw [hm] at h
    injection h with h
    obtain ⟨k, post, h1, h2, h3⟩ := Router.forwarded_rest ops u.path rest t hm
    refine ⟨k, post, t, h1, h2, ?_⟩
    subst h
    refine ⟨rfl, rfl, ?_, rfl, rfl, ?_⟩
    · dsimp only
      rw [Router.single_slash_join, h3]
    · dsimp only
      unfold joined
      by_cases ha : t.rawQuery = []
      · rw [if_pos (Or.inl ha), if_pos ha, ha, List.nil_append]
      · rw [if_neg ha]
        by_cases hb : u.rawQuery = []
        · rw [if_pos (Or.inr hb), if_pos hb, hb, List.append_nil]
        · rw [if_neg (fun hh => hh.elim ha hb), if_neg hb]

/-- C107: what arrives at the target, however the request is written: a request that is sent on goes to the
scheme and host of the longest route that is a prefix of its decoded path; there the decoded path is the
target's path, a slash and what follows the route, up to one slash; and the query is the one that was
sent, behind the target's own query if it has one. -/
theorem C107_decoded (ops : List (Op Url)) (s : Str) (u v : Url) (hb : Bytes s)
    (ht : ∀ k t, tableOf ops k = some t → Bytes t.path)
    (hp : parseTarget s = some u) (h : serveHTTP (Router.Router.run ops) u = .forward v) :
    ∃ path k post t, Spelled (pathOf s) path ∧ key path = k ++ post ∧
      Longest (tableOf ops) (key path) k t ∧ v.scheme = t.scheme ∧ v.host = t.host ∧
      Spelled (pathOf (requestURI v)) (stripTrail t.path ++ '/' :: stripLead (joinSlash post ++ trailing path)) ∧
      queryOf (requestURI v) = joined t.rawQuery (queryOf s) := by
  obtain ⟨h1, h2, h3, h4, h5⟩ := parse_spec s u hp
  obtain ⟨k, post, t, s1, s2, s3, s4, s5, s6, s7, s8⟩ := serve_spec ops u v h
  have hbu : Bytes u.path :=
    unescape_bytes _ (pathOf s) _ (Nat.le_refl _) (bytes_sub (fun c hc => mem_takeWhile hc) hb) h1
  obtain ⟨lead, l1, l2, l3⟩ := Router.normalizePath_spec u.path
  have hrest : Bytes (joinSlash post ++ trailing u.path) := by
    have e : u.path = lead ++ joinSlash k ++ (if k = [] ∨ post = [] then [] else ['/']) ++
        (joinSlash post ++ trailing u.path) := by
      rw [← Router.joinSlash_key, s1, Router.joinSlash_append] at l3
      simpa using l3
    refine bytes_sub ?_ hbu
    intro c hc
    rw [e]
    exact List.mem_append_right _ hc
  have hbt : Bytes (stripTrail t.path) := by
    refine bytes_sub ?_ (ht k t s2.2.1)
    intro c hc
    have := Router.append_trailing t.path
    rw [← this]
    exact List.mem_append_left _ hc
  have hbl : Bytes (stripLead (joinSlash post ++ trailing u.path)) := by
    refine bytes_sub ?_ hrest
    intro c hc
    rw [Router.stripLead_eq] at hc
    by_cases hh : (joinSlash post ++ trailing u.path).head? = some '/'
    · rw [if_pos hh] at hc; exact List.mem_of_mem_drop hc
    · rw [if_neg hh] at hc; exact hc
  have hbv : Bytes v.path := by
    rw [s5]
    intro c hc
    rcases List.mem_append.mp hc with hc | hc
    · exact hbt c hc
    · rcases List.mem_cons.mp hc with e | e
      · rw [e]; decide
      · exact hbl c e
  have hne : v.path ≠ [] := by rw [s5]; simp
  obtain ⟨q1, q2⟩ := pathOf_requestURI v hbv hne
  refine ⟨u.path, k, post, t, (spelled_iff _ _).mpr h1, s1, s2, s3, s4, ?_, ?_⟩
  · rw [spelled_iff, q1, escapedPath_decodes v hbv, s5]
  · rw [q2, s8, h2]

/-- The decoded path of a request and its parts. -/
theorem rest_of (path : Str) (k post : List Str) (h : key path = k ++ post) :
    ∃ lead, (lead = [] ∨ lead = ['/']) ∧
      path = lead ++ joinSlash k ++ (if k = [] ∨ post = [] then [] else ['/']) ++ (joinSlash post ++ trailing path) := by
  obtain ⟨lead, l1, l2, l3⟩ := Router.normalizePath_spec path
  refine ⟨lead, l1, ?_⟩
  rw [← Router.joinSlash_key, h, Router.joinSlash_append] at l3
  simpa using l3

/-- C107: requests for the gateway itself, which is registered for the path "/" with a URL without a path
and query, arrive there byte for byte as they were sent, query included, if the path is written with the characters
that URLs are made of and does not start with two slashes. -/
theorem C107_api (ops : List (Op Url)) (s : Str) (u v t : Url) (hb : Bytes s)
    (hv : validEncoded (pathOf s) = true) (he : u.path.take 2 ≠ ['/', '/'])
    (hroot : Longest (tableOf ops) (key u.path) [] t) (ht : t.path = []) (hq : t.rawQuery = [])
    (hp : parseTarget s = some u) (h : serveHTTP (Router.Router.run ops) u = .forward v) :
    v.scheme = t.scheme ∧ v.host = t.host ∧ requestURI v = s := by
  obtain ⟨h1, h2, h3, h4, h5⟩ := parse_spec s u hp
  obtain ⟨k, post, t', s1, s2, s3, s4, s5, s6, s7, s8⟩ := serve_spec ops u v h
  obtain ⟨rfl, rfl⟩ := Router.longest_unique _ _ _ _ _ _ s2 hroot
  obtain ⟨lead, l1, l2⟩ := rest_of u.path [] post s1
  obtain ⟨r, hr⟩ := path_head _ _ h3 h1
  refine ⟨s3, s4, ?_⟩
  have hpath : v.path = u.path := by
    rw [s5, ht]
    have e : stripTrail [] = [] := rfl
    rw [e, List.nil_append]
    simp only [true_or, if_true, List.append_nil, joinSlash] at l2
    generalize joinSlash post ++ trailing u.path = rest at l2 ⊢
    rcases l1 with rfl | rfl
    · rw [List.nil_append] at l2
      rw [← l2, hr]
      rfl
    · rw [l2]
      have : rest.head? ≠ some '/' := by
        intro hh
        cases rest with
        | nil => cases hh
        | cons c cs =>
          simp only [List.head?_cons, Option.some.injEq] at hh
          subst hh
          apply he
          rw [l2]
          rfl
      rw [Router.stripLead_eq, if_neg this]
      rfl
  have hbu : Bytes u.path :=
    unescape_bytes _ (pathOf s) _ (Nat.le_refl _) (bytes_sub (fun c hc => mem_takeWhile hc) hb) h1
  have hne : pathOf s ≠ [] := by intro e; rw [e] at h3; cases h3
  have hesc : escapedPath v = pathOf s := by
    unfold escapedPath
    rw [s6, hpath, h4]
    by_cases hc : pathOf s = escape u.path
    · rw [if_pos hc, if_neg (fun hh => hh.1 rfl), if_neg (by rw [hr]; simp), hc]
    · rw [if_neg hc, if_pos ⟨hne, hv, h1⟩]
  have hquery : v.rawQuery = queryOf s := by rw [s8, hq, h2]; rfl
  unfold requestURI
  rw [hesc, if_neg hne, s7, hquery, h5]
  have hsplit : s = pathOf s ++ s.dropWhile (· != '?') := (List.takeWhile_append_dropWhile).symm
  cases hd : s.dropWhile (· != '?') with
  | nil =>
    rw [hd, List.append_nil] at hsplit
    have : queryOf s = [] := by unfold queryOf; rw [hd]; rfl
    rw [this, if_neg, List.append_nil]
    · exact hsplit.symm
    · simp [← hsplit]
  | cons c q =>
    have hcq : c = '?' := by
      have := List.head?_dropWhile_not (fun c => c != '?') s
      rw [hd] at this
      simpa using this
    have hqq : queryOf s = q := by unfold queryOf; rw [hd]; rfl
    have hne' : s ≠ pathOf s := by
      intro e
      rw [← e, hd] at hsplit
      have := congrArg List.length hsplit
      simp at this
    rw [hqq]
    rw [if_pos]
    · rw [hd, hcq] at hsplit
      exact hsplit.symm
    · by_cases hq0 : q = []
      · left; simp [hne', hq0]
      · right; exact hq0

/-- C107, in part: a request whose path is written the usual way (with escapes in capitals for exactly the
characters that need one) arrives with the path of the target followed by what is behind the route, both as
they are written. Missing: paths that are written in another way, see `C107_violated`; what they decode to
arrives all the same, see `C107_decoded`. -/
theorem C107_partial (ops : List (Op Url)) (s : Str) (u v : Url) (hb : Bytes s)
    (ht : ∀ k t, tableOf ops k = some t → Bytes t.path)
    (hp : parseTarget s = some u) (h : serveHTTP (Router.Router.run ops) u = .forward v)
    (hc : Canonical (pathOf s)) :
    ∃ k t, Longest (tableOf ops) (key u.path) k t ∧ v.scheme = t.scheme ∧ v.host = t.host ∧
      AsSent t k (pathOf s) (pathOf (requestURI v)) := by
  obtain ⟨h1, h2, h3, h4, h5⟩ := parse_spec s u hp
  replace hc : pathOf s = escape u.path := canonical_escape hc _ h1
  obtain ⟨k, post, t, s1, s2, s3, s4, s5, s6, s7, s8⟩ := serve_spec ops u v h
  obtain ⟨lead, l1, l2⟩ := rest_of u.path k post s1
  have hbu : Bytes u.path :=
    unescape_bytes _ (pathOf s) _ (Nat.le_refl _) (bytes_sub (fun c hc => mem_takeWhile hc) hb) h1
  have hrest : Bytes (joinSlash post ++ trailing u.path) := by
    refine bytes_sub ?_ hbu
    intro c hc
    rw [l2]
    exact List.mem_append_right _ hc
  have hbt : Bytes (stripTrail t.path) := by
    refine bytes_sub ?_ (ht k t s2.2.1)
    intro c hc
    have := Router.append_trailing t.path
    rw [← this]
    exact List.mem_append_left _ hc
  have hbl : Bytes (stripLead (joinSlash post ++ trailing u.path)) := by
    refine bytes_sub ?_ hrest
    intro c hc
    rw [Router.stripLead_eq] at hc
    by_cases hh : (joinSlash post ++ trailing u.path).head? = some '/'
    · rw [if_pos hh] at hc; exact List.mem_of_mem_drop hc
    · rw [if_neg hh] at hc; exact hc
  have hbv : Bytes v.path := by
    rw [s5]
    intro c hc
    rcases List.mem_append.mp hc with hc | hc
    · exact hbt c hc
    · rcases List.mem_cons.mp hc with e | e
      · rw [e]; decide
      · exact hbl c e
  have hne : v.path ≠ [] := by rw [s5]; simp
  obtain ⟨q1, q2⟩ := pathOf_requestURI v hbv hne
  have hbk : Bytes (joinSlash k) := by
    refine bytes_sub ?_ hbu
    intro c hc
    rw [l2]
    exact List.mem_append_left _ (List.mem_append_left _ (List.mem_append_right _ hc))
  refine ⟨k, t, s2, s3, s4, lead, escape (joinSlash k), if k = [] ∨ post = [] then [] else ['/'],
    escape (joinSlash post ++ trailing u.path), escape (stripTrail t.path), l1,
    (spelled_iff _ _).mpr (unescape_escape _ hbk), ?_, ?_, (spelled_iff _ _).mpr (unescape_escape _ hbt), ?_⟩
  · by_cases hk : k = [] ∨ post = []
    · rw [if_pos hk]; left; rfl
    · rw [if_neg hk]; right; rfl
  · rw [hc]
    conv => lhs; rw [l2]
    rw [escape_append, escape_append, escape_append]
    have e1 : escape lead = lead := by rcases l1 with rfl | rfl <;> rfl
    have e2 : escape (if k = [] ∨ post = [] then [] else ['/']) = (if k = [] ∨ post = [] then [] else ['/']) := by
      by_cases hk : k = [] ∨ post = []
      · rw [if_pos hk]; rfl
      · rw [if_neg hk]; rfl
    rw [e1, e2]
  · have hstar : v.path ≠ ['*'] := by
      rw [s5]
      intro e
      have : '/' ∈ ['*'] := by rw [← e]; simp
      revert this
      decide
    have hesc : escapedPath v = escape v.path := by
      unfold escapedPath
      rw [s6, h4, if_pos hc, if_neg (fun hh => hh.1 rfl), if_neg hstar]
    rw [q1, hesc, s5, escape_append, escape_slash, escape_stripLead _ hrest]

end Verif.Forward

import Verif.Options.Spec
/-! Helper lemmas for the option properties. -/
set_option linter.unusedSimpArgs false
set_option linter.unusedVariables false
namespace Verif.Options
variable {V : Type}

theorem numberValidate_ok {lo hi x v : Json} (h : numberValidate lo hi x = .ok v) :
    v = x ∧ tooLow lo x = .ok false ∧ tooHigh hi x = .ok false := by
  unfold numberValidate at h
  cases h1 : tooLow lo x with
  | error e => rw [h1] at h; cases h
  | ok b =>
    cases b with
    | true => rw [h1] at h; cases h
    | false =>
      rw [h1] at h
      dsimp only at h
      cases h2 : tooHigh hi x with
      | error e => rw [h2] at h; cases h
      | ok b =>
        cases b with
        | true => rw [h2] at h; cases h
        | false =>
          rw [h2] at h
          cases h
          exact ⟨rfl, rfl, rfl⟩

theorem numberValidate_eq {lo hi x : Json} (h1 : tooLow lo x = .ok false)
    (h2 : tooHigh hi x = .ok false) : numberValidate lo hi x = .ok x := by
  unfold numberValidate; rw [h1]; dsimp only; rw [h2]

/-- What `Float.validate` checks against the bounds. -/
theorem floatValidate_ok {lo hi x v : Json} (h : floatValidate lo hi x = .ok v) :
    (∃ n, v = .num n ∧ ∀ i, n ≠ .int i) ∧ tooLow lo v = .ok false ∧ tooHigh hi v = .ok false := by
  unfold floatValidate at h
  split at h
  · obtain ⟨rfl, h1, h2⟩ := numberValidate_ok h
    exact ⟨⟨_, rfl, by simp⟩, h1, h2⟩
  · split at h
    · cases h
    · obtain ⟨rfl, h1, h2⟩ := numberValidate_ok h
      exact ⟨⟨_, rfl, by simp⟩, h1, h2⟩
  · rename_i n hn
    obtain ⟨rfl, h1, h2⟩ := numberValidate_ok h
    exact ⟨⟨_, rfl, hn⟩, h1, h2⟩
  · cases h

theorem floatValidate_float {lo hi : Json} {n : Num} (hn : ∀ i, n ≠ .int i) :
    floatValidate lo hi (.num n) = numberValidate lo hi (.num n) := by
  unfold floatValidate
  cases n <;> first | rfl | exact absurd rfl (hn _)

theorem integerValidate_ok {lo hi x v : Json} (h : integerValidate lo hi x = .ok v) :
    v = x ∧ ((∃ i, x = .num (.int i)) ∨ ∃ b, x = .bool b) ∧
      tooLow lo v = .ok false ∧ tooHigh hi v = .ok false := by
  unfold integerValidate at h
  split at h
  · obtain ⟨rfl, h1, h2⟩ := numberValidate_ok h
    exact ⟨rfl, Or.inr ⟨_, rfl⟩, h1, h2⟩
  · obtain ⟨rfl, h1, h2⟩ := numberValidate_ok h
    exact ⟨rfl, Or.inl ⟨_, rfl⟩, h1, h2⟩
  · cases h

theorem integerValidate_eq {lo hi x : Json}
    (hx : (∃ i, x = .num (.int i)) ∨ ∃ b, x = .bool b) :
    integerValidate lo hi x = numberValidate lo hi x := by
  rcases hx with ⟨i, rfl⟩ | ⟨b, rfl⟩ <;> rfl

/-- A validated value is validated to itself. -/
theorem validate_idem {k : Kind V} {x v : Json} (h : validate k x = .ok v) :
    validate k v = .ok v := by
  cases k with
  | string => simp only [validate] at h; split at h <;> cases h; rfl
  | bool => simp only [validate] at h; split at h <;> cases h; rfl
  | integer lo hi =>
    simp only [validate] at h ⊢
    obtain ⟨rfl, _, _, _⟩ := integerValidate_ok h
    exact h
  | float lo hi =>
    simp only [validate] at h ⊢
    obtain ⟨⟨n, rfl, hn⟩, h1, h2⟩ := floatValidate_ok h
    rw [floatValidate_float hn]
    exact numberValidate_eq h1 h2
  | select o =>
    simp only [validate] at h
    split at h
    · split at h <;> cases h
      rename_i hs; simp only [validate]; rw [if_pos hs]
    · cases h
  | mapping => simp only [validate] at h; split at h <;> cases h; rfl

/-! ### Order -/

theorem lt_false {a b : Num} (h : Num.lt b a = false) (ha : a ≠ .nan) (hb : b ≠ .nan) :
    a.Le b := by
  cases a <;> cases b <;> simp_all [Num.lt, Num.Le] <;> grind

theorem le_lt {a b : Num} (h : a.Le b) : Num.lt b a = false := by
  cases a <;> cases b <;> simp_all [Num.lt, Num.Le] <;> grind

theorem tooLow_false {lo v : Json} {n : Num} (hv : v.asNum = some n) (hn : n ≠ .nan)
    (hl : lo ≠ .num .nan) (h : tooLow lo v = .ok false) : AtLeast lo v := by
  refine ⟨n, hv, ?_⟩
  unfold tooLow at h
  by_cases e : lo = .null
  · exact Or.inl e
  · rw [if_neg e] at h
    unfold pyLt at h
    rw [hv] at h
    cases hm : lo.asNum with
    | none => rw [hm] at h; cases h
    | some m =>
      rw [hm] at h
      refine Or.inr ⟨m, rfl, lt_false (Except.ok.inj h) ?_ hn⟩
      rintro rfl
      cases lo <;> simp_all [Json.asNum]

theorem tooHigh_false {hi v : Json} {n : Num} (hv : v.asNum = some n) (hn : n ≠ .nan)
    (hl : hi ≠ .num .nan) (h : tooHigh hi v = .ok false) : AtMost hi v := by
  refine ⟨n, hv, ?_⟩
  unfold tooHigh at h
  by_cases e : hi = .null
  · exact Or.inl e
  · rw [if_neg e] at h
    unfold pyLt at h
    rw [hv] at h
    cases hm : hi.asNum with
    | none => rw [hm] at h; cases h
    | some m =>
      rw [hm] at h
      refine Or.inr ⟨m, rfl, lt_false (Except.ok.inj h) hn ?_⟩
      rintro rfl
      cases hi <;> simp_all [Json.asNum]

theorem atLeast_tooLow {lo v : Json} (h : AtLeast lo v) : tooLow lo v = .ok false := by
  obtain ⟨n, hv, h | ⟨m, hm, h⟩⟩ := h
  · unfold tooLow; rw [if_pos h]
  · unfold tooLow pyLt
    split
    · rfl
    · rw [hv, hm]; dsimp only; rw [le_lt h]

theorem atMost_tooHigh {hi v : Json} (h : AtMost hi v) : tooHigh hi v = .ok false := by
  obtain ⟨n, hv, h | ⟨m, hm, h⟩⟩ := h
  · unfold tooHigh; rw [if_pos h]
  · unfold tooHigh pyLt
    split
    · rfl
    · rw [hv, hm]; dsimp only; rw [le_lt h]

/-- A value that meets the declaration is accepted unchanged. -/
theorem validate_complete {k : Kind V} {v : Json} (h1 : HasType k v) (h2 : InBounds k v) :
    validate k v = .ok v := by
  cases k with
  | string => obtain ⟨s, rfl⟩ := h1; rfl
  | bool => obtain ⟨s, rfl⟩ := h1; rfl
  | integer lo hi =>
    simp only [validate]
    rw [integerValidate_eq (Or.inl h1)]
    exact numberValidate_eq (atLeast_tooLow h2.1) (atMost_tooHigh h2.2)
  | float lo hi =>
    obtain ⟨n, rfl, hn⟩ := h1
    simp only [validate]
    rw [floatValidate_float hn]
    exact numberValidate_eq (atLeast_tooLow h2.1) (atMost_tooHigh h2.2)
  | select o =>
    obtain ⟨s, rfl, hs⟩ := h1
    simp only [validate]
    exact if_pos hs
  | mapping => obtain ⟨s, rfl⟩ := h1; rfl

/-! ### Parsing -/

theorem parseFields_cons {r : List (Str × Json)} {f : Field V} {fs : List (Field V)}
    {l : List (Str × Json)} (h : parseFields r (f :: fs) = .ok l) :
    ∃ v l', l = (f.name, v) :: l' ∧
      validate f.kind ((lookup r f.name).getD f.default) = .ok v ∧
      parseFields r fs = .ok l' := by
  unfold parseFields at h
  cases h1 : validate f.kind ((lookup r f.name).getD f.default) with
  | error e => rw [h1] at h; cases h
  | ok v =>
    rw [h1] at h
    dsimp only at h
    cases h2 : parseFields r fs with
    | error e => rw [h2] at h; cases h
    | ok l' => rw [h2] at h; cases h; exact ⟨v, l', rfl, rfl, rfl⟩

theorem parseFields_keys {r : List (Str × Json)} {fs : List (Field V)} {l : List (Str × Json)}
    (h : parseFields r fs = .ok l) : Dict.keys l = fs.map Field.name := by
  induction fs generalizing l with
  | nil => unfold parseFields at h; cases h; rfl
  | cons f fs ih =>
    obtain ⟨v, l', rfl, _, h2⟩ := parseFields_cons h
    simp only [Dict.keys, List.map_cons]
    rw [← ih h2]; rfl

theorem parseFields_mem {r : List (Str × Json)} {fs : List (Field V)} {l : List (Str × Json)}
    (h : parseFields r fs = .ok l) {f : Field V} (hf : f ∈ fs) :
    ∃ v, (f.name, v) ∈ l ∧ validate f.kind ((lookup r f.name).getD f.default) = .ok v := by
  induction fs generalizing l with
  | nil => simp at hf
  | cons g fs ih =>
    obtain ⟨v, l', rfl, h1, h2⟩ := parseFields_cons h
    rcases List.mem_cons.1 hf with rfl | hf
    · exact ⟨v, by simp, h1⟩
    · obtain ⟨v', h3, h4⟩ := ih h2 hf
      exact ⟨v', by simp [h3], h4⟩

theorem parseFields_build {r : List (Str × Json)} {fs : List (Field V)}
    (g : Field V → Json) (h : ∀ f ∈ fs, validate f.kind ((lookup r f.name).getD f.default) =
      .ok (g f)) : parseFields r fs = .ok (fs.map (fun f => (f.name, g f))) := by
  induction fs with
  | nil => rfl
  | cons f fs ih =>
    unfold parseFields
    rw [h f (by simp)]
    dsimp only
    rw [ih (fun f' hf => h f' (by simp [hf]))]
    rfl

theorem parseOptions_ok {fs : List (Field V)} {req : Json} {out : List (Str × Json)}
    (h : parseOptions fs req = .ok out) :
    ∃ r l, req = .obj r ∧ (∀ k ∈ Dict.keys r, k ∈ fs.map Field.name) ∧
      parseFields r fs = .ok l ∧ out = Dict.ofList l := by
  unfold parseOptions at h
  split at h
  · rename_i r
    split at h
    · cases h
    · rename_i hk
      cases h1 : parseFields r fs with
      | error e => rw [h1] at h; cases h
      | ok l =>
        rw [h1] at h
        cases h
        refine ⟨r, l, rfl, ?_, h1, rfl⟩
        intro k hk'
        simp only [List.any_eq_true, decide_eq_true_eq, not_exists, not_and,
          Classical.not_not] at hk
        exact hk k hk'
  · cases h

theorem parseOptions_build {fs : List (Field V)} {r l : List (Str × Json)}
    (hk : ∀ k ∈ Dict.keys r, k ∈ fs.map Field.name) (h : parseFields r fs = .ok l) :
    parseOptions fs (.obj r) = .ok (Dict.ofList l) := by
  simp only [parseOptions]
  rw [if_neg, h]
  simp only [List.any_eq_true, decide_eq_true_eq, not_exists, not_and, Classical.not_not]
  exact hk

/-- The value of each field in the result. -/
theorem parseOptions_field {fs : List (Field V)} {r out : List (Str × Json)}
    (hd : Distinct fs) (h : parseOptions fs (.obj r) = .ok out) {f : Field V} (hf : f ∈ fs) :
    ∃ v, lookup out f.name = some v ∧
      validate f.kind ((lookup r f.name).getD f.default) = .ok v := by
  obtain ⟨r', l, e, _, h1, rfl⟩ := parseOptions_ok h
  cases e
  have hn : (Dict.keys l).Nodup := by rw [parseFields_keys h1]; exact hd
  obtain ⟨v, h2, h3⟩ := parseFields_mem h1 hf
  exact ⟨v, by rw [ofList_nodup hn]; exact lookup_of_mem hn h2, h3⟩

/-! ### Constructors -/

theorem mkField_ok {k : Kind V} {n : Str} {d : Json} {l t : Option Str} {f : Field V}
    (h : mkField k n d l t = .ok f) :
    f.kind = k ∧ f.name = n ∧ f.default = d ∧ ∃ v, validate k d = .ok v := by
  unfold mkField at h
  cases h1 : validate k d with
  | error e => rw [h1] at h; cases h
  | ok v => rw [h1] at h; cases h; exact ⟨rfl, rfl, rfl, v, rfl⟩

theorem mkBounds_ok {check : Json → Json → Json → Except Err Json} {lo hi lo' hi' : Json}
    (h : mkBounds check lo hi = .ok (lo', hi')) :
    (lo' = .null ∨ check .null .null lo = .ok lo') ∧
      (hi' = .null ∨ check lo' .null hi = .ok hi') := by
  unfold mkBounds at h
  split at h
  · cases h
  · rename_i l1 h1
    split at h
    · cases h
    · rename_i l2 h2
      cases h
      constructor
      · split at h1
        · cases h1; exact Or.inl rfl
        · exact Or.inr h1
      · split at h2
        · cases h2; exact Or.inl rfl
        · exact Or.inr h2

theorem selectMap_ne {o : List (Json × V)} {e : Str × V} {l : List (Str × V)} (t : Nat)
    (_h : selectMap o = .ok (e :: l)) : Dict.ofList (e :: l) ≠ [] := by
  intro h
  have := (mem_keys_ofList (l := e :: l) (k := e.1)).2 (by simp [Dict.keys])
  rw [h] at this
  simp [Dict.keys] at this

/-- The bounds of a made field are normalised, and the choices of a `Select` are not empty. -/
def KindMade : Kind V → Prop
  | .integer lo hi => (lo = .null ∨ integerValidate .null .null lo = .ok lo) ∧
      (hi = .null ∨ integerValidate lo .null hi = .ok hi)
  | .float lo hi => (lo = .null ∨ floatValidate .null .null lo = .ok lo) ∧
      (hi = .null ∨ floatValidate lo .null hi = .ok hi)
  | .select o => o ≠ []
  | _ => True

theorem made_ok {f : Field V} (h : Made f) :
    (∃ v, validate f.kind f.default = .ok v) ∧ KindMade f.kind := by
  cases h with
  | string h =>
    obtain ⟨e1, _, e2, hv⟩ := mkField_ok h
    rw [e1, e2]; exact ⟨hv, trivial⟩
  | bool h =>
    obtain ⟨e1, _, e2, hv⟩ := mkField_ok h
    rw [e1, e2]; exact ⟨hv, trivial⟩
  | integer h =>
    unfold mkInteger at h
    split at h
    · cases h
    · rename_i lo hi hb
      obtain ⟨e1, _, e2, hv⟩ := mkField_ok h
      rw [e1, e2]; refine ⟨hv, ?_⟩
      obtain ⟨h1, h2⟩ := mkBounds_ok hb
      exact ⟨h1.imp id (validate_idem (k := (.integer .null .null : Kind V))),
        h2.imp id (validate_idem (k := (.integer lo .null : Kind V)))⟩
  | float h =>
    unfold mkFloat at h
    split at h
    · cases h
    · rename_i lo hi hb
      obtain ⟨e1, _, e2, hv⟩ := mkField_ok h
      rw [e1, e2]; refine ⟨hv, ?_⟩
      obtain ⟨h1, h2⟩ := mkBounds_ok hb
      exact ⟨h1.imp id (validate_idem (k := (.float .null .null : Kind V))),
        h2.imp id (validate_idem (k := (.float lo .null : Kind V)))⟩
  | select h =>
    unfold mkSelect at h
    split at h
    · cases h
    · cases h
    · rename_i e l hs
      obtain ⟨e1, _, e2, hv⟩ := mkField_ok h
      rw [e1, e2]; exact ⟨hv, selectMap_ne 0 hs⟩
  | mapping h =>
    obtain ⟨e1, _, e2, hv⟩ := mkField_ok h
    rw [e1, e2]; exact ⟨hv, trivial⟩

/-! ### The client -/

/-- The client's copy of a server-side kind. -/
def ckind : Kind V → CKind
  | .string => .string
  | .bool => .bool
  | .integer lo hi => .integer lo hi
  | .float lo hi => .float lo hi
  | .select o => .select (Dict.keys o)
  | .mapping => .mapping

theorem cNumber_eq (lo hi x : Json) : cNumberValidate lo hi x = numberValidate lo hi x := rfl

theorem cInteger_eq (lo hi x : Json) : cIntegerValidate lo hi x = integerValidate lo hi x := by
  unfold cIntegerValidate integerValidate
  cases x <;> first | rfl | skip
  rename_i n
  cases n <;> rfl

theorem cFloat_eq (lo hi x : Json) : cFloatValidate lo hi x = floatValidate lo hi x := by
  unfold cFloatValidate floatValidate
  cases x <;> first | rfl | skip
  rename_i n
  cases n <;> rfl

theorem cvalidate_eq (k : Kind V) (x : Json) : cvalidate (ckind k) x = validate k x := by
  cases k with
  | string => cases x <;> rfl
  | bool => cases x <;> rfl
  | integer lo hi => exact cInteger_eq lo hi x
  | float lo hi => exact cFloat_eq lo hi x
  | select o => cases x <;> rfl
  | mapping => cases x <;> rfl

theorem cBounds_ok {check : Json → Json → Json → Except Err Json} {lo hi : Json}
    (h1 : lo = .null ∨ check .null .null lo = .ok lo)
    (h2 : hi = .null ∨ check lo .null hi = .ok hi) : cBounds check lo hi = .ok (lo, hi) := by
  unfold cBounds
  have e1 : (if lo = .null then .ok .null else check .null .null lo) =
      (.ok lo : Except Err Json) := by
    split
    · rename_i e; rw [e]
    · rename_i e; exact h1.resolve_left e
  have e2 : (if hi = .null then .ok .null else check lo .null hi) =
      (.ok hi : Except Err Json) := by
    split
    · rename_i e; rw [e]
    · rename_i e; exact h2.resolve_left e
  rw [e1]; dsimp only; rw [e2]

theorem strings_map (l : List Str) : strings (l.map .str) = .ok l := by
  induction l with
  | nil => rfl
  | cons a l ih => simp only [List.map_cons, strings]; rw [ih]

theorem mkCField_ok {k : Kind V} {d v : Json} (h : validate k d = .ok v) :
    mkCField (ckind k) d = .ok { kind := ckind k, value := v } := by
  unfold mkCField; rw [cvalidate_eq, h]

theorem callType_eq {k : Kind V} {d v : Json} (hk : KindMade k) (hv : validate k d = .ok v)
    {t : List (Str × Json)} (ht : typeSpec k = .obj t) :
    ∃ typ, lookup t kType = some (.str typ) ∧
      callType typ (t.filter (fun e => decide (e.1 ≠ kType))) d =
        .ok { kind := ckind k, value := v } := by
  have hm := mkCField_ok hv
  cases k with
  | string => cases ht; exact ⟨_, rfl, hm⟩
  | bool => cases ht; exact ⟨_, rfl, hm⟩
  | integer lo hi =>
    cases ht
    refine ⟨_, rfl, ?_⟩
    have hb := cBounds_ok (check := cIntegerValidate) (lo := lo) (hi := hi)
      (by rw [cInteger_eq]; exact hk.1) (by rw [cInteger_eq]; exact hk.2)
    have e : callType "int".toList
        (List.filter (fun e => decide (e.1 ≠ kType))
          [(kType, Json.str "int".toList), (kMin, lo), (kMax, hi)]) d =
        (match cBounds cIntegerValidate lo hi with
        | .error e => .error e
        | .ok (lo, hi) => mkCField (.integer lo hi) d) := rfl
    rw [e, hb]
    exact hm
  | float lo hi =>
    cases ht
    refine ⟨_, rfl, ?_⟩
    have hb := cBounds_ok (check := cFloatValidate) (lo := lo) (hi := hi)
      (by rw [cFloat_eq]; exact hk.1) (by rw [cFloat_eq]; exact hk.2)
    have e : callType "float".toList
        (List.filter (fun e => decide (e.1 ≠ kType))
          [(kType, Json.str "float".toList), (kMin, lo), (kMax, hi)]) d =
        (match cBounds cFloatValidate lo hi with
        | .error e => .error e
        | .ok (lo, hi) => mkCField (.float lo hi) d) := rfl
    rw [e, hb]
    exact hm
  | select o =>
    cases ht
    refine ⟨_, rfl, ?_⟩
    cases o with
    | nil => exact absurd rfl hk
    | cons a o =>
      have e : callType "select".toList
          (List.filter (fun e => decide (e.1 ≠ kType))
            [(kType, Json.str "select".toList), (kOptions, .arr ((Dict.keys (a :: o)).map .str))]) d =
          (match strings ((Dict.keys (a :: o)).map .str) with
          | .error e => .error e
          | .ok options => mkCField (.select options) d) := rfl
      rw [e, strings_map]
      exact hm
  | mapping => cases ht; exact ⟨_, rfl, hm⟩

theorem fieldFromSpec_eq {f : Field V} {v : Json} (hk : KindMade f.kind)
    (hv : validate f.kind f.default = .ok v) :
    fieldFromSpec (jsonSpec f) = .ok (f.name, { kind := ckind f.kind, value := v }) := by
  obtain ⟨t, ht⟩ : ∃ t, typeSpec f.kind = .obj t := by
    cases f.kind <;> exact ⟨_, rfl⟩
  obtain ⟨typ, h1, h2⟩ := callType_eq hk hv ht
  have e : fieldFromSpec (jsonSpec f) =
      (match typeSpec f.kind with
      | .obj t =>
        match lookup t kType with
        | some (.str typ) =>
          match callType typ (t.filter (fun e => decide (e.1 ≠ kType))) f.default with
          | .error e => .error e
          | .ok g => .ok (f.name, g)
        | _ => .error .key
      | _ => .error .key) := by
    unfold jsonSpec
    rw [ht]
    rfl
  rw [e, ht]
  dsimp only
  rw [h1]
  dsimp only
  rw [h2]

/-- A made field. -/
theorem fieldFromSpec_made {f : Field V} (h : Made f) :
    ∃ v, validate f.kind f.default = .ok v ∧
      fieldFromSpec (jsonSpec f) = .ok (f.name, { kind := ckind f.kind, value := v }) := by
  obtain ⟨⟨v, hv⟩, hk⟩ := made_ok h
  exact ⟨v, hv, fieldFromSpec_eq hk hv⟩

theorem fieldsFromSpec_made {fs : List (Field V)} (h : ∀ f ∈ fs, Made f) :
    ∃ l, parseFields [] fs = .ok l ∧ fieldsFromSpec (fs.map jsonSpec) =
      .ok (List.zipWith (fun (f : Field V) e => (f.name, { kind := ckind f.kind, value := e.2 }))
        fs l) := by
  induction fs with
  | nil => exact ⟨[], rfl, rfl⟩
  | cons f fs ih =>
    obtain ⟨l, h1, h2⟩ := ih (fun g hg => h g (by simp [hg]))
    obtain ⟨v, h3, h4⟩ := fieldFromSpec_made (h f (by simp))
    refine ⟨(f.name, v) :: l, ?_, ?_⟩
    · unfold parseFields
      rw [lookup_nil]
      dsimp only [Option.getD]
      rw [h3]; dsimp only; rw [h1]
    · simp only [List.map_cons, fieldsFromSpec]
      rw [h4]; dsimp only; rw [h2]
      rfl

end Verif.Options

import Verif.Options.Lemmas
/-! Properties C41-C43 and C67: cluster options. -/
namespace Verif.Options
variable {V : Type}

/-! ### C41 -/

/-- C41 in full, for types: every value of the result has the declared type. -/
def C41_types_full : Prop := ∀ (fields : List (Field Unit)) (req : Json) (out : List (Str × Json)),
  (∀ f ∈ fields, Made f) → Distinct fields → parseOptions fields req = .ok out →
  ∀ f ∈ fields, ∃ v, lookup out f.name = some v ∧ HasType f.kind v

/-- C41 in full, for bounds: every value of the result is within the declared bounds. -/
def C41_bounds_full : Prop := ∀ (fields : List (Field Unit)) (req : Json)
    (out : List (Str × Json)), (∀ f ∈ fields, Made f) → (∀ f ∈ fields, BoundsProper f.kind) →
  Distinct fields → parseOptions fields req = .ok out →
  ∀ f ∈ fields, ∃ v, lookup out f.name = some v ∧ InBounds f.kind v

def coresField : Field Unit :=
  { name := "cores".toList, kind := .integer (.num (.int 1)) (.num (.int 4)),
    default := .num (.int 1), target := "worker_cores".toList, label := "cores".toList }
def memField : Field Unit :=
  { name := "mem".toList, kind := .float (.num (.fin 1)) (.num (.fin 8)),
    default := .num (.int 2), target := "mem".toList, label := "Memory".toList }
private def imageField : Field Unit :=
  { name := "image".toList, kind := .select [("a".toList, ()), ("b".toList, ())],
    default := .str "a".toList, target := "image".toList, label := "image".toList }

private def dupInt : Field Unit := { coresField with kind := .integer .null .null }
private def dupFloat : Field Unit := { coresField with kind := .float .null .null }

theorem cores_made : Made coresField :=
  .integer (n := "cores".toList) (d := .num (.int 1)) (lo := .num (.int 1)) (hi := .num (.int 4))
    (l := none) (t := some "worker_cores".toList) (by decide +kernel)

private theorem dupInt_made : Made dupInt :=
  .integer (n := "cores".toList) (d := .num (.int 1)) (lo := .null) (hi := .null)
    (l := none) (t := some "worker_cores".toList) (by decide +kernel)

private theorem dupFloat_made : Made dupFloat :=
  .float (n := "cores".toList) (d := .num (.int 1)) (lo := .null) (hi := .null)
    (l := none) (t := some "worker_cores".toList) (by decide +kernel)

theorem mem_made : Made memField :=
  .float (n := "mem".toList) (d := .num (.int 2)) (lo := .num (.int 1)) (hi := .num (.int 8))
    (l := some "Memory".toList) (t := none) (by decide +kernel)

private theorem image_made : Made imageField :=
  .select (n := "image".toList) (o := [(.str "a".toList, ()), (.str "b".toList, ())]) (d := .null)
    (l := none) (t := none) (by decide +kernel)

/-- C41 is false of the code for types: `true` is accepted for an integer field. -/
theorem C41_types_violated : ¬ C41_types_full := by
  intro h
  obtain ⟨v, h1, i, rfl⟩ := h [coresField] (.obj [("cores".toList, .bool true)])
    [("cores".toList, .bool true)] (by simp [cores_made]) (by simp [Distinct])
    (by decide +kernel) coresField (by simp)
  have : lookup [("cores".toList, Json.bool true)] coresField.name = some (.bool true) := by
    decide +kernel
  rw [this] at h1
  cases h1

/-- C41 is false of the code for bounds: NaN is accepted for any float field. -/
theorem C41_bounds_violated : ¬ C41_bounds_full := by
  intro h
  obtain ⟨v, h1, h2⟩ := h [memField] (.obj [("mem".toList, .num .nan)])
    [("mem".toList, .num .nan)] (by simp [mem_made])
    (by simp [BoundsProper, memField]) (by simp [Distinct])
    (by decide +kernel) memField (by simp)
  have : lookup [("mem".toList, Json.num .nan)] memField.name = some (.num .nan) := by
    decide +kernel
  rw [this] at h1
  cases h1
  obtain ⟨⟨n, hn, h3⟩, _⟩ := h2
  cases hn
  rcases h3 with h3 | ⟨m, _, h3⟩
  · simp at h3
  · cases m <;> simp [Num.Le] at h3

/-- C41, the part that holds: every value of the result has the declared type, or is a boolean given
for an integer; and is within the declared bounds, or is NaN. Missing: the booleans and NaN that the
code accepts. -/
theorem C41_accepted_partial (fields : List (Field V)) (req : Json) (out : List (Str × Json))
    (hd : Distinct fields) (h : parseOptions fields req = .ok out) (f : Field V)
    (hf : f ∈ fields) :
    ∃ v, lookup out f.name = some v ∧
      (HasType f.kind v ∨ ∃ lo hi b, f.kind = .integer lo hi ∧ v = .bool b) ∧
      (BoundsProper f.kind → InBounds f.kind v ∨ v = .num .nan) := by
  obtain ⟨r, _, rfl, _⟩ := parseOptions_ok h
  obtain ⟨v, h1, h2⟩ := parseOptions_field hd h hf
  refine ⟨v, h1, ?_⟩
  clear h1
  generalize hk : f.kind = k at *
  cases k with
  | string => simp only [validate] at h2; split at h2 <;> cases h2; simp [HasType, InBounds]
  | bool => simp only [validate] at h2; split at h2 <;> cases h2; simp [HasType, InBounds]
  | integer lo hi =>
    obtain ⟨rfl, hx, h3, h4⟩ := integerValidate_ok h2
    refine ⟨hx.imp id (fun ⟨b, hb⟩ => ⟨lo, hi, b, rfl, hb⟩), fun hp => Or.inl ?_⟩
    rcases hx with ⟨i, e⟩ | ⟨b, e⟩ <;> rw [e] at h3 h4 ⊢
    · exact ⟨tooLow_false rfl (by simp) hp.1 h3, tooHigh_false rfl (by simp) hp.2 h4⟩
    · exact ⟨tooLow_false rfl (by simp) hp.1 h3, tooHigh_false rfl (by simp) hp.2 h4⟩
  | float lo hi =>
    obtain ⟨⟨n, rfl, hn⟩, h3, h4⟩ := floatValidate_ok h2
    refine ⟨Or.inl ⟨n, rfl, hn⟩, fun hp => ?_⟩
    by_cases e : n = .nan
    · exact Or.inr (by rw [e])
    · exact Or.inl ⟨tooLow_false rfl e hp.1 h3, tooHigh_false rfl e hp.2 h4⟩
  | select o =>
    simp only [validate] at h2
    split at h2
    · split at h2
      · rename_i hs
        cases h2
        exact ⟨Or.inl ⟨_, rfl, hs⟩, fun _ => Or.inl trivial⟩
      · cases h2
    · cases h2
  | mapping => simp only [validate] at h2; split at h2 <;> cases h2; simp [HasType, InBounds]

/-- C41: the result has exactly the declared fields, each once. -/
theorem C41_exact_fields (fields : List (Field V)) (req : Json) (out : List (Str × Json))
    (h : parseOptions fields req = .ok out) :
    (∀ n, (lookup out n).isSome ↔ n ∈ fields.map Field.name) ∧ (out.map (·.1)).Nodup := by
  obtain ⟨r, l, rfl, _, h1, rfl⟩ := parseOptions_ok h
  refine ⟨fun n => ?_, nodup_ofList l⟩
  rw [lookup_isSome, mem_keys_ofList, parseFields_keys h1]

/-- C41: a request with an unknown field, or that is not an object, is rejected. -/
theorem C41_unknown_rejected (fields : List (Field V)) (req : Json)
    (h : (∀ r, req ≠ .obj r) ∨
      ∃ r k, req = .obj r ∧ (lookup r k).isSome ∧ k ∉ fields.map Field.name) :
    ∃ e, parseOptions fields req = .error e := by
  cases hp : parseOptions fields req with
  | error e => exact ⟨e, rfl⟩
  | ok out =>
    obtain ⟨r, l, rfl, hk, _⟩ := parseOptions_ok hp
    rcases h with h | ⟨r', k, e, h1, h2⟩
    · exact absurd rfl (h r)
    · cases e
      exact absurd (hk k (lookup_isSome.1 h1)) h2

/-- C41: an absent field has its default, which is valid: the value is the one a request that gives
the default gets. -/
theorem C41_defaults (fields : List (Field V)) (hd : Distinct fields)
    (r : List (Str × Json)) (out : List (Str × Json)) (h : parseOptions fields (.obj r) = .ok out)
    (f : Field V) (hf : f ∈ fields) (ha : lookup r f.name = none) :
    ∃ v, lookup out f.name = some v ∧ validate f.kind f.default = .ok v ∧
      (v = f.default ∨ ∃ lo hi, f.kind = .float lo hi) := by
  obtain ⟨v, h1, h2⟩ := parseOptions_field hd h hf
  rw [ha] at h2
  refine ⟨v, h1, h2, ?_⟩
  dsimp only [Option.getD] at h2
  generalize f.default = d at *
  generalize f.kind = k at *
  cases k with
  | string => simp only [validate] at h2; split at h2 <;> cases h2; exact Or.inl rfl
  | bool => simp only [validate] at h2; split at h2 <;> cases h2; exact Or.inl rfl
  | integer lo hi => exact Or.inl (integerValidate_ok h2).1
  | float lo hi => exact Or.inr ⟨lo, hi, rfl⟩
  | select o =>
    simp only [validate] at h2
    split at h2
    · split at h2 <;> cases h2; exact Or.inl rfl
    · cases h2
  | mapping => simp only [validate] at h2; split at h2 <;> cases h2; exact Or.inl rfl

/-- C41: a request is accepted, with the values it gives, if it is an object whose fields are all
declared and whose values all have the declared type and are within the declared bounds. -/
theorem C41_accepts (fields : List (Field V)) (hm : ∀ f ∈ fields, Made f) (hd : Distinct fields)
    (r : List (Str × Json)) (hk : ∀ k, (lookup r k).isSome → k ∈ fields.map Field.name)
    (hv : ∀ f ∈ fields, ∀ v, lookup r f.name = some v → HasType f.kind v ∧ InBounds f.kind v) :
    ∃ out, parseOptions fields (.obj r) = .ok out ∧
      ∀ f ∈ fields, ∀ v, lookup r f.name = some v → lookup out f.name = some v := by
  have key : ∀ f ∈ fields, ∃ w, validate f.kind ((lookup r f.name).getD f.default) = .ok w := by
    intro f hf
    cases h : lookup r f.name with
    | none => exact (made_ok (hm f hf)).1
    | some v => exact ⟨v, validate_complete (hv f hf v h).1 (hv f hf v h).2⟩
  obtain ⟨l, hl⟩ : ∃ l, parseFields r fields = .ok l := by
    clear hd hk hv hm
    induction fields with
    | nil => exact ⟨[], rfl⟩
    | cons f fs ih =>
      obtain ⟨w, hw⟩ := key f (by simp)
      obtain ⟨l, hl⟩ := ih (fun g hg => key g (by simp [hg]))
      refine ⟨(f.name, w) :: l, ?_⟩
      unfold parseFields
      rw [hw]; dsimp only; rw [hl]
  have hp := parseOptions_build (fun k hk' => hk k (lookup_isSome.2 hk')) hl
  refine ⟨_, hp, ?_⟩
  intro f hf v h
  obtain ⟨w, h1, h2⟩ := parseOptions_field hd hp hf
  rw [h] at h2
  rw [Option.getD_some, validate_complete (hv f hf v h).1 (hv f hf v h).2] at h2
  cases h2
  exact h1

/-- A declaration of three fields and a request for two of them. -/
example : parseOptions [coresField, memField, imageField]
    (.obj [("image".toList, .str "b".toList), ("mem".toList, .num (.int 8))]) =
    .ok [("cores".toList, .num (.int 1)), ("mem".toList, .num (.fin 8)),
      ("image".toList, .str "b".toList)] := by decide +kernel

example : (∀ f ∈ [coresField, memField, imageField], Made f) ∧
    Distinct [coresField, memField, imageField] :=
  ⟨by simp [cores_made, mem_made, image_made], by unfold Distinct; decide⟩

/-- Out of bounds, of the wrong type, not a choice, unknown, not an object. -/
example : parseOptions [coresField, memField, imageField] (.obj [("cores".toList, .num (.int 5))]) =
      .error .value ∧
    parseOptions [coresField, memField, imageField] (.obj [("mem".toList, .num (.fin (1 / 2)))]) =
      .error .value ∧
    parseOptions [coresField] (.obj [("cores".toList, .num (.fin 2))]) = .error .type ∧
    parseOptions [imageField] (.obj [("image".toList, .str "c".toList)]) = .error .value ∧
    parseOptions [imageField] (.obj [("imag".toList, .str "a".toList)]) = .error .value ∧
    parseOptions [imageField] (.arr []) = .error .type :=
  ⟨by decide +kernel, by decide +kernel, by decide +kernel, by decide +kernel, by decide +kernel,
    by decide +kernel⟩

/-- C41: a mapping declared without a default has the empty mapping as its default. -/
theorem C41_mapping_default (name : Str) (label target : Option Str) :
    ∃ f : Field V, mkMapping name .null label target = .ok f ∧ f.name = name ∧ f.kind = .mapping ∧
      f.default = .obj [] := by
  exact ⟨_, rfl, rfl, rfl, rfl⟩

/-! ### C42 -/

/-- An association list is determined by its keys and the value of each. -/
private theorem eq_of_keys {β : Type} {d : List (Str × β)} {ks : List Str} (h : Dict.keys d = ks)
    (g : Str → β) (hg : ∀ k v, (k, v) ∈ d → g k = v) : ks.map (fun k => (k, g k)) = d := by
  subst h
  induction d with
  | nil => rfl
  | cons e d ih =>
    simp only [Dict.keys, List.map_cons] at ih ⊢
    rw [ih (fun k v hv => hg k v (by simp [hv])), hg e.1 e.2 (by simp)]

/-- A dictionary of validated values for the declared fields is parsed to itself. -/
private theorem parse_fixed {fields : List (Field V)} (hd : Distinct fields)
    {d : List (Str × Json)} (hk : Dict.keys d = fields.map Field.name)
    (hv : ∀ f ∈ fields, ∀ v, lookup d f.name = some v → validate f.kind v = .ok v) :
    parseOptions fields (.obj d) = .ok d := by
  have hn : (Dict.keys d).Nodup := by rw [hk]; exact hd
  have h1 : parseFields d fields =
      .ok (fields.map (fun f => (f.name, (lookup d f.name).getD .null))) := by
    apply parseFields_build
    intro f hf
    have : (lookup d f.name).isSome := by
      rw [lookup_isSome, hk]; exact List.mem_map.2 ⟨f, hf, rfl⟩
    cases h : lookup d f.name with
    | none => rw [h] at this; cases this
    | some v => exact hv f hf v h
  have h2 : fields.map (fun f => (f.name, (lookup d f.name).getD .null)) = d := by
    have := eq_of_keys hk (fun k => (lookup d k).getD .null)
      (fun k v h => by rw [lookup_of_mem hn h]; rfl)
    rw [List.map_map] at this
    exact this
  rw [parseOptions_build (by rw [hk]; exact fun _ h => h) h1, h2, ofList_nodup hn]

/-- C42 in full: for every declaration the constructors allow. -/
def C42_full : Prop := ∀ (fields : List (Field Unit)) (req : Json) (out : List (Str × Json)),
  (∀ f ∈ fields, Made f) → parseOptions fields req = .ok out →
  parseOptions fields (.obj out) = .ok out

/-- C42 is false of the code if two fields of different types have one name (which nothing
forbids). -/
theorem C42_duplicates_violated : ¬ C42_full := by
  intro h
  have := h [dupInt, dupFloat] (.obj []) [("cores".toList, .num (.fin 1))]
    (by
      intro f hf
      simp only [List.mem_cons, List.not_mem_nil, or_false] at hf
      rcases hf with rfl | rfl
      · exact dupInt_made
      · exact dupFloat_made) (by decide +kernel)
  have h2 : parseOptions [dupInt, dupFloat] (.obj [("cores".toList, .num (.fin 1))]) =
      .error .type := by decide +kernel
  rw [h2] at this
  cases this

/-- C42: parsing the output of parsing returns it unchanged, for fields with different names.
Missing: declarations in which two fields have one name. -/
theorem C42_idempotent_partial (fields : List (Field V)) (hd : Distinct fields) (req : Json)
    (out : List (Str × Json)) (h : parseOptions fields req = .ok out) :
    parseOptions fields (.obj out) = .ok out := by
  obtain ⟨r, l, rfl, _, h1, h2⟩ := parseOptions_ok h
  have hn : (Dict.keys l).Nodup := by rw [parseFields_keys h1]; exact hd
  apply parse_fixed hd
  · rw [h2, ofList_nodup hn, parseFields_keys h1]
  · intro f hf v hv
    obtain ⟨w, h3, h4⟩ := parseOptions_field hd h hf
    rw [hv] at h3
    cases h3
    exact validate_idem h4

example : parseOptions [coresField, memField]
    (.obj [("cores".toList, .num (.int 1)), ("mem".toList, .num (.fin 2))]) =
    .ok [("cores".toList, .num (.int 1)), ("mem".toList, .num (.fin 2))] := by decide +kernel

/-! ### C43 -/

/-- C43: the client's copy of a field exists, and accepts exactly the values the server accepts, with
the same normalised value; which the server accepts unchanged. -/
theorem C43_values_agree (f : Field V) (hm : Made f) :
    ∃ c, fieldFromSpec (jsonSpec f) = .ok (f.name, c) ∧
      (∀ x v, cvalidate c.kind x = .ok v ↔ validate f.kind x = .ok v) ∧
      (∀ x v, cvalidate c.kind x = .ok v → validate f.kind v = .ok v) ∧
      validate f.kind f.default = .ok c.value := by
  obtain ⟨v, h1, h2⟩ := fieldFromSpec_made hm
  refine ⟨_, h2, fun x v => by rw [cvalidate_eq], fun x v h => ?_, h1⟩
  rw [cvalidate_eq] at h
  exact validate_idem h

/-- Client options in step with a declaration. -/
private structure Synced (fields : List (Field V)) (o : List (Str × CField)) : Prop where
  keys : Dict.keys o = fields.map Field.name
  vals : ∀ f ∈ fields, ∀ c, lookup o f.name = some c →
    c.kind = ckind f.kind ∧ validate f.kind c.value = .ok c.value

private theorem lookup_asDict (o : List (Str × CField)) (k : Str) :
    lookup (asDict o) k = (lookup o k).map (·.value) := by
  induction o with
  | nil => rfl
  | cons e o ih =>
    simp only [asDict, List.map_cons, lookup_cons] at ih ⊢
    by_cases h : e.1 = k
    · simp [h]
    · simp only [if_neg h]; exact ih

private theorem keys_asDict (o : List (Str × CField)) : Dict.keys (asDict o) = Dict.keys o := by
  simp [Dict.keys, asDict]

private theorem synced_fromSpec {fields : List (Field V)} (hm : ∀ f ∈ fields, Made f)
    (hd : Distinct fields) :
    ∃ o, fromSpec (fields.map jsonSpec) = .ok o ∧ Synced fields o := by
  have key : ∃ o, fieldsFromSpec (fields.map jsonSpec) = .ok o ∧
      Dict.keys o = fields.map Field.name ∧
      ∀ f ∈ fields, ∃ c, (f.name, c) ∈ o ∧ c.kind = ckind f.kind ∧
        validate f.kind c.value = .ok c.value := by
    clear hd
    induction fields with
    | nil => exact ⟨[], rfl, rfl, by simp⟩
    | cons f fs ih =>
      obtain ⟨o, h1, h2, h3⟩ := ih (fun g hg => hm g (by simp [hg]))
      obtain ⟨v, h4, h5⟩ := fieldFromSpec_made (hm f (by simp))
      refine ⟨(f.name, { kind := ckind f.kind, value := v }) :: o, ?_, ?_, ?_⟩
      · simp only [List.map_cons, fieldsFromSpec]
        rw [h5]; dsimp only; rw [h1]
      · simp only [Dict.keys, List.map_cons] at h2 ⊢
        rw [h2]
      · intro g hg
        rcases List.mem_cons.1 hg with rfl | hg
        · exact ⟨{ kind := ckind g.kind, value := v }, by simp, rfl, validate_idem h4⟩
        · obtain ⟨c, h6, h7⟩ := h3 g hg
          exact ⟨c, by simp [h6], h7⟩
  obtain ⟨o, h1, h2, h3⟩ := key
  have hn : (Dict.keys o).Nodup := by rw [h2]; exact hd
  refine ⟨o, ?_, h2, ?_⟩
  · unfold fromSpec; rw [h1]; dsimp only; rw [ofList_nodup hn]
  · intro f hf c hc
    obtain ⟨c', h4, h5⟩ := h3 f hf
    rw [lookup_of_mem hn h4] at hc
    cases hc
    exact h5

private theorem synced_assign {fields : List (Field V)} {o : List (Str × CField)}
    (h : Synced fields o) (a : Str × Json) : Synced fields (assign o a) := by
  unfold assign setOption
  cases hl : lookup o a.1 with
  | none => exact h
  | some c =>
    dsimp only
    cases hv : cvalidate c.kind a.2 with
    | error e => exact h
    | ok v =>
      dsimp only
      have hmem : a.1 ∈ Dict.keys o := lookup_isSome.1 (by rw [hl]; rfl)
      refine ⟨?_, ?_⟩
      · rw [keys_set, if_pos hmem]; exact h.keys
      · intro f hf c' hc'
        rw [lookup_set] at hc'
        split at hc'
        · rename_i e
          cases hc'
          rw [e] at hl
          obtain ⟨h1, _⟩ := h.vals f hf c hl
          refine ⟨h1, ?_⟩
          rw [h1, cvalidate_eq] at hv
          exact validate_idem hv
        · exact h.vals f hf c' hc'

private theorem synced_assigns {fields : List (Field V)} {o : List (Str × CField)}
    (h : Synced fields o) (as : List (Str × Json)) : Synced fields (as.foldl assign o) := by
  induction as generalizing o with
  | nil => exact h
  | cons a as ih => exact ih (synced_assign h a)

/-- C43 in full, for whole requests: for every declaration the constructors allow, what the client
submits is accepted by the server unchanged. -/
def C43_full : Prop := ∀ (fields : List (Field Unit)), (∀ f ∈ fields, Made f) →
  ∃ o, fromSpec (fields.map jsonSpec) = .ok o ∧ ∀ as : List (Str × Json),
    parseOptions fields (submitted (as.foldl assign o) []) = .ok (asDict (as.foldl assign o))

/-- C43 is false of the code if two fields have one name: the client keeps the last one only, and
accepts values that the server rejects because of the other. -/
theorem C43_duplicates_violated : ¬ C43_full := by
  intro h
  obtain ⟨o, h1, h2⟩ := h [coresField, dupInt]
    (by
      intro f hf
      simp only [List.mem_cons, List.not_mem_nil, or_false] at hf
      rcases hf with rfl | rfl
      · exact cores_made
      · exact dupInt_made)
  have h3 := h2 [("cores".toList, .num (.int 9))]
  cases h1
  have h4 : parseOptions [coresField, dupInt]
      (.obj [("cores".toList, .num (.int 9))]) = .error .value := by decide +kernel
  exact absurd (h4.symm.trans h3) (by simp)

/-- C43 for whole requests: the options object the client builds from the server's declaration, after
any assignments (the refused ones leave it as it was), is submitted as a request the server accepts,
with exactly the values the client shows. Missing: declarations in which two fields have one
name. -/
theorem C43_submitted_partial (fields : List (Field V)) (hm : ∀ f ∈ fields, Made f)
    (hd : Distinct fields) :
    ∃ o, fromSpec (fields.map jsonSpec) = .ok o ∧ ∀ as : List (Str × Json),
      parseOptions fields (submitted (as.foldl assign o) []) =
        .ok (asDict (as.foldl assign o)) := by
  obtain ⟨o, h1, h2⟩ := synced_fromSpec hm hd
  refine ⟨o, h1, fun as => ?_⟩
  have hs := synced_assigns h2 as
  generalize as.foldl assign o = o' at hs
  apply parse_fixed hd
  · rw [update_nil, keys_asDict]; exact hs.keys
  · intro f hf v hv
    rw [update_nil, lookup_asDict] at hv
    cases hc : lookup o' f.name with
    | none => rw [hc] at hv; cases hv
    | some c => rw [hc] at hv; cases hv; exact (hs.vals f hf c hc).2

/-- The names of the types in the format of the gateway's API. -/
def wireType : Kind V → String
  | .string => "string"
  | .bool => "bool"
  | .integer _ _ => "int"
  | .float _ _ => "float"
  | .select _ => "select"
  | .mapping => "mapping"

/-- C43, the format on the wire, which clients of other versions read too: four keys for a field, and for its type the
name, the bounds of numbers and the choices of a selection. With `C43_submitted_partial` this fixes what the client
reads. -/
theorem C43_format (f : Field V) : ∃ d t, jsonSpec f = .obj d ∧ d.map Prod.fst = ["field".toList, "label".toList, "default".toList,
      "spec".toList] ∧
    lookup d "field".toList = some (.str f.name) ∧ lookup d "label".toList = some (.str f.label) ∧
    lookup d "default".toList = some f.default ∧ lookup d "spec".toList = some (.obj t) ∧
    lookup t "type".toList = some (.str (wireType f.kind).toList) ∧
    (∀ lo hi, f.kind = .integer lo hi ∨ f.kind = .float lo hi →
      lookup t "min".toList = some lo ∧ lookup t "max".toList = some hi) ∧
    (∀ l, f.kind = .select l → lookup t "options".toList = some (.arr (l.map (fun e => .str e.1)))) := by
  obtain ⟨name, kind, default, target, label⟩ := f
  cases kind <;>
    refine ⟨_, _, rfl, rfl, rfl, rfl, rfl, rfl, rfl, ?_, ?_⟩
  all_goals first
    | (rintro lo hi (h | h) <;> cases h <;> exact ⟨rfl, rfl⟩)
    | (intro l h; cases h <;> simp [Dict.keys, lookup, kOptions, kType])

/-- An assignment the client accepts, and one it refuses. -/
example : (match fromSpec ([coresField, memField].map jsonSpec) with
    | .ok o => some (asDict ([("cores".toList, .num (.int 3)), ("mem".toList, .num (.int 9))].foldl
        assign o))
    | .error _ => none) =
    some [("cores".toList, .num (.int 3)), ("mem".toList, .num (.fin 2))] := by decide +kernel

/-- C43 for single assignments: after any assignments, the client refuses an option the server does
not know and a value the server would reject, and otherwise shows the value the server would have,
leaving the other options as they were. Missing: as in `C43_submitted_partial`. -/
theorem C43_assignment_partial (fields : List (Field V)) (hm : ∀ f ∈ fields, Made f)
    (hd : Distinct fields) :
    ∃ o, fromSpec (fields.map jsonSpec) = .ok o ∧ ∀ (as : List (Str × Json)) (k : Str) (x : Json),
      (k ∉ fields.map Field.name → setOption (as.foldl assign o) k x = .error .key) ∧
      ∀ f ∈ fields, f.name = k →
        (∀ e, validate f.kind x = .error e → setOption (as.foldl assign o) k x = .error e) ∧
        (∀ v, validate f.kind x = .ok v → ∃ o', setOption (as.foldl assign o) k x = .ok o' ∧
          lookup (asDict o') k = some v ∧
          ∀ k', k' ≠ k → lookup (asDict o') k' = lookup (asDict (as.foldl assign o)) k') := by
  obtain ⟨o, h1, h2⟩ := synced_fromSpec hm hd
  refine ⟨o, h1, fun as k x => ?_⟩
  have hs := synced_assigns h2 as
  generalize as.foldl assign o = o1 at hs
  constructor
  · intro hk
    unfold setOption
    have : lookup o1 k = none := lookup_eq_none.2 (by rw [hs.keys]; exact hk)
    rw [this]
  · rintro f hf rfl
    have : (lookup o1 f.name).isSome := by
      rw [lookup_isSome, hs.keys]; exact List.mem_map.2 ⟨f, hf, rfl⟩
    obtain ⟨c, hc⟩ := Option.isSome_iff_exists.1 this
    have hk := (hs.vals f hf c hc).1
    unfold setOption
    rw [hc]
    dsimp only
    rw [hk, cvalidate_eq]
    refine ⟨fun e he => by rw [he], fun v hv => ?_⟩
    rw [hv]
    refine ⟨_, rfl, ?_, ?_⟩
    · rw [lookup_asDict, lookup_set]; simp
    · intro k' hk'
      rw [lookup_asDict, lookup_asDict, lookup_set, if_neg (Ne.symm hk')]

/-! ### C67 -/

/-- What a field makes of an accepted value: a `Select` maps the key, others keep the value. -/
def Means (k : Kind V) (x : Json) (y : Val V) : Prop :=
  match k with
  | .select o => ∃ s v, x = .str s ∧ (s, v) ∈ o ∧ y = .py v
  | _ => y = .json x

private theorem transform_ok {k : Kind V} {x : Json} (h : validate k x = .ok x) :
    ∃ y, transform k x = .ok y ∧ Means k x y := by
  cases k with
  | select o =>
    unfold transform
    dsimp only
    rw [h]
    simp only [validate] at h
    split at h
    · rename_i s
      split at h
      · rename_i hs
        dsimp only
        have : (lookup o s).isSome := lookup_isSome.2 hs
        cases hl : lookup o s with
        | none => rw [hl] at this; cases this
        | some v => exact ⟨.py v, rfl, s, v, rfl, mem_of_lookup hl, rfl⟩
      · cases h
    · cases h
  | string => exact ⟨_, rfl, rfl⟩
  | bool => exact ⟨_, rfl, rfl⟩
  | integer lo hi => exact ⟨_, rfl, rfl⟩
  | float lo hi => exact ⟨_, rfl, rfl⟩
  | mapping => exact ⟨_, rfl, rfl⟩

private theorem transformFields_ok {out : List (Str × Json)} {fs : List (Field V)}
    (h : ∀ f ∈ fs, ∃ v, lookup out f.name = some v ∧ validate f.kind v = .ok v) :
    ∃ l, transformFields out fs = .ok l ∧ Dict.keys l = fs.map Field.target ∧
      ∀ f ∈ fs, ∃ v y, lookup out f.name = some v ∧ (f.target, y) ∈ l ∧ Means f.kind v y := by
  induction fs with
  | nil => exact ⟨[], rfl, rfl, by simp⟩
  | cons f fs ih =>
    obtain ⟨l, h1, h2, h3⟩ := ih (fun g hg => h g (by simp [hg]))
    obtain ⟨v, hv, h4⟩ := h f (by simp)
    obtain ⟨y, h5, h6⟩ := transform_ok h4
    refine ⟨(f.target, y) :: l, ?_, ?_, ?_⟩
    · unfold transformFields
      rw [hv, Option.getD_some, h5]; dsimp only; rw [h1]
    · simp only [Dict.keys, List.map_cons] at h2 ⊢
      rw [h2]
    · intro g hg
      rcases List.mem_cons.1 hg with rfl | hg
      · exact ⟨v, y, hv, by simp, h6⟩
      · obtain ⟨v', y', h7, h8, h9⟩ := h3 g hg
        exact ⟨v', y', h7, by simp [h8], h9⟩

/-- C67: accepted options always translate into a configuration; it sets exactly the declared
targets, and each target to what its field makes of the accepted value. -/
theorem C67_configuration (fields : List (Field V)) (hd : Distinct fields)
    (ht : (fields.map Field.target).Nodup) (req : Json) (out : List (Str × Json))
    (h : parseOptions fields req = .ok out) :
    ∃ conf, transformOptions fields out = .ok conf ∧
      (∀ t, (lookup conf t).isSome ↔ t ∈ fields.map Field.target) ∧
      ∀ f ∈ fields, ∃ v y, lookup out f.name = some v ∧ lookup conf f.target = some y ∧
        Means f.kind v y := by
  obtain ⟨r, _, rfl, _⟩ := parseOptions_ok h
  obtain ⟨l, h1, h2, h3⟩ := transformFields_ok (out := out) (fs := fields) (fun f hf => by
    obtain ⟨v, h4, h5⟩ := parseOptions_field hd h hf
    exact ⟨v, h4, validate_idem h5⟩)
  have hn : (Dict.keys l).Nodup := by rw [h2]; exact ht
  refine ⟨Dict.ofList l, ?_, ?_, ?_⟩
  · unfold transformOptions; rw [h1]
  · intro t; rw [lookup_isSome, mem_keys_ofList, h2]
  · intro f hf
    obtain ⟨v, y, h4, h5, h6⟩ := h3 f hf
    exact ⟨v, y, h4, by rw [ofList_nodup hn]; exact lookup_of_mem hn h5, h6⟩

private def imageField2 : Field Nat :=
  { name := "image".toList, kind := .select [("a".toList, 10), ("b".toList, 20)],
    default := .str "a".toList, target := "img".toList, label := "image".toList }

/-- A `Select` is translated to the value of the chosen key, under the target's name. -/
example : transformOptions [imageField2] [("image".toList, .str "b".toList)] =
    .ok [("img".toList, .py 20)] := by decide +kernel

end Verif.Options

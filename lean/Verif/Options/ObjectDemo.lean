import Verif.Options.ObjectProps
/-! C183: where the form and attributes of an options object fail, and examples. -/
namespace Verif.Options

/-- A float that must not be negative. -/
def memOption : List (Str × CField) := [(['m'], ⟨.float (.num (.fin 0)) .null, .num (.fin 1)⟩)]

/-- The form does not keep a bound that is zero: what is entered below it is shown, but not set, and no cross is shown. -/
theorem C183_form_violated : ¬ ∀ (y : Yaml) (D : List (Str × Json) → Prop), Faithful y D → ∀ (n : Nat) (fields : List (Str × CField)),
    (∀ k f, lookup fields k = some f → cvalidate f.kind f.value = .ok f.value) → ∀ ops : List Op,
    AllEntered D y (n + 2) (Obj.new fields) ops → Shows y ((Obj.new fields).run y (n + 2) ops) := by
  intro h
  have hy : Faithful ⟨fun _ => [], fun _ => none⟩ (fun d => d = []) :=
    ⟨fun e d hd => (by cases hd), fun e d hd => (by cases hd), fun s d hd => (by cases hd), rfl⟩
  have h1 := h _ _ hy 0 memOption
    (by
      intro k f hl
      have := mem_of_lookup hl
      simp only [memOption, List.mem_singleton, Prod.mk.injEq] at this
      obtain ⟨_, rfl⟩ := this
      decide +kernel)
    [.display, .enter ['m'] (.num (.fin (-1)))]
    (by
      refine ⟨trivial, ?_, trivial⟩
      intro f hl
      have := mem_of_lookup hl
      simp only [Obj.step, Obj.form, Obj.new, memOption, List.mem_singleton, Prod.mk.injEq] at this
      obtain ⟨_, rfl⟩ := this
      exact ⟨_, rfl⟩)
  have h2 := h1 ['m'] ⟨.float (.num (.fin 0)) .null, .num (.fin 1)⟩ (.num (.fin (-1)))
    (by rfl) (by decide +kernel) (by decide +kernel)
  revert h2
  decide +kernel

/-- An integer with a lower bound only. -/
def coresOption : List (Str × CField) := [(['c'], ⟨.integer (.num (.int 1)) .null, .num (.int 1)⟩)]

/-- Without one of its bounds, an integer that has no place in 64 bits is changed by the form that is displayed: what was assigned
without an error is not what is read. -/
theorem C183_set_violated : ¬ ∀ (y : Yaml) (D : List (Str × Json) → Prop), Faithful y D → ∀ (n : Nat) (o : Obj) (k : Str) (f : CField)
    (v v' : Json), lookup o.fields k = some f → cvalidate f.kind v = .ok v' → Fine D v →
    ∃ o' v2, Same v' v2 ∧ o.step y (n + 2) (.setItem k v) = (o', .done) ∧ (o'.step y (n + 2) (.getItem k)).2 = .value v2 := by
  intro h
  have hy : Faithful ⟨fun _ => [], fun _ => none⟩ (fun d => d = []) :=
    ⟨fun e d hd => (by cases hd), fun e d hd => (by cases hd), fun s d hd => (by cases hd), rfl⟩
  obtain ⟨o', v2, h1, h2, h3⟩ := h _ _ hy 0 ((Obj.new coresOption).form ⟨fun _ => [], fun _ => none⟩) ['c'] _ (.num (.int (2 ^ 64)))
    (.num (.int (2 ^ 64))) (by rfl) (by decide +kernel) (by intro d hd; cases hd)
  have e : (((((Obj.new coresOption).form ⟨fun _ => [], fun _ => none⟩).step ⟨fun _ => [], fun _ => none⟩ 2
      (.setItem ['c'] (.num (.int (2 ^ 64))))).1).step ⟨fun _ => [], fun _ => none⟩ 2 (.getItem ['c'])).2 =
      .value (.num (.int (2 ^ 63 - 1))) := by decide +kernel
  rw [h2] at e
  have e : (o'.step ⟨fun _ => [], fun _ => none⟩ 2 (.getItem ['c'])).2 = .value (.num (.int (2 ^ 63 - 1))) := e
  rw [h3] at e
  injection e with e
  subst e
  rcases h1 with h1 | ⟨d, _, h1, _, _⟩
  · revert h1; decide +kernel
  · cases h1

/-- An option that is called like a method cannot be read as an attribute, though it can be set as one. -/
theorem C183_attribute_violated : ¬ ∀ (y : Yaml) (n : Nat) (o : Obj) (k : Str) (f : CField), lookup o.fields k = some f →
    o.step y n (.getAttr k) = (o, .value f.value) := by
  intro h
  have h1 := h ⟨fun _ => [], fun _ => none⟩ 0 (Obj.new [("items".toList, ⟨.integer .null .null, .num (.int 1)⟩)]) "items".toList _
    (by rfl)
  have h2 : ((Obj.new [("items".toList, ⟨.integer .null .null, .num (.int 1)⟩)]).step ⟨fun _ => [], fun _ => none⟩ 0
    (.getAttr "items".toList)).2 = .member := by decide +kernel
  rw [h1] at h2
  cases h2

/-- A YAML for the examples, that knows one dictionary, and writes it in its own order. -/
def demoYaml : Yaml :=
  ⟨fun _ => ['a'], fun s => if s = ['a'] then some (.obj [(['p'], .null), (['q'], .null)]) else none⟩

/-- The dictionary in both orders, and the empty one. -/
def demoDicts (d : List (Str × Json)) : Prop :=
  d = [] ∨ d = [(['p'], .null), (['q'], .null)] ∨ d = [(['q'], .null), (['p'], .null)]

theorem demoYaml_faithful : Faithful demoYaml demoDicts := by
  refine ⟨fun e d hd => ?_, fun e d hd => (by rfl), fun s d hd => ?_, Or.inl rfl⟩
  · refine ⟨(['p'], .null), [(['q'], .null)], (by rfl), (by rfl), ?_⟩
    intro k
    rcases hd with hd | hd | hd
    · cases hd
    · rw [hd]
    · rw [hd]
      simp only [lookup_cons, lookup_nil]
      by_cases h1 : ['q'] = k
      · subst h1; decide
      · by_cases h2 : ['p'] = k
        · subst h2; decide
        · simp [h1, h2]
  · have hd : (if s = ['a'] then some (Json.obj [(['p'], .null), (['q'], .null)]) else none) = some (.obj d) := hd
    split at hd
    · have e := Option.some.inj hd
      injection e with e
      exact Or.inr (Or.inl e.symm)
    · cases hd

/-- An options object of all kinds of fields with bounds that the form keeps. -/
def demoOptions : List (Str × CField) :=
  [(['i'], ⟨.integer (.num (.int 1)) (.num (.int 4)), .num (.int 2)⟩), (['f'], ⟨.float (.num (.fin 1)) .null, .num (.fin 2)⟩),
    (['s'], ⟨.select [['x'], ['z']], .str ['x']⟩), (['e'], ⟨.mapping, .obj []⟩)]

/-- What the input and the option of a field are, and whether there is a cross. -/
def Obj.look (o : Obj) (k : Str) : Option Json × Option Json × Bool := (o.input k, (lookup o.fields k).map (·.value), o.cross k)

/-- Entering a value above the bound gives the bound; a mapping that is assigned is shown as text, and one that cannot be read gets a
cross. -/
example : let o := (Obj.new demoOptions).run demoYaml 2 [.display, .enter ['i'] (.num (.int 9)),
      .setItem ['e'] (.obj [(['q'], .null), (['p'], .null)]), .setAttr ['s'] (.str ['y']), .update [(['f'], .num (.int 3)), (['i'], .null)],
      .clear, .pop ['i'] none]
    o.look ['i'] = (some (.num (.int 4)), some (.num (.int 4)), false) ∧ o.look ['f'] = (some (.num (.fin 3)), some (.num (.fin 3)), false) ∧
    o.look ['s'] = (some (.str ['x']), some (.str ['x']), false) ∧
    o.look ['e'] = (some (.str ['a']), some (.obj [(['p'], .null), (['q'], .null)]), false) ∧
    (o.enter demoYaml 2 ['e'] (.str ['?'])).look ['e'] = (some (.str ['?']), some (.obj [(['p'], .null), (['q'], .null)]), true) ∧
    (o.enter demoYaml 2 ['e'] (.str [' '])).look ['e'] = (some (.str []), some (.obj []), false) := by
  decide +kernel

example : Good (Obj.new demoOptions) := by
  intro k f hl
  have := mem_of_lookup hl
  simp only [Obj.new, demoOptions, List.mem_cons, List.not_mem_nil, or_false, Prod.mk.injEq] at this
  rcases this with ⟨_, rfl⟩ | ⟨_, rfl⟩ | ⟨_, rfl⟩ | ⟨_, rfl⟩
  · exact ⟨Or.inr ⟨1, 4, rfl, rfl, by decide⟩, by decide +kernel⟩
  · exact ⟨⟨Or.inr ⟨1, rfl, by decide +kernel⟩, Or.inl rfl, fun p q _ h => (by cases h)⟩, by decide +kernel⟩
  · exact ⟨trivial, by decide +kernel⟩
  · exact ⟨trivial, by decide +kernel⟩

/-- An assignment, and an update that is refused at its second option. -/
example : ((Obj.new demoOptions).step demoYaml 2 (.setItem ['i'] (.num (.int 9)))).2 = .raised (.err .value) ∧
    ((Obj.new demoOptions).step demoYaml 2 (.setAttr ['j'] (.num (.int 9)))).2 = .raised .noAttribute ∧
    ((Obj.new demoOptions).step demoYaml 2 (.update [(['i'], .num (.int 3)), (['j'], .null)])).2 = .raised (.err .key) ∧
    ((Obj.new demoOptions).run demoYaml 2 [.update [(['i'], .num (.int 3)), (['j'], .null)]]).look ['i'] =
      (none, some (.num (.int 3)), false) := by
  decide +kernel

/-- A name that is no option and no attribute. -/
example : (Obj.new demoOptions).step demoYaml 2 (.getAttr ['j']) = (Obj.new demoOptions, .raised .noAttribute) :=
  (C183_unknown demoYaml 1 _ ['j'] .null .null (by
    intro f h
    simp [Obj.new, demoOptions] at h)).2.1 (by decide +kernel)

end Verif.Options

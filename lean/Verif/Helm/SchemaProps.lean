import Verif.Helm.Schema
import Verif.Dict
/-! Property C169: the schema that is packaged with the chart accepts what the documented one does. -/
set_option linter.unusedSimpArgs false
set_option linter.unusedVariables false
namespace Verif.Helm.Schema

/-! ### Specification: what a JSON schema accepts

A schema is a set of keywords all of which a value must meet. `properties` asks of the fields of an object that each meets its own
schema; `description` asks nothing. Of every other keyword nothing is assumed: `other k s ctx v` says whether `v` meets the
keyword `k` with the argument `s`, where `ctx` are the keywords beside it and the names of the options beside it, since keywords
like `additionalProperties` depend on these. -/

/-- The meaning of the other keywords. -/
abbrev Other := Str → Json → List (Str × Json) → List Str → Json → Prop

/-- The names of the options. -/
def names : Json → List Str
  | .obj ps => ps.map (·.1)
  | _ => []

/-- The keywords that have a meaning, besides `properties`. -/
def besides (l : List (Str × Json)) : List (Str × Json) :=
  l.filter (fun e => decide (e.1 ≠ "description".toList) && decide (e.1 ≠ "properties".toList))

/-- The names of all options of a schema. -/
def optionNames (l : List (Str × Json)) : List Str :=
  (l.filter (fun e => decide (e.1 = "properties".toList))).flatMap (fun e => names e.2)

/-- A field of a value. -/
def fieldOf : Json → Str → Option Json
  | .obj l, k => lookup l k
  | _, _ => none

mutual
/-- A schema accepts a value. -/
def Accepts (other : Other) : Json → Json → Prop
  | .obj l, v => Meets other (besides l) (optionNames l) l v
  | .bool b, _ => b = true
  | _, _ => True
/-- The value meets all these keywords. -/
def Meets (other : Other) (ctx : List (Str × Json)) (ns : List Str) : List (Str × Json) → Json → Prop
  | [], _ => True
  | (k, s) :: l, v =>
    (if k = "description".toList then True else if k = "properties".toList then Options other s v else other k s ctx ns v) ∧
      Meets other ctx ns l v
/-- The fields of the value meet the schemas of the options. -/
def Options (other : Other) : Json → Json → Prop
  | .obj ps, v => Fields other ps v
  | _, _ => True
/-- The same for a list of options. -/
def Fields (other : Other) : List (Str × Json) → Json → Prop
  | [], _ => True
  | (p, s) :: ps, v => (∀ x, fieldOf v p = some x → Accepts other s x) ∧ Fields other ps v
end

/-! ### Proofs -/

private theorem options_obj {s t : Json} (h : cleanOptions s = some t) : ∃ ps ps', s = .obj ps ∧ t = .obj ps' ∧ cleanEach ps = some ps' := by
  cases s with
  | obj ps =>
    unfold cleanOptions at h
    cases he : cleanEach ps with
    | none => rw [he] at h; cases h
    | some ps' => rw [he] at h; exact ⟨ps, ps', rfl, (Option.some.inj h).symm, he⟩
  | _ => unfold cleanOptions at h; cases h

/-- What `cleanEach` does to the first option. -/
private theorem each_cons {p : Str} {s : Json} {ps qs : List (Str × Json)} (h : cleanEach ((p, s) :: ps) = some qs) :
    ∃ s' ps', qs = (p, s') :: ps' ∧ cleanEach ps = some ps' ∧ (s' = s ∨ ∃ l l', s = .obj l ∧ s' = .obj l' ∧ cleanKeys l = some l') := by
  have plain : ∀ s : Json, (cleanEach ps).map ((p, s) :: ·) = some qs →
      ∃ s' ps', qs = (p, s') :: ps' ∧ cleanEach ps = some ps' ∧ (s' = s ∨ ∃ l l', s = .obj l ∧ s' = .obj l' ∧ cleanKeys l = some l') := by
    intro s h
    obtain ⟨ps', h1, h2⟩ := Option.map_eq_some_iff.1 h
    exact ⟨s, ps', h2.symm, h1, Or.inl rfl⟩
  cases s with
  | obj l =>
    unfold cleanEach at h
    cases h1 : cleanKeys l with
    | none => simp [h1] at h
    | some l' =>
      cases h2 : cleanEach ps with
      | none => simp [h1, h2] at h
      | some ps' =>
        simp only [h1, h2, Option.some.injEq] at h
        exact ⟨_, ps', h.symm, rfl, Or.inr ⟨l, l', rfl, rfl, h1⟩⟩
  | null => exact plain _ h
  | bool b => exact plain _ h
  | num n => exact plain _ h
  | str s => exact plain _ h
  | arr a => exact plain _ h

/-- What `cleanKeys` does to the first keyword. -/
private theorem keys_cons {k : Str} {s : Json} {l m : List (Str × Json)} (h : cleanKeys ((k, s) :: l) = some m) :
    (k = "description".toList ∧ cleanKeys l = some m) ∨
    (k ≠ "description".toList ∧ k = "properties".toList ∧ ∃ s' l', cleanOptions s = some s' ∧ cleanKeys l = some l' ∧ m = (k, s') :: l') ∨
    (k ≠ "description".toList ∧ k ≠ "properties".toList ∧ ∃ l', cleanKeys l = some l' ∧ m = (k, s) :: l') := by
  unfold cleanKeys at h
  by_cases h1 : k = "description".toList
  · rw [if_pos h1] at h
    exact Or.inl ⟨h1, h⟩
  · rw [if_neg h1] at h
    by_cases h2 : k = "properties".toList
    · rw [if_pos h2] at h
      refine Or.inr (Or.inl ⟨h1, h2, ?_⟩)
      cases h3 : cleanOptions s with
      | none => simp [h3] at h
      | some s' =>
        cases h4 : cleanKeys l with
        | none => simp [h3, h4] at h
        | some l' =>
          simp only [h3, h4, Option.some.injEq] at h
          exact ⟨s', l', rfl, rfl, h.symm⟩
    · rw [if_neg h2] at h
      obtain ⟨l', h3, h4⟩ := Option.map_eq_some_iff.1 h
      exact Or.inr (Or.inr ⟨h1, h2, l', h3, h4.symm⟩)

private theorem each_names {ps qs : List (Str × Json)} (h : cleanEach ps = some qs) : qs.map (·.1) = ps.map (·.1) := by
  induction ps generalizing qs with
  | nil => cases h; rfl
  | cons e ps ih =>
    obtain ⟨s', ps', rfl, h2, _⟩ := each_cons (p := e.1) (s := e.2) h
    rw [List.map_cons, List.map_cons, ih h2]

private theorem names_same {s t : Json} (h : cleanOptions s = some t) : names t = names s := by
  obtain ⟨ps, ps', rfl, rfl, h'⟩ := options_obj h
  exact each_names h'

private theorem clean_obj (l : List (Str × Json)) : clean (.obj l) = (cleanKeys l).map Json.obj := by
  rw [clean]

private theorem pd : ¬ "description".toList = "properties".toList := by decide +kernel

private theorem skip {k : Str} (s : Json) (l : List (Str × Json)) (h : k = "description".toList) :
    besides ((k, s) :: l) = besides l ∧ optionNames ((k, s) :: l) = optionNames l := by
  subst h
  unfold besides optionNames
  rw [List.filter_cons_of_neg, List.filter_cons_of_neg]
  · exact ⟨rfl, rfl⟩
  · exact fun h => pd (of_decide_eq_true h)
  · intro h
    exact of_decide_eq_true (Bool.and_eq_true_iff.1 h).1 rfl

private theorem opts {k : Str} (s : Json) (l : List (Str × Json)) (h : k = "properties".toList) :
    besides ((k, s) :: l) = besides l ∧ optionNames ((k, s) :: l) = names s ++ optionNames l := by
  unfold besides optionNames
  rw [List.filter_cons_of_neg, List.filter_cons_of_pos]
  · exact ⟨rfl, List.flatMap_cons⟩
  · exact decide_eq_true h
  · intro h'
    exact of_decide_eq_true (Bool.and_eq_true_iff.1 h').2 h

private theorem rest {k : Str} (s : Json) (l : List (Str × Json)) (h : k ≠ "description".toList) (h' : k ≠ "properties".toList) :
    besides ((k, s) :: l) = (k, s) :: besides l ∧ optionNames ((k, s) :: l) = optionNames l := by
  unfold besides optionNames
  rw [List.filter_cons_of_pos, List.filter_cons_of_neg]
  · exact ⟨rfl, rfl⟩
  · exact fun e => h' (of_decide_eq_true e)
  · exact Bool.and_eq_true_iff.2 ⟨decide_eq_true h, decide_eq_true h'⟩

private theorem context_same {l m : List (Str × Json)} (h : cleanKeys l = some m) :
    besides m = besides l ∧ optionNames m = optionNames l := by
  induction l generalizing m with
  | nil => cases h; exact ⟨rfl, rfl⟩
  | cons e l ih =>
    obtain ⟨k, s⟩ := e
    rcases keys_cons h with ⟨h1, h2⟩ | ⟨h1, h2, s', l', h3, h4, rfl⟩ | ⟨h1, h2, l', h4, rfl⟩
    · obtain ⟨i1, i2⟩ := ih h2
      exact ⟨i1.trans (skip s l h1).1.symm, i2.trans (skip s l h1).2.symm⟩
    · obtain ⟨i1, i2⟩ := ih h4
      refine ⟨(opts s' l' h2).1.trans (i1.trans (opts s l h2).1.symm), ?_⟩
      rw [(opts s' l' h2).2, (opts s l h2).2, i2, names_same h3]
    · obtain ⟨i1, i2⟩ := ih h4
      refine ⟨?_, (rest s l' h1 h2).2.trans (i2.trans (rest s l h1 h2).2.symm)⟩
      rw [(rest s l' h1 h2).1, (rest s l h1 h2).1, i1]

mutual
private theorem meets_same (other : Other) (ctx : List (Str × Json)) (ns : List Str) : ∀ (l m : List (Str × Json)),
    cleanKeys l = some m → ∀ v, Meets other ctx ns m v ↔ Meets other ctx ns l v
  | [], m, h, v => by cases h; exact Iff.rfl
  | (k, s) :: l, m, h, v => by
    rcases keys_cons h with ⟨h1, h2⟩ | ⟨h1, h2, s', l', h3, h4, rfl⟩ | ⟨h1, h2, l', h4, rfl⟩
    · rw [meets_same other ctx ns l m h2 v]
      conv => rhs; unfold Meets
      rw [if_pos h1, true_and]
    · unfold Meets
      rw [if_neg h1, if_neg h1, if_pos h2, if_pos h2, meets_same other ctx ns l l' h4 v, options_same other s s' h3 v]
    · unfold Meets
      rw [meets_same other ctx ns l l' h4 v]
private theorem options_same (other : Other) : ∀ (s t : Json), cleanOptions s = some t → ∀ v, Options other t v ↔ Options other s v
  | .obj ps, t, h, v => by
    obtain ⟨ps', h1, h2⟩ := Option.map_eq_some_iff.1 (show (cleanEach ps).map .obj = some t from h)
    subst h2
    unfold Options
    exact fields_same other ps ps' h1 v
  | .null, t, h, v => by cases h
  | .bool _, t, h, v => by cases h
  | .num _, t, h, v => by cases h
  | .str _, t, h, v => by cases h
  | .arr _, t, h, v => by cases h
private theorem fields_same (other : Other) : ∀ (ps qs : List (Str × Json)), cleanEach ps = some qs →
    ∀ v, Fields other qs v ↔ Fields other ps v
  | [], qs, h, v => by cases h; exact Iff.rfl
  | (p, s) :: ps, qs, h, v => by
    obtain ⟨s', ps', rfl, h2, hs⟩ := each_cons h
    unfold Fields
    rw [fields_same other ps ps' h2 v]
    have : ∀ x, Accepts other s' x ↔ Accepts other s x := by
      rcases hs with rfl | ⟨l, l', rfl, rfl, hl⟩
      · exact fun x => Iff.rfl
      · intro x
        unfold Accepts
        rw [(context_same hl).1, (context_same hl).2]
        exact meets_same other _ _ l l' hl x
    simp only [this]
end

/-- C169: the schema that is packaged accepts exactly the values that the documented schema accepts, whatever all keywords but
`properties` and `description` mean. -/
theorem C169_same (other : Other) (s t : Json) (h : clean s = some t) (v : Json) : Accepts other t v ↔ Accepts other s v := by
  cases s with
  | obj l =>
    obtain ⟨l', h1, rfl⟩ := Option.map_eq_some_iff.1 ((clean_obj l).symm.trans h)
    unfold Accepts
    rw [(context_same h1).1, (context_same h1).2]
    exact meets_same other _ _ l l' h1 v
  | _ => cases h

/-- Specification: `t` is the schema of the option at this path. -/
inductive At : Json → List Str → Json → Prop where
  | here (s : Json) : At s [] s
  | there {l ps : List (Str × Json)} {p : Str} {s t : Json} {path : List Str} (h1 : ("properties".toList, .obj ps) ∈ l)
      (h2 : (p, s) ∈ ps) (h : At s path t) : At (.obj l) (p :: path) t

private theorem keys_mem {l m : List (Str × Json)} (h : cleanKeys l = some m) {k : Str} {s : Json} (hm : (k, s) ∈ m) :
    k ≠ "description".toList ∧ (k = "properties".toList → ∃ s₀, (k, s₀) ∈ l ∧ cleanOptions s₀ = some s) := by
  induction l generalizing m with
  | nil => cases h; cases hm
  | cons e l ih =>
    obtain ⟨k', s'⟩ := e
    rcases keys_cons h with ⟨h1, h2⟩ | ⟨h1, h2, s'', l', h3, h4, rfl⟩ | ⟨h1, h2, l', h4, rfl⟩
    · obtain ⟨i1, i2⟩ := ih h2 hm
      exact ⟨i1, fun hk => (i2 hk).imp fun _ hx => ⟨List.mem_cons_of_mem _ hx.1, hx.2⟩⟩
    · rcases List.mem_cons.1 hm with e | hm
      · cases e
        exact ⟨h1, fun _ => ⟨s', List.mem_cons_self, h3⟩⟩
      · obtain ⟨i1, i2⟩ := ih h4 hm
        exact ⟨i1, fun hk => (i2 hk).imp fun _ hx => ⟨List.mem_cons_of_mem _ hx.1, hx.2⟩⟩
    · rcases List.mem_cons.1 hm with e | hm
      · cases e
        exact ⟨h1, fun hk => absurd hk h2⟩
      · obtain ⟨i1, i2⟩ := ih h4 hm
        exact ⟨i1, fun hk => (i2 hk).imp fun _ hx => ⟨List.mem_cons_of_mem _ hx.1, hx.2⟩⟩

private theorem each_mem {ps qs : List (Str × Json)} (h : cleanEach ps = some qs) {p : Str} {s : Json} (hm : (p, s) ∈ qs) :
    (∀ l, s ≠ .obj l) ∨ clean s = some s ∨ ∃ s₀, (p, s₀) ∈ ps ∧ clean s₀ = some s := by
  induction ps generalizing qs with
  | nil => cases h; cases hm
  | cons e ps ih =>
    obtain ⟨s', ps', rfl, h2, hs⟩ := each_cons (p := e.1) (s := e.2) h
    rcases List.mem_cons.1 hm with e' | hm
    · cases e'
      rcases hs with rfl | ⟨l, l', h1, rfl, hl⟩
      · -- an option that was left as it is: it is no mapping, or cleaning it changed nothing
        by_cases ho : ∃ l, e.2 = .obj l
        · obtain ⟨l, hl⟩ := ho
          have : cleanEach ((e.1, .obj l) :: ps) = some ((e.1, .obj l) :: ps') := by
            rw [← hl]
            exact h
          unfold cleanEach at this
          cases h5 : cleanKeys l with
          | none => simp [h5] at this
          | some l' =>
            simp only [h5, h2, Option.some.injEq, List.cons.injEq, Prod.mk.injEq, true_and, Json.obj.injEq, and_true] at this
            refine Or.inr (Or.inl ?_)
            rw [hl, clean_obj, h5, this]
            rfl
        · exact Or.inl (fun l hl => ho ⟨l, hl⟩)
      · refine Or.inr (Or.inr ⟨e.2, List.mem_cons_self, ?_⟩)
        rw [h1, clean_obj, hl]
        rfl
    · rcases ih h2 hm with h | h | ⟨s₀, h3, h4⟩
      · exact Or.inl h
      · exact Or.inr (Or.inl h)
      · exact Or.inr (Or.inr ⟨s₀, List.mem_cons_of_mem _ h3, h4⟩)

/-- C169: the packaged schema has no description of any option. -/
theorem C169_undescribed {s t : Json} (h : clean s = some t) {path : List Str} {l : List (Str × Json)} (ha : At t path (.obj l))
    {x : Json} : ("description".toList, x) ∉ l := by
  have key : ∀ {t u : Json} {path : List Str}, At t path u → (∃ s, clean s = some t) → ∀ l, u = .obj l →
      ("description".toList, x) ∉ l := by
    intro t u path ha
    induction ha with
    | here u =>
      rintro ⟨s, hs⟩ l rfl hm
      cases s with
      | obj l₀ =>
        obtain ⟨l', h1, h2⟩ := Option.map_eq_some_iff.1 ((clean_obj l₀).symm.trans hs)
        cases h2
        exact (keys_mem h1 hm).1 rfl
      | _ => cases hs
    | @there l ps p s t path h1 h2 h3 ih =>
      rintro ⟨s₀, hs⟩ l' rfl
      cases s₀ with
      | obj l₀ =>
        obtain ⟨m, g1, g2⟩ := Option.map_eq_some_iff.1 ((clean_obj l₀).symm.trans hs)
        cases g2
        obtain ⟨o, _, g4⟩ := (keys_mem g1 h1).2 rfl
        obtain ⟨a, b, e1, e2, g5⟩ := options_obj g4
        cases e2
        rcases each_mem g5 h2 with h | h | ⟨s', _, h⟩
        · cases h3 with
          | here => exact absurd rfl (h l')
          | there => exact absurd rfl (h _)
        · exact ih ⟨_, h⟩ l' rfl
        · exact ih ⟨_, h⟩ l' rfl
      | _ => cases hs
  exact key ha ⟨s, h⟩ l rfl

/-- A schema with an option that is called `description`. -/
def someSchema : Json :=
  .obj [("description".toList, .str "top".toList), ("additionalProperties".toList, .bool false),
    ("properties".toList, .obj [("description".toList, .obj [("type".toList, .str "string".toList), ("description".toList, .str "x".toList)]),
      ("a".toList, .obj [("properties".toList, .obj [("b".toList, .obj [("description".toList, .str "y".toList)])])])])]

/-- The option stays, the descriptions go. -/
example : clean someSchema = some (.obj [("additionalProperties".toList, .bool false),
    ("properties".toList, .obj [("description".toList, .obj [("type".toList, .str "string".toList)]),
      ("a".toList, .obj [("properties".toList, .obj [("b".toList, .obj [])])])])]) := by decide +kernel

example : At someSchema ["a".toList, "b".toList] (.obj [("description".toList, .str "y".toList)]) :=
  .there (.tail _ (.tail _ (.head _))) (.tail _ (.head _)) (.there (.head _) (.head _) (.here _))

/-- Where the other keywords say that no field is unknown, the schema tells values apart. -/
example : let other : Other := fun k _ _ ns v => k = "additionalProperties".toList → ∀ l, v = .obj l → ∀ e ∈ l, e.1 ∈ ns
    Accepts other someSchema (.obj [("a".toList, .obj [])]) ∧ ¬ Accepts other someSchema (.obj [("c".toList, .null)]) := by
  intro other
  constructor
  · unfold someSchema
    simp only [Accepts, Meets, Options, Fields]
    simp only [if_true]
    refine ⟨trivial, ?_, ?_⟩
    · rw [if_neg (by decide), if_neg (by decide)]
      intro _ l hl e he
      cases hl
      rw [List.mem_singleton] at he
      subst he
      decide +kernel
    · rw [if_neg (by decide)]
      refine ⟨⟨fun x hx => (by cases hx), fun x hx => ?_, trivial⟩, trivial⟩
      rw [if_neg (by decide)]
      exact ⟨⟨fun y hy => ⟨trivial, trivial⟩, trivial⟩, trivial⟩
  · unfold someSchema
    simp only [Accepts, Meets]
    rintro ⟨_, h, _⟩
    rw [if_neg (by decide), if_neg (by decide)] at h
    have := h rfl _ rfl _ List.mem_cons_self
    exact absurd this (by decide +kernel)

end Verif.Helm.Schema

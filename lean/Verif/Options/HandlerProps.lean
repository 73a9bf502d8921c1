import Verif.Options.Handler
import Verif.Options.Props
/-! C181: a handler of cluster options is called with what it takes. -/
namespace Verif.Options

variable {V : Type}

/-- A signature as Python has them: `required` positional parameters, `optional` ones after them, perhaps `*args`, keyword-only ones,
each with or without a default, perhaps `**kwargs`. -/
structure Sig where
  required : Nat
  optional : Nat
  star : Bool
  keywords : List Bool
  stars : Bool

/-- The keyword-only parameters. -/
def kwParams (l : List Bool) : List Param := l.map (fun b => ⟨.keywordOnly, b⟩)

/-- Its parameters, in order. -/
def Sig.params (s : Sig) : List Param :=
  List.replicate s.required ⟨.positional, false⟩ ++ (List.replicate s.optional ⟨.positional, true⟩ ++
    ((if s.star then [⟨.varPositional, false⟩] else []) ++ (kwParams s.keywords ++
      (if s.stars then [⟨.varKeyword, false⟩] else []))))

/-- A function with this signature can be called with `n` positional arguments. -/
def Sig.Takes (s : Sig) (n : Nat) : Prop :=
  s.required ≤ n ∧ (n ≤ s.required + s.optional ∨ s.star = true) ∧ ∀ b ∈ s.keywords, b = true

theorem bind_tail (l : List Bool) (stars : Bool) (n : Nat) :
    bind (kwParams l ++ (if stars then [⟨.varKeyword, false⟩] else [])) n = true ↔ n = 0 ∧ ∀ b ∈ l, b = true := by
  induction l with
  | nil => cases stars <;> simp [kwParams, bind]
  | cons b l ih =>
    have : bind (kwParams (b :: l) ++ (if stars then [⟨.varKeyword, false⟩] else [])) n =
        (b && bind (kwParams l ++ (if stars then [⟨.varKeyword, false⟩] else [])) n) := rfl
    rw [this, Bool.and_eq_true, ih, List.forall_mem_cons]
    constructor
    · rintro ⟨h1, h2, h3⟩; exact ⟨h2, h1, h3⟩
    · rintro ⟨h2, h1, h3⟩; exact ⟨h1, h2, h3⟩

theorem bind_star (s : Sig) (n : Nat) :
    bind ((if s.star then [⟨.varPositional, false⟩] else []) ++ (kwParams s.keywords ++
      (if s.stars then [⟨.varKeyword, false⟩] else []))) n = true ↔
      (n = 0 ∨ s.star = true) ∧ ∀ b ∈ s.keywords, b = true := by
  cases h : s.star with
  | false =>
    rw [if_neg (by simp), List.nil_append, bind_tail]
    simp
  | true =>
    rw [if_pos rfl]
    have : ∀ T : List Param, bind ([⟨.varPositional, false⟩] ++ T) n = bind T 0 := fun T => rfl
    rw [this, bind_tail]
    simp

theorem bind_optional (T : List Param) (P Q : Prop) (hT : ∀ n, bind T n = true ↔ (n = 0 ∨ P) ∧ Q) (k n : Nat) :
    bind (List.replicate k ⟨.positional, true⟩ ++ T) n = true ↔ (n ≤ k ∨ P) ∧ Q := by
  induction k generalizing n with
  | zero => rw [List.replicate_zero, List.nil_append, hT]; simp
  | succ k ih =>
    have : bind (List.replicate (k + 1) ⟨.positional, true⟩ ++ T) n =
        if n = 0 then (true && bind (List.replicate k ⟨.positional, true⟩ ++ T) 0)
        else bind (List.replicate k ⟨.positional, true⟩ ++ T) (n - 1) := rfl
    rw [this]
    by_cases hn : n = 0
    · rw [if_pos hn, Bool.true_and, ih, hn]
      simp
    · rw [if_neg hn, ih]
      have : n - 1 ≤ k ↔ n ≤ k + 1 := by omega
      rw [this]

theorem bind_required (T : List Param) (k : Nat) (P Q : Prop) (hT : ∀ n, bind T n = true ↔ (n ≤ k ∨ P) ∧ Q) (r n : Nat) :
    bind (List.replicate r ⟨.positional, false⟩ ++ T) n = true ↔ r ≤ n ∧ (n ≤ r + k ∨ P) ∧ Q := by
  induction r generalizing n with
  | zero => rw [List.replicate_zero, List.nil_append, hT]; simp
  | succ r ih =>
    have : bind (List.replicate (r + 1) ⟨.positional, false⟩ ++ T) n =
        if n = 0 then (false && bind (List.replicate r ⟨.positional, false⟩ ++ T) 0)
        else bind (List.replicate r ⟨.positional, false⟩ ++ T) (n - 1) := rfl
    rw [this]
    by_cases hn : n = 0
    · rw [if_pos hn, hn]
      simp
    · rw [if_neg hn, ih]
      have h1 : r ≤ n - 1 ↔ r + 1 ≤ n := by omega
      have h2 : n - 1 ≤ r + k ↔ n ≤ r + 1 + k := by omega
      rw [h1, h2]

theorem bind_takes (s : Sig) (n : Nat) : bind s.params n = true ↔ s.Takes n :=
  bind_required _ s.optional _ _ (bind_optional _ _ _ (bind_star s) s.optional) s.required n

/-- What a handler's answer becomes. -/
def answered : Option (List (Str × Val V)) → Except ConfErr (List (Str × Val V))
  | none => .error .handler
  | some c => .ok c

theorem call_takes (h : Handler V) (s : Sig) (hs : h.params = s.params) (o : List (Str × Val V)) (user : Option Auth.User) (n : Nat)
    (hn : n = given user) :
    (s.Takes n → h.call o user = answered (h.body o user)) ∧ (¬ s.Takes n → h.call o user = .error .call) := by
  unfold Handler.call
  rw [hs, ← hn]
  refine ⟨fun ht => ?_, fun ht => ?_⟩
  · rw [if_pos ((bind_takes s n).mpr ht)]
    cases h.body o user <;> rfl
  · rw [if_neg (fun hb => ht ((bind_takes s n).mp hb))]

theorem length_params (s : Sig) : s.params.length =
    s.required + (s.optional + ((if s.star then 1 else 0) + (s.keywords.length + (if s.stars then 1 else 0)))) := by
  unfold Sig.params kwParams
  cases s.star <;> cases s.stars <;> simp <;> omega

theorem star_params (s : Sig) : s.params.any (fun p => decide (p.kind = .varPositional)) = s.star := by
  unfold Sig.params kwParams
  have h1 : ∀ (n : Nat) (b : Bool), (List.replicate n (⟨.positional, b⟩ : Param)).any
      (fun p => decide (p.kind = .varPositional)) = false := by
    intro n b
    rw [List.any_eq_false]
    intro p hp
    rw [(List.mem_replicate.mp hp).2]
    simp
  have h2 : ∀ l : List Bool, (l.map (fun b => (⟨.keywordOnly, b⟩ : Param))).any
      (fun p => decide (p.kind = .varPositional)) = false := by
    intro l
    rw [List.any_eq_false]
    intro p hp
    obtain ⟨b, _, rfl⟩ := List.mem_map.mp hp
    simp
  rw [List.any_append, List.any_append, List.any_append, List.any_append, h1, h1, h2]
  cases s.star <;> cases s.stars <;> decide

theorem alone_iff (h : Handler V) (s : Sig) (hs : h.params = s.params) :
    h.alone = true ↔ s.params.length = 1 ∧ s.star = false := by
  unfold Handler.alone
  rw [hs, star_params, Bool.and_eq_true, decide_eq_true_iff]
  cases s.star <;> simp

/-- C181: without a handler the configuration is what the fields make of the options. -/
theorem C181_none (fields : List (Field V)) (options : List (Str × Json)) (user : Auth.User) (conf : List (Str × Val V))
    (h : transformOptions fields options = .ok conf) : getConfiguration fields none options user = .ok conf := by
  unfold getConfiguration
  rw [h]

/-- C181: every handler that can be called with options and user is called with both. -/
theorem C181_user (fields : List (Field V)) (options : List (Str × Json)) (user : Auth.User) (conf : List (Str × Val V))
    (ht : transformOptions fields options = .ok conf) (h : Handler V) (s : Sig) (hs : h.params = s.params) (h2 : s.Takes 2) :
    getConfiguration fields (some h) options user = answered (h.body conf (some user)) := by
  unfold getConfiguration
  rw [ht]
  dsimp only
  unfold Handler.run
  have hn : ¬ (h.alone = true) := by
    rw [alone_iff h s hs, length_params]
    rintro ⟨hl, hst⟩
    obtain ⟨_, hc, _⟩ := h2
    rw [hst] at hc hl
    simp only [Bool.false_eq_true, or_false, if_false] at hc hl
    omega
  rw [if_neg hn]
  exact (call_takes h s hs conf (some user) 2 rfl).1 h2

/-- C181: a handler that can be called with the options alone is called so, if all its parameters are positional. What is missing:
handlers with keyword-only parameters or `**kwargs` besides, see `C181_alone_violated`. -/
theorem C181_alone_partial (fields : List (Field V)) (options : List (Str × Json)) (user : Auth.User) (conf : List (Str × Val V))
    (ht : transformOptions fields options = .ok conf) (h : Handler V) (s : Sig) (hs : h.params = s.params) (h1 : s.Takes 1)
    (h2 : ¬ s.Takes 2) (hk : s.keywords = []) (hst : s.stars = false) :
    getConfiguration fields (some h) options user = answered (h.body conf none) := by
  unfold getConfiguration
  rw [ht]
  dsimp only
  unfold Handler.run
  have hn : h.alone = true := by
    rw [alone_iff h s hs, length_params, hk, hst]
    obtain ⟨r1, c1, k1⟩ := h1
    cases hstar : s.star with
    | true => exact absurd ⟨by omega, Or.inr hstar, k1⟩ h2
    | false =>
      rw [hstar] at c1
      simp only [Bool.false_eq_true, or_false] at c1
      have : ¬ 2 ≤ s.required + s.optional := fun hx => h2 ⟨by omega, Or.inl hx, k1⟩
      refine ⟨?_, rfl⟩
      simp only [Bool.false_eq_true, if_false, List.length_nil]
      omega
  rw [if_pos hn]
  exact (call_takes h s hs conf none 1 rfl).1 h1

/-- C181: a handler that can be called neither way makes every request fail; it is not called in some third way. -/
theorem C181_neither (fields : List (Field V)) (options : List (Str × Json)) (user : Auth.User) (conf : List (Str × Val V))
    (ht : transformOptions fields options = .ok conf) (h : Handler V) (s : Sig) (hs : h.params = s.params) (h1 : ¬ s.Takes 1)
    (h2 : ¬ s.Takes 2) : getConfiguration fields (some h) options user = .error .call := by
  unfold getConfiguration
  rw [ht]
  dsimp only
  unfold Handler.run
  split
  · exact (call_takes h s hs conf none 1 rfl).2 h1
  · exact (call_takes h s hs conf (some user) 2 rfl).2 h2

/-- `def handler(options, *, scale=1)` -/
def keywordSig : Sig := ⟨1, 0, false, [true], false⟩

/-- `def handler(options, **kwargs)` -/
def kwargsSig : Sig := ⟨1, 0, false, [], true⟩

/-- C181 in full: a handler that can be called with the options alone, and not with the user, is called with the options alone. -/
def C181_alone_full : Prop := ∀ (s : Sig) (body : List (Str × Val Unit) → Option Auth.User → Option (List (Str × Val Unit)))
    (user : Auth.User), s.Takes 1 → ¬ s.Takes 2 →
    getConfiguration [] (some ⟨s.params, body⟩) [] user = answered (body [] none)

/-- C181 is refuted: a handler with a keyword-only parameter besides the options, which has a default, or with `**kwargs`, is called
with two arguments, and every request fails. -/
theorem C181_alone_violated : ¬ C181_alone_full ∧
    ∀ s ∈ [keywordSig, kwargsSig], s.Takes 1 ∧ ¬ s.Takes 2 ∧
      ∀ (body : List (Str × Val Unit) → Option Auth.User → Option (List (Str × Val Unit))) (user : Auth.User),
        getConfiguration [] (some ⟨s.params, body⟩) [] user = .error .call := by
  have key : ∀ s ∈ [keywordSig, kwargsSig], s.Takes 1 ∧ ¬ s.Takes 2 ∧
      ∀ (body : List (Str × Val Unit) → Option Auth.User → Option (List (Str × Val Unit))) (user : Auth.User),
        getConfiguration [] (some ⟨s.params, body⟩) [] user = .error .call := by
    intro s hs
    simp only [List.mem_cons, List.not_mem_nil, or_false] at hs
    rcases hs with rfl | rfl
    · exact ⟨by simp [keywordSig, Sig.Takes], by simp [keywordSig, Sig.Takes], fun body user => rfl⟩
    · exact ⟨by simp [kwargsSig, Sig.Takes], by simp [kwargsSig, Sig.Takes], fun body user => rfl⟩
  refine ⟨fun hf => ?_, key⟩
  obtain ⟨h1, h2, h3⟩ := key keywordSig (by simp)
  have := hf keywordSig (fun _ _ => some []) { name := "u".toList } h1 h2
  rw [h3] at this
  cases this

/-! ### What the handler sees -/

/-- C181: a handler reads the options by item, every one of them and no others; and by attribute, apart from options with the name of
one of the four methods of mappings, and one of an internal name. -/
theorem C181_read_partial (m : List (Str × Val V)) (name : Str) (h1 : name ≠ "get".toList) (h2 : name ≠ "items".toList)
    (h3 : name ≠ "keys".toList) (h4 : name ≠ "values".toList) (h5 : name ≠ "_mapping".toList) :
    (∀ v, readAttr m name = .value v ↔ item m name = some v) ∧ (readAttr m name = .missing ↔ item m name = none) := by
  have hm : name ∉ mappingMethods := by
    intro h
    simp only [mappingMethods, List.mem_cons, List.not_mem_nil, or_false] at h
    rcases h with h | h | h | h
    · exact h1 h
    · exact h2 h
    · exact h3 h
    · exact h4 h
  unfold readAttr item
  rw [if_neg h5, if_neg hm]
  cases lookup m name with
  | none => simp
  | some w => simp

/-- C181 is refuted for an option called `items`, or like another method: read as an attribute it is not the option. -/
theorem C181_read_violated : ∀ n ∈ ["get".toList, "items".toList, "keys".toList, "values".toList], ∀ v : Val V,
    item [(n, v)] n = some v ∧ readAttr [(n, v)] n = .method := by
  intro n hn v
  simp only [List.mem_cons, List.not_mem_nil, or_false] at hn
  rcases hn with rfl | rfl | rfl | rfl <;> exact ⟨rfl, rfl⟩

/-- C181: from the declared fields to the handler: whatever a user asks for and is granted, each option is what its field makes of it,
under its target; the handler gets these and, if it takes two arguments, the user who asks; and its answer is the configuration. -/
theorem C181_whole {C : Type} (offer : Offer V) (make : List (Str × Val V) → Option C) (user : Auth.User) (request : Json)
    (d : Declared V) (hd : (match offer with | .same x => some x | .byUser f => f user) = some d) (h : Handler V)
    (hh : d.handler = some h) (s : Sig) (hs : h.params = s.params) (h2 : s.Takes 2) (hdist : Distinct d.fields)
    (htar : (d.fields.map Field.target).Nodup) (asked : List (Str × Json)) (ha : parseOptions d.fields request = .ok asked) :
    ∃ conf, (∀ f ∈ d.fields, ∃ v y, lookup asked f.name = some v ∧ item conf f.target = some y ∧ Means f.kind v y) ∧
      (∀ t, (item conf t).isSome ↔ t ∈ d.fields.map Field.target) ∧
      processOptions offer make user request =
        (match h.body conf (some user) with
          | none => none
          | some over => (make over).map (fun c => (asked, c))) := by
  obtain ⟨conf, h3, h4, h5⟩ := C67_configuration d.fields hdist htar request asked ha
  refine ⟨conf, h5, h4, ?_⟩
  have hg : offer.get user = some d := by cases offer <;> exact hd
  unfold processOptions
  rw [hg]
  dsimp only
  rw [ha]
  dsimp only
  rw [hh, C181_user d.fields asked user conf h3 h s hs h2]
  cases h.body conf (some user) with
  | none => rfl
  | some over =>
    show (match make over with | none => none | some c => some (asked, c)) = (make over).map (fun c => (asked, c))
    cases make over <;> rfl

/-- C181: a request that the fields do not accept, or for which the user has no options, gives no configuration: the handler is not
asked. -/
theorem C181_refused {C : Type} (offer : Offer V) (make : List (Str × Val V) → Option C) (user : Auth.User) (request : Json) :
    ((match offer with | .same x => some x | .byUser f => f user) = none → processOptions offer make user request = none) ∧
    ∀ d, (match offer with | .same x => some x | .byUser f => f user) = some d → ∀ e, parseOptions d.fields request = .error e →
      processOptions offer make user request = none := by
  refine ⟨fun hd => ?_, fun d hd e he => ?_⟩
  · have hg : offer.get user = none := by cases offer <;> exact hd
    unfold processOptions
    rw [hg]
  · have hg : offer.get user = some d := by cases offer <;> exact hd
    unfold processOptions
    rw [hg]
    dsimp only
    rw [he]

/-- `handler(options)`, `handler(options, user)`, `handler(*args)`, `handler(options, user=None)`, `handler()`, and one with three. -/
example : (⟨1, 0, false, [], false⟩ : Sig).Takes 1 ∧ ¬ (⟨1, 0, false, [], false⟩ : Sig).Takes 2 ∧
    (⟨2, 0, false, [], false⟩ : Sig).Takes 2 ∧ (⟨0, 0, true, [], false⟩ : Sig).Takes 2 ∧ (⟨1, 1, false, [], false⟩ : Sig).Takes 2 ∧
    ¬ (⟨0, 0, false, [], false⟩ : Sig).Takes 1 ∧ ¬ (⟨3, 0, false, [], false⟩ : Sig).Takes 2 := by
  simp [Sig.Takes]

/-- A handler with its user, for a gateway that offers the number of cores. -/
example : (processOptions (.same ⟨[coresField], some ⟨(⟨2, 0, false, [], false⟩ : Sig).params,
      fun o u => if u.isSome then some o else none⟩⟩) some { name := "u".toList } (.obj [])).isSome = true := by
  decide +kernel

end Verif.Options

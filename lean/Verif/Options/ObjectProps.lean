import Verif.Options.Object
import Verif.Options.Props
/-! C183: the options object of a client and its form. -/
set_option linter.unusedSimpArgs false
set_option linter.unusedVariables false
namespace Verif.Options
variable {V : Type}

/-! ### Whatever is done, it is assignments -/

theorem assign_ok {o fs : List (Str × CField)} {k : Str} {v : Json} (h : setOption o k v = .ok fs) : assign o (k, v) = fs := by
  unfold assign; rw [h]

theorem handle_assigns (y : Yaml) (setter : Obj → Json → Obj × Option Exc)
    (hs : ∀ o v, ∃ as : List (Str × Json), (setter o v).1.fields = as.foldl assign o.fields) (o : Obj) (k : Str) (c : CKind) (w : Json) :
    ∃ as : List (Str × Json), (handle y setter o k c w).1.fields = as.foldl assign o.fields := by
  unfold handle
  split
  · split
    · exact ⟨[], rfl⟩
    · next d _ =>
      obtain ⟨as, h⟩ := hs o d
      split
      · next o' he => rw [he] at h; exact ⟨as, h⟩
      · next o' e he => rw [he] at h; exact ⟨as, h⟩
  · exact hs o w

theorem set_assigns (y : Yaml) (n : Nat) (o : Obj) (k : Str) (v : Json) :
    ∃ as : List (Str × Json), (o.set y n k v).1.fields = as.foldl assign o.fields := by
  induction n generalizing o v with
  | zero => exact ⟨[], rfl⟩
  | succ n ih =>
    unfold Obj.set
    cases hs : setOption o.fields k v with
    | error e => exact ⟨[], rfl⟩
    | ok fs =>
      have ha := assign_ok hs
      dsimp only
      split
      · split
        · exact ⟨[(k, v)], ha.symm⟩
        · next f w _ _ _ =>
          obtain ⟨as, h⟩ := handle_assigns y (fun o v => o.set y n k v) (fun o v => ih o v)
            ((({ o with fields := fs } : Obj)).withInput k (clamp f.kind (render y f.kind f.value))) k f.kind
            (clamp f.kind (render y f.kind f.value))
          refine ⟨(k, v) :: as, h.trans ?_⟩
          show as.foldl assign fs = as.foldl assign (assign o.fields (k, v))
          rw [ha]
      · exact ⟨[(k, v)], ha.symm⟩

theorem update_assigns (y : Yaml) (n : Nat) (l : List (Str × Json)) (o : Obj) :
    ∃ as : List (Str × Json), (Obj.update y n o l).1.fields = as.foldl assign o.fields := by
  induction l generalizing o with
  | nil => exact ⟨[], rfl⟩
  | cons e l ih =>
    obtain ⟨k, v⟩ := e
    unfold Obj.update
    obtain ⟨as, h⟩ := set_assigns y n o k v
    cases hr : o.set y n k v with
    | mk o' x =>
      rw [hr] at h
      cases x with
      | none =>
        obtain ⟨bs, h'⟩ := ih o'
        refine ⟨as ++ bs, ?_⟩
        rw [List.foldl_append]
        exact h'.trans (by rw [h])
      | some e => exact ⟨as, h⟩

theorem step_assigns (y : Yaml) (n : Nat) (o : Obj) (op : Op) :
    ∃ as : List (Str × Json), (o.step y n op).1.fields = as.foldl assign o.fields := by
  have hset := set_assigns y n o
  cases op with
  | setItem k v =>
    obtain ⟨as, h⟩ := hset k v
    refine ⟨as, ?_⟩
    show (answer (o.set y n k v)).1.fields = _
    unfold answer
    split <;> exact h
  | setAttr k v =>
    obtain ⟨as, h⟩ := hset k v
    refine ⟨as, ?_⟩
    unfold Obj.step
    dsimp only
    cases hr : o.set y n k v with
    | mk o' x => rw [hr] at h; cases x <;> exact h
  | update l =>
    obtain ⟨as, h⟩ := update_assigns y n l o
    refine ⟨as, ?_⟩
    show (answer (Obj.update y n o l)).1.fields = _
    unfold answer
    split <;> exact h
  | setDefault k v =>
    obtain ⟨as, h⟩ := hset k v
    unfold Obj.step
    dsimp only
    split
    · exact ⟨[], rfl⟩
    · cases hr : o.set y n k v with
      | mk o' x => rw [hr] at h; cases x <;> exact ⟨as, h⟩
  | enter k w =>
    show ∃ as : List (Str × Json), (o.enter y n k w).fields = _
    unfold Obj.enter
    split
    · dsimp only
      split
      · exact ⟨[], rfl⟩
      · next f w0 _ _ _ =>
        exact handle_assigns y (fun o v => o.set y n k v) (fun o v => set_assigns y n o k v) (o.withInput k (clamp f.kind w)) k f.kind
          (clamp f.kind w)
    · exact ⟨[], rfl⟩
  | get k d => unfold Obj.step; dsimp only; split <;> exact ⟨[], rfl⟩
  | contains k => unfold Obj.step; dsimp only; split <;> exact ⟨[], rfl⟩
  | pop k d => unfold Obj.step; dsimp only; split <;> exact ⟨[], rfl⟩
  | _ => exact ⟨[], rfl⟩

theorem run_assigns (y : Yaml) (n : Nat) (ops : List Op) (o : Obj) :
    ∃ as : List (Str × Json), (o.run y n ops).fields = as.foldl assign o.fields := by
  induction ops generalizing o with
  | nil => exact ⟨[], rfl⟩
  | cons op ops ih =>
    obtain ⟨as, h⟩ := step_assigns y n o op
    obtain ⟨bs, h'⟩ := ih (o.step y n op).1
    refine ⟨as ++ bs, ?_⟩
    rw [List.foldl_append, ← h]
    exact h'

/-- C183: whatever users do with an options object and enter in its form, in any order and whether it succeeds or fails, the server takes
what the object holds, and unchanged. -/
theorem C183_accepted (fields : List (Field V)) (hm : ∀ f ∈ fields, Made f) (hd : Distinct fields) (y : Yaml) (n : Nat) :
    ∃ o, fromSpec (fields.map jsonSpec) = .ok o ∧ ∀ ops : List Op,
      parseOptions fields (submitted ((Obj.new o).run y n ops).fields []) = .ok (asDict ((Obj.new o).run y n ops).fields) := by
  obtain ⟨o, h1, h2⟩ := C43_submitted_partial fields hm hd
  refine ⟨o, h1, fun ops => ?_⟩
  obtain ⟨as, h⟩ := run_assigns y n ops (Obj.new o)
  rw [h]
  exact h2 as

theorem keys_assign (o : List (Str × CField)) (a : Str × Json) : (assign o a).map (·.1) = o.map (·.1) := by
  unfold assign setOption
  cases hl : lookup o a.1 with
  | none => rfl
  | some f =>
    dsimp only
    cases cvalidate f.kind a.2 with
    | error e => rfl
    | ok v =>
      dsimp only
      have hk := keys_set o a.1 ({ f with value := v } : CField)
      have hmem : a.1 ∈ Dict.keys o := lookup_isSome.mp (by rw [hl]; rfl)
      rw [if_pos hmem] at hk
      exact hk

/-- C183: options are never lost, added or put in another order. -/
theorem C183_names (y : Yaml) (n : Nat) (o : Obj) (ops : List Op) : (o.run y n ops).fields.map (·.1) = o.fields.map (·.1) := by
  obtain ⟨as, h⟩ := run_assigns y n ops o
  rw [h]
  clear h
  induction as generalizing o with
  | nil => rfl
  | cons a as ih =>
    have := ih ⟨assign o.fields a, o.input, o.cross⟩
    exact this.trans (keys_assign o.fields a)

/-! ### One assignment -/

/-- Two values are the same, for dictionaries up to the order of their entries. -/
def Same (a b : Json) : Prop := a = b ∨ ∃ d e, a = .obj d ∧ b = .obj e ∧ ∀ k, lookup d k = lookup e k

/-- What is needed of YAML for the dictionaries `D`: one that is written is read as the same, though perhaps in another order, which is
written as the same text, and that text is not blank; and what is read can be written. -/
structure Faithful (y : Yaml) (D : List (Str × Json) → Prop) : Prop where
  round : ∀ e d, D (e :: d) → ∃ e' d', y.load (y.dump (e :: d)) = some (.obj (e' :: d')) ∧ y.dump (e' :: d') = y.dump (e :: d) ∧
    ∀ k, lookup (e :: d) k = lookup (e' :: d') k
  text : ∀ e d, D (e :: d) → blank (y.dump (e :: d)) = false
  read : ∀ s d, y.load s = some (.obj d) → D d
  none : D []

/-- A value that is no dictionary, or one that YAML can write. -/
def Fine (D : List (Str × Json) → Prop) (v : Json) : Prop := ∀ d, v = .obj d → D d

/-- Bounds that the form keeps: for integers both or none, for floats none that is zero; the lower one is not above the upper one. -/
def Kept : CKind → Prop
  | .integer lo hi => (lo = .null ∧ hi = .null) ∨ ∃ a b : Int, lo = .num (.int a) ∧ hi = .num (.int b) ∧ a ≤ b
  | .float lo hi => (lo = .null ∨ ∃ q : Rat, lo = .num (.fin q) ∧ q ≠ 0) ∧ (hi = .null ∨ ∃ q : Rat, hi = .num (.fin q) ∧ q ≠ 0) ∧
      ∀ p q : Rat, lo = .num (.fin p) → hi = .num (.fin q) → p ≤ q
  | _ => True

/-- What can be entered in an input. -/
def Enterable : CKind → Json → Prop
  | .string, w => ∃ s, w = .str s
  | .bool, w => ∃ b, w = .bool b
  | .integer _ _, w => ∃ i, w = .num (.int i)
  | .float _ _, w => ∃ q, w = .num (.fin q)
  | .select l, w => ∃ s ∈ l, w = .str s
  | .mapping, w => ∃ s, w = .str s

/-- The same field of the server. -/
def serverKind : CKind → Kind Unit
  | .string => .string
  | .bool => .bool
  | .integer lo hi => .integer lo hi
  | .float lo hi => .float lo hi
  | .select l => .select (l.map (fun s => (s, ())))
  | .mapping => .mapping

theorem ckind_serverKind (c : CKind) : ckind (serverKind c) = c := by
  cases c with
  | select l =>
    show CKind.select (Dict.keys (l.map (fun s => (s, ())))) = CKind.select l
    congr 1
    unfold Dict.keys
    rw [List.map_map]
    exact List.map_id' l
  | _ => rfl

theorem cvalidate_idem {c : CKind} {v v' : Json} (h : cvalidate c v = .ok v') : cvalidate c v' = .ok v' := by
  rw [← ckind_serverKind c, cvalidate_eq] at h ⊢
  exact validate_idem h

theorem render_other (y : Yaml) {c : CKind} (hc : c ≠ .mapping) (v : Json) : render y c v = v := by
  unfold render
  split
  · exact absurd rfl hc
  · exact absurd rfl hc
  · rfl

theorem pyLt_num (a b : Num) : pyLt (.num a) (.num b) = .ok (Num.lt a b) := rfl

theorem lt_ninf (n : Num) : Num.lt n .ninf = false := by cases n <;> rfl

theorem pinf_lt (n : Num) : Num.lt .pinf n = false := by cases n <;> rfl

theorem clamp_valid (y : Yaml) {c : CKind} (hk : Kept c) {v v' : Json} (h : cvalidate c v = .ok v') :
    clamp c (render y c v') = render y c v' := by
  cases c with
  | integer lo hi =>
    rw [render_other y (by simp)]
    have h : cIntegerValidate lo hi v = .ok v' := h
    rw [cInteger_eq] at h
    have hb : numberValidate lo hi v = .ok v' := by
      unfold integerValidate at h
      split at h
      · exact h
      · exact h
      · cases h
    obtain ⟨rfl, h1, h2⟩ := numberValidate_ok hb
    cases v' with
    | num m =>
      cases m with
      | int i =>
        show (if lo = .null ∧ hi = .null then Json.num (.int i) else Json.num (.int (min (max i (lowInt lo)) (highInt hi)))) = _
        rcases hk with hk | ⟨a, b, rfl, rfl, hab⟩
        · rw [if_pos hk]
        · rw [if_neg (by simp)]
          have h1 : (Except.ok (Num.lt (.int i) (.int a)) : Except Err Bool) = .ok false := h1
          have h2 : (Except.ok (Num.lt (.int b) (.int i)) : Except Err Bool) = .ok false := h2
          have h1 : decide (i < a) = false := by injection h1
          have h2 : decide (b < i) = false := by injection h2
          simp only [decide_eq_false_iff_not] at h1 h2
          show Json.num (.int (min (max i a) b)) = _
          congr 2
          omega
      | _ => rfl
    | _ => rfl
  | float lo hi =>
    rw [render_other y (by simp)]
    have h : cFloatValidate lo hi v = .ok v' := h
    rw [cFloat_eq] at h
    obtain ⟨n, rfl, h1, h2⟩ : ∃ n, v' = .num n ∧ tooLow lo (.num n) = .ok false ∧ tooHigh hi (.num n) = .ok false := by
      unfold floatValidate at h
      split at h
      · obtain ⟨rfl, h1, h2⟩ := numberValidate_ok h; exact ⟨_, rfl, h1, h2⟩
      · split at h
        · cases h
        · obtain ⟨rfl, h1, h2⟩ := numberValidate_ok h; exact ⟨_, rfl, h1, h2⟩
      · obtain ⟨rfl, h1, h2⟩ := numberValidate_ok h; exact ⟨_, rfl, h1, h2⟩
      · cases h
    show (if lo = .null ∧ hi = .null then Json.num n else _) = _
    split
    · rfl
    · have hlow : Num.lt n (lowFloat lo) = false := by
        rcases hk.1 with rfl | ⟨q, rfl, hq⟩
        · exact lt_ninf n
        · have h1 : (Except.ok (Num.lt n (.fin q)) : Except Err Bool) = .ok false := h1
          show Num.lt n (if q = 0 then .ninf else .fin q) = false
          rw [if_neg hq]
          injection h1
      have hhigh : Num.lt (highFloat hi) n = false := by
        rcases hk.2.1 with rfl | ⟨q, rfl, hq⟩
        · exact pinf_lt n
        · have h2 : (Except.ok (Num.lt (.fin q) n) : Except Err Bool) = .ok false := h2
          show Num.lt (if q = 0 then .pinf else .fin q) n = false
          rw [if_neg hq]
          injection h2
      rw [hlow]
      show Json.num (if Num.lt (highFloat hi) n = true then highFloat hi else n) = _
      rw [hhigh]
      rfl
  | string => rfl
  | bool => rfl
  | select l => rfl
  | mapping => rfl

theorem set_set' {β : Type} (l : List (Str × β)) (k : Str) (x y : β) : Dict.set (Dict.set l k x) k y = Dict.set l k y := by
  induction l with
  | nil => simp [Dict.set]
  | cons e l ih =>
    by_cases h : e.1 = k
    · simp [Dict.set, h]
    · simp [Dict.set, h, ih]

theorem setOption_ok {fs : List (Str × CField)} {k : Str} {f : CField} {v v' : Json} (hl : lookup fs k = some f)
    (hv : cvalidate f.kind v = .ok v') : setOption fs k v = .ok (Dict.set fs k { f with value := v' }) := by
  unfold setOption; rw [hl]; dsimp only; rw [hv]

/-- A field is set, and its input shows it already or does not exist. -/
theorem set_stop (y : Yaml) (n : Nat) (o : Obj) (k : Str) (f : CField) (v v' : Json) (hl : lookup o.fields k = some f)
    (hk : Kept f.kind) (hv : cvalidate f.kind v = .ok v') (hi : o.input k = none ∨ o.input k = some (render y f.kind v')) :
    o.set y (n + 1) k v = (⟨Dict.set o.fields k ⟨f.kind, v'⟩, o.input, o.cross⟩, none) := by
  unfold Obj.set
  rw [setOption_ok hl hv]
  dsimp only
  have hl' : lookup (Dict.set o.fields k ⟨f.kind, v'⟩) k = some ⟨f.kind, v'⟩ := by rw [lookup_set, if_pos rfl]
  rw [hl']
  rcases hi with hi | hi
  · rw [hi]
  · rw [hi]
    dsimp only
    rw [clamp_valid y hk hv, if_pos rfl]

/-- The object after an assignment. -/
structure Assigned (y : Yaml) (o : Obj) (k : Str) (f : CField) (v' : Json) (o' : Obj) : Prop where
  fields : o'.fields = Dict.set o.fields k ⟨f.kind, v'⟩
  input : o'.input k = (o.input k).map (fun _ => render y f.kind v')
  inputs : ∀ k', k' ≠ k → o'.input k' = o.input k'
  crosses : ∀ k', k' ≠ k → o'.cross k' = o.cross k'

theorem read_back (y : Yaml) {D : List (Str × Json) → Prop} (hy : Faithful y D) (d : List (Str × Json)) (hd : D d) :
    ∃ s d', render y .mapping (.obj d) = .str s ∧ (if blank s then some (Json.obj []) else y.load s) = some (.obj d') ∧
      render y .mapping (.obj d') = .str s ∧ Same (.obj d) (.obj d') := by
  cases d with
  | nil => exact ⟨[], [], rfl, rfl, rfl, Or.inl rfl⟩
  | cons e d =>
    obtain ⟨e', d', h1, h2, h3⟩ := hy.round e d hd
    refine ⟨y.dump (e :: d), e' :: d', rfl, ?_, ?_, Or.inr ⟨_, _, rfl, rfl, h3⟩⟩
    · rw [hy.text e d hd]
      exact h1
    · show Json.str (y.dump (e' :: d')) = _
      rw [h2]

theorem mapping_ok {v v' : Json} (h : cvalidate .mapping v = .ok v') : ∃ d, v = .obj d ∧ v' = .obj d := by
  cases v with
  | obj d => exact ⟨d, rfl, by injection h with h; exact h.symm⟩
  | _ => cases h

theorem set_assigned (y : Yaml) {D : List (Str × Json) → Prop} (hy : Faithful y D) (n : Nat) (o : Obj) (k : Str) (f : CField)
    (v v' : Json) (hl : lookup o.fields k = some f) (hk : Kept f.kind) (hv : cvalidate f.kind v = .ok v') (hf : Fine D v) :
    ∃ o' v2, o.set y (n + 2) k v = (o', none) ∧ Assigned y o k f v2 o' ∧ Same v' v2 ∧ cvalidate f.kind v2 = .ok v2 := by
  by_cases hi : o.input k = none ∨ o.input k = some (render y f.kind v')
  · refine ⟨_, v', set_stop y (n + 1) o k f v v' hl hk hv hi, ⟨rfl, ?_, fun _ _ => rfl, fun _ _ => rfl⟩, Or.inl rfl, cvalidate_idem hv⟩
    rcases hi with hi | hi
    · show o.input k = _; rw [hi]; rfl
    · show o.input k = _; rw [hi]; rfl
  · obtain ⟨w, hw⟩ : ∃ w, o.input k = some w := by
      cases h : o.input k with
      | none => exact absurd (Or.inl h) hi
      | some w => exact ⟨w, rfl⟩
    have hne : ¬ render y f.kind v' = w := fun h => hi (Or.inr (by rw [hw, h]))
    have hl' : lookup (Dict.set o.fields k ⟨f.kind, v'⟩) k = some ⟨f.kind, v'⟩ := by rw [lookup_set, if_pos rfl]
    have hset : o.set y (n + 2) k v =
        handle y (fun o v => Obj.set y (n + 1) o k v)
          ((⟨Dict.set o.fields k ⟨f.kind, v'⟩, o.input, o.cross⟩ : Obj).withInput k (render y f.kind v')) k f.kind (render y f.kind v') := by
      show Obj.set y (n + 1 + 1) o k v = _
      rw [Obj.set.eq_def]
      dsimp only
      rw [setOption_ok hl hv]
      dsimp only
      rw [hl', hw]
      dsimp only
      rw [clamp_valid y hk hv, if_neg hne]
    rw [hset]
    generalize ho1 : (⟨Dict.set o.fields k ⟨f.kind, v'⟩, o.input, o.cross⟩ : Obj).withInput k (render y f.kind v') = o1
    have hl1 : lookup o1.fields k = some ⟨f.kind, v'⟩ := by rw [← ho1]; exact hl'
    have hi1 : o1.input k = some (render y f.kind v') := by rw [← ho1]; exact if_pos rfl
    have hf1 : ∀ v2, Dict.set o1.fields k ⟨f.kind, v2⟩ = Dict.set o.fields k ⟨f.kind, v2⟩ := by
      intro v2; rw [← ho1]; exact set_set' o.fields k _ _
    have hin : ∀ k', k' ≠ k → o1.input k' = o.input k' := by intro k' hk'; rw [← ho1]; exact if_neg hk'
    have hcr : o1.cross = o.cross := by rw [← ho1]; rfl
    have hstop : ∀ v2, cvalidate f.kind v2 = .ok v2 → render y f.kind v2 = render y f.kind v' →
        Obj.set y (n + 1) o1 k v2 = (⟨Dict.set o1.fields k ⟨f.kind, v2⟩, o1.input, o1.cross⟩, none) := by
      intro v2 h1 h2
      exact set_stop y n o1 k ⟨f.kind, v'⟩ v2 v2 hl1 hk h1 (Or.inr (by rw [hi1, h2]))
    have hdone : ∀ v2, render y f.kind v2 = render y f.kind v' →
        Assigned y o k f v2 ⟨Dict.set o1.fields k ⟨f.kind, v2⟩, o1.input, o1.cross⟩ := fun v2 h2 =>
      ⟨hf1 v2, by show o1.input k = _; rw [hi1, hw, ← h2]; rfl, hin, fun k' _ => by show o1.cross k' = _; rw [hcr]⟩
    by_cases hkind : f.kind = .mapping
    · rw [hkind] at hv
      obtain ⟨d, rfl, rfl⟩ := mapping_ok hv
      obtain ⟨s, d', hs, hb, hs', hsame⟩ := read_back y hy d (hf d rfl)
      have hr : render y f.kind (.obj d') = render y f.kind (.obj d) := by rw [hkind, hs, hs']
      have hval : cvalidate f.kind (.obj d') = .ok (.obj d') := by rw [hkind]; rfl
      have hst := hstop (.obj d') hval hr
      have hdn := hdone (.obj d') hr
      refine ⟨(⟨Dict.set o1.fields k ⟨f.kind, .obj d'⟩, o1.input, o1.cross⟩ : Obj).withCross k false, .obj d', ?_, ?_, hsame, hval⟩
      · have hrs : render y f.kind (.obj d) = .str s := by rw [hkind]; exact hs
        rw [hrs]
        have hh : handle y (fun o v => Obj.set y (n + 1) o k v) o1 k f.kind (.str s) =
            handle y (fun o v => Obj.set y (n + 1) o k v) o1 k .mapping (.str s) := by rw [hkind]
        rw [hh]
        unfold handle
        dsimp only
        rw [hb]
        dsimp only
        rw [hst]
      · exact ⟨hdn.fields, hdn.input, hdn.inputs, fun k' hk' => (if_neg hk').trans (hdn.crosses k' hk')⟩
    · have hh : handle y (fun o v => Obj.set y (n + 1) o k v) o1 k f.kind (render y f.kind v') = Obj.set y (n + 1) o1 k v' := by
        rw [render_other y hkind]
        cases hkk : f.kind with
        | mapping => exact absurd hkk hkind
        | _ => rfl
      rw [hh]
      exact ⟨_, v', hstop v' (cvalidate_idem hv) rfl, hdone v' rfl, Or.inl rfl, cvalidate_idem hv⟩

/-- C183, for one assignment: an option that is set can be read back as the value that the field makes of it, and the form shows it;
other options, and what the form shows of them, stay as they are. Missing: fields whose bounds the form does not keep. -/
theorem C183_set_partial (y : Yaml) {D : List (Str × Json) → Prop} (hy : Faithful y D) (n : Nat) (o : Obj) (k : Str) (f : CField)
    (v v' : Json) (hl : lookup o.fields k = some f) (hk : Kept f.kind) (hv : cvalidate f.kind v = .ok v') (hf : Fine D v) :
    ∃ o' v2, Same v' v2 ∧ o.step y (n + 2) (.setItem k v) = (o', .done) ∧ o.step y (n + 2) (.setAttr k v) = (o', .done) ∧
      (o'.step y (n + 2) (.getItem k)).2 = .value v2 ∧
      (∀ w, o'.input k = some w → w = render y f.kind v2) ∧
      ∀ k', k' ≠ k → (o'.step y (n + 2) (.getItem k')).2 = (o.step y (n + 2) (.getItem k')).2 ∧ o'.input k' = o.input k' := by
  obtain ⟨o', v2, h, ha, hsame, _⟩ := set_assigned y hy n o k f v v' hl hk hv hf
  refine ⟨o', v2, hsame, ?_, ?_, ?_, ?_, ?_⟩
  · show answer (o.set y (n + 2) k v) = _
    rw [h]; rfl
  · show (match o.set y (n + 2) k v with
      | (o', none) => (o', Res.done)
      | (o', some e) => (o', Res.raised (asAttribute e))) = _
    rw [h]
  · show o'.read k _ = _
    unfold Obj.read
    rw [ha.fields, lookup_set, if_pos rfl]
  · intro w hw
    rw [ha.input] at hw
    cases ho : o.input k with
    | none => rw [ho] at hw; cases hw
    | some x => rw [ho] at hw; exact (Option.some.inj hw).symm
  · intro k' hk'
    refine ⟨?_, ha.inputs k' hk'⟩
    show o'.read k' _ = o.read k' _
    unfold Obj.read
    rw [ha.fields, lookup_set, if_neg (fun h => hk' h.symm)]

/-- C183: an assignment that is refused, because there is no such option or the value is not allowed, raises and changes nothing, neither
the options nor the form. -/
theorem C183_refused (y : Yaml) (n : Nat) (o : Obj) (k : Str) (v : Json)
    (h : lookup o.fields k = none ∨ ∃ f e, lookup o.fields k = some f ∧ cvalidate f.kind v = .error e) :
    (∃ e, o.step y (n + 1) (.setItem k v) = (o, .raised e)) ∧ ∃ e, o.step y (n + 1) (.setAttr k v) = (o, .raised e) := by
  obtain ⟨e, he⟩ : ∃ e, o.set y (n + 1) k v = (o, some (.err e)) := by
    unfold Obj.set setOption
    rcases h with h | ⟨f, e, h1, h2⟩
    · rw [h]; exact ⟨_, rfl⟩
    · rw [h1]; dsimp only; rw [h2]; exact ⟨_, rfl⟩
  constructor
  · refine ⟨.err e, ?_⟩
    show answer (o.set y (n + 1) k v) = _
    rw [he]; rfl
  · refine ⟨asAttribute (.err e), ?_⟩
    show (match o.set y (n + 1) k v with
      | (o', none) => (o', Res.done)
      | (o', some e) => (o', Res.raised (asAttribute e))) = _
    rw [he]

/-- C183: a name that is no option raises `KeyError` as a key and `AttributeError` as an attribute, when it is read and when it is set;
`get`, `in` and `pop` answer as those of a dict, `setdefault` raises; nothing is changed. -/
theorem C183_unknown (y : Yaml) (n : Nat) (o : Obj) (k : Str) (v d : Json) (h : ∀ f, (k, f) ∉ o.fields) :
    o.step y (n + 1) (.getItem k) = (o, .raised (.err .key)) ∧
    (isMember k = false → o.step y (n + 1) (.getAttr k) = (o, .raised .noAttribute)) ∧
    o.step y (n + 1) (.setItem k v) = (o, .raised (.err .key)) ∧
    o.step y (n + 1) (.setAttr k v) = (o, .raised .noAttribute) ∧
    o.step y (n + 1) (.get k d) = (o, .value d) ∧
    o.step y (n + 1) (.contains k) = (o, .flag false) ∧
    o.step y (n + 1) (.pop k none) = (o, .raised (.err .key)) ∧
    o.step y (n + 1) (.pop k (some d)) = (o, .value d) ∧
    o.step y (n + 1) (.setDefault k v) = (o, .raised (.err .key)) := by
  have hl : lookup o.fields k = none := by
    cases hx : lookup o.fields k with
    | none => rfl
    | some f =>
      exact absurd (mem_of_lookup hx) (h f)
  have hr : ∀ e, o.read k e = .raised e := by intro e; unfold Obj.read; rw [hl]
  have hs : o.set y (n + 1) k v = (o, some (.err .key)) := by unfold Obj.set setOption; rw [hl]
  refine ⟨?_, ?_, ?_, ?_, ?_, ?_, ?_, ?_, ?_⟩
  · show (o, o.read k _) = _; rw [hr]
  · intro hm; show (o, if isMember k = true then Res.member else o.read k _) = _; rw [hm, hr]; rfl
  · show answer (o.set y (n + 1) k v) = _; rw [hs]; rfl
  · unfold Obj.step; dsimp only; rw [hs]; rfl
  · unfold Obj.step; dsimp only; rw [hr]
  · unfold Obj.step; dsimp only; rw [hr]
  · unfold Obj.step; dsimp only; rw [hr]
  · unfold Obj.step; dsimp only; rw [hr]
  · unfold Obj.step; dsimp only; rw [hr]; dsimp only; rw [hs]

/-- C183: `update` sets the options before the first that is refused, one after the other, and no others. -/
theorem C183_update (y : Yaml) (n : Nat) (o : Obj) (l r : List (Str × Json)) (k : Str) (v : Json)
    (hl : ∀ (p : List (Str × Json)) (e : Str × Json) (q : List (Str × Json)), l = p ++ e :: q →
      ((o.run y n (p.map (fun e => .setItem e.1 e.2))).step y n (.setItem e.1 e.2)).2 = .done)
    (hr : ∃ x, ((o.run y n (l.map (fun e => .setItem e.1 e.2))).step y n (.setItem k v)).2 = .raised x) :
    (o.step y n (.update (l ++ (k, v) :: r))).1 = (o.run y n ((l ++ [(k, v)]).map (fun e => .setItem e.1 e.2))) ∧
      ∃ x, (o.step y n (.update (l ++ (k, v) :: r))).2 = .raised x := by
  have answer_done : ∀ r : Obj × Option Exc, (answer r).2 = .done → r.2 = none := by
    intro r h
    unfold answer at h
    cases hr : r.2 with
    | none => rfl
    | some e => rw [hr] at h; cases h
  have answer_raised : ∀ (r : Obj × Option Exc) x, (answer r).2 = .raised x → r.2 = some x := by
    intro r x h
    unfold answer at h
    cases hr : r.2 with
    | none => rw [hr] at h; cases h
    | some e => rw [hr] at h; injection h with h; rw [h]
  have answer_fst : ∀ r : Obj × Option Exc, (answer r).1 = r.1 := by
    intro r; unfold answer; split <;> rfl
  have key : ∀ (l : List (Str × Json)) (o : Obj),
      (∀ (p : List (Str × Json)) (e : Str × Json) (q : List (Str × Json)), l = p ++ e :: q →
        ((o.run y n (p.map (fun e => .setItem e.1 e.2))).step y n (.setItem e.1 e.2)).2 = .done) →
      (∃ x, ((o.run y n (l.map (fun e => .setItem e.1 e.2))).step y n (.setItem k v)).2 = .raised x) →
      (Obj.update y n o (l ++ (k, v) :: r)).1 = (o.run y n ((l ++ [(k, v)]).map (fun e => .setItem e.1 e.2))) ∧
        ∃ x, (Obj.update y n o (l ++ (k, v) :: r)).2 = some x := by
    intro l
    induction l with
    | nil =>
      intro o _ ⟨x, hx⟩
      have hx := answer_raised _ x hx
      have hx : (o.set y n k v).2 = some x := hx
      show (Obj.update y n o ((k, v) :: r)).1 = (answer (o.set y n k v)).1 ∧ ∃ x, (Obj.update y n o ((k, v) :: r)).2 = some x
      rw [answer_fst, Obj.update.eq_def]
      dsimp only
      cases h : o.set y n k v with
      | mk o' z =>
        rw [h] at hx
        dsimp only at hx
        subst hx
        exact ⟨rfl, x, rfl⟩
    | cons e l ih =>
      obtain ⟨k1, v1⟩ := e
      intro o hl hr
      have h0 := answer_done _ (hl [] (k1, v1) l rfl)
      have h0 : (o.set y n k1 v1).2 = none := h0
      have hstep : (o.step y n (.setItem k1 v1)).1 = (o.set y n k1 v1).1 := answer_fst _
      have h1 := ih (o.set y n k1 v1).1
        (by
          intro p e q hpq
          have := hl ((k1, v1) :: p) e q (by rw [hpq]; rfl)
          have : (((o.step y n (.setItem k1 v1)).1.run y n (p.map (fun e => .setItem e.1 e.2))).step y n (.setItem e.1 e.2)).2 = .done :=
            this
          rwa [hstep] at this)
        (by
          have hr : ∃ x, (((o.step y n (.setItem k1 v1)).1.run y n (l.map (fun e => .setItem e.1 e.2))).step y n (.setItem k v)).2 =
            .raised x := hr
          rwa [hstep] at hr)
      have hu : Obj.update y n o (((k1, v1) :: l) ++ (k, v) :: r) = Obj.update y n (o.set y n k1 v1).1 (l ++ (k, v) :: r) := by
        show Obj.update y n o ((k1, v1) :: (l ++ (k, v) :: r)) = _
        rw [Obj.update.eq_def]
        dsimp only
        cases h : o.set y n k1 v1 with
        | mk o' z =>
          rw [h] at h0
          dsimp only at h0
          subst h0
          rfl
      rw [hu]
      refine ⟨h1.1.trans ?_, h1.2⟩
      show _ = (o.step y n (.setItem k1 v1)).1.run y n ((l ++ [(k, v)]).map (fun e => .setItem e.1 e.2))
      rw [hstep]
  obtain ⟨k1, x, k2⟩ := key l o hl hr
  refine ⟨?_, x, ?_⟩
  · show (answer (Obj.update y n o (l ++ (k, v) :: r))).1 = _
    rw [answer_fst]
    exact k1
  · show (answer (Obj.update y n o (l ++ (k, v) :: r))).2 = _
    unfold answer
    rw [k2]

/-! ### The form -/

/-- The form shows the options: every input without a cross shows the value of its option. -/
def Shows (y : Yaml) (o : Obj) : Prop :=
  ∀ k f w, lookup o.fields k = some f → o.input k = some w → o.cross k = false → w = render y f.kind f.value

/-- What is entered in the form is what its inputs allow, and dictionaries are such that YAML can write them. -/
def Entered (D : List (Str × Json) → Prop) (o : Obj) : Op → Prop
  | .enter k w => ∀ f, lookup o.fields k = some f → Enterable f.kind w
  | .setItem _ v => Fine D v
  | .setAttr _ v => Fine D v
  | .setDefault _ v => Fine D v
  | .update l => ∀ e ∈ l, Fine D e.2
  | _ => True

theorem clamp_entered {c : CKind} (hk : Kept c) (hc : c ≠ .mapping) {w : Json} (hw : Enterable c w) :
    cvalidate c (clamp c w) = .ok (clamp c w) := by
  cases c with
  | string => obtain ⟨s, rfl⟩ := hw; rfl
  | bool => obtain ⟨s, rfl⟩ := hw; rfl
  | select l =>
    obtain ⟨s, hs, rfl⟩ := hw
    show (if s ∈ l then (Except.ok (Json.str s) : Except Err Json) else .error .value) = _
    rw [if_pos hs]
    rfl
  | mapping => exact absurd rfl hc
  | integer lo hi =>
    obtain ⟨i, rfl⟩ := hw
    show cIntegerValidate lo hi (if lo = .null ∧ hi = .null then Json.num (.int i) else Json.num (.int (min (max i (lowInt lo)) (highInt hi)))) =
      .ok (if lo = .null ∧ hi = .null then Json.num (.int i) else Json.num (.int (min (max i (lowInt lo)) (highInt hi))))
    rcases hk with hk | ⟨a, b, rfl, rfl, hab⟩
    · rw [if_pos hk, hk.1, hk.2]
      rfl
    · rw [if_neg (by simp)]
      show cIntegerValidate _ _ (Json.num (.int (min (max i a) b))) = .ok (Json.num (.int (min (max i a) b)))
      generalize hj : min (max i a) b = j
      have h1 : a ≤ j := by omega
      have h2 : j ≤ b := by omega
      rw [cInteger_eq]
      refine numberValidate_eq (x := Json.num (.int j)) ?_ ?_
      · show (Except.ok (decide (j < a)) : Except Err Bool) = .ok false
        rw [decide_eq_false (by omega)]
      · show (Except.ok (decide (b < j)) : Except Err Bool) = .ok false
        rw [decide_eq_false (by omega)]
  | float lo hi =>
    obtain ⟨r, rfl⟩ := hw
    have hval : ∀ m : Rat, (∀ p, lo = .num (.fin p) → p ≤ m) → (∀ p, hi = .num (.fin p) → m ≤ p) →
        cFloatValidate lo hi (.num (.fin m)) = .ok (.num (.fin m)) := by
      intro m h1 h2
      rw [cFloat_eq]
      refine numberValidate_eq (x := Json.num (.fin m)) ?_ ?_
      · rcases hk.1 with rfl | ⟨q, rfl, hq⟩
        · rfl
        · have := h1 q rfl
          show (Except.ok (decide (m < q)) : Except Err Bool) = .ok false
          rw [decide_eq_false (by grind)]
      · rcases hk.2.1 with rfl | ⟨q, rfl, hq⟩
        · rfl
        · have := h2 q rfl
          show (Except.ok (decide (q < m)) : Except Err Bool) = .ok false
          rw [decide_eq_false (by grind)]
    have key : ∃ m : Rat, clamp (.float lo hi) (.num (.fin r)) = .num (.fin m) ∧ (∀ p, lo = .num (.fin p) → p ≤ m) ∧
        (∀ p, hi = .num (.fin p) → m ≤ p) := by
      rcases hk.1 with rfl | ⟨a, rfl, ha⟩
      · rcases hk.2.1 with rfl | ⟨b, rfl, hb⟩
        · exact ⟨r, rfl, fun p h => (by cases h), fun p h => by cases h⟩
        · by_cases hbr : b < r
          · refine ⟨b, ?_, fun p h => (by cases h), fun p h => by cases h; grind⟩
            simp [clamp, lowFloat, highFloat, hb, Num.lt, hbr]
          · refine ⟨r, ?_, fun p h => (by cases h), fun p h => by cases h; grind⟩
            simp [clamp, lowFloat, highFloat, hb, Num.lt, hbr]
      · rcases hk.2.1 with rfl | ⟨b, rfl, hb⟩
        · by_cases har : r < a
          · refine ⟨a, ?_, fun p h => by cases h; grind, fun p h => by cases h⟩
            simp [clamp, lowFloat, highFloat, ha, Num.lt, har]
          · refine ⟨r, ?_, fun p h => by cases h; grind, fun p h => by cases h⟩
            simp [clamp, lowFloat, highFloat, ha, Num.lt, har]
        · have hab := hk.2.2 a b rfl rfl
          by_cases har : r < a
          · refine ⟨a, ?_, fun p h => by cases h; grind, fun p h => by cases h; exact hab⟩
            have hba : ¬ b < a := by grind
            simp [clamp, lowFloat, highFloat, ha, hb, Num.lt, har, hba]
          · by_cases hbr : b < r
            · refine ⟨b, ?_, fun p h => by cases h; exact hab, fun p h => by cases h; grind⟩
              simp [clamp, lowFloat, highFloat, ha, hb, Num.lt, har, hbr]
            · refine ⟨r, ?_, fun p h => by cases h; grind, fun p h => by cases h; grind⟩
              simp [clamp, lowFloat, highFloat, ha, hb, Num.lt, har, hbr]
    obtain ⟨m, he, h1, h2⟩ := key
    rw [he]
    exact hval m h1 h2

/-- All fields have bounds that the form keeps, and values that are allowed. -/
def Good (o : Obj) : Prop := ∀ k f, lookup o.fields k = some f → Kept f.kind ∧ cvalidate f.kind f.value = .ok f.value

theorem good_set {fs : List (Str × CField)} {k : Str} {f : CField} {v v' : Json} (input : Str → Option Json) (cross : Str → Bool)
    (hg : ∀ k f, lookup fs k = some f → Kept f.kind ∧ cvalidate f.kind f.value = .ok f.value) (hl : lookup fs k = some f)
    (hv : cvalidate f.kind v = .ok v') : ∀ k' f', lookup (Dict.set fs k ⟨f.kind, v'⟩) k' = some f' →
      Kept f'.kind ∧ cvalidate f'.kind f'.value = .ok f'.value := by
  intro k' f' h
  rw [lookup_set] at h
  split at h
  · injection h with h
    subst h
    exact ⟨(hg k f hl).1, cvalidate_idem hv⟩
  · exact hg k' f' h

theorem shows_assigned {y : Yaml} {o o' : Obj} {k : Str} {f : CField} {v' : Json} (hs : ∀ k' g w, k' ≠ k → lookup o.fields k' = some g →
      o.input k' = some w → o.cross k' = false → w = render y g.kind g.value) (ha : Assigned y o k f v' o') : Shows y o' := by
  intro k' g w h1 h2 h3
  rw [ha.fields, lookup_set] at h1
  by_cases hk : k = k'
  · subst hk
    rw [if_pos rfl] at h1
    injection h1 with h1
    subst h1
    rw [ha.input] at h2
    cases ho : o.input k with
    | none => rw [ho] at h2; cases h2
    | some x => rw [ho] at h2; exact (Option.some.inj h2).symm
  · rw [if_neg hk] at h1
    have hk' : k' ≠ k := fun h => hk h.symm
    rw [ha.inputs k' hk'] at h2
    rw [ha.crosses k' hk'] at h3
    exact hs k' g w hk' h1 h2 h3

theorem set_invariant (y : Yaml) {D : List (Str × Json) → Prop} (hy : Faithful y D) (n : Nat) (o : Obj) (k : Str) (v : Json) (hf : Fine D v) (hg : Good o)
    (hs : Shows y o) :
    Good (o.set y (n + 2) k v).1 ∧ Shows y (o.set y (n + 2) k v).1 := by
  cases hl : lookup o.fields k with
  | none =>
    have : o.set y (n + 2) k v = (o, some (.err .key)) := by
      rw [Obj.set.eq_def]; dsimp only; unfold setOption; rw [hl]
    rw [this]; exact ⟨hg, hs⟩
  | some f =>
    cases hv : cvalidate f.kind v with
    | error e =>
      have : o.set y (n + 2) k v = (o, some (.err e)) := by
        rw [Obj.set.eq_def]; dsimp only; unfold setOption; rw [hl]; dsimp only; rw [hv]
      rw [this]; exact ⟨hg, hs⟩
    | ok v' =>
      obtain ⟨o', v2, h, ha, _, hv2⟩ := set_assigned y hy n o k f v v' hl (hg k f hl).1 hv hf
      rw [h]
      refine ⟨?_, shows_assigned (fun k' g w _ h1 h2 h3 => hs k' g w h1 h2 h3) ha⟩
      intro k' f' h'
      have h' : lookup o'.fields k' = some f' := h'
      rw [ha.fields] at h'
      exact good_set o.input o.cross hg hl hv2 k' f' h'

theorem enter_invariant (y : Yaml) {D : List (Str × Json) → Prop} (hy : Faithful y D) (n : Nat) (o : Obj) (k : Str) (w : Json)
    (hw : ∀ f, lookup o.fields k = some f → Enterable f.kind w) (hg : Good o) (hs : Shows y o) :
    Good (o.enter y (n + 2) k w) ∧ Shows y (o.enter y (n + 2) k w) := by
  unfold Obj.enter
  split
  · next f w0 hl hi =>
    dsimp only
    split
    · exact ⟨hg, hs⟩
    · next hne =>
      have hother : ∀ k' g x, k' ≠ k → lookup (o.withInput k (clamp f.kind w)).fields k' = some g →
          (o.withInput k (clamp f.kind w)).input k' = some x → (o.withInput k (clamp f.kind w)).cross k' = false →
          x = render y g.kind g.value := by
        intro k' g x hk' h1 h2 h3
        have h2 : (if k' = k then some (clamp f.kind w) else o.input k') = some x := h2
        rw [if_neg hk'] at h2
        exact hs k' g x h1 h2 h3
      have hin : (o.withInput k (clamp f.kind w)).input k = some (clamp f.kind w) := if_pos rfl
      have hl1 : lookup (o.withInput k (clamp f.kind w)).fields k = some f := hl
      have hkept := (hg k f hl).1
      have hent := hw f hl
      by_cases hc : f.kind = .mapping
      · rw [hc] at hent hother hin hl1 ⊢
        obtain ⟨s, rfl⟩ := hent
        have hcross : ∀ o1 : Obj, o1.fields = o.fields → (∀ k', k' ≠ k → o1.input k' = o.input k') →
            (∀ k', k' ≠ k → o1.cross k' = o.cross k') → Good (o1.withCross k true) ∧ Shows y (o1.withCross k true) := by
          intro o1 e1 e2 e3
          refine ⟨fun k' f' h => hg k' f' (by rw [← e1]; exact h), ?_⟩
          intro k' g x h1 h2 h3
          have h3 : (if k' = k then true else o1.cross k') = false := h3
          by_cases hk' : k' = k
          · rw [if_pos hk'] at h3; cases h3
          · rw [if_neg hk', e3 k' hk'] at h3
            have h2 : o1.input k' = some x := h2
            rw [e2 k' hk'] at h2
            exact hs k' g x (by rw [← e1]; exact h1) h2 h3
        show Good (handle y _ (o.withInput k (.str s)) k .mapping (.str s)).1 ∧ Shows y (handle y _ (o.withInput k (.str s)) k .mapping (.str s)).1
        unfold handle
        dsimp only
        cases hread : (if blank s = true then some (Json.obj []) else y.load s) with
        | none =>
          dsimp only
          exact hcross _ rfl (fun k' hk' => if_neg hk') (fun _ _ => rfl)
        | some d =>
          dsimp only
          cases hv : cvalidate .mapping d with
          | error e =>
            have : (o.withInput k (.str s)).set y (n + 2) k d = (o.withInput k (.str s), some (.err e)) := by
              rw [Obj.set.eq_def]; dsimp only; unfold setOption
              have hl1 : lookup (o.withInput k (.str s)).fields k = some f := hl1
              rw [hl1]; dsimp only; rw [hc, hv]
            rw [this]
            dsimp only
            exact hcross _ rfl (fun k' hk' => if_neg hk') (fun _ _ => rfl)
          | ok v' =>
            have hfine : Fine D d := by
              intro d' hd'
              rw [hd'] at hread
              split at hread
              · have e := Option.some.inj hread
                injection e with e
                rw [← e]
                exact hy.none
              · exact hy.read s d' hread
            obtain ⟨o', v2, h, ha, _, hv2⟩ := set_assigned y hy n (o.withInput k (.str s)) k f d v' hl1 hkept (by rw [hc]; exact hv) hfine
            rw [h]
            dsimp only
            have ha' : Assigned y (o.withInput k (.str s)) k f v2 (o'.withCross k false) :=
              ⟨ha.fields, ha.input, ha.inputs, fun k' hk' => (if_neg hk').trans (ha.crosses k' hk')⟩
            refine ⟨?_, shows_assigned hother ha'⟩
            intro k' f' h'
            have h' : lookup o'.fields k' = some f' := h'
            rw [ha.fields] at h'
            exact good_set o.input o.cross hg hl hv2 k' f' h'
      · have hv := clamp_entered hkept hc hent
        have hh : handle y (fun o v => Obj.set y (n + 2) o k v) (o.withInput k (clamp f.kind w)) k f.kind (clamp f.kind w) =
            (o.withInput k (clamp f.kind w)).set y (n + 2) k (clamp f.kind w) := by
          cases hkind : f.kind with
          | mapping => exact absurd hkind hc
          | _ => rfl
        rw [hh]
        have hfine : Fine D (clamp f.kind w) := by
          intro d hd
          rw [hd] at hv
          cases hkind : f.kind with
          | mapping => exact absurd hkind hc
          | _ => rw [hkind] at hv; cases hv
        obtain ⟨o', v2, h, ha, _, hv2⟩ := set_assigned y hy n (o.withInput k (clamp f.kind w)) k f _ _ hl1 hkept hv hfine
        rw [h]
        refine ⟨?_, shows_assigned hother ha⟩
        intro k' f' h'
        have h' : lookup o'.fields k' = some f' := h'
        rw [ha.fields] at h'
        exact good_set o.input o.cross hg hl hv2 k' f' h'
  · exact ⟨hg, hs⟩

theorem update_invariant (y : Yaml) {D : List (Str × Json) → Prop} (hy : Faithful y D) (n : Nat) (l : List (Str × Json)) (o : Obj)
    (hf : ∀ e ∈ l, Fine D e.2) (hg : Good o) (hs : Shows y o) :
    Good (Obj.update y (n + 2) o l).1 ∧ Shows y (Obj.update y (n + 2) o l).1 := by
  induction l generalizing o with
  | nil => exact ⟨hg, hs⟩
  | cons e l ih =>
    obtain ⟨k, v⟩ := e
    obtain ⟨h1, h2⟩ := set_invariant y hy n o k v (hf (k, v) List.mem_cons_self) hg hs
    rw [Obj.update.eq_def]
    dsimp only
    cases hr : o.set y (n + 2) k v with
    | mk o' x =>
      rw [hr] at h1 h2
      cases x with
      | none => exact ih o' (fun e he => hf e (List.mem_cons_of_mem _ he)) h1 h2
      | some e => exact ⟨h1, h2⟩

theorem step_invariant (y : Yaml) {D : List (Str × Json) → Prop} (hy : Faithful y D) (n : Nat) (o : Obj) (op : Op) (he : Entered D o op) (hg : Good o) (hs : Shows y o) :
    Good (o.step y (n + 2) op).1 ∧ Shows y (o.step y (n + 2) op).1 := by
  cases op with
  | setItem k v =>
    have := set_invariant y hy n o k v he hg hs
    show Good (answer (o.set y (n + 2) k v)).1 ∧ Shows y (answer (o.set y (n + 2) k v)).1
    unfold answer
    split <;> exact this
  | setAttr k v =>
    have := set_invariant y hy n o k v he hg hs
    unfold Obj.step
    dsimp only
    cases hr : o.set y (n + 2) k v with
    | mk o' x => rw [hr] at this; cases x <;> exact this
  | update l =>
    have := update_invariant y hy n l o he hg hs
    show Good (answer (Obj.update y (n + 2) o l)).1 ∧ Shows y (answer (Obj.update y (n + 2) o l)).1
    unfold answer
    split <;> exact this
  | setDefault k v =>
    have := set_invariant y hy n o k v he hg hs
    unfold Obj.step
    dsimp only
    split
    · exact ⟨hg, hs⟩
    · cases hr : o.set y (n + 2) k v with
      | mk o' x => rw [hr] at this; cases x <;> exact this
  | display =>
    refine ⟨hg, ?_⟩
    intro k f w h1 h2 h3
    have h1 : lookup o.fields k = some f := h1
    have h2 : (match o.input k with
      | some w => some w
      | none => (lookup o.fields k).map (fun f => clamp f.kind (render y f.kind f.value))) = some w := h2
    cases hi : o.input k with
    | some x => rw [hi] at h2; exact hs k f w h1 (hi.trans h2) h3
    | none =>
      rw [hi, h1] at h2
      have h2 : clamp f.kind (render y f.kind f.value) = w := Option.some.inj h2
      obtain ⟨hk, hv⟩ := hg k f h1
      rw [← h2, clamp_valid y hk hv]
  | enter k w => exact enter_invariant y hy n o k w he hg hs
  | get k d => unfold Obj.step; dsimp only; split <;> exact ⟨hg, hs⟩
  | contains k => unfold Obj.step; dsimp only; split <;> exact ⟨hg, hs⟩
  | pop k d => unfold Obj.step; dsimp only; split <;> exact ⟨hg, hs⟩
  | _ => exact ⟨hg, hs⟩

/-- All that is entered in a history is what the inputs allow. -/
def AllEntered (D : List (Str × Json) → Prop) (y : Yaml) (n : Nat) : Obj → List Op → Prop
  | _, [] => True
  | o, op :: ops => Entered D o op ∧ AllEntered D y n (o.step y n op).1 ops

/-- C183, for the form: whatever was done with the object and entered in the form before, in any order, every input without a cross
shows the option as it will be sent. Missing: fields whose bounds the form does not keep. -/
theorem C183_form_partial (y : Yaml) {D : List (Str × Json) → Prop} (hy : Faithful y D) (n : Nat) (fields : List (Str × CField)) (hg : Good (Obj.new fields))
    (ops : List Op) (he : AllEntered D y (n + 2) (Obj.new fields) ops) : Shows y ((Obj.new fields).run y (n + 2) ops) := by
  have key : ∀ (ops : List Op) (o : Obj), Good o → Shows y o → AllEntered D y (n + 2) o ops → Shows y (o.run y (n + 2) ops) := by
    intro ops
    induction ops with
    | nil => intro o _ hs _; exact hs
    | cons op ops ih =>
      intro o hg hs he
      obtain ⟨h1, h2⟩ := step_invariant y hy n o op he.1 hg hs
      exact ih _ h1 h2 he.2
  exact key ops _ hg (fun k f w _ h _ => by cases h) he

/-- C183: an option can be read as an attribute, unless it is called like an attribute of the object. -/
theorem C183_attribute_partial (y : Yaml) (n : Nat) (o : Obj) (k : Str) (f : CField) (hl : lookup o.fields k = some f)
    (hk : isMember k = false) : o.step y n (.getAttr k) = (o, .value f.value) := by
  show (o, if isMember k = true then Res.member else o.read k .noAttribute) = _
  rw [hk]
  unfold Obj.read
  rw [hl]
  rfl

end Verif.Options

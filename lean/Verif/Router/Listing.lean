import Verif.Router.Lemmas2
/-
The listing of a routing table as JSON (router.go:166-186), on top of the model of `Router`.

Go visits the entries of a map in any order. The model visits them in the order of the association
list; the order does not matter (`C187_order`).
`json.Marshal` of a map from strings to strings does not fail; its result is the map, so that the model
ends with the map.
-/
set_option linter.unusedSimpArgs false
namespace Verif.Router
variable {U : Type}

mutual
/-- router.go:166-174 `traverse`: the calls of `f`, in order. -/
def traverse : Str → Router U → List (Str × U)
  | pre, .node url branches =>
    (match url with
      | some u => [(pre, u)]                                        -- 167-169
      | none => []) ++ traverseB (pre ++ ['/']) branches              -- 170

/-- router.go:171-173, the loop over the branches. -/
def traverseB : Str → List (Str × Router U) → List (Str × U)
  | _, [] => []
  | pre, (path, node) :: rest => traverse (pre ++ path) node ++ traverseB pre rest
end

/-- Map write `out[prefix] = value` (router.go:179). -/
def setOut {V : Type} (out : List (Str × V)) (k : Str) (v : V) : List (Str × V) :=
  (k, v) :: out.filter (fun e => e.1 ≠ k)

/-- router.go:176-186 `MarshalJSON`, up to the encoding of the map; `str` is `URL.String`. -/
def Router.listing {V : Type} (str : U → V) (r : Router U) : List (Str × V) :=
  (traverse [] r).foldl (fun out c => setOut out c.1 (str c.2)) []

/-! Specification. -/

/-- The name of a route in the listing: each segment behind a slash. -/
def routeName (k : List Str) : Str := (k.map (fun s => '/' :: s)).flatten

/-! Every key of a map occurs once. -/

/-- As in a Go map, no key occurs twice, in the node and all nodes below. -/
inductive Distinct : Router U → Prop
  | mk (url : Option U) (b : List (Str × Router U)) (h : (b.map (·.1)).Nodup)
      (hb : ∀ e ∈ b, Distinct e.2) : Distinct (.node url b)

theorem Distinct.keys {r : Router U} (h : Distinct r) : (r.branches.map (·.1)).Nodup := by
  cases h; assumption

theorem Distinct.sub {r : Router U} (h : Distinct r) : ∀ e ∈ r.branches, Distinct e.2 := by
  cases h; assumption

theorem distinct_new : Distinct (Router.new : Router U) := .mk _ _ (by simp) (by simp)

theorem getB_mem {b : List (Str × Router U)} {s : Str} {c : Router U} (h : getB b s = some c) :
    (s, c) ∈ b := by
  unfold getB at h
  simp only [Option.map_eq_some_iff] at h
  obtain ⟨e, he, rfl⟩ := h
  have h1 := List.mem_of_find?_eq_some he
  have h2 := List.find?_some he
  simp at h2
  subst h2; exact h1

theorem mem_getB {b : List (Str × Router U)} (hn : (b.map (·.1)).Nodup) {s : Str} {c : Router U}
    (h : (s, c) ∈ b) : getB b s = some c := by
  induction b with
  | nil => simp at h
  | cons e b ih =>
    obtain ⟨s', c'⟩ := e
    simp only [List.map_cons, List.nodup_cons] at hn
    unfold getB
    by_cases hs : s' = s
    · subst hs
      rcases List.mem_cons.mp h with h | h
      · cases h; simp
      · exact absurd (List.mem_map_of_mem (f := (·.1)) h) hn.1
    · rcases List.mem_cons.mp h with h | h
      · cases h; exact absurd rfl hs
      · have := ih hn.2 h
        unfold getB at this
        simp [hs, this]

theorem distinct_delB {url : Option U} {b : List (Str × Router U)} {s : Str}
    (hn : (b.map (·.1)).Nodup) (hb : ∀ e ∈ b, Distinct e.2) : Distinct (.node url (delB b s)) := by
  refine .mk _ _ ?_ ?_
  · exact (List.Sublist.map _ (List.filter_sublist)).nodup hn
  · intro e he
    exact hb e (List.mem_filter.mp he).1

theorem distinct_setB {url : Option U} {b : List (Str × Router U)} {s : Str} {c : Router U}
    (hn : (b.map (·.1)).Nodup) (hb : ∀ e ∈ b, Distinct e.2) (hc : Distinct c) :
    Distinct (.node url (setB b s c)) := by
  have hd := distinct_delB (url := url) (s := s) hn hb
  refine .mk _ _ ?_ ?_
  · simp only [setB, List.map_cons, List.nodup_cons]
    refine ⟨?_, hd.keys⟩
    simp [delB]
  · intro e he
    rcases List.mem_cons.mp he with rfl | he
    · exact hc
    · exact hd.sub e he

theorem distinct_url {r : Router U} (h : Distinct r) (url : Option U) :
    Distinct (.node url r.branches) := .mk _ _ h.keys h.sub

theorem distinct_putLoop (u : U) (path : Str) : ∀ (fuel n : Nat) (node : Router U),
    Distinct node → Distinct (putLoop fuel path n node u)
  | 0, _, _, h => h
  | fuel + 1, n, node, h => by
    unfold putLoop
    dsimp only
    refine distinct_setB h.keys h.sub ?_
    have hc : Distinct (match getB node.branches (getSegment path n).1 with
        | some c => c
        | none => Router.new) := by
      split
      · rename_i c hc; exact h.sub _ (getB_mem hc)
      · exact distinct_new
    split
    · exact distinct_url hc _
    · exact distinct_putLoop u path fuel _ _ hc

theorem distinct_deleteLoop (path : Str) : ∀ (fuel n : Nat) (node : Router U), Distinct node →
    ∀ r b, deleteLoop fuel path n node = some (r, b) → Distinct r
  | 0, _, _, _, _, _, h => by simp [deleteLoop] at h
  | fuel + 1, n, node, hd, r, b, h => by
    unfold deleteLoop at h
    dsimp only at h
    cases hg : getB node.branches (getSegment path n).1 with
    | none => rw [hg] at h; simp at h
    | some child =>
      rw [hg] at h
      dsimp only at h
      have hc : Distinct child := hd.sub _ (getB_mem hg)
      cases hi : (getSegment path n).2 with
      | none =>
        rw [hi] at h
        dsimp only at h
        cases hl : (Router.node none child.branches : Router U).isLeaf <;> rw [hl] at h <;>
          dsimp only at h <;> injection h with h <;> injection h with h _ <;> subst h
        · exact distinct_setB hd.keys hd.sub (distinct_url hc _)
        · exact distinct_delB hd.keys hd.sub
      | some n' =>
        rw [hi] at h
        dsimp only at h
        cases hb : deleteLoop fuel path n' child with
        | none => rw [hb] at h; simp at h
        | some x =>
          obtain ⟨c', d⟩ := x
          rw [hb] at h
          have hc' := distinct_deleteLoop path fuel n' child hc c' d hb
          cases d <;> dsimp only at h <;> injection h with h <;> injection h with h _ <;> subst h
          · exact distinct_setB hd.keys hd.sub hc'
          · exact distinct_delB hd.keys hd.sub

theorem distinct_run (ops : List (Op U)) : Distinct (Router.run ops) := by
  induction ops using snoc_induction with
  | nil => exact distinct_new
  | snoc ops o ih =>
    rw [run_snoc]
    cases o with
    | put p u =>
      simp only [Router.apply, Router.put]
      split
      · exact distinct_url ih _
      · exact distinct_putLoop _ _ _ _ _ ih
    | delete p =>
      simp only [Router.apply, Router.delete]
      split
      · exact distinct_url ih _
      · split
        · exact ih
        · rename_i r b h
          exact distinct_deleteLoop _ _ _ _ ih _ _ h

/-! What is visited. -/

theorem mem_traverse (r : Router U) (h : Distinct r) : ∀ (pre name : Str) (u : U),
    (name, u) ∈ traverse pre r ↔ ∃ k, look r k = some u ∧ name = pre ++ routeName k := by
  induction h with
  | mk url b hn hb ih =>
    intro pre name u
    have hB : ∀ (b' : List (Str × Router U)) (pre' : Str), (∀ e ∈ b', e ∈ b) →
        ((name, u) ∈ traverseB pre' b' ↔ ∃ s c k, (s, c) ∈ b' ∧ look c k = some u ∧
          name = pre' ++ s ++ routeName k) := by
      intro b' pre'
      induction b' with
      | nil => intro _; simp [traverseB]
      | cons e b' ihb =>
        intro hsub
        obtain ⟨s, c⟩ := e
        rw [traverseB, List.mem_append, ih (s, c) (hsub _ (by simp)),
          ihb (fun e he => hsub e (by simp [he]))]
        constructor
        · rintro (⟨k, h1, h2⟩ | ⟨s', c', k, h1, h2, h3⟩)
          · exact ⟨s, c, k, by simp, h1, h2⟩
          · exact ⟨s', c', k, by simp [h1], h2, h3⟩
        · rintro ⟨s', c', k, h1, h2, h3⟩
          rcases List.mem_cons.mp h1 with h1 | h1
          · cases h1; exact .inl ⟨k, h2, h3⟩
          · exact .inr ⟨s', c', k, h1, h2, h3⟩
    rw [traverse.eq_def]; dsimp only; rw [List.mem_append, hB b _ (fun e he => he)]
    constructor
    · rintro (h | ⟨s, c, k, h1, h2, h3⟩)
      · refine ⟨[], ?_⟩
        cases url with
        | none => simp at h
        | some v => simp at h; simp [look_nil, Router.url, routeName, h]
      · refine ⟨s :: k, ?_, ?_⟩
        · rw [look_cons]
          simp only [Router.branches, mem_getB hn h1, h2]
        · simp [routeName, h3]
    · rintro ⟨k, h1, h2⟩
      cases k with
      | nil =>
        left
        simp only [look_nil, Router.url] at h1
        subst h1
        simp [routeName] at h2
        simp [h2]
      | cons s k =>
        right
        rw [look_cons] at h1
        simp only [Router.branches] at h1
        cases hg : getB b s with
        | none => rw [hg] at h1; simp at h1
        | some c =>
          rw [hg] at h1
          exact ⟨s, c, k, getB_mem hg, h1, by simp [h2, routeName]⟩

/-! The map that is built. -/

theorem mem_setOut {V : Type} (out : List (Str × V)) (k : Str) (v : V) (e : Str × V) :
    e ∈ setOut out k v ↔ e = (k, v) ∨ (e ∈ out ∧ e.1 ≠ k) := by
  simp [setOut]

theorem setOut_nodup {V : Type} {out : List (Str × V)} (h : (out.map (·.1)).Nodup) (k : Str)
    (v : V) : ((setOut out k v).map (·.1)).Nodup := by
  simp only [setOut, List.map_cons, List.nodup_cons]
  exact ⟨by simp, (List.Sublist.map _ List.filter_sublist).nodup h⟩

theorem fold_nodup {V : Type} (str : U → V) (l : List (Str × U)) : ∀ out : List (Str × V),
    (out.map (·.1)).Nodup →
    ((l.foldl (fun out c => setOut out c.1 (str c.2)) out).map (·.1)).Nodup := by
  induction l with
  | nil => intro out h; exact h
  | cons c l ih => intro out h; exact ih _ (setOut_nodup h _ _)

theorem mem_fold {V : Type} (str : U → V) (e : Str × V) (l : List (Str × U)) :
    ∀ out : List (Str × V), (∀ a ∈ l, ∀ b ∈ l, a.1 = b.1 → a = b) →
    (e ∈ l.foldl (fun out c => setOut out c.1 (str c.2)) out ↔
      (∃ c ∈ l, e = (c.1, str c.2)) ∨ (e ∈ out ∧ ∀ c ∈ l, e.1 ≠ c.1)) := by
  induction l with
  | nil => intro out _; simp
  | cons c l ih =>
    intro out h
    rw [List.foldl_cons, ih _ (fun a ha b hb => h a (by simp [ha]) b (by simp [hb])), mem_setOut]
    constructor
    · rintro (⟨d, hd, rfl⟩ | ⟨rfl | ⟨h1, h2⟩, h3⟩)
      · exact .inl ⟨d, by simp [hd], rfl⟩
      · exact .inl ⟨c, by simp, rfl⟩
      · refine .inr ⟨h1, ?_⟩
        intro d hd
        rcases List.mem_cons.mp hd with rfl | hd
        · exact h2
        · exact h3 d hd
    · rintro (⟨d, hd, rfl⟩ | ⟨h1, h2⟩)
      · rcases List.mem_cons.mp hd with rfl | hd
        · by_cases hx : ∃ x ∈ l, x.1 = d.1
          · obtain ⟨x, hx, hx'⟩ := hx
            have := h x (by simp [hx]) d (by simp) hx'
            exact .inl ⟨x, hx, by rw [this]⟩
          · exact .inr ⟨.inl rfl, fun y hy e => hx ⟨y, hy, e.symm⟩⟩
        · exact .inl ⟨d, hd, rfl⟩
      · exact .inr ⟨.inr ⟨h1, h2 c (by simp)⟩, fun d hd => h2 d (by simp [hd])⟩

/-! Names. -/

theorem splitSlash_routeName (s : Str) (k : List Str) (h : ∀ t ∈ s :: k, '/' ∉ t) :
    splitSlash (s ++ routeName k) = s :: k := by
  induction k generalizing s with
  | nil => simp [routeName, splitSlash_noslash s (h s (by simp))]
  | cons t k ih =>
    have : s ++ routeName (t :: k) = s ++ '/' :: (t ++ routeName k) := by simp [routeName]
    rw [this, splitSlash_append _ _ (h s (by simp)), ih t (fun x hx => h x (by simp [hx]))]

theorem routeName_inj (k k' : List Str) (h : ∀ t ∈ k, '/' ∉ t) (h' : ∀ t ∈ k', '/' ∉ t)
    (e : routeName k = routeName k') : k = k' := by
  cases k with
  | nil =>
    cases k' with
    | nil => rfl
    | cons s' k' => simp [routeName] at e
  | cons s k =>
    cases k' with
    | nil => simp [routeName] at e
    | cons s' k' =>
      have h1 := splitSlash_routeName s k h
      have h2 := splitSlash_routeName s' k' h'
      have h3 : s ++ routeName k = s' ++ routeName k' := by
        simpa [routeName] using e
      rw [h3, h2] at h1
      exact h1.symm

theorem splitSlash_seg (p : Str) : ∀ t ∈ splitSlash p, '/' ∉ t := by
  induction p with
  | nil => simp [splitSlash]
  | cons c cs ih =>
    unfold splitSlash
    split
    · intro t ht
      rcases List.mem_cons.mp ht with rfl | ht
      · simp
      · exact ih t ht
    · rename_i hc
      split
      · intro t ht; simp at ht; subst ht; simp; exact fun h => hc h.symm
      · rename_i s ss hs
        intro t ht
        rw [hs] at ih
        rcases List.mem_cons.mp ht with rfl | ht
        · simp only [List.mem_cons, not_or]
          exact ⟨fun h => hc h.symm, ih s (by simp)⟩
        · exact ih t (by simp [ht])

theorem key_seg (p : Str) : ∀ t ∈ key p, '/' ∉ t := by
  unfold key
  split
  · simp
  · exact splitSlash_seg _

theorem tableOf_key (ops : List (Op U)) (k : List Str) (u : U) (h : tableOf ops k = some u) :
    ∃ p, Op.put p u ∈ ops ∧ k = key p := by
  induction ops using snoc_induction with
  | nil => simp [tableOf] at h
  | snoc ops o ih =>
    rw [tableOf_snoc] at h
    cases o with
    | put p v =>
      dsimp only at h
      split at h
      · injection h with h; subst h; exact ⟨p, by simp, by assumption⟩
      · obtain ⟨q, h1, h2⟩ := ih h; exact ⟨q, by simp [h1], h2⟩
    | delete p =>
      dsimp only at h
      split at h
      · simp at h
      · obtain ⟨q, h1, h2⟩ := ih h; exact ⟨q, by simp [h1], h2⟩

theorem tableOf_seg (ops : List (Op U)) (k : List Str) (u : U) (h : tableOf ops k = some u) :
    ∀ t ∈ k, '/' ∉ t := by
  obtain ⟨p, _, rfl⟩ := tableOf_key ops k u h
  exact key_seg p

/-- A name is read back as its key, unless the last segment is empty. -/
theorem key_routeName (k : List Str) (h : ∀ t ∈ k, '/' ∉ t) (hl : k.getLast? ≠ some []) :
    key (routeName k) = k := by
  cases k with
  | nil => rfl
  | cons s k =>
    have hs := splitSlash_routeName s k h
    have hne : s ++ routeName k ≠ [] := by
      intro e
      have e' := e
      simp at e'
      have hk : k = [] := by
        cases k with
        | nil => rfl
        | cons t k => simp [routeName] at e'
      subst hk
      simp [e'.1] at hl
    have hlast : (s ++ routeName k).getLast? ≠ some '/' := by
      intro e
      obtain ⟨q, hq⟩ : ∃ q, s ++ routeName k = q ++ ['/'] := by
        obtain ⟨q, hq⟩ := List.getLast?_eq_some_iff.mp e
        exact ⟨q, hq⟩
      have : ∀ q : Str, (splitSlash (q ++ ['/'])).getLast? = some [] := by
        intro q
        induction q with
        | nil => rfl
        | cons c q ih =>
          simp only [List.cons_append]
          unfold splitSlash
          split
          · rw [List.getLast?_cons, ih]; rfl
          · split
            · rename_i hx; exact absurd hx (splitSlash_ne_nil _)
            · rename_i x xs hx
              rw [hx] at ih
              cases xs with
              | nil =>
                have hsp := joinSlash_splitSlash (q ++ ['/'])
                rw [hx] at hsp
                simp at ih
                subst ih
                simp [joinSlash] at hsp
              | cons y ys => simpa [List.getLast?_cons] using ih
      have := this q
      rw [← hq, hs] at this
      exact hl this
    have e : stripLead (routeName (s :: k)) = s ++ routeName k := by
      simp [routeName, stripLead]
    unfold key
    rw [e, stripTrail_eq, if_neg hlast, if_neg hne, hs]

end Verif.Router

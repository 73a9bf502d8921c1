import Verif.Router.Spec
set_option linter.unusedSectionVars false
set_option linter.unusedSimpArgs false
set_option linter.unusedVariables false
namespace Verif.Router
variable {U : Type}

/-! ### Strings -/

theorem splitSlash_ne_nil (p : Str) : splitSlash p ≠ [] := by
  cases p with
  | nil => simp [splitSlash]
  | cons c cs => unfold splitSlash; split; · simp
                 · split <;> simp

theorem splitSlash_noslash : ∀ (p : Str), '/' ∉ p → splitSlash p = [p]
  | [], _ => rfl
  | c :: cs, h => by
    simp at h
    have := splitSlash_noslash cs h.2
    unfold splitSlash
    rw [if_neg (fun e => h.1 e.symm), this]

theorem splitSlash_append : ∀ (a b : Str), '/' ∉ a → splitSlash (a ++ '/' :: b) = a :: splitSlash b
  | [], b, _ => by simp [splitSlash]
  | c :: cs, b, h => by
    simp at h
    have := splitSlash_append cs b h.2
    simp only [List.cons_append]
    rw [splitSlash, if_neg (fun e => h.1 e.symm), this]

theorem idxOf?_some {p : Str} {e : Nat} (h : p.idxOf? '/' = some e) :
    ∃ b, p = p.take e ++ '/' :: b ∧ '/' ∉ p.take e ∧ p.drop (e + 1) = b ∧ e < p.length := by
  induction p generalizing e with
  | nil => simp at h
  | cons c cs ih =>
    rw [List.idxOf?_cons] at h
    by_cases hc : c = '/'
    · subst hc; simp at h; subst h; exact ⟨cs, by simp⟩
    · simp [hc] at h
      obtain ⟨e', he', rfl⟩ := h
      obtain ⟨b, h1, h2, h3, h4⟩ := ih he'
      refine ⟨b, ?_, ?_, ?_, ?_⟩
      · simp; exact h1
      · simp; exact ⟨fun h => hc h.symm, h2⟩
      · simpa using h3
      · simp; exact h4

theorem idxOf?_none {p : Str} (h : p.idxOf? '/' = none) : '/' ∉ p := by
  simpa using h

/-- The two outcomes of `getSegment` on a non-empty path. -/
theorem getSegment_cases (path : Str) (hp : path ≠ []) (n : Nat) :
    (getSegment path n = (path.drop n, none) ∧ splitSlash (path.drop n) = [path.drop n]) ∨
    (∃ e, getSegment path n = ((path.drop n).take e, some (n + e + 1)) ∧
      splitSlash (path.drop n) = (path.drop n).take e :: splitSlash (path.drop (n + e + 1)) ∧
      path.drop n = (path.drop n).take e ++ '/' :: path.drop (n + e + 1) ∧
      n + e + 1 ≤ path.length ∧ e = ((path.drop n).take e).length) := by
  have hl : path.length ≠ 0 := by simpa using hp
  unfold getSegment
  rw [if_neg hl]
  cases h : (path.drop n).idxOf? '/' with
  | none => left; exact ⟨rfl, splitSlash_noslash _ (idxOf?_none h)⟩
  | some e =>
    right
    obtain ⟨b, h1, h2, h3, h4⟩ := idxOf?_some h
    rw [List.drop_drop] at h3
    have h3' : path.drop (n + e + 1) = b := by rw [← h3]; congr 1
    refine ⟨e, rfl, ?_, ?_, ?_, ?_⟩
    · rw [h3']
      conv => lhs; rw [h1]
      exact splitSlash_append _ _ h2
    · rw [h3']; exact h1
    · simp at h4; omega
    · simp at h4 ⊢; omega

@[simp] theorem url_node (u : Option U) (b) : (Router.node u b).url = u := rfl
@[simp] theorem branches_node (u : Option U) (b) : (Router.node u b).branches = b := rfl
@[simp] theorem url_new : (Router.new : Router U).url = none := rfl
@[simp] theorem branches_new : (Router.new : Router U).branches = [] := rfl

/-! ### Branch maps -/

@[simp] theorem getB_setB (b : List (Str × Router U)) (x y : Str) (c : Router U) :
    getB (setB b x c) y = if y = x then some c else getB b y := by
  by_cases h : y = x
  · subst h; simp [setB, getB]
  · have h' : ¬ x = y := fun e => h e.symm
    simp only [setB, getB, List.find?_cons, h', decide_false, h, if_false]
    congr 1
    unfold delB
    induction b with
    | nil => rfl
    | cons e b ih =>
      by_cases he : e.1 = x
      · have : ¬ e.1 = y := by rw [he]; exact h'
        simp only [List.filter_cons, he, ne_eq, not_true_eq_false, decide_false, if_false,
          List.find?_cons, Bool.false_eq_true]
        rw [ih]; simp [h']
      · simp only [List.filter_cons, he, ne_eq, not_false_eq_true, decide_true, if_true,
          List.find?_cons]
        rw [ih]

@[simp] theorem getB_delB (b : List (Str × Router U)) (x y : Str) :
    getB (delB b x) y = if y = x then none else getB b y := by
  have := getB_setB b x y (.node none [])
  by_cases h : y = x
  · subst h; simp [delB, getB]
  · have h' : ¬ x = y := fun e => h e.symm
    rw [if_neg h] at this
    rw [if_neg h, ← this]
    simp [setB, getB, h']

/-! ### Nodes -/

/-- The target stored at `k`. -/
def look (r : Router U) (k : List Str) : Option U := (walk r k).bind (·.url)

@[simp] theorem look_nil (r : Router U) : look r [] = r.url := rfl

theorem look_cons (r : Router U) (s : Str) (k : List Str) :
    look r (s :: k) = match getB r.branches s with
      | none => none
      | some c => look c k := by
  unfold look
  simp only [walk]
  cases getB r.branches s <;> rfl

theorem putLoop_look (path : Str) (hp : path ≠ []) (u : U) :
    ∀ (fuel n : Nat) (node : Router U), n ≤ path.length → path.length < fuel + n →
      ∀ k, look (putLoop fuel path n node u) k =
        if k = splitSlash (path.drop n) then some u else look node k
  | 0, n, node, h1, h2, k => by omega
  | fuel + 1, n, node, h1, h2, k => by
    unfold putLoop
    rcases getSegment_cases path hp n with ⟨e1, e2⟩ | ⟨e, e1, e2, -, e4, -⟩
    · rw [e1, e2]
      cases k with
      | nil => simp
      | cons s k =>
        rw [look_cons]
        simp only [branches_node, getB_setB]
        by_cases hs : s = path.drop n
        · subst hs
          simp only [if_true]
          cases k with
          | nil => simp
          | cons s' k =>
            rw [look_cons, look_cons]
            cases hg : getB node.branches (path.drop n) <;> simp [hg, getB, look_cons]
        · simp only [hs, if_false]
          rw [look_cons]; simp [hs]
    · rw [e1, e2]
      cases k with
      | nil => simp
      | cons s k =>
        rw [look_cons]
        simp only [branches_node, getB_setB]
        by_cases hs : s = (path.drop n).take e
        · subst hs
          simp only [if_true]
          rw [putLoop_look path hp u fuel (n + e + 1) _ e4 (by omega)]
          rw [look_cons]
          simp only [List.cons.injEq, true_and]
          cases hg : getB node.branches ((path.drop n).take e) with
          | some c => simp
          | none =>
            have : ∀ k, look (Router.new : Router U) k = none := by
              intro k; cases k <;> simp [look_cons, getB]
            simp [this]
        · simp only [hs, if_false]
          rw [look_cons]; simp [hs]

theorem deleteLoop_look (path : Str) (hp : path ≠ []) :
    ∀ (fuel n : Nat) (node : Router U), n ≤ path.length → path.length < fuel + n →
      (deleteLoop fuel path n node = none → look node (splitSlash (path.drop n)) = none) ∧
      (∀ r b, deleteLoop fuel path n node = some (r, b) →
        (∀ k, look r k = if k = splitSlash (path.drop n) then none else look node k) ∧
        (b = true → r = .node none []))
  | 0, n, node, h1, h2 => by omega
  | fuel + 1, n, node, h1, h2 => by
    unfold deleteLoop
    have dead : ∀ (r : Router U), (!(r.url.isSome || !r.isLeaf)) = true → r = .node none [] := by
      intro r hr
      obtain ⟨u, b⟩ := r
      simp [Router.isLeaf] at hr
      simp [hr]
    rcases getSegment_cases path hp n with ⟨e1, e2⟩ | ⟨e, e1, e2, -, e4, -⟩
    · rw [e1, e2]
      dsimp only
      cases hg : getB node.branches (path.drop n) with
      | none => simp [look_cons, hg]
      | some child =>
        dsimp only
        have hlook : ∀ k, look (.node none child.branches : Router U) k =
            if k = [] then none else look child k := by
          intro k; cases k <;> simp [look_cons]
        cases hl : (Router.isLeaf (.node none child.branches : Router U)) with
        | true =>
          simp only [reduceCtorEq, false_implies, Option.some.injEq, Prod.mk.injEq, true_and]
          rintro r b ⟨rfl, rfl⟩
          refine ⟨?_, dead _⟩
          have hcb : child.branches = [] := by
            simpa [Router.isLeaf] using hl
          intro k
          cases k with
          | nil => simp
          | cons s k =>
            rw [look_cons, look_cons]
            simp only [branches_node, getB_delB]
            by_cases hs : s = path.drop n
            · subst hs
              simp only [if_true, hg]
              cases k with
              | nil => simp
              | cons s' k => simp [look_cons, hcb, getB]
            · simp [hs]
        | false =>
          simp only [reduceCtorEq, false_implies, Option.some.injEq, Prod.mk.injEq, true_and]
          rintro r b ⟨rfl, rfl⟩
          refine ⟨?_, by simp⟩
          intro k
          cases k with
          | nil => simp
          | cons s k =>
            rw [look_cons, look_cons]
            simp only [branches_node, getB_setB]
            by_cases hs : s = path.drop n
            · subst hs
              simp only [if_true, hg, hlook]
              cases k <;> simp
            · simp [hs]
    · rw [e1, e2]
      dsimp only
      cases hg : getB node.branches ((path.drop n).take e) with
      | none => simp [look_cons, hg]
      | some child =>
        dsimp only
        have ih := deleteLoop_look path hp fuel (n + e + 1) child e4 (by omega)
        cases hd : deleteLoop fuel path (n + e + 1) child with
        | none =>
          simp only [true_implies, reduceCtorEq, false_implies, implies_true, and_true]
          rw [look_cons, hg]
          exact ih.1 hd
        | some rb =>
          obtain ⟨c', b'⟩ := rb
          have ih2 := ih.2 c' b' hd
          cases b' with
          | true =>
            simp only [reduceCtorEq, false_implies, Option.some.injEq, Prod.mk.injEq, true_and]
            rintro r b ⟨rfl, rfl⟩
            refine ⟨?_, dead _⟩
            have hc' := ih2.2 rfl
            intro k
            cases k with
            | nil => simp
            | cons s k =>
              rw [look_cons, look_cons]
              simp only [branches_node, getB_delB]
              by_cases hs : s = (path.drop n).take e
              · subst hs
                simp only [if_true, hg, List.cons.injEq, true_and]
                have := ih2.1 k
                rw [hc'] at this
                have hn : look (.node none [] : Router U) k = none := by
                  cases k <;> simp [look_cons, getB]
                rw [hn] at this
                exact this
              · simp [hs]
          | false =>
            simp only [reduceCtorEq, false_implies, Option.some.injEq, Prod.mk.injEq, true_and]
            rintro r b ⟨rfl, rfl⟩
            refine ⟨?_, by simp⟩
            intro k
            cases k with
            | nil => simp
            | cons s k =>
              rw [look_cons, look_cons]
              simp only [branches_node, getB_setB]
              by_cases hs : s = (path.drop n).take e
              · subst hs
                simp only [if_true, hg, List.cons.injEq, true_and]
                exact ih2.1 k
              · simp [hs]

end Verif.Router

import Verif.Router.Lemmas
set_option linter.unusedSectionVars false
set_option linter.unusedSimpArgs false
set_option linter.unusedVariables false
namespace Verif.Router
variable {U : Type}

/-! ### Paths and keys -/

theorem stripLead_eq (p : Str) :
    stripLead p = if p.head? = some '/' then p.drop 1 else p := by
  unfold stripLead
  split
  · simp
  · rename_i h
    cases p with
    | nil => simp
    | cons c cs =>
      have : c ≠ '/' := fun e => h cs (by rw [e])
      simp [this]

theorem stripTrail_eq (p : Str) :
    stripTrail p = if p.getLast? = some '/' then p.dropLast else p := by
  unfold stripTrail
  rw [stripLead_eq, List.head?_reverse]
  split
  · rw [List.drop_reverse, List.reverse_reverse]
    rw [List.dropLast_eq_take]
  · rw [List.reverse_reverse]

theorem normalizePath_fst (p : Str) : (normalizePath p).1 = stripTrail (stripLead p) := by
  unfold normalizePath
  split
  · rename_i h
    rcases h with rfl | rfl <;> rfl
  · rw [stripLead_eq, stripTrail_eq]
    by_cases h1 : p.head? = some '/'
    · simp only [h1, if_true]; split <;> simp_all
    · simp only [h1, if_false]; split <;> simp_all

theorem key_eq (p : Str) :
    key p = if (normalizePath p).1 = [] then [] else splitSlash (normalizePath p).1 := by
  rw [normalizePath_fst]; rfl

theorem append_trailing (p : Str) : stripTrail p ++ trailing p = p := by
  rw [stripTrail_eq]; unfold trailing
  split
  · rename_i h
    have := List.dropLast_concat_getLast (l := p) (by intro e; subst e; simp at h)
    rw [List.getLast?_eq_some_getLast (by intro e; subst e; simp at h)] at h
    simp at h
    rw [← h]; exact this
  · simp

/-- What `normalizePath` cuts off. -/
theorem normalizePath_spec (p : Str) :
    ∃ lead, (lead = [] ∨ lead = ['/']) ∧ lead.length = (normalizePath p).2 ∧
      p = lead ++ (normalizePath p).1 ++ trailing p := by
  by_cases h : p = [] ∨ p = ['/']
  · rcases h with rfl | rfl
    · exact ⟨[], by simp [normalizePath, trailing]⟩
    · exact ⟨[], by simp [normalizePath, trailing]⟩
  · rw [normalizePath_fst]
    rw [stripLead_eq]
    by_cases h1 : p.head? = some '/'
    · rw [if_pos h1]
      cases p with
      | nil => simp at h1
      | cons c cs =>
        simp at h1; subst h1
        have hcs : cs ≠ [] := by intro e; subst e; simp at h
        refine ⟨['/'], by simp, ?_, ?_⟩
        · unfold normalizePath
          rw [if_neg h]
          simp only [List.head?_cons, if_true]
          split <;> rfl
        · simp only [List.drop_one, List.tail_cons, List.singleton_append, List.cons_append,
            List.cons.injEq, true_and]
          have : trailing ('/' :: cs) = trailing cs := by
            unfold trailing; rw [List.getLast?_cons_of_ne_nil hcs]
          rw [this, List.nil_append, append_trailing]
    · rw [if_neg h1]
      refine ⟨[], by simp, ?_, ?_⟩
      · unfold normalizePath
        rw [if_neg h]
        simp only [h1, if_false]
        split <;> rfl
      · simp [append_trailing]

theorem joinSlash_cons (s : Str) (ss : List Str) (h : ss ≠ []) :
    joinSlash (s :: ss) = s ++ '/' :: joinSlash ss := by
  cases ss with
  | nil => exact absurd rfl h
  | cons a b => rfl

theorem joinSlash_splitSlash : ∀ (p : Str), joinSlash (splitSlash p) = p
  | [] => rfl
  | c :: cs => by
    have ih := joinSlash_splitSlash cs
    unfold splitSlash
    split
    · rename_i h; rw [joinSlash_cons _ _ (splitSlash_ne_nil cs), ih, h]; rfl
    · split
      · rename_i h; exact absurd h (splitSlash_ne_nil cs)
      · rename_i s ss h
        rw [h] at ih
        cases ss with
        | nil => simp [joinSlash] at ih ⊢; exact ih
        | cons a b =>
          rw [joinSlash_cons _ _ (by simp)] at ih ⊢
          simp [ih]

theorem joinSlash_key (p : Str) : joinSlash (key p) = (normalizePath p).1 := by
  rw [key_eq]; split
  · rename_i h; rw [h]; rfl
  · exact joinSlash_splitSlash _

/-! ### Put and delete are map updates -/

theorem put_look (r : Router U) (p : Str) (u : U) (k : List Str) :
    look (r.put p u) k = if k = key p then some u else look r k := by
  unfold Router.put
  rw [key_eq]
  simp only
  by_cases h : (normalizePath p).1 = []
  · simp only [h, if_true]
    cases k with
    | nil => simp
    | cons s k => simp [look_cons]
  · simp only [h, if_false]
    have := putLoop_look (normalizePath p).1 h u ((normalizePath p).1.length + 1) 0 r (by omega)
      (by omega) k
    simpa using this

theorem delete_look (r : Router U) (p : Str) (k : List Str) :
    look (r.delete p) k = if k = key p then none else look r k := by
  unfold Router.delete
  rw [key_eq]
  simp only
  by_cases h : (normalizePath p).1 = []
  · simp only [h, if_true]
    cases k with
    | nil => simp
    | cons s k => simp [look_cons]
  · simp only [h, if_false]
    have := deleteLoop_look (normalizePath p).1 h ((normalizePath p).1.length + 1) 0 r (by omega)
      (by omega)
    cases hd : deleteLoop ((normalizePath p).1.length + 1) (normalizePath p).1 0 r with
    | none =>
      have := this.1 hd
      simp only
      split
      · rename_i e; rw [e]; simpa using this
      · rfl
    | some rb =>
      obtain ⟨r', b⟩ := rb
      have := (this.2 r' b hd).1 k
      simpa using this

theorem key_ne_empty_seg (p : Str) : key p ≠ [[]] := by
  unfold key
  split
  · simp
  · rename_i h
    intro e
    apply h
    have := joinSlash_splitSlash (stripTrail (stripLead p))
    rw [e] at this
    exact this.symm

theorem look_new (k : List Str) : look (Router.new : Router U) k = none := by
  cases k <;> simp [look_cons, getB]

theorem run_snoc (ops : List (Op U)) (o : Op U) :
    Router.run (ops ++ [o]) = (Router.run ops).apply o := by
  simp [Router.run]

theorem tableOf_snoc (ops : List (Op U)) (o : Op U) :
    tableOf (ops ++ [o]) = match o with
      | .put p u => fun k => if k = key p then some u else tableOf ops k
      | .delete p => fun k => if k = key p then none else tableOf ops k := by
  cases o <;> simp [tableOf]

theorem snoc_induction {α : Type} {P : List α → Prop} (nil : P [])
    (snoc : ∀ l a, P l → P (l ++ [a])) (l : List α) : P l := by
  have : ∀ l : List α, P l.reverse := by
    intro l
    induction l with
    | nil => exact nil
    | cons a l ih => rw [List.reverse_cons]; exact snoc _ _ ih
  have := this l.reverse
  rwa [List.reverse_reverse] at this

/-- The trie holds exactly the table its history describes. -/
theorem look_run (ops : List (Op U)) : look (Router.run ops) = tableOf ops := by
  induction ops using snoc_induction with
  | nil => funext k; exact look_new k
  | snoc ops o ih =>
    funext k
    rw [run_snoc, tableOf_snoc]
    cases o with
    | put p u => rw [Router.apply, put_look, ih]
    | delete p => rw [Router.apply, delete_look, ih]

theorem tableOf_empty_seg (ops : List (Op U)) : tableOf ops [[]] = none := by
  induction ops using snoc_induction with
  | nil => rfl
  | snoc ops o ih =>
    rw [tableOf_snoc]
    cases o with
    | put p u =>
      simp only; rw [if_neg (fun e => key_ne_empty_seg p e.symm)]; exact ih
    | delete p =>
      simp only; rw [if_neg (fun e => key_ne_empty_seg p e.symm)]; exact ih

/-! ### Match -/

theorem prefix_cons_cases {s : Str} {ss k : List Str} (h : k <+: s :: ss) :
    k = [] ∨ ∃ k', k = s :: k' ∧ k' <+: ss := by
  cases k with
  | nil => left; rfl
  | cons a k' =>
    right
    rw [List.cons_prefix_cons] at h
    exact ⟨k', by rw [h.1], h.2⟩

/-- What the loop of `Match` returns. -/
def MatchSpec (path2 : Str) (node : Router U) (segs : List Str) (out : Option U) (off : Nat)
    (res : Option U × Nat) : Prop :=
  ((∀ k, k <+: segs → k ≠ [] → look node k = none) ∧ res = (out, off)) ∨
  (∃ k post u, k ≠ [] ∧ segs = k ++ post ∧ Longest (look node) segs k u ∧
    res.1 = some u ∧ path2.drop res.2 = joinSlash post ∧ res.2 ≤ path2.length)

theorem matchLoop_spec (path2 : Str) (hp : path2 ≠ []) :
    ∀ (fuel n : Nat) (node : Router U) (out : Option U) (off : Nat),
      n ≤ path2.length → path2.length < fuel + n →
      MatchSpec path2 node (splitSlash (path2.drop n)) out off
        (matchLoop fuel path2 n node out off)
  | 0, n, node, out, off, h1, h2 => by omega
  | fuel + 1, n, node, out, off, h1, h2 => by
    unfold matchLoop
    rcases getSegment_cases path2 hp n with ⟨e1, e2⟩ | ⟨e, e1, e2, e3, e4, e5⟩
    · rw [e1, e2]
      dsimp only
      cases hg : getB node.branches (path2.drop n) with
      | none =>
        left
        refine ⟨?_, rfl⟩
        intro k hk hk0
        rcases prefix_cons_cases hk with rfl | ⟨k', rfl, hk'⟩
        · exact absurd rfl hk0
        · rw [look_cons, hg]
      | some c =>
        dsimp only
        cases hu : c.url with
        | none =>
          left
          refine ⟨?_, rfl⟩
          intro k hk hk0
          rcases prefix_cons_cases hk with rfl | ⟨k', rfl, hk'⟩
          · exact absurd rfl hk0
          · rw [List.prefix_nil] at hk'; subst hk'
            rw [look_cons, hg]; simpa using hu
        | some u =>
          right
          refine ⟨[path2.drop n], [], u, by simp, by simp, ⟨by simp, ?_, ?_⟩, rfl, by simp [joinSlash],
            by simp⟩
          · rw [look_cons, hg]; simpa using hu
          · intro k' hk' _; exact hk'.length_le
    · rw [e1, e2]
      dsimp only
      generalize hs : (path2.drop n).take e = s at *
      cases hg : getB node.branches s with
      | none =>
        left
        refine ⟨?_, rfl⟩
        intro k hk hk0
        rcases prefix_cons_cases hk with rfl | ⟨k', rfl, hk'⟩
        · exact absurd rfl hk0
        · rw [look_cons, hg]
      | some c =>
        dsimp only
        have hlook : ∀ k, look node (s :: k) = look c k := by
          intro k; rw [look_cons, hg]
        cases hu : c.url with
        | none =>
          rcases matchLoop_spec path2 hp fuel (n + e + 1) c out off e4 (by omega) with
            ⟨h, hr⟩ | ⟨k, post, u, hk0, hseg, ⟨l1, l2, l3⟩, r1, r2, r3⟩
          · left
            refine ⟨?_, hr⟩
            intro k hk hk0
            rcases prefix_cons_cases hk with rfl | ⟨k', rfl, hk'⟩
            · exact absurd rfl hk0
            · rw [hlook]
              cases k' with
              | nil => simpa using hu
              | cons a b => exact h _ hk' (by simp)
          · right
            refine ⟨s :: k, post, u, by simp, by rw [hseg]; simp, ⟨?_, ?_, ?_⟩, r1, r2, r3⟩
            · rw [List.cons_prefix_cons]; exact ⟨rfl, l1⟩
            · rw [hlook]; exact l2
            · intro k' hk' hsome
              rcases prefix_cons_cases hk' with rfl | ⟨k'', rfl, hk''⟩
              · simp
              · rw [hlook] at hsome
                have := l3 _ hk'' hsome
                simpa using this
        | some u0 =>
          rcases matchLoop_spec path2 hp fuel (n + e + 1) c (some u0) (n + e + 1) e4 (by omega) with
            ⟨h, hr⟩ | ⟨k, post, u, hk0, hseg, ⟨l1, l2, l3⟩, r1, r2, r3⟩
          · right
            refine ⟨[s], splitSlash (path2.drop (n + e + 1)), u0, by simp, by simp, ⟨?_, ?_, ?_⟩,
              by rw [hr], by rw [hr]; simp [joinSlash_splitSlash], by rw [hr]; exact e4⟩
            · rw [List.cons_prefix_cons]; simp
            · rw [hlook]; simpa using hu
            · intro k' hk' hsome
              rcases prefix_cons_cases hk' with rfl | ⟨k'', rfl, hk''⟩
              · simp
              · rw [hlook] at hsome
                cases k'' with
                | nil => simp
                | cons a b =>
                  rw [h _ hk'' (by simp)] at hsome
                  simp at hsome
          · right
            refine ⟨s :: k, post, u, by simp, by rw [hseg]; simp, ⟨?_, ?_, ?_⟩, r1, r2, r3⟩
            · rw [List.cons_prefix_cons]; exact ⟨rfl, l1⟩
            · rw [hlook]; exact l2
            · intro k' hk' hsome
              rcases prefix_cons_cases hk' with rfl | ⟨k'', rfl, hk''⟩
              · simp
              · rw [hlook] at hsome
                have := l3 _ hk'' hsome
                simpa using this

/-- `Match` in terms of the table. -/
theorem match_spec (r : Router U) (hr : look r [[]] = none) (p : Str) :
    ((∀ k, k <+: key p → look r k = none) ∧ r.match_ p = none) ∨
    (∃ k post u, key p = k ++ post ∧ Longest (look r) (key p) k u ∧
      r.match_ p = some (u, joinSlash post ++ trailing p)) := by
  obtain ⟨lead, hl1, hl2, hl3⟩ := normalizePath_spec p
  have hk := key_eq p
  unfold Router.match_
  revert hl2 hl3 hk
  generalize normalizePath p = np
  obtain ⟨path2, offset⟩ := np
  dsimp only
  intro hl2 hl3 hk
  have hdrop : ∀ off, off ≤ path2.length → p.drop (offset + off) = path2.drop off ++ trailing p := by
    intro off ho
    conv => lhs; rw [hl3]
    rw [← hl2, List.append_assoc, List.drop_append]
    simp [List.drop_append, ho]
  by_cases hp : path2 = []
  · subst hp
    rw [if_pos rfl] at hk
    have hml : matchLoop (([] : Str).length + 1) [] 0 r r.url 0 = (r.url, 0) := by
      simp only [matchLoop, getSegment, List.length_nil, if_true]
      cases hg : getB r.branches [] with
      | none => rfl
      | some c =>
        rw [look_cons, hg] at hr
        simp at hr
        simp [hr]
    rw [hml, hk]
    cases hu : r.url with
    | none =>
      left
      refine ⟨?_, rfl⟩
      intro k hk'
      rw [List.prefix_nil] at hk'; subst hk'; simpa using hu
    | some u =>
      right
      refine ⟨[], [], u, rfl, ⟨by simp, by simpa using hu, ?_⟩, ?_⟩
      · intro k' hk' _; exact hk'.length_le
      · simp only [hdrop 0 (by simp)]; simp [joinSlash]
  · rw [if_neg hp] at hk
    rcases matchLoop_spec path2 hp (path2.length + 1) 0 r r.url 0 (by omega) (by omega) with
      ⟨h, he⟩ | ⟨k, post, u, hk0, hseg, hlong, r1, r2, r3⟩
    · rw [he]
      rw [List.drop_zero] at h
      cases hu : r.url with
      | none =>
        left
        refine ⟨?_, rfl⟩
        intro k hk'
        rw [hk] at hk'
        by_cases hk0 : k = []
        · subst hk0; simpa using hu
        · exact h k hk' hk0
      | some u =>
        right
        refine ⟨[], key p, u, rfl, ⟨by simp, by simpa using hu, ?_⟩, ?_⟩
        · intro k' hk' hs
          by_cases hk0 : k' = []
          · subst hk0; simp
          · rw [hk] at hk'; rw [h k' hk' hk0] at hs; simp at hs
        · simp only [hdrop 0 (by simp)]; rw [hk, joinSlash_splitSlash]; simp
    · right
      rw [List.drop_zero] at hseg hlong
      refine ⟨k, post, u, by rw [hk, hseg], by rw [hk]; exact hlong, ?_⟩
      generalize matchLoop (path2.length + 1) path2 0 r r.url 0 = res at *
      obtain ⟨o, off⟩ := res
      dsimp only at r1 r2 r3
      subst r1
      simp only [hdrop off r3, r2]

/-! ### HasMatch -/

theorem hasMatchLoop_spec (path2 : Str) (hp : path2 ≠ []) :
    ∀ (fuel n : Nat) (node : Router U), n ≤ path2.length → path2.length < fuel + n →
      (hasMatchLoop fuel path2 n node = true ↔
        ∃ k, k ≠ [] ∧ k <+: splitSlash (path2.drop n) ∧ (look node k).isSome)
  | 0, n, node, h1, h2 => by omega
  | fuel + 1, n, node, h1, h2 => by
    unfold hasMatchLoop
    have hcons : ∀ (s : Str) (ss : List Str), (∃ k, k ≠ [] ∧ k <+: s :: ss ∧ (look node k).isSome) ↔
        ∃ c, getB node.branches s = some c ∧
          (c.url.isSome ∨ ∃ k, k ≠ [] ∧ k <+: ss ∧ (look c k).isSome) := by
      intro s ss
      constructor
      · rintro ⟨k, hk0, hk, hs⟩
        rcases prefix_cons_cases hk with rfl | ⟨k', rfl, hk'⟩
        · exact absurd rfl hk0
        · rw [look_cons] at hs
          cases hg : getB node.branches s with
          | none => rw [hg] at hs; simp at hs
          | some c =>
            rw [hg] at hs
            refine ⟨c, rfl, ?_⟩
            cases k' with
            | nil => left; simpa using hs
            | cons a b => right; exact ⟨_, by simp, hk', hs⟩
      · rintro ⟨c, hg, hs | ⟨k, hk0, hk, hs⟩⟩
        · exact ⟨[s], by simp, by simp, by rw [look_cons, hg]; simpa using hs⟩
        · exact ⟨s :: k, by simp, by rw [List.cons_prefix_cons]; exact ⟨rfl, hk⟩, by
            rw [look_cons, hg]; exact hs⟩
    rcases getSegment_cases path2 hp n with ⟨e1, e2⟩ | ⟨e, e1, e2, e3, e4, e5⟩
    · rw [e1, e2, hcons]
      dsimp only
      cases hg : getB node.branches (path2.drop n) with
      | none => simp
      | some c =>
        cases hu : c.url with
        | none => simp [hu]; exact fun x h1 h2 => absurd h2 h1
        | some u => simp [hu]
    · rw [e1, e2, hcons]
      dsimp only
      cases hg : getB node.branches ((path2.drop n).take e) with
      | none => simp
      | some c =>
        have ih := hasMatchLoop_spec path2 hp fuel (n + e + 1) c e4 (by omega)
        cases hu : c.url with
        | none =>
          simp only [hu, Option.isSome_none, Bool.false_eq_true, if_false, Option.some.injEq,
            exists_eq_left', false_or]
          exact ih
        | some u => simp [hu]

theorem hasMatch_spec (r : Router U) (hr : look r [[]] = none) (p : Str) :
    r.hasMatch p = true ↔ ∃ k, k <+: key p ∧ (look r k).isSome := by
  unfold Router.hasMatch
  rw [key_eq]
  dsimp only
  cases hu : r.url with
  | some u => simp only [Option.isSome_some, if_true, true_iff]; exact ⟨[], by simp, by simp [hu]⟩
  | none =>
    simp only [Option.isSome_none, Bool.false_eq_true, if_false]
    by_cases hp : (normalizePath p).1 = []
    · rw [if_pos hp, hp]
      have h1 : hasMatchLoop (([] : Str).length + 1) [] 0 r = false := by
        simp only [hasMatchLoop, getSegment, List.length_nil, if_true]
        cases hg : getB r.branches [] with
        | none => rfl
        | some c =>
          rw [look_cons, hg] at hr
          simp at hr
          simp [hr]
      rw [h1]
      simp only [Bool.false_eq_true, false_iff, List.prefix_nil, not_exists, not_and]
      rintro k rfl
      simp [hu]
    · rw [if_neg hp]
      have := hasMatchLoop_spec (normalizePath p).1 hp ((normalizePath p).1.length + 1) 0 r
        (by omega) (by omega)
      rw [this, List.drop_zero]
      constructor
      · rintro ⟨k, -, h⟩; exact ⟨k, h⟩
      · rintro ⟨k, h1, h2⟩
        refine ⟨k, ?_, h1, h2⟩
        rintro rfl
        simp [hu] at h2

/-! ### No residue -/

/-- Every node below the root leads to a route. -/
def Clean (r : Router U) : Prop :=
  ∀ s c, getB r.branches s = some c →
    (∃ k, (look c k).isSome) ∧ ∀ k n, walk c k = some n → ∃ k', (look n k').isSome

theorem Clean.child {r c : Router U} {s : Str} (h : Clean r) (hg : getB r.branches s = some c) :
    Clean c := by
  intro s' c' hg'
  have h2 := (h s c hg).2
  refine ⟨?_, ?_⟩
  · exact h2 [s'] c' (by simp [walk, hg'])
  · intro k n hw
    exact h2 (s' :: k) n (by simp [walk, hg', hw])

theorem clean_iff (r : Router U) : Clean r ↔
    ∀ s c, getB r.branches s = some c → (∃ k, (look c k).isSome) ∧ Clean c := by
  constructor
  · intro h s c hg; exact ⟨(h s c hg).1, h.child hg⟩
  · intro h s c hg
    obtain ⟨h1, h2⟩ := h s c hg
    refine ⟨h1, ?_⟩
    intro k n hw
    cases k with
    | nil => simp [walk] at hw; subst hw; exact h1
    | cons a k =>
      simp only [walk] at hw
      cases hg' : getB c.branches a with
      | none => rw [hg'] at hw; simp at hw
      | some c' => rw [hg'] at hw; exact (h2 a c' hg').2 k n hw

theorem clean_nil (u : Option U) : Clean (.node u [] : Router U) := by
  intro s c h; simp [getB] at h

theorem clean_congr {r r' : Router U} (h : r.branches = r'.branches) (hc : Clean r) : Clean r' := by
  intro s c; rw [← h]; exact hc s c

theorem clean_setB {r c : Router U} {u : Option U} {s : Str} (h : Clean r)
    (hc : Clean c) (hs : ∃ k, (look c k).isSome) : Clean (.node u (setB r.branches s c)) := by
  rw [clean_iff] at h ⊢
  intro s' c' hg
  simp only [branches_node, getB_setB] at hg
  split at hg
  · cases hg; exact ⟨hs, hc⟩
  · exact h s' c' hg

theorem clean_delB {r : Router U} {u : Option U} {s : Str} (h : Clean r) :
    Clean (.node u (delB r.branches s)) := by
  rw [clean_iff] at h ⊢
  intro s' c' hg
  simp only [branches_node, getB_delB] at hg
  split at hg
  · cases hg
  · exact h s' c' hg

theorem putLoop_clean (path : Str) (hp : path ≠ []) (u : U) :
    ∀ (fuel n : Nat) (node : Router U), n ≤ path.length → path.length < fuel + n →
      Clean node → Clean (putLoop fuel path n node u)
  | 0, n, node, h1, h2, h => by omega
  | fuel + 1, n, node, h1, h2, h => by
    unfold putLoop
    rcases getSegment_cases path hp n with ⟨e1, e2⟩ | ⟨e, e1, e2, e3, e4, e5⟩
    · rw [e1]
      dsimp only
      apply clean_setB h
      · cases hg : getB node.branches (path.drop n) with
        | none => exact clean_nil _
        | some c => exact clean_congr (r := c) (by simp) (h.child hg)
      · exact ⟨[], by simp⟩
    · rw [e1]
      dsimp only
      have hcl : Clean (match getB node.branches ((path.drop n).take e) with
          | some c => c
          | none => Router.new) := by
        cases hg : getB node.branches ((path.drop n).take e) with
        | none => exact clean_nil _
        | some c => exact h.child hg
      apply clean_setB h
      · exact putLoop_clean path hp u fuel _ _ e4 (by omega) hcl
      · refine ⟨splitSlash (path.drop (n + e + 1)), ?_⟩
        rw [putLoop_look path hp u fuel _ _ e4 (by omega)]
        simp

theorem nonempty_of_clean {r : Router U} (h : Clean r)
    (hn : (r.url.isSome || !r.isLeaf) = true) : ∃ k, (look r k).isSome := by
  cases hu : r.url with
  | some u => exact ⟨[], by simp [hu]⟩
  | none =>
    rw [hu] at hn
    simp [Router.isLeaf] at hn
    cases hb : r.branches with
    | nil => exact absurd hb hn
    | cons e b =>
      obtain ⟨s, c⟩ := e
      have hg : getB r.branches s = some c := by rw [hb]; simp [getB]
      obtain ⟨k, hk⟩ := (h s c hg).1
      exact ⟨s :: k, by rw [look_cons, hg]; exact hk⟩

theorem deleteLoop_clean (path : Str) (hp : path ≠ []) :
    ∀ (fuel n : Nat) (node : Router U), n ≤ path.length → path.length < fuel + n → Clean node →
      ∀ r b, deleteLoop fuel path n node = some (r, b) →
        Clean r ∧ (b = false → ∃ k, (look r k).isSome)
  | 0, n, node, h1, h2, h => by omega
  | fuel + 1, n, node, h1, h2, h => by
    unfold deleteLoop
    have after : ∀ (child : Router U) (dead : Bool) (s : Str),
        (dead = false → Clean child ∧ ∃ k, (look child k).isSome) →
        ∀ r b, (match (some (child, dead) : Option (Router U × Bool)) with
          | none => none
          | some (_, true) =>
            some ((.node node.url (delB node.branches s) : Router U),
              !((Router.node node.url (delB node.branches s)).url.isSome ||
                !(Router.node node.url (delB node.branches s)).isLeaf))
          | some (child, false) => some (.node node.url (setB node.branches s child), false)) =
          some (r, b) → Clean r ∧ (b = false → ∃ k, (look r k).isSome) := by
      intro child dead s hch r b
      cases dead with
      | true =>
        simp only [Option.some.injEq, Prod.mk.injEq]
        rintro ⟨rfl, rfl⟩
        have hc : Clean (.node node.url (delB node.branches s)) := clean_delB h
        refine ⟨hc, ?_⟩
        intro hb
        apply nonempty_of_clean hc
        revert hb; cases (_ || _) <;> simp
      | false =>
        simp only [Option.some.injEq, Prod.mk.injEq]
        rintro ⟨rfl, rfl⟩
        obtain ⟨h1, h2⟩ := hch rfl
        refine ⟨clean_setB h h1 h2, fun _ => ?_⟩
        obtain ⟨k, hk⟩ := h2
        exact ⟨s :: k, by rw [look_cons]; simp [hk]⟩
    rcases getSegment_cases path hp n with ⟨e1, e2⟩ | ⟨e, e1, e2, e3, e4, e5⟩
    · rw [e1]
      dsimp only
      cases hg : getB node.branches (path.drop n) with
      | none => simp
      | some c =>
        dsimp only
        have hc : Clean (.node none c.branches : Router U) := clean_congr (r := c) (by simp) (h.child hg)
        intro r b hres
        refine after _ _ (path.drop n) ?_ r b hres
        intro hd
        exact ⟨hc, nonempty_of_clean hc (by simp [hd])⟩
    · rw [e1]
      dsimp only
      cases hg : getB node.branches ((path.drop n).take e) with
      | none => simp
      | some c =>
        dsimp only
        have ih := deleteLoop_clean path hp fuel (n + e + 1) c e4 (by omega) (h.child hg)
        cases hd : deleteLoop fuel path (n + e + 1) c with
        | none => simp
        | some rb =>
          obtain ⟨c', d⟩ := rb
          intro r b hres
          refine after c' d _ ?_ r b hres
          intro hf
          have := ih c' d hd
          exact ⟨this.1, this.2 hf⟩

theorem run_clean (ops : List (Op U)) : Clean (Router.run ops) := by
  induction ops using snoc_induction with
  | nil => exact clean_nil _
  | snoc ops o ih =>
    rw [run_snoc]
    cases o with
    | put p u =>
      unfold Router.apply Router.put
      dsimp only
      split
      · exact clean_congr (by simp) ih
      · rename_i h; exact putLoop_clean _ h u _ _ _ (by omega) (by omega) ih
    | delete p =>
      unfold Router.apply Router.delete
      dsimp only
      split
      · exact clean_congr (by simp) ih
      · rename_i h
        split
        · exact ih
        · rename_i r b hd
          exact (deleteLoop_clean _ h _ _ _ (by omega) (by omega) ih r b hd).1

theorem walk_append (r : Router U) (k k' : List Str) :
    walk r (k ++ k') = (walk r k).bind (fun n => walk n k') := by
  induction k generalizing r with
  | nil => rfl
  | cons s k ih =>
    simp only [List.cons_append, walk]
    cases getB r.branches s with
    | none => rfl
    | some c => exact ih c

theorem walk_isSome_of_look {r : Router U} {k k' : List Str} (h : (look r (k ++ k')).isSome) :
    (walk r k).isSome := by
  unfold look at h
  rw [walk_append] at h
  cases hw : walk r k with
  | none => rw [hw] at h; simp at h
  | some n => rfl

theorem look_append {r n : Router U} {k : List Str} (h : walk r k = some n) (k' : List Str) :
    look r (k ++ k') = look n k' := by
  unfold look
  rw [walk_append, h]; rfl

end Verif.Router

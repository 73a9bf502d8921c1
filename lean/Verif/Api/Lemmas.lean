import Verif.Api.Spec
import Verif.Auth.Lemmas
/-! Helper lemmas about the API. -/
set_option linter.unusedSimpArgs false
set_option linter.unusedVariables false
namespace Verif.Api

open Verif.Auth (User Outcome identify split1)

theorem find_name {s : List Cluster} {n : Str} {c : Cluster} (h : find s n = some c) :
    c.name = n ∧ c ∈ s := by
  unfold find at h
  exact ⟨by simpa using List.find?_some h, List.mem_of_find?_eq_some h⟩

theorem identify_iff {req : Request} {u : User} :
    identify req.cached req.login = .user u ↔ LoggedInAs req u := by
  unfold identify LoggedInAs
  cases hc : req.cached <;> simp

theorem tokenOk_true {s : List Cluster} {req : Request} {n : Str} :
    tokenOk s req n = some true ↔ ∃ c, find s n = some c ∧ HasToken req c := by
  unfold tokenOk HasToken
  constructor
  · intro h
    cases hh : req.header with
    | none => rw [hh] at h; simp at h
    | some t =>
      cases t with
      | nil => rw [hh] at h; simp at h
      | cons x t =>
        rw [hh] at h
        dsimp only at h
        cases hs : split1 ' ' (x :: t) with
        | none => rw [hs] at h; simp at h
        | some p =>
          obtain ⟨a, b⟩ := p
          rw [hs] at h
          dsimp only at h
          have h := Option.some.inj h
          rw [Bool.and_eq_true, decide_eq_true_iff] at h
          obtain ⟨ha, hb⟩ := h
          cases hf : find s n with
          | none => rw [hf] at hb; simp at hb
          | some c =>
            rw [hf] at hb
            refine ⟨c, rfl, ?_⟩
            rw [(Auth.split1_eq_some hs).1, ha, of_decide_eq_true hb]; rfl
  · rintro ⟨c, hf, hh⟩
    have e : "token ".toList ++ c.token = 't' :: ("oken".toList ++ ' ' :: c.token) := rfl
    have hs : split1 ' ' ('t' :: ("oken".toList ++ ' ' :: c.token)) = some ("token".toList, c.token) :=
      Auth.split1_append ' ' "token".toList c.token (by decide)
    rw [hh, e]
    dsimp only
    rw [hs, hf]
    simp

theorem withUser_ok {req : Request} {u : User} (h : LoggedInAs req u) (handler : User → Handled) :
    withUser req handler = (handler u).respond (if req.cached.isSome then none else some u) := by
  unfold withUser; rw [identify_iff.2 h]

/-- Either the request is from some user, or it is refused. -/
theorem withUser_cases (req : Request) (handler : User → Handled) :
    (∃ u, LoggedInAs req u ∧
      withUser req handler = (handler u).respond (if req.cached.isSome then none else some u)) ∨
    ((∀ u, ¬ LoggedInAs req u) ∧ ∃ code, req.login = .fail code ∧
      withUser req handler = { code, body := .error, effects := [] }) := by
  cases hi : identify req.cached req.login with
  | user u => exact Or.inl ⟨u, identify_iff.1 hi, withUser_ok (identify_iff.1 hi) _⟩
  | fail code =>
    refine Or.inr ⟨?_, code, ?_, ?_⟩
    · intro u h; rw [identify_iff.2 h] at hi; simp at hi
    · unfold identify at hi
      cases hc : req.cached with
      | none => rw [hc] at hi; exact hi
      | some u => rw [hc] at hi; simp at hi
    · unfold withUser; rw [hi]

theorem respond_effects (h : Handled) (o : Option User) : (h.respond o).effects = h.effects := by
  unfold Handled.respond; split <;> rfl

theorem respond_views (h : Handled) (o : Option User) (v : View) (hv : v ∈ (h.respond o).body.views) :
    ∃ code body, h.result = .ok (code, body) ∧ v ∈ body.views := by
  unfold Handled.respond at hv
  split at hv
  · rename_i code body e; exact ⟨code, body, e, hv⟩
  · simp [Body.views] at hv

/-! ### Forwarding -/

theorem forwardLoop_effects (env : Env) (c : Cluster) (msg : Msg) (fuel attempt : Nat) (t : Rat) :
    ∀ e ∈ (forwardLoop env c msg fuel attempt t).1,
      e = .contact c.name msg ∨ ∃ t', e = .sleep t' := by
  induction fuel generalizing attempt t with
  | zero => simp [forwardLoop]
  | succ n ih =>
    unfold forwardLoop
    split
    · simp
    · split
      · intro e he
        simp only [List.mem_cons] at he
        rcases he with rfl | rfl | he
        · exact Or.inl rfl
        · exact Or.inr ⟨t, rfl⟩
        · exact ih _ _ e he
      · simp

theorem forward_effects (env : Env) (c : Cluster) (msg : Msg) :
    ∀ e ∈ (forward env c msg).1,
      e = .contact c.name msg ∨ (∃ t', e = .sleep t') ∨ e = .stop c.name true := by
  intro e he
  unfold forward at he
  split at he
  · simp at he
  · dsimp only at he
    split at he
    · rcases forwardLoop_effects _ _ _ _ _ _ e he with h | h
      · exact Or.inl h
      · exact Or.inr (Or.inl h)
    · simp only [List.mem_append, List.mem_singleton] at he
      rcases he with he | he
      · rcases forwardLoop_effects _ _ _ _ _ _ e he with h | h
        · exact Or.inl h
        · exact Or.inr (Or.inl h)
      · exact Or.inr (Or.inr he)

/-- The effects of `messageHandler`. -/
theorem message_cases (env : Env) (s : List Cluster) (u : User) (n : Str)
    (request : Option Nat → Except Nat (Msg × Option (List Json))) :
    (∃ code, messageHandler env s u n request = .raise code) ∨
    ∃ c msg told, find s n = some c ∧ u.name = c.username ∧ request c.maxWorkers = .ok (msg, told) ∧
      messageHandler env s u n request = forwardAndAnswer env c msg told := by
  unfold messageHandler
  cases hf : find s n with
  | none => exact Or.inl ⟨_, rfl⟩
  | some c =>
    dsimp only
    by_cases hp : hasPermissions u c = true
    · rw [if_neg (by simp [hp])]
      cases hr : request c.maxWorkers with
      | error code => exact Or.inl ⟨_, rfl⟩
      | ok p => exact Or.inr ⟨c, p.1, p.2, rfl, of_decide_eq_true hp, hr, rfl⟩
    · rw [if_pos hp]; exact Or.inl ⟨_, rfl⟩

theorem message_owner {env : Env} {s : List Cluster} {u : User} {n : Str} {c : Cluster}
    (hf : find s n = some c) (ho : u.name = c.username)
    (request : Option Nat → Except Nat (Msg × Option (List Json))) :
    messageHandler env s u n request =
      match request c.maxWorkers with
      | .error code => .raise code
      | .ok (msg, told) => forwardAndAnswer env c msg told := by
  unfold messageHandler
  rw [hf]
  dsimp only
  rw [if_neg (by simp [hasPermissions, ho])]
  rfl

/-! ### Splitting -/

theorem splitAll_ne_nil (c : Char) (s : Str) : splitAll c s ≠ [] := by
  induction s with
  | nil => simp [splitAll]
  | cons x s ih =>
    unfold splitAll
    split
    · simp
    · split <;> simp

theorem splitAll_piece (c : Char) (p : Str) (h : c ∉ p) : splitAll c p = [p] := by
  induction p with
  | nil => rfl
  | cons x p ih =>
    simp only [List.mem_cons, not_or] at h
    unfold splitAll
    rw [ih h.2]
    simp [Ne.symm h.1]

theorem splitAll_append (c : Char) (p s : Str) (h : c ∉ p) :
    splitAll c (p ++ c :: s) = p :: splitAll c s := by
  induction p with
  | nil =>
    rw [List.nil_append, splitAll]
    cases hs : splitAll c s with
    | nil => exact absurd hs (splitAll_ne_nil _ _)
    | cons q qs => simp
  | cons x p ih =>
    simp only [List.mem_cons, not_or] at h
    rw [List.cons_append, splitAll, ih h.2]
    simp [Ne.symm h.1]

theorem splitAll_join (ps : List Str) (hne : ps ≠ []) (h : ∀ p ∈ ps, ',' ∉ p) :
    splitAll ',' (joinCommas ps) = ps := by
  induction ps using joinCommas.induct with
  | case1 => simp at hne
  | case2 p => rw [joinCommas]; exact splitAll_piece _ _ (h p (by simp))
  | case3 p q ps ih =>
    rw [joinCommas, splitAll_append _ _ _ (h p (by simp)),
      ih (by simp) (fun x hx => h x (by simp [List.mem_cons.1 hx]))]

theorem mem_fromName {upper : Str → Str} {s : Str} {x : Status} :
    Status.fromName upper s = some x ↔ upper s = x.name := by
  have inj : ∀ a b : Status, a.name = b.name → a = b := by
    intro a b
    cases a <;> cases b <;> first | (intro _; rfl) | (intro h; exact absurd h (by decide))
  constructor
  · intro h
    have := List.find?_some h
    exact (of_decide_eq_true this).symm
  · intro h
    unfold Status.fromName
    cases hf : Status.all.find? (fun x => decide (x.name = upper s)) with
    | none =>
      rw [List.find?_eq_none] at hf
      have := hf x (by cases x <;> simp [Status.all])
      simp [h] at this
    | some y =>
      have := List.find?_some hf
      have := of_decide_eq_true this
      rw [inj y x (by rw [this, h])]

theorem mapM_some {α β : Type} (f : α → Option β) (l : List α) (g : α → β)
    (h : ∀ a ∈ l, f a = some (g a)) : l.mapM f = some (l.map g) := by
  induction l with
  | nil => rfl
  | cons a l ih =>
    rw [List.mapM_cons, h a (by simp), ih (fun b hb => h b (by simp [hb]))]
    rfl

theorem mapM_none {α β : Type} (f : α → Option β) (l : List α) (a : α) (ha : a ∈ l)
    (h : f a = none) : l.mapM f = none := by
  induction l with
  | nil => simp at ha
  | cons b l ih =>
    rw [List.mapM_cons]
    rcases List.mem_cons.1 ha with rfl | ha
    · rw [h]; rfl
    · rw [ih ha]; cases f b <;> rfl

theorem mapM_mem {α β : Type} (f : α → Option β) (l : List α) (r : List β)
    (h : l.mapM f = some r) (x : β) : x ∈ r ↔ ∃ a ∈ l, f a = some x := by
  induction l generalizing r with
  | nil => simp at h; simp [h]
  | cons a l ih =>
    rw [List.mapM_cons] at h
    cases ha : f a with
    | none => rw [ha] at h; simp at h
    | some b =>
      cases hl : l.mapM f with
      | none => rw [ha, hl] at h; simp at h
      | some r' =>
        rw [ha, hl] at h
        simp at h
        subst h
        simp [ih r' hl, ha, eq_comm]

end Verif.Api

import Verif.Session.Replicas
import Verif.Session.Props
/-
C172: a gateway with several replicas.
-/
namespace Verif.Session.Replicas

open Verif.Auth (User Cache Op)
open Verif.Client (Resp Exn conclude)

/-- The calls of a history. -/
def rcalls : List REv → List RCall
  | [] => []
  | .call k :: es => k :: rcalls es
  | _ :: es => rcalls es

/-- A new client, at a gateway all replicas of which are new. -/
def newWorlds (m : Rat) : Worlds := fun _ => World.new m

def AllOk (m : Rat) (n : Str) (w : Worlds) : Prop := ∀ i, WorldOk m n (w i)

theorem AllOk.upd {m : Rat} {n : Str} {w : Worlds} (h : AllOk m n w) {i : Nat} {x : World} (hx : WorldOk m n x) :
    AllOk m n (upd w i x) := by
  intro j
  unfold Replicas.upd
  split
  · exact hx
  · exact h j

theorem rcall_ok {m : Rat} {n : Str} {h : Hooks} {w : Worlds} (hw : AllOk m n w) (k : RCall)
    (hk : k.call.Good h n) :
    AllOk m n (k.go h w).1 ∧ ∃ u, (k.go h w).2.1 = [u] ∧ u.name = n ∧
      ((k.go h w).2.2 = conclude (k.call.handler u).resp ∨
        ∃ www, h.post www = false ∧ (k.go h w).2.2 = .error .other ∧
          ((∃ r, k.call.handler u = .raised r ∧ www = none) ∨ (k.at1 ≠ k.at2 ∧ www = none) ∨
            ∃ header context, h.pre = some header ∧ k.call.second.login (some header) = .user u context ∧
              (∃ r, k.call.handler u = .returned r) ∧ www = context.map ("Negotiate ".toList ++ ·))) := by
  obtain ⟨⟨⟨www0, c1⟩, c2⟩, ⟨⟨_, _⟩, header, u2, ctx2, c3, c4, c5⟩, c6⟩ := hk
  have hf := go_went (hw k.at1) k.call.first k.call.handler none (fun u context e => by rw [c1] at e; cases e)
  unfold RCall.go
  revert hf
  generalize k.call.first.go k.call.handler none (w k.at1) = res
  obtain ⟨w1, hs, r⟩ := res
  rintro ⟨hf, hw1, hd1⟩
  cases hf with
  | cookie u hu _ =>
    simp only
    rw [if_neg (c6 u)]
    exact ⟨hw.upd hw1, u, rfl, hu, Or.inl rfl⟩
  | raised u context r e _ => rw [c1] at e; cases e
  | returned u context r k e _ => rw [c1] at e; cases e
  | refused code www e =>
    rw [c1] at e
    injection e with e1 e2
    subst e1 e2
    simp only
    rw [if_pos (show (failure 401 www0).body.status = 401 from rfl), c3]
    simp only
    have hwu : AllOk m n (upd w k.at1 w1) := hw.upd hw1
    have hs := go_went (hwu k.at2) k.call.second k.call.handler (some header)
      (fun u context e => by rw [c4] at e; injection e with e _; rw [← e]; exact c5)
    revert hs
    generalize k.call.second.go k.call.handler (some header) (upd w k.at1 w1 k.at2) = res
    obtain ⟨w2, hs', r'⟩ := res
    rintro ⟨hs, hw2, _⟩
    have post : ∀ (b : Bool) (a : Except Exn Resp), (if b = true then a else .error .other) = a ∨
        (b = false ∧ (if b = true then a else .error .other) = .error .other) := by
      intro b a
      cases b
      · exact Or.inr ⟨rfl, rfl⟩
      · exact Or.inl rfl
    cases hs with
    | refused code www e => rw [c4] at e; cases e
    | cookie u hu hn =>
      have hne : k.at1 ≠ k.at2 := by
        intro e
        apply hn
        have : upd w k.at1 w1 k.at2 = w1 := by unfold Replicas.upd; rw [if_pos e.symm]
        rw [this]
        exact hd1 rfl
      refine ⟨hwu.upd hw2, u, rfl, hu, ?_⟩
      rcases post (h.post none) (conclude (k.call.handler u).resp) with e | ⟨e1, e2⟩
      · exact Or.inl e
      · exact Or.inr ⟨none, e1, e2, Or.inr (Or.inl ⟨hne, rfl⟩)⟩
    | raised u context r e hr =>
      rw [c4] at e
      injection e with e _
      refine ⟨hwu.upd hw2, u, rfl, by rw [← e]; exact c5, ?_⟩
      rcases post (h.post none) (conclude r) with e | ⟨e1, e2⟩
      · left; rw [hr]; exact e
      · exact Or.inr ⟨none, e1, e2, Or.inl ⟨r, hr, rfl⟩⟩
    | returned u context r k' e hr =>
      have e' := e
      rw [c4] at e
      injection e with e _
      refine ⟨hwu.upd hw2, u, rfl, by rw [← e]; exact c5, ?_⟩
      rcases post (h.post (context.map ("Negotiate ".toList ++ ·))) (conclude r) with e | ⟨e1, e2⟩
      · left; rw [hr]; exact e
      · exact Or.inr ⟨_, e1, e2, Or.inr (Or.inr ⟨header, context, rfl, e', ⟨r, hr⟩, rfl⟩)⟩

theorem rrun_out {m : Rat} {n : Str} {h : Hooks} (evs : List REv)
    (hg : ∀ k ∈ rcalls evs, k.call.Good h n) : ∀ w, AllOk m n w →
    (run m h evs w).2.length = (rcalls evs).length ∧
    ∀ (i : Nat) (k : RCall), (rcalls evs)[i]? = some k →
      ∃ w', AllOk m n w' ∧ (run m h evs w).2[i]? = some (k.go h w').2 := by
  induction evs with
  | nil => intro w _; exact ⟨rfl, fun i k e => (by cases e)⟩
  | cons ev evs ih =>
    intro w hw
    cases ev with
    | call k =>
      have hk : k.call.Good h n := hg k (by simp [rcalls])
      have hrest : ∀ k' ∈ rcalls evs, k'.call.Good h n := fun k' hk' => hg k' (by simp [rcalls, hk'])
      obtain ⟨h1, h2⟩ := ih hrest (k.go h w).1 (rcall_ok hw k hk).1
      simp only [run, rcalls]
      refine ⟨by simp [h1], fun i k' e => ?_⟩
      cases i with
      | zero =>
        simp only [List.getElem?_cons_zero, Option.some.injEq] at e
        subst e
        exact ⟨w, hw, rfl⟩
      | succ i =>
        simp only [List.getElem?_cons_succ] at e ⊢
        exact h2 i k' e
    | others j l =>
      have h2 : WorldOk m n { w j with cache := ((w j).cache.run l).1 } :=
        ⟨(hw j).1.run l, fun k e => ((hw j).2 k e).run l⟩
      exact ih (fun k hk => hg k (by simpa [rcalls] using hk)) _ (hw.upd h2)
    | restart j =>
      exact ih (fun k hk => hg k (by simpa [rcalls] using hk)) _ (hw.upd (new_ok m n))

theorem all_new (m : Rat) (n : Str) : AllOk m n (newWorlds m) := fun _ => new_ok m n

/-- C172. Whichever replicas the requests of a client with the credentials of `n` go to, and whatever others do there and
whenever replicas are replaced: every call is handled exactly once, by one of the replicas, for a user named `n`. -/
theorem C172_handled_once (m : Rat) (h : Hooks) (n : Str) (evs : List REv)
    (hg : ∀ k ∈ rcalls evs, k.call.Good h n) :
    (run m h evs (newWorlds m)).2.length = (rcalls evs).length ∧
    ∀ x ∈ (run m h evs (newWorlds m)).2, ∃ u, x.1 = [u] ∧ u.name = n := by
  obtain ⟨h1, h2⟩ := rrun_out evs hg (newWorlds m) (all_new m n)
  refine ⟨h1, fun x hx => ?_⟩
  obtain ⟨i, hi, rfl⟩ := List.getElem_of_mem hx
  have hi' : i < (rcalls evs).length := by omega
  obtain ⟨w, hw, e⟩ := h2 i (rcalls evs)[i] (List.getElem?_eq_getElem hi')
  rw [List.getElem?_eq_getElem hi] at e
  injection e with e
  rw [e]
  obtain ⟨_, u, h3, h4, _⟩ := rcall_ok hw _ (hg _ (List.getElem_mem hi'))
  exact ⟨u, h3, h4⟩

/-- C172, result. With basic or JupyterHub authentication (the client accepts every response) the result of each call is
what the handler answered, whichever replica it was. -/
theorem C172_result (m : Rat) (h : Hooks) (n : Str) (evs : List REv) (hp : ∀ www, h.post www = true)
    (hg : ∀ k ∈ rcalls evs, k.call.Good h n) (i : Nat) (k : RCall) (hi : (rcalls evs)[i]? = some k) :
    ∃ u, u.name = n ∧
      (run m h evs (newWorlds m)).2[i]? = some ([u], conclude (k.call.handler u).resp) := by
  obtain ⟨h1, h2⟩ := rrun_out evs hg (newWorlds m) (all_new m n)
  obtain ⟨w, hw, e⟩ := h2 i k hi
  obtain ⟨_, u, h3, h4, h5⟩ := rcall_ok hw k (hg k (List.mem_of_getElem? hi))
  refine ⟨u, h4, ?_⟩
  rw [e, ← h3]
  rcases h5 with h5 | ⟨www, h5, _⟩
  · rw [← h5]
  · rw [hp] at h5; cases h5

/-- C172, Kerberos, the part that holds: if both requests of a call go to the same replica, its result is what the handler
answered, unless this is an error. Missing: calls that go to two replicas, see `C172_kerberos_violated`. -/
theorem C172_kerberos_partial (m : Rat) (g : Gss) (token principal answer : Str) (verify : Str → Bool)
    (evs : List REv) (ht : Ticket g token principal answer verify)
    (hk : ∀ k ∈ rcalls evs, k.call.first.login = kerberosLogin g ∧ k.call.second.login = kerberosLogin g ∧
      ∀ u, (k.call.handler u).resp.status ≠ 401)
    (i : Nat) (k : RCall) (hi : (rcalls evs)[i]? = some k) (hsame : k.at1 = k.at2) :
    ∃ u r, (run m (kerberosHooks (some token) verify) evs (newWorlds m)).2[i]? = some ([u], r) ∧
      u.name = principal.takeWhile (fun c => c != '@') ∧
      (r = conclude (k.call.handler u).resp ∨ (r = .error .other ∧ ∃ x, k.call.handler u = .raised x)) := by
  have hg : ∀ k ∈ rcalls evs, k.call.Good (kerberosHooks (some token) verify)
      (principal.takeWhile (fun c => c != '@')) := fun k h =>
    ⟨kerberos_credentials ht _ (hk k h).1, kerberos_credentials ht _ (hk k h).2.1, (hk k h).2.2⟩
  obtain ⟨h1, h2⟩ := rrun_out evs hg (newWorlds m) (all_new m _)
  obtain ⟨w, hw, e⟩ := h2 i k hi
  have hmem : k ∈ rcalls evs := List.mem_of_getElem? hi
  obtain ⟨_, u, h3, h4, h5⟩ := rcall_ok hw k (hg k hmem)
  refine ⟨u, _, by rw [e, ← h3], h4, ?_⟩
  rcases h5 with h5 | ⟨www, h5, h6, h7⟩
  · exact Or.inl h5
  · right
    refine ⟨h6, ?_⟩
    rcases h7 with ⟨r, h7, _⟩ | ⟨hne, _⟩ | ⟨header, context, h8, h9, _, h10⟩
    · exact ⟨r, h7⟩
    · exact absurd hsame hne
    · exfalso
      have h11 : header = "Negotiate ".toList ++ token := by
        injection h8 with h8; exact h8.symm
      rw [h11, (hk k hmem).2.1, kerberos_login ht] at h9
      injection h9 with _ h9
      subst h9
      rw [h10] at h5
      simp only [kerberosHooks, Option.map_some, strip_negotiate answer ht.noComma ht.noBlank] at h5
      have hne := ht.nonempty
      cases ha : answer with
      | nil => exact hne ha
      | cons x a =>
        rw [ha] at h5
        simp only at h5
        have := ht.accepted
        rw [ha, h5] at this
        cases this

/-- C172 with Kerberos in full, for calls that the handler does not answer with an error. -/
def C172_kerberos_full : Prop :=
  ∀ (m : Rat) (g : Gss) (token principal answer : Str) (verify : Str → Bool) (evs : List REv),
    Ticket g token principal answer verify →
    (∀ k ∈ rcalls evs, k.call.first.login = kerberosLogin g ∧ k.call.second.login = kerberosLogin g ∧
      ∀ u, (k.call.handler u).resp.status ≠ 401) →
    ∀ (i : Nat) (k : RCall), (rcalls evs)[i]? = some k → (∀ u, ∃ r, k.call.handler u = .returned r) →
    ∃ u, (run m (kerberosHooks (some token) verify) evs (newWorlds m)).2[i]? =
      some ([u], conclude (k.call.handler u).resp)

/-- A login at the second replica, and then a call of which the first request goes to the first replica, where the client
is not known, and the second one to the other. -/
def twoReplicas : List REv := [.call ⟨1, 1, fine⟩, .call ⟨0, 1, fine⟩]

/-- With Kerberos C172 is false of the code: a replica that knows the cookie of the client does not answer its ticket, and
the client takes that for a failed negotiation, although its call was carried out. -/
theorem C172_kerberos_violated : ¬ C172_kerberos_full := by
  intro h
  obtain ⟨u, hu⟩ := h 300 gss1 "tgt".toList "alice@EXAMPLE.COM".toList "ok".toList
    (fun a => decide (a = "ok".toList)) twoReplicas ticket1
    (by
      intro k hk
      simp only [twoReplicas, rcalls, List.mem_cons, List.not_mem_nil, or_false] at hk
      rcases hk with rfl | rfl <;> exact ⟨rfl, rfl, fun _ => show (200 : Nat) ≠ 401 by decide⟩) 1 ⟨0, 1, fine⟩ rfl
    (fun u => ⟨okResp, rfl⟩)
  have h2 : (run 300 (kerberosHooks (some "tgt".toList) (fun a => decide (a = "ok".toList)))
      twoReplicas (newWorlds 300)).2 = [([{ name := "alice".toList }], .ok okResp), ([{ name := "alice".toList }], .error .other)] := by
    decide +kernel
  rw [h2] at hu
  simp only [List.getElem?_cons_succ, List.getElem?_cons_zero, Option.some.injEq, Prod.mk.injEq, List.cons.injEq, and_true] at hu
  have h3 : conclude (fine.handler u).resp = conclude okResp := rfl
  rw [h3] at hu
  exact absurd hu.2 (by decide +kernel)

/-- Basic authentication at two replicas, one of which is replaced in between. -/
def sendR (t : Rat) : Send :=
  { before := [], during := [.issue { name := "bob".toList } t], t := t, t' := t, drop := false,
    login := plainLogin (Auth.simpleAuthenticate (some "pw".toList)) }

def callR (t : Rat) : Call :=
  { first := sendR t, second := sendR (t + 1), handler := fun _ => .returned okResp }

def mixed : List REv := [.call ⟨0, 1, callR 0⟩, .call ⟨1, 0, callR 5⟩, .restart 1, .call ⟨1, 0, callR 9⟩, .call ⟨0, 0, callR 20⟩]

example : ∀ k ∈ rcalls mixed, k.call.Good (basicHooks "alice".toList "pw".toList) "alice".toList := by
  intro k hk
  have hb : ∀ t, Credentials (basicHooks "alice".toList "pw".toList) "alice".toList (sendR t) :=
    fun t => C104_basic _ _ (by decide) (by unfold Auth.IsAscii; decide) (by unfold Auth.IsAscii; decide)
      _ (Or.inr ⟨rfl, by decide⟩) _ rfl
  simp only [mixed, rcalls, List.mem_cons, List.not_mem_nil, or_false] at hk
  rcases hk with rfl | rfl | rfl | rfl <;> exact ⟨hb _, hb _, fun _ => show (200 : Nat) ≠ 401 by decide⟩

example : (run 300 (basicHooks "alice".toList "pw".toList) mixed (newWorlds 300)).2 =
    List.replicate 4 ([{ name := "alice".toList }], .ok okResp) := by decide +kernel

end Verif.Session.Replicas

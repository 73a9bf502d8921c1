import Verif.Session.Model
import Verif.Auth.Props

/-!
Properties of a client and the gateway together (C104 to C106).
-/

set_option linter.unusedSimpArgs false
set_option linter.unusedVariables false

namespace Verif.Session

open Verif.Auth (User Cache Op Out Outcome split1 inv_run)
open Verif.Client (Resp Exn conclude)

/-! ### Specification -/

/-- The client's credentials are those of the user named `n`: without a header the gateway asks for
authentication, and with the client's header it takes the client for `n`, at any time. -/
def Credentials (h : Hooks) (n : Str) (s : Send) : Prop :=
  (∃ www, s.login none = .fail 401 www) ∧
  ∃ header u context, h.pre = some header ∧ s.login (some header) = .user u context ∧ u.name = n

/-- Both requests of the call meet an authenticator that knows the client, and the handler itself never
answers 401 (no handler of the gateway does). -/
def Call.Good (h : Hooks) (n : Str) (k : Call) : Prop :=
  Credentials h n k.first ∧ Credentials h n k.second ∧ ∀ u, (k.handler u).resp.status ≠ 401

/-- The calls of a history. -/
def calls : List Ev → List Call
  | [] => []
  | .call k :: es => k :: calls es
  | .others _ :: es => calls es
  | .restart :: es => calls es

/-! ### The cache -/

def Reach (m : Rat) (c : Cache) : Prop := ∃ ops, c = ((Cache.empty m).run ops).1

theorem Reach.run {m : Rat} {c : Cache} (h : Reach m c) (l : List Op) : Reach m (c.run l).1 := by
  obtain ⟨ops, rfl⟩ := h
  exact ⟨ops ++ l, by rw [Auth.run_append]⟩

theorem Reach.step {m : Rat} {c : Cache} (h : Reach m c) (o : Op) : Reach m (c.step o).1 := by
  obtain ⟨ops, rfl⟩ := h
  exact ⟨ops ++ [o], by rw [Auth.run_snoc]⟩

/-- The cookie was handed out, and is nobody else's. -/
def JarOk (n : Str) (c : Cache) (k : Nat) : Prop :=
  k < c.next ∧ ∀ t u, c.cookieToUser k = some (t, u) → u.name = n

theorem JarOk.step {n : Str} {c : Cache} {k : Nat} (h : JarOk n c k) (o : Op) :
    JarOk n (c.step o).1 k := by
  cases o with
  | present j now =>
    have del : ∀ names, JarOk n
        { maxAge := c.maxAge, nameToCookie := names, cookieToUser := Auth.upd c.cookieToUser j none,
          next := c.next } k := by
      intro names
      refine ⟨h.1, fun t u e => ?_⟩
      simp only [Auth.upd] at e
      by_cases hk : k = j
      · rw [if_pos hk] at e; cases e
      · rw [if_neg hk] at e; exact h.2 t u e
    simp only [Cache.step, Cache.get]
    cases hc : c.cookieToUser j with
    | none => exact h
    | some p =>
      simp only
      by_cases ht : p.1 + c.maxAge < now
      · rw [if_pos ht]
        cases hn : c.nameToCookie p.2.name with
        | none => exact del _
        | some _ => exact del _
      · rw [if_neg ht]; exact h
  | issue u now =>
    simp only [Cache.step, Cache.put]
    cases hn : c.nameToCookie u.name with
    | some _ => exact h
    | none =>
      simp only
      have := h.1
      refine ⟨by simp only; omega, fun t v e => ?_⟩
      simp only [Auth.upd] at e
      rw [if_neg (by omega)] at e
      exact h.2 t v e

theorem JarOk.run {n : Str} {c : Cache} {k : Nat} (h : JarOk n c k) (l : List Op) :
    JarOk n (c.run l).1 k := by
  induction l generalizing c with
  | nil => exact h
  | cons o l ih =>
    simp only [Cache.run]
    exact ih (h.step o)

def JarAll (n : Str) (c : Cache) (jar : Option Nat) : Prop := ∀ k, jar = some k → JarOk n c k

/-- The cookie is of no use any more. -/
def Dead (c : Cache) (jar : Option Nat) : Prop :=
  ∀ k, jar = some k → k < c.next ∧ c.cookieToUser k = none

private theorem Dead.step {c : Cache} {jar : Option Nat} (h : Dead c jar) (o : Op) :
    Dead (c.step o).1 jar := by
  intro k e
  obtain ⟨h1, h2⟩ := h k e
  cases o with
  | present j now =>
    have del : ∀ x, Auth.upd c.cookieToUser x none k = none := by
      intro x
      simp only [Auth.upd]
      by_cases hk : k = x
      · rw [if_pos hk]
      · rw [if_neg hk]; exact h2
    simp only [Cache.step, Cache.get]
    cases hc : c.cookieToUser j with
    | none => exact ⟨h1, h2⟩
    | some p =>
      simp only
      by_cases ht : p.1 + c.maxAge < now
      · rw [if_pos ht]
        cases hn : c.nameToCookie p.2.name with
        | none => exact ⟨h1, del j⟩
        | some _ => exact ⟨h1, del j⟩
      · rw [if_neg ht]; exact ⟨h1, h2⟩
  | issue u now =>
    simp only [Cache.step, Cache.put]
    cases hn : c.nameToCookie u.name with
    | some _ => exact ⟨h1, h2⟩
    | none =>
      simp only [Auth.upd]
      rw [if_neg (by omega)]
      exact ⟨by omega, h2⟩

private theorem Dead.run {c : Cache} {jar : Option Nat} (h : Dead c jar) (l : List Op) :
    Dead (c.run l).1 jar := by
  induction l generalizing c with
  | nil => exact h
  | cons o l ih =>
    simp only [Cache.run]
    exact ih (h.step o)

private theorem get_none_dead {m : Rat} {c : Cache} (k : Nat) (t : Rat)
    (hk : k < c.next) (e : (c.get k t).2 = .who none) : Dead (c.get k t).1 (some k) := by
  intro k' e'
  injection e' with e'
  subst e'
  revert e
  simp only [Cache.get]
  cases hc : c.cookieToUser k with
  | none => exact fun _ => ⟨hk, hc⟩
  | some p =>
    simp only
    by_cases ht : p.1 + c.maxAge < t
    · rw [if_pos ht]
      cases hn : c.nameToCookie p.2.name with
      | none => exact fun e => (by cases e)
      | some _ => exact fun _ => ⟨hk, by simp only [Auth.upd]; rw [if_pos trivial]⟩
    · rw [if_neg ht]
      exact fun e => (by cases e)

private theorem get_who {m : Rat} {c : Cache} (h : Reach m c) (k : Nat) (t : Rat) :
    ∃ x, (c.get k t).2 = .who x ∧ ∀ u, x = some u → ∃ t', c.cookieToUser k = some (t', u) := by
  obtain ⟨ops, rfl⟩ := h
  have hi := inv_run m ops
  revert hi
  generalize ((Cache.empty m).run ops).1 = c
  intro hi
  simp only [Cache.get]
  cases hc : c.cookieToUser k with
  | none => exact ⟨none, rfl, fun u e => (by cases e)⟩
  | some p =>
    simp only
    by_cases ht : p.1 + c.maxAge < t
    · rw [if_pos ht, (hi.entry k p.1 p.2 hc).1]
      exact ⟨none, rfl, fun u e => (by cases e)⟩
    · rw [if_neg ht]
      exact ⟨some p.2, rfl, fun u e => by injection e with e; exact ⟨p.1, by rw [← e]⟩⟩

private theorem lookup_who {m : Rat} {c : Cache} {n : Str} {jar : Option Nat} (h : Reach m c)
    (hj : JarAll n c jar) (t : Rat) :
    ∃ c1 x, lookupCookie c jar t = (c1, .who x) ∧ Reach m c1 ∧ JarAll n c1 jar ∧
      (∀ u, x = some u → u.name = n ∧ ¬ Dead c jar) ∧ (x = none → Dead c1 jar) := by
  cases jar with
  | none => exact ⟨c, none, rfl, h, hj, fun u e => (by cases e), fun _ k e => (by cases e)⟩
  | some k =>
    obtain ⟨x, h1, h2⟩ := get_who h k t
    refine ⟨(c.get k t).1, x, ?_, h.step (.present k t), ?_, ?_, ?_⟩
    · rw [lookupCookie, ← h1]
    · intro k' e
      exact (hj k' e).step (.present k t)
    · intro u e
      obtain ⟨t', h3⟩ := h2 u e
      refine ⟨(hj k rfl).2 t' u h3, fun hd => ?_⟩
      rw [(hd k rfl).2] at h3
      cases h3
    · intro e
      exact get_none_dead (m := m) k t (hj k rfl).1 (by rw [h1, e])

private theorem put_gave {m : Rat} {c : Cache} (h : Reach m c) (u : User) (t : Rat) :
    ∃ k, (c.put u t).2 = .gave k ∧ JarOk u.name (c.put u t).1 k := by
  obtain ⟨ops, rfl⟩ := h
  have hi := inv_run m ops
  revert hi
  generalize ((Cache.empty m).run ops).1 = c
  intro hi
  simp only [Cache.put]
  cases hn : c.nameToCookie u.name with
  | some k =>
    obtain ⟨t1, u1, h1, h2⟩ := hi.name _ _ hn
    obtain ⟨_, i, h3, _⟩ := hi.entry k t1 u1 h1
    refine ⟨k, rfl, hi.issued _ _ _ _ h3, fun t' v e => ?_⟩
    rw [h1] at e
    injection e with e
    injection e with _ e
    rw [← e, h2]
  | none =>
    refine ⟨c.next, rfl, by simp only; omega, fun t' v e => ?_⟩
    simp only [Auth.upd] at e
    rw [if_pos trivial] at e
    injection e with e
    injection e with _ e
    rw [← e]

/-! ### One request -/

/-- The state of the world in which the client is `n`. -/
def WorldOk (m : Rat) (n : Str) (w : World) : Prop := Reach m w.cache ∧ JarAll n w.cache w.jar

/-- What can come of a request. -/
inductive Went (n : Str) (w : World) (s : Send) (handler : User → Handled) (header : Option Str) :
    List User × SResp → Prop
  | cookie (u : User) : u.name = n → ¬ Dead w.cache w.jar →
    Went n w s handler header ([u], { body := (handler u).resp, www := none, cookie := none })
  | refused (code : Nat) (www : Option Str) : s.login header = .fail code www →
    Went n w s handler header ([], failure code www)
  | raised (u : User) (context : Option Str) (r : Resp) : s.login header = .user u context →
    handler u = .raised r →
    Went n w s handler header ([u], { body := r, www := none, cookie := none })
  | returned (u : User) (context : Option Str) (r : Resp) (k : Nat) :
    s.login header = .user u context → handler u = .returned r →
    Went n w s handler header
      ([u], { body := r, www := context.map ("Negotiate ".toList ++ ·), cookie := some k })

theorem go_went {m : Rat} {n : Str} {w : World} (h : WorldOk m n w) (s : Send)
    (handler : User → Handled) (header : Option Str)
    (hl : ∀ u context, s.login header = .user u context → u.name = n) :
    Went n w s handler header (s.go handler header w).2 ∧ WorldOk m n (s.go handler header w).1 ∧
      ((s.go handler header w).2.1 = [] →
        Dead (s.go handler header w).1.cache (s.go handler header w).1.jar) := by
  have hdead : Dead w.cache w.jar →
      Dead (w.cache.run s.before).1 (if s.drop = true then none else w.jar) := by
    intro hd k e
    by_cases hdr : s.drop = true
    · rw [if_pos hdr] at e; cases e
    · rw [if_neg hdr] at e; exact hd.run s.before k e
  have hj : JarAll n (w.cache.run s.before).1 (if s.drop = true then none else w.jar) := by
    intro k e
    by_cases hd : s.drop = true
    · rw [if_pos hd] at e; cases e
    · rw [if_neg hd] at e; exact (h.2 k e).run _
  obtain ⟨c1, x, h1, h2, h3, h4, h4'⟩ := lookup_who (h.1.run s.before) hj s.t
  unfold Send.go
  simp only
  generalize (if s.drop = true then none else w.jar) = jar at *
  unfold serve
  rw [h1]
  cases x with
  | some u =>
    exact ⟨.cookie u (h4 u rfl).1 (fun hd => (h4 u rfl).2 (hdead hd)),
      ⟨h2.run _, fun k e => (h3 k e).run _⟩, fun e => (by cases e)⟩
  | none =>
    simp only
    cases hlog : s.login header with
    | fail code www => exact ⟨.refused code www hlog, ⟨h2, fun k e => h3 k e⟩, fun _ => h4' rfl⟩
    | user u context =>
      simp only
      cases hh : handler u with
      | raised r => exact ⟨.raised u context r hlog hh, ⟨h2.run _, fun k e => (h3 k e).run _⟩,
          fun e => (by cases e)⟩
      | returned r =>
        simp only
        obtain ⟨k, h5, h6⟩ := put_gave (h2.run s.during) u s.t'
        have h7 : (c1.run s.during).1.put u s.t' =
            (((c1.run s.during).1.put u s.t').1, Out.gave k) := by rw [← h5]
        have h8 := (h2.run s.during).step (.issue u s.t')
        simp only [Cache.step] at h8
        rw [h7]
        refine ⟨.returned u context r k hlog hh, ⟨h8, fun k' e => ?_⟩, fun e => (by cases e)⟩
        injection e with e
        subst e
        rw [← hl u context hlog]
        exact h6

/-! ### C104: every call is handled once, for the right user -/

/-- The result that the user sees of a handler's response. -/
private theorem call_ok {m : Rat} {n : Str} {h : Hooks} {w : World} (hw : WorldOk m n w) (k : Call)
    (hk : k.Good h n) :
    WorldOk m n (k.go h w).1 ∧ ∃ u, (k.go h w).2.1 = [u] ∧ u.name = n ∧
      ((k.go h w).2.2 = conclude (k.handler u).resp ∨
        ∃ www, h.post www = false ∧ (k.go h w).2.2 = .error .other ∧
          ((∃ r, k.handler u = .raised r ∧ www = none) ∨
            ∃ header context, h.pre = some header ∧ k.second.login (some header) = .user u context ∧
              (∃ r, k.handler u = .returned r) ∧ www = context.map ("Negotiate ".toList ++ ·))) := by
  obtain ⟨⟨⟨www0, c1⟩, c2⟩, ⟨⟨_, _⟩, header, u2, ctx2, c3, c4, c5⟩, c6⟩ := hk
  have hf := go_went hw k.first k.handler none (fun u context e => by rw [c1] at e; cases e)
  unfold Call.go
  revert hf
  generalize k.first.go k.handler none w = res
  obtain ⟨w1, hs, r⟩ := res
  rintro ⟨hf, hw1, hd1⟩
  cases hf with
  | cookie u hu _ =>
    simp only
    rw [if_neg (c6 u)]
    exact ⟨hw1, u, rfl, hu, Or.inl rfl⟩
  | raised u context r e _ => rw [c1] at e; cases e
  | returned u context r k e _ => rw [c1] at e; cases e
  | refused code www e =>
    rw [c1] at e
    injection e with e1 e2
    subst e1 e2
    simp only
    rw [if_pos (show (failure 401 www0).body.status = 401 from rfl), c3]
    simp only
    have hs := go_went hw1 k.second k.handler (some header)
      (fun u context e => by rw [c4] at e; injection e with e _; rw [← e]; exact c5)
    revert hs
    generalize k.second.go k.handler (some header) w1 = res
    obtain ⟨w2, hs', r'⟩ := res
    rintro ⟨hs, hw2, _⟩
    have post : ∀ (b : Bool) (a : Except Exn Resp), (if b = true then a else .error .other) = a ∨
        (b = false ∧ (if b = true then a else .error .other) = .error .other) := by
      intro b a
      cases b
      · exact Or.inr ⟨rfl, rfl⟩
      · exact Or.inl rfl
    cases hs with
    | refused code www e => rw [c4] at e; cases e
    | cookie u hu hn => exact absurd (hd1 rfl) hn
    | raised u context r e hr =>
      rw [c4] at e
      injection e with e _
      refine ⟨hw2, u, rfl, by rw [← e]; exact c5, ?_⟩
      rcases post (h.post none) (conclude r) with e | ⟨e1, e2⟩
      · left; rw [hr]; exact e
      · exact Or.inr ⟨none, e1, e2, Or.inl ⟨r, hr, rfl⟩⟩
    | returned u context r k' e hr =>
      have e' := e
      rw [c4] at e
      injection e with e _
      refine ⟨hw2, u, rfl, by rw [← e]; exact c5, ?_⟩
      rcases post (h.post (context.map ("Negotiate ".toList ++ ·))) (conclude r) with e | ⟨e1, e2⟩
      · left; rw [hr]; exact e
      · exact Or.inr ⟨_, e1, e2, Or.inr ⟨header, context, rfl, e', ⟨r, hr⟩, rfl⟩⟩

/-- A client that is new, at a gateway that is new. -/
def World.new (m : Rat) : World := { cache := Cache.empty m, jar := none }

private theorem run_out {m : Rat} {n : Str} {h : Hooks} (evs : List Ev)
    (hg : ∀ k ∈ calls evs, k.Good h n) : ∀ w, WorldOk m n w →
    (run m h evs w).2.length = (calls evs).length ∧
    ∀ (i : Nat) (k : Call), (calls evs)[i]? = some k →
      ∃ w', WorldOk m n w' ∧ (run m h evs w).2[i]? = some (k.go h w').2 := by
  induction evs with
  | nil => intro w _; exact ⟨rfl, fun i k e => (by cases e)⟩
  | cons ev evs ih =>
    intro w hw
    cases ev with
    | call k =>
      have hk : k.Good h n := hg k (by simp [calls])
      have hrest : ∀ k' ∈ calls evs, k'.Good h n := fun k' hk' => hg k' (by simp [calls, hk'])
      obtain ⟨h1, h2⟩ := ih hrest (k.go h w).1 (call_ok hw k hk).1
      simp only [run, calls]
      refine ⟨by simp only [List.length_cons, h1], fun i k' e => ?_⟩
      cases i with
      | zero =>
        simp only [List.getElem?_cons_zero, Option.some.injEq] at e ⊢
        subst e
        exact ⟨w, hw, rfl⟩
      | succ i =>
        simp only [List.getElem?_cons_succ] at e ⊢
        exact h2 i k' e
    | others l =>
      simp only [run, calls]
      exact ih hg _ ⟨hw.1.run l, fun k e => (hw.2 k e).run l⟩
    | restart =>
      simp only [run, calls]
      exact ih hg _ ⟨⟨[], rfl⟩, fun k e => (by cases e)⟩

theorem new_ok (m : Rat) (n : Str) : WorldOk m n (World.new m) :=
  ⟨⟨[], rfl⟩, fun k e => (by cases e)⟩

/-- C104. In every history of calls of a client whose credentials are those of `n`, with other clients
at work, cookies running out on either side and restarts of the gateway: every call is handled by the
gateway exactly once, for a user named `n`. -/
theorem C104_handled_once (m : Rat) (h : Hooks) (n : Str) (evs : List Ev)
    (hg : ∀ k ∈ calls evs, k.Good h n) :
    (run m h evs (World.new m)).2.length = (calls evs).length ∧
    ∀ x ∈ (run m h evs (World.new m)).2, ∃ u, x.1 = [u] ∧ u.name = n := by
  obtain ⟨h1, h2⟩ := run_out evs hg (World.new m) (new_ok m n)
  refine ⟨h1, fun x hx => ?_⟩
  obtain ⟨i, hi, rfl⟩ := List.getElem_of_mem hx
  have hi' : i < (calls evs).length := by omega
  obtain ⟨w, hw, e⟩ := h2 i (calls evs)[i] (List.getElem?_eq_getElem hi')
  rw [List.getElem?_eq_getElem hi] at e
  injection e with e
  rw [e]
  obtain ⟨_, u, h3, h4, _⟩ := call_ok hw _ (hg _ (List.getElem_mem hi'))
  exact ⟨u, h3, h4⟩

/-- C104. With basic authentication or JupyterHub (that is, if the client does not check the response),
the result of each call is what the gateway's handler answered, success or error, whether the client
was recognised by its cookie or had to log in. -/
theorem C104_result (m : Rat) (h : Hooks) (n : Str) (evs : List Ev) (hp : ∀ www, h.post www = true)
    (hg : ∀ k ∈ calls evs, k.Good h n) (i : Nat) (k : Call) (hi : (calls evs)[i]? = some k) :
    ∃ u, u.name = n ∧
      (run m h evs (World.new m)).2[i]? = some ([u], conclude (k.handler u).resp) := by
  obtain ⟨h1, h2⟩ := run_out evs hg (World.new m) (new_ok m n)
  obtain ⟨w, hw, e⟩ := h2 i k hi
  have hk : k ∈ calls evs := List.mem_of_getElem? hi
  obtain ⟨_, u, h3, h4, h5⟩ := call_ok hw k (hg k hk)
  refine ⟨u, h4, ?_⟩
  rw [e, ← h3]
  rcases h5 with h5 | ⟨www, h5, _⟩
  · rw [← h5]
  · rw [hp] at h5; cases h5

/-- C104. The credentials of basic authentication: ASCII, no colon in the name, and the password that
is configured. -/
theorem C104_basic (u p : Str) (hu : ':' ∉ u) (au : Auth.IsAscii u) (ap : Auth.IsAscii p)
    (configured : Option Str) (hc : configured = none ∨ (configured = some p ∧ p ≠ [])) (s : Send)
    (hs : s.login = plainLogin (Auth.simpleAuthenticate configured)) :
    Credentials (basicHooks u p) u s := by
  obtain ⟨h, h1, h2, h3⟩ := Auth.C40_basic_partial u p hu au ap
  refine ⟨⟨none, by rw [hs]; rfl⟩, h, { name := u }, none, h1, ?_, rfl⟩
  rw [hs]
  rcases hc with rfl | ⟨rfl, hp⟩
  · rw [plainLogin, h2]
  · rw [plainLogin, h3 p hp, if_pos rfl]

/-- C104. The credentials of a JupyterHub token that the hub knows. -/
theorem C104_hub (c : Auth.HubCfg) (token : Str) (reply : Str → Auth.HubReply) (d : Auth.HubData)
    (hr : reply token = { status := 200, data := some d })
    (hsc : c.enforce = true → ∃ s ∈ Auth.hubAccessScopes c, s ∈ d.scopes) (s : Send)
    (hs : s.login = plainLogin (fun header => Auth.hubAuthenticate c header reply)) :
    Credentials (hubHooks token) (Auth.hubUsername d.kind d.name) s := by
  have h1 : split1 ' ' (Auth.hubHeader token) = some ("jupyterhub".toList, token) :=
    Auth.split1_append ' ' "jupyterhub".toList token (by decide)
  have h2 : Auth.hubToken (some (Auth.hubHeader token)) = some (some token) := by
    have : Auth.hubHeader token = 'j' :: ("upyterhub ".toList ++ token) := rfl
    rw [this] at h1 ⊢
    simp only [Auth.hubToken, h1]
    rw [if_pos trivial]
  refine ⟨⟨none, by rw [hs]; rfl⟩, Auth.hubHeader token,
    { name := Auth.hubUsername d.kind d.name, groups := d.groups, admin := d.admin }, none, rfl, ?_, rfl⟩
  rw [hs, plainLogin, Auth.hubAuthenticate, h2]
  simp only [hr]
  rw [if_pos (show 200 < 400 by omega), if_neg]
  rintro ⟨h3, h4⟩
  obtain ⟨x, hx, hd⟩ := hsc h3
  have := List.all_eq_true.1 h4 x hx
  simp only [decide_eq_true_eq] at this
  exact this hd

/-! ### C105: errors with Kerberos -/

theorem strip_negotiate (answer : Str) (hc : ',' ∉ answer) (hs : answer.head? ≠ some ' ') :
    negotiateToken ("Negotiate ".toList ++ answer) = some answer := by
  unfold negotiateToken
  rw [if_pos]
  · have : ("Negotiate ".toList ++ answer).drop 9 = ' ' :: answer := rfl
    rw [this, List.dropWhile_cons, if_pos (by decide)]
    cases answer with
    | nil => rfl
    | cons x a =>
      rw [List.dropWhile_cons, if_neg]
      intro e
      exact hs (by rw [List.head?_cons, eq_of_beq e])
  · refine ⟨rfl, ?_⟩
    intro h
    rcases List.mem_append.1 h with h | h
    · exact absurd h (by decide)
    · exact hc h

/-- A gateway with Kerberos and a client with a ticket: the server takes the client's token for a
ticket of `principal`, and the client accepts the server's answer. -/
structure Ticket (g : Gss) (token principal answer : Str) (verify : Str → Bool) : Prop where
  step : g.step token = some (principal, answer)
  nonempty : answer ≠ []
  noComma : ',' ∉ answer
  noBlank : answer.head? ≠ some ' '
  accepted : verify answer = true

theorem kerberos_login {g : Gss} {token principal answer : Str} {verify : Str → Bool}
    (ht : Ticket g token principal answer verify) :
    kerberosLogin g (some ("Negotiate ".toList ++ token)) =
      .user { name := principal.takeWhile (fun c => c != '@') } (some answer) := by
  have h1 : split1 ' ' ("Negotiate ".toList ++ token) = some ("Negotiate".toList, token) :=
    Auth.split1_append ' ' "Negotiate".toList token (by decide)
  have h2 : "Negotiate ".toList ++ token = 'N' :: ("egotiate ".toList ++ token) := rfl
  rw [h2] at h1 ⊢
  simp only [kerberosLogin, h1, ht.step]
  rw [if_neg (by simp)]

theorem kerberos_credentials {g : Gss} {token principal answer : Str} {verify : Str → Bool}
    (ht : Ticket g token principal answer verify) (s : Send) (hs : s.login = kerberosLogin g) :
    Credentials (kerberosHooks (some token) verify) (principal.takeWhile (fun c => c != '@')) s :=
  ⟨⟨some "Negotiate".toList, by rw [hs]; rfl⟩, _, _, _, rfl, by rw [hs, kerberos_login ht], rfl⟩

/-- C105 in full: with Kerberos, too, the result of each call is what the gateway's handler answered. -/
def C105_full : Prop :=
  ∀ (m : Rat) (g : Gss) (token principal answer : Str) (verify : Str → Bool) (evs : List Ev),
    Ticket g token principal answer verify →
    (∀ k ∈ calls evs, k.first.login = kerberosLogin g ∧ k.second.login = kerberosLogin g ∧
      ∀ u, (k.handler u).resp.status ≠ 401) →
    ∀ (i : Nat) (k : Call), (calls evs)[i]? = some k →
    ∃ u, (run m (kerberosHooks (some token) verify) evs (World.new m)).2[i]? =
      some ([u], conclude (k.handler u).resp)

def gss1 : Gss where
  step t := if t = "tgt".toList then some ("alice@EXAMPLE.COM".toList, "ok".toList) else none

private def notFound : Resp := { status := 404, json := none, text := "Cluster x not found".toList }

def okResp : Resp := { status := 200, json := none, text := [] }

def send0 : Send :=
  { before := [], during := [], t := 0, t' := 1, drop := false, login := kerberosLogin gss1 }

private def missing : Call := { first := send0, second := send0, handler := fun _ => .raised notFound }

def fine : Call := { first := send0, second := send0, handler := fun _ => .returned okResp }

theorem ticket1 : Ticket gss1 "tgt".toList "alice@EXAMPLE.COM".toList "ok".toList
    (fun a => decide (a = "ok".toList)) :=
  ⟨by decide, by decide, by decide, by decide, by decide⟩

/-- C105 is false of the code: an error that a handler raises does not pass through `pre_response`, so
that the response lacks the answer to the client's ticket, and the client reports a failed negotiation
instead of the error. -/
theorem C105_violated : ¬ C105_full := by
  intro h
  obtain ⟨u, hu⟩ := h 300 gss1 "tgt".toList "alice@EXAMPLE.COM".toList "ok".toList
    (fun a => decide (a = "ok".toList)) [.call missing] ticket1
    (by
      intro k hk
      simp only [calls, List.mem_singleton] at hk
      subst hk
      exact ⟨rfl, rfl, fun _ => show (404 : Nat) ≠ 401 by decide⟩) 0 missing rfl
  have h2 : (run 300 (kerberosHooks (some "tgt".toList) (fun a => decide (a = "ok".toList)))
      [.call missing] (World.new 300)).2 = [([{ name := "alice".toList }], .error .other)] := by
    decide +kernel
  rw [h2] at hu
  simp only [List.getElem?_cons_zero, Option.some.injEq, Prod.mk.injEq, List.cons.injEq, and_true] at hu
  have h3 : conclude (missing.handler u).resp = conclude notFound := rfl
  rw [h3] at hu
  exact absurd hu.2 (by decide +kernel)

/-- C105, the part that holds: each call is handled once for the right user, and its result is what the
handler answered, unless the handler raised an error. Missing: errors on calls for which the client has
to log in; those show as a failed negotiation. -/
theorem C105_partial (m : Rat) (g : Gss) (token principal answer : Str) (verify : Str → Bool)
    (evs : List Ev) (ht : Ticket g token principal answer verify)
    (hk : ∀ k ∈ calls evs, k.first.login = kerberosLogin g ∧ k.second.login = kerberosLogin g ∧
      ∀ u, (k.handler u).resp.status ≠ 401)
    (i : Nat) (k : Call) (hi : (calls evs)[i]? = some k) :
    ∃ u r, (run m (kerberosHooks (some token) verify) evs (World.new m)).2[i]? = some ([u], r) ∧
      u.name = principal.takeWhile (fun c => c != '@') ∧
      (r = conclude (k.handler u).resp ∨ (r = .error .other ∧ ∃ x, k.handler u = .raised x)) := by
  have hg : ∀ k ∈ calls evs, k.Good (kerberosHooks (some token) verify)
      (principal.takeWhile (fun c => c != '@')) := fun k h =>
    ⟨kerberos_credentials ht _ (hk k h).1, kerberos_credentials ht _ (hk k h).2.1, (hk k h).2.2⟩
  obtain ⟨h1, h2⟩ := run_out evs hg (World.new m) (new_ok m _)
  obtain ⟨w, hw, e⟩ := h2 i k hi
  have hmem : k ∈ calls evs := List.mem_of_getElem? hi
  obtain ⟨_, u, h3, h4, h5⟩ := call_ok hw k (hg k hmem)
  refine ⟨u, _, by rw [e, ← h3], h4, ?_⟩
  rcases h5 with h5 | ⟨www, h5, h6, h7⟩
  · exact Or.inl h5
  · right
    refine ⟨h6, ?_⟩
    rcases h7 with ⟨r, h7, _⟩ | ⟨header, context, h8, h9, _, h10⟩
    · exact ⟨r, h7⟩
    · exfalso
      have h11 : header = "Negotiate ".toList ++ token := by
        injection h8 with h8; exact h8.symm
      rw [h11, (hk k hmem).2.1, kerberos_login ht] at h9
      injection h9 with _ h9
      subst h9
      rw [h10] at h5
      simp only [kerberosHooks, Option.map_some, strip_negotiate answer ht.noComma ht.noBlank] at h5
      have hne := ht.nonempty
      cases ha : answer with
      | nil => exact hne ha
      | cons x a =>
        rw [ha] at h5
        simp only at h5
        have := ht.accepted
        rw [ha, h5] at this
        cases this

/-- A login, a call with the cookie that fails as it should, and a call after a restart. -/
example : (run 300 (kerberosHooks (some "tgt".toList) (fun a => decide (a = "ok".toList)))
      [.call fine, .call missing, .restart, .call fine, .call missing] (World.new 300)).2 =
    [([{ name := "alice".toList }], .ok okResp),
      ([{ name := "alice".toList }], .error (.value (.str "Cluster x not found".toList))),
      ([{ name := "alice".toList }], .ok okResp),
      ([{ name := "alice".toList }], .error (.value (.str "Cluster x not found".toList)))] := by
  decide +kernel

/-- Basic authentication: the cookie runs out between the calls. -/
private def sendB (t : Rat) : Send :=
  { before := [], during := [.issue { name := "bob".toList } t], t := t, t' := t, drop := false,
    login := plainLogin (Auth.simpleAuthenticate (some "pw".toList)) }

private def callB (t : Rat) : Call :=
  { first := sendB t, second := sendB (t + 1), handler := fun _ => .raised notFound }

private def callB' (t : Rat) : Call :=
  { first := sendB t, second := sendB (t + 1), handler := fun _ => .returned okResp }

example : ∀ k ∈ calls [.call (callB 0), .call (callB' 5), .call (callB' 200), .call (callB 400)],
    k.Good (basicHooks "alice".toList "pw".toList) "alice".toList := by
  intro k hk
  have hb : ∀ t, Credentials (basicHooks "alice".toList "pw".toList) "alice".toList (sendB t) :=
    fun t => C104_basic _ _ (by decide) (by unfold Auth.IsAscii; decide) (by unfold Auth.IsAscii; decide)
      _ (Or.inr ⟨rfl, by decide⟩) _ rfl
  simp only [calls, List.mem_cons, List.not_mem_nil, or_false] at hk
  rcases hk with rfl | rfl | rfl | rfl
  · exact ⟨hb _, hb _, fun _ => show (404 : Nat) ≠ 401 by decide⟩
  · exact ⟨hb _, hb _, fun _ => show (200 : Nat) ≠ 401 by decide⟩
  · exact ⟨hb _, hb _, fun _ => show (200 : Nat) ≠ 401 by decide⟩
  · exact ⟨hb _, hb _, fun _ => show (404 : Nat) ≠ 401 by decide⟩

example : (run 300 (basicHooks "alice".toList "pw".toList)
      [.call (callB 0), .call (callB' 5), .call (callB' 200), .call (callB 400)] (World.new 300)).2 =
    [([{ name := "alice".toList }], .error (.value (.str "Cluster x not found".toList))),
      ([{ name := "alice".toList }], .ok okResp),
      ([{ name := "alice".toList }], .ok okResp),
      ([{ name := "alice".toList }], .error (.value (.str "Cluster x not found".toList)))] := by
  decide +kernel

/-! ### C106: Kerberos principals and users -/

/-- C106 in full: two principals that the gateway takes for the same user are the same. -/
def C106_full : Prop :=
  ∀ (g : Gss) (t t' p p' a a' : Str) (u u' : User) (c c' : Option Str),
    g.step t = some (p, a) → g.step t' = some (p', a') →
    kerberosLogin g (some ("Negotiate ".toList ++ t)) = .user u c →
    kerberosLogin g (some ("Negotiate ".toList ++ t')) = .user u' c' → u.name = u'.name → p = p'

/-- C106 is false of the code: the realm is cut off, so that users of the same name in two realms that
the gateway's realm trusts are the same user, and see and stop each other's clusters. -/
theorem C106_violated : ¬ C106_full := by
  intro h
  have := h { step := fun t => some ("alice@".toList ++ t, []) } "A".toList "B".toList
    "alice@A".toList "alice@B".toList [] [] { name := "alice".toList } { name := "alice".toList }
    (some []) (some []) rfl rfl (by decide) (by decide) rfl
  exact absurd this (by decide)

private theorem takeWhile_at (p r : Str) (h : '@' ∉ p) :
    (p ++ '@' :: r).takeWhile (fun c => c != '@') = p := by
  induction p with
  | nil => rfl
  | cons x p ih =>
    have hx : x ≠ '@' := fun e => h (by simp [e])
    rw [List.cons_append, List.takeWhile_cons, if_pos (by simp [hx]), ih (fun hm => h (by simp [hm]))]

/-- C106, the part that holds: within one realm, different principals are different users. Missing:
principals of other realms. -/
theorem C106_partial (g : Gss) (t t' p p' r a a' : Str) (hp : '@' ∉ p) (hp' : '@' ∉ p')
    (h : g.step t = some (p ++ '@' :: r, a)) (h' : g.step t' = some (p' ++ '@' :: r, a')) :
    ∃ u u', kerberosLogin g (some ("Negotiate ".toList ++ t)) = .user u (some a) ∧
      kerberosLogin g (some ("Negotiate ".toList ++ t')) = .user u' (some a') ∧
      u.name = p ∧ u'.name = p' ∧ (u = u' ↔ p = p') := by
  have hl : ∀ t p a, '@' ∉ p → g.step t = some (p ++ '@' :: r, a) →
      kerberosLogin g (some ("Negotiate ".toList ++ t)) = .user { name := p } (some a) := by
    intro t p a hp h
    have h1 : split1 ' ' ("Negotiate ".toList ++ t) = some ("Negotiate".toList, t) :=
      Auth.split1_append ' ' "Negotiate".toList t (by decide)
    have h2 : "Negotiate ".toList ++ t = 'N' :: ("egotiate ".toList ++ t) := rfl
    rw [h2] at h1 ⊢
    simp only [kerberosLogin, h1, h]
    rw [if_neg (by simp), takeWhile_at p r hp]
  refine ⟨{ name := p }, { name := p' }, hl t p a hp h, hl t' p' a' hp' h', rfl, rfl, ?_⟩
  constructor
  · intro e
    injection e
  · rintro rfl
    rfl

/-- Nobody is let in without a ticket that the Kerberos library accepts. -/
theorem C106_ticket (g : Gss) (header : Option Str) (u : User) (c : Option Str)
    (h : kerberosLogin g header = .user u c) :
    ∃ token principal answer, header = some ("Negotiate ".toList ++ token) ∧
      g.step token = some (principal, answer) ∧ c = some answer ∧
      u = { name := principal.takeWhile (fun c => c != '@') } := by
  unfold kerberosLogin at h
  cases header with
  | none => cases h
  | some hd =>
    cases hd with
    | nil => cases h
    | cons x s =>
      simp only at h
      cases hs : split1 ' ' (x :: s) with
      | none => rw [hs] at h; cases h
      | some p =>
        obtain ⟨kind, key⟩ := p
        rw [hs] at h
        simp only at h
        by_cases hk : kind ≠ "Negotiate".toList
        · rw [if_pos hk] at h; cases h
        · rw [if_neg hk] at h
          cases hg : g.step key with
          | none => rw [hg] at h; cases h
          | some q =>
            rw [hg] at h
            simp only [Login.user.injEq] at h
            obtain ⟨rfl, rfl⟩ := h
            have hk' : kind = "Negotiate".toList := Classical.not_not.1 hk
            refine ⟨key, q.1, q.2, ?_, hg, rfl, rfl⟩
            rw [(Auth.split1_eq_some hs).1, hk']
            rfl

example : kerberosLogin gss1 (some "Negotiate tgt".toList) =
      .user { name := "alice".toList } (some "ok".toList) ∧
    kerberosLogin gss1 (some "Negotiate forged".toList) = .fail 500 none ∧
    kerberosLogin gss1 (some "Basic tgt".toList) = .fail 401 (some "Negotiate".toList) := by
  decide +kernel

end Verif.Session

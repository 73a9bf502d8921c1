import Verif.Forward.Props
/-
C107: the counterexample, and examples.
-/
namespace Verif.Forward
open Verif.Router (Str Op Longest tableOf key joinSlash trailing stripLead stripTrail)

/-- A route for a cluster's dashboard. -/
def demoTarget : Url := ⟨"http".toList, "10.0.0.1:8787".toList, [], [], false, []⟩

/-- The gateway's own route. -/
def demoGateway : Url := ⟨"http".toList, "127.0.0.1:8001".toList, [], [], false, []⟩

def demoOps : List (Op Url) := [.put "/".toList demoGateway, .put "/clusters/c".toList demoTarget]

/-- What is sent on for a request target, if anything. -/
def sentOn (ops : List (Op Url)) (s : Str) : Option Str :=
  match parseTarget s with
  | none => none
  | some u => match serveHTTP (Router.Router.run ops) u with
    | .notFound => none
    | .forward v => some (requestURI v)

/-- A request with an escaped slash. -/
def demoPath : Str := "/clusters/c/files/a%2Fb".toList

/-- The URL that is read from it. -/
def demoUrl : Url := ⟨[], [], "/clusters/c/files/a/b".toList, demoPath, false, []⟩

/-- The URL it is sent on to. -/
def demoOut : Url := ⟨"http".toList, "10.0.0.1:8787".toList, "/files/a/b".toList, demoPath, false, []⟩

theorem demo_facts : parseTarget demoPath = some demoUrl ∧
    serveHTTP (Router.Router.run demoOps) demoUrl = .forward demoOut ∧ pathOf demoPath = demoPath ∧
    pathOf (requestURI demoOut) = '/' :: "files/a/b".toList ∧ demoPath.reverse.take 2 = ['b', 'F'] ∧
    "files/a/b".toList.reverse.take 2 = ['b', '/'] ∧ stripTrail demoTarget.path = [] ∧
    (∀ c ∈ demoPath, c.toNat < 256) := by
  refine ⟨?_, ?_, ?_, ?_, ?_, ?_, ?_, ?_⟩ <;> decide +kernel

theorem take_append_two (a b : Str) (h : 2 ≤ b.length) : (a ++ b).reverse.take 2 = b.reverse.take 2 := by
  rw [List.reverse_append, List.take_append_of_le_length (by rw [List.length_reverse]; exact h)]

theorem stripLead_suffix (w : Str) : stripLead w <:+ w := by
  unfold stripLead
  split
  · exact List.suffix_cons _ _
  · exact List.suffix_refl _

theorem spelled_nil {w : Str} (h : Spelled w []) : w = [] := by
  cases h
  rfl

/-- The target of the dashboard is the only one for the request. -/
theorem demo_target (k : List Str) (t : Url) (h : Longest (tableOf demoOps) (key demoUrl.path) k t) : t = demoTarget := by
  have hm : (Router.Router.run demoOps).match_ demoUrl.path = some (demoTarget, "files/a/b".toList) := by decide +kernel
  obtain ⟨k', _, _, hl', _⟩ := Router.forwarded_rest _ _ _ _ hm
  exact (Router.longest_unique _ _ _ _ _ _ h hl').2

/-- C107 does not hold: with a cluster's dashboard registered as usual, a request with an escaped slash in
the path behind the route arrives with a plain slash, so that what is behind the route is not as it was
sent; in particular the target cannot tell the request from another one. -/
theorem C107_violated :
    (¬ ∀ (ops : List (Op Url)) (s : Str) (u v : Url), Bytes s → parseTarget s = some u →
      serveHTTP (Router.Router.run ops) u = .forward v →
      ∃ k t, Longest (tableOf ops) (key u.path) k t ∧ AsSent t k (pathOf s) (pathOf (requestURI v))) ∧
    ∃ s s', s ≠ s' ∧ sentOn demoOps s = some "/files/a/b".toList ∧ sentOn demoOps s' = some "/files/a/b".toList := by
  refine ⟨?_, "/clusters/c/files/a%2Fb".toList, "/clusters/c/files/a/b".toList, by decide +kernel, by decide +kernel,
    by decide +kernel⟩
  intro hall
  obtain ⟨f1, f2, f3, f4, f5, f6, f7, f8⟩ := demo_facts
  obtain ⟨k, t, hl, lead, wk, sep, w, wt, h1, _, h2, h3, h5, h4⟩ := hall demoOps _ _ _ f8 f1 f2
  rw [demo_target k t hl] at h5
  have hwt : wt = [] := spelled_nil (f7 ▸ h5)
  rw [f4, hwt, List.nil_append] at h4
  rw [f3] at h3
  injection h4 with _ h4
  obtain ⟨a, ha⟩ := (stripLead_suffix w).trans ⟨_, h3.symm⟩
  rw [← h4] at ha
  have := take_append_two a "files/a/b".toList (by decide +kernel)
  rw [ha, f5, f6] at this
  revert this
  decide

/-! Non-vacuity. -/

example : sentOn demoOps "/clusters/c/status?theme=a%2Fb".toList = some "/status?theme=a%2Fb".toList := by decide +kernel
example : sentOn demoOps "/clusters/c".toList = some "/".toList := by decide +kernel
example : sentOn demoOps "/api/v1/clusters/a%2fb?".toList = some "/api/v1/clusters/a%2fb?".toList := by decide +kernel
/-- Two slashes at the front are not kept. -/
example : sentOn demoOps "//api/v1/clusters/".toList = some "/api/v1/clusters/".toList := by decide +kernel
example : sentOn [.put "/x".toList demoTarget] "/y".toList = none := by decide +kernel
/-- A target with a path and a query. -/
example : sentOn [.put "/x/".toList ⟨"http".toList, "h".toList, "/a b/".toList, [], false, "k=1".toList⟩] "/x/y%20z?j=2".toList =
    some "/a%20b/y%20z?k=1&j=2".toList := by decide +kernel
/-- The hypotheses of `C107_partial` are met by a path with an escape. -/
example : parseTarget "/c/a%2A".toList = some ⟨[], [], "/c/a*".toList, [], false, []⟩ ∧ Canonical "/c/a%2A".toList := by
  refine ⟨by decide +kernel, ?_⟩
  have e : "/c/a%2A".toList = '/' :: 'c' :: '/' :: 'a' :: '%' :: '2' :: 'A' :: [] := by decide +kernel
  rw [e]
  refine .plain _ _ (Or.inr (by decide)) (.plain _ _ (Or.inl (by decide)) (.plain _ _ (Or.inr (by decide))
    (.plain _ _ (Or.inl (by decide)) (.esc 2 10 _ _ _ (by decide +kernel) (by decide +kernel) ?_ .nil))))
  unfold Plain
  decide +kernel
/-- Small letters in an escape. -/
example : Spelled "%2f%c3".toList ['/', Char.ofNat 195] := by
  rw [spelled_iff]
  decide +kernel

end Verif.Forward

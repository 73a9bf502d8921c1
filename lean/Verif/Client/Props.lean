import Verif.Client.Model
import Verif.Api.Props
/-! Properties C57, C58, C77 and C78: what users of the client see. -/
set_option linter.unusedSimpArgs false
set_option linter.unusedVariables false
namespace Verif.Client
open Verif.Api (Status View)

/-! ### C57 -/

/-- Specification: `r` is the response that decides a request: the first if it is not a 401, else the one
to the request repeated with the headers of the authentication, if that accepts it. -/
def Decides {κ : Type} (auth : Hooks κ) (send : Nat → List (Str × Str) → Except Exn Resp) (r : Resp) : Prop :=
  (send 0 [] = .ok r ∧ r.status ≠ 401) ∨
  ∃ r0 headers context, send 0 [] = .ok r0 ∧ r0.status = 401 ∧ auth.pre r0 = some (headers, context) ∧
    send 1 headers = .ok r ∧ auth.post r context = true

private theorem request_cases {κ : Type} (auth : Hooks κ) (send : Nat → List (Str × Str) → Except Exn Resp) :
    (∃ e, send 0 [] = .error e ∧ request auth send = ([[]], .error e)) ∨
    (∃ r, send 0 [] = .ok r ∧ r.status ≠ 401 ∧ request auth send = ([[]], conclude r)) ∨
    (∃ r0, send 0 [] = .ok r0 ∧ r0.status = 401 ∧ auth.pre r0 = none ∧
      request auth send = ([[]], .error .other)) ∨
    (∃ r0 h k e, send 0 [] = .ok r0 ∧ r0.status = 401 ∧ auth.pre r0 = some (h, k) ∧ send 1 h = .error e ∧
      request auth send = ([[], h], .error e)) ∨
    (∃ r0 h k r, send 0 [] = .ok r0 ∧ r0.status = 401 ∧ auth.pre r0 = some (h, k) ∧ send 1 h = .ok r ∧
      auth.post r k = true ∧ request auth send = ([[], h], conclude r)) ∨
    (∃ r0 h k r, send 0 [] = .ok r0 ∧ r0.status = 401 ∧ auth.pre r0 = some (h, k) ∧ send 1 h = .ok r ∧
      auth.post r k = false ∧ request auth send = ([[], h], .error .other)) := by
  unfold request
  cases h0 : send 0 [] with
  | error e => exact Or.inl ⟨e, rfl, rfl⟩
  | ok r =>
    dsimp only
    by_cases h : r.status = 401
    · rw [if_pos h]
      cases hp : auth.pre r with
      | none => exact Or.inr (Or.inr (Or.inl ⟨r, rfl, h, hp, rfl⟩))
      | some x =>
        obtain ⟨hd, k⟩ := x
        dsimp only
        cases h1 : send 1 hd with
        | error e => exact Or.inr (Or.inr (Or.inr (Or.inl ⟨r, hd, k, e, rfl, h, hp, h1, rfl⟩)))
        | ok r' =>
          dsimp only
          cases hq : auth.post r' k with
          | true =>
            exact Or.inr (Or.inr (Or.inr (Or.inr (Or.inl ⟨r, hd, k, r', rfl, h, hp, h1, hq, rfl⟩))))
          | false =>
            exact Or.inr (Or.inr (Or.inr (Or.inr (Or.inr ⟨r, hd, k, r', rfl, h, hp, h1, hq, rfl⟩))))
    · rw [if_neg h]
      exact Or.inr (Or.inl ⟨r, rfl, h, rfl⟩)

/-- C57: the status of the deciding response settles what the caller gets. -/
theorem C57_classified {κ : Type} (auth : Hooks κ) (send : Nat → List (Str × Str) → Except Exn Resp)
    (r : Resp) (h : Decides auth send r) :
    (r.status < 400 → (request auth send).2 = .ok r) ∧
    (r.status = 404 ∨ r.status = 422 → ∃ m, (request auth send).2 = .error (.value m)) ∧
    (r.status = 409 → ∃ m, (request auth send).2 = .error (.cluster m)) ∧
    (r.status = 500 → ∃ m, (request auth send).2 = .error (.server m)) ∧
    (400 ≤ r.status → r.status ≠ 404 → r.status ≠ 422 → r.status ≠ 409 → r.status ≠ 500 →
      (request auth send).2 = .error (.http r.status)) := by
  have e : (request auth send).2 = conclude r := by
    rcases h with ⟨h0, h1⟩ | ⟨r0, hd, k, h0, h1, h2, h3, h4⟩
    · unfold request
      rw [h0]
      dsimp only
      rw [if_neg h1]
    · unfold request
      rw [h0]
      dsimp only
      rw [if_pos h1, h2]
      dsimp only
      rw [h3]
      dsimp only
      rw [if_pos h4]
  rw [e]
  unfold conclude
  refine ⟨?_, ?_, ?_, ?_, ?_⟩
  · intro h; rw [if_neg (by omega)]
  · intro h; rw [if_pos (by omega), if_pos h]; exact ⟨_, rfl⟩
  · intro h; rw [if_pos (by omega), if_neg (by omega), if_pos h]; exact ⟨_, rfl⟩
  · intro h; rw [if_pos (by omega), if_neg (by omega), if_neg (by omega), if_pos h]; exact ⟨_, rfl⟩
  · intro h1 h2 h3 h4 h5
    rw [if_pos h1, if_neg (by omega), if_neg h4, if_neg h5]

/-- C57: the caller gets a response only if it decided the request and is no error. -/
theorem C57_success {κ : Type} (auth : Hooks κ) (send : Nat → List (Str × Str) → Except Exn Resp)
    (r : Resp) (h : (request auth send).2 = .ok r) : Decides auth send r ∧ r.status < 400 := by
  have hc : ∀ r', conclude r' = .ok r → r' = r ∧ r.status < 400 := by
    intro r' h
    unfold conclude at h
    split at h
    · split at h
      · cases h
      · split at h
        · cases h
        · split at h <;> cases h
    · cases h
      exact ⟨rfl, by omega⟩
  rcases request_cases auth send with ⟨e, _, h'⟩ | ⟨r', h0, h1, h'⟩ | ⟨r0, _, _, _, h'⟩ |
    ⟨_, _, _, _, _, _, _, _, h'⟩ | ⟨r0, hd, k, r', h0, h1, h2, h3, h4, h'⟩ |
    ⟨_, _, _, _, _, _, _, _, _, h'⟩ <;> rw [h'] at h
  · cases h
  · obtain ⟨rfl, hs⟩ := hc _ h
    exact ⟨Or.inl ⟨h0, h1⟩, hs⟩
  · cases h
  · cases h
  · obtain ⟨rfl, hs⟩ := hc _ h
    exact ⟨Or.inr ⟨r0, hd, k, h0, h1, h2, h3, h4⟩, hs⟩
  · cases h

/-- C57: a request is sent once, and a second time only after a 401, with the headers of the
authentication. -/
theorem C57_sent {κ : Type} (auth : Hooks κ) (send : Nat → List (Str × Str) → Except Exn Resp) :
    (request auth send).1 = [[]] ∨
    ∃ r0 headers context, send 0 [] = .ok r0 ∧ r0.status = 401 ∧
      auth.pre r0 = some (headers, context) ∧ (request auth send).1 = [[], headers] := by
  rcases request_cases auth send with ⟨e, _, h'⟩ | ⟨r', h0, h1, h'⟩ | ⟨r0, _, _, _, h'⟩ |
    ⟨r0, hd, k, _, h0, h1, h2, _, h'⟩ | ⟨r0, hd, k, r', h0, h1, h2, h3, h4, h'⟩ |
    ⟨r0, hd, k, _, h0, h1, h2, _, _, h'⟩ <;> rw [h']
  · exact Or.inl rfl
  · exact Or.inl rfl
  · exact Or.inl rfl
  · exact Or.inr ⟨r0, hd, k, h0, h1, h2, rfl⟩
  · exact Or.inr ⟨r0, hd, k, h0, h1, h2, rfl⟩
  · exact Or.inr ⟨r0, hd, k, h0, h1, h2, rfl⟩

/-- C57: the message of an error is the one the server gives, else the text of the response. -/
theorem C57_message (r : Resp) (m : Json) (h : conclude r = .error (.value m) ∨
    conclude r = .error (.cluster m) ∨ conclude r = .error (.server m)) :
    (∃ d, r.json = some (.obj d) ∧ lookup d "error".toList = some m) ∨
    ((∀ d, r.json = some (.obj d) → lookup d "error".toList = none) ∧ m = .str r.text) := by
  have hm : m = errorMsg r := by
    unfold conclude at h
    split at h
    · split at h
      · rcases h with h | h | h <;> cases h; rfl
      · split at h
        · rcases h with h | h | h <;> cases h; rfl
        · split at h
          · rcases h with h | h | h <;> cases h; rfl
          · rcases h with h | h | h <;> cases h
    · rcases h with h | h | h <;> cases h
  rw [hm]
  unfold errorMsg
  cases hj : r.json with
  | none => exact Or.inr ⟨fun d hd => (by cases hd), rfl⟩
  | some j =>
    cases j with
    | obj d =>
      dsimp only
      cases hl : lookup d "error".toList with
      | some m' => exact Or.inl ⟨d, rfl, hl⟩
      | none =>
        refine Or.inr ⟨fun d' hd' => ?_, rfl⟩
        cases hd'
        exact hl
    | _ => exact Or.inr ⟨fun d hd => (by cases hd), rfl⟩

/-- A request that is authenticated in the second attempt and refused with a reason. -/
example :
    let auth : Hooks Unit := { pre := fun _ => some ([("Authorization".toList, "Basic x".toList)], ()), post := fun _ _ => true }
    let send : Nat → List (Str × Str) → Except Exn Resp := fun n h =>
      if h = [] then .ok ⟨401, none, []⟩ else .ok ⟨422, some (.obj [("error".toList, .str "no".toList)]), []⟩
    request auth send = ([[], [("Authorization".toList, "Basic x".toList)]], .error (.value (.str "no".toList))) := by
  decide +kernel

/-! ### C58 -/

/-- Specification: an answer after which nothing is decided yet. -/
def Undecided : Except Exn Report → Prop
  | .error e => e = .timeout
  | .ok r => r.status = .pending ∨ r.status = .stopping

/-- C58: with timeouts that the client recognises, waiting goes on exactly as long as nothing is decided. -/
theorem C58_waits (l : List (Except Exn Report)) :
    waitForStart true l = none ↔ ∀ a ∈ l, Undecided a := by
  induction l with
  | nil => exact ⟨fun _ a ha => (by cases ha), fun _ => rfl⟩
  | cons a l ih =>
    rw [List.forall_mem_cons]
    cases a with
    | error e =>
      unfold waitForStart
      by_cases he : e = .timeout
      · rw [if_pos ⟨he, rfl⟩, ih]
        exact ⟨fun h => ⟨he, h⟩, fun h => h.2⟩
      · rw [if_neg (fun h => he h.1)]
        exact ⟨fun h => (by cases h), fun h => absurd h.1 he⟩
    | ok r =>
      have hu : Undecided (.ok r) ↔ (r.status = .pending ∨ r.status = .stopping) := Iff.rfl
      unfold waitForStart
      rw [hu]
      cases hs : r.status <;> simp [ih]

/-- C58: it returns a report only of a running cluster, and the first that decided. -/
theorem C58_returns (builtin : Bool) (l : List (Except Exn Report)) (r : Report)
    (h : waitForStart builtin l = some (.ok r)) :
    ∃ before after, l = before ++ .ok r :: after ∧ (∀ a ∈ before, Undecided a) ∧ r.status = .running := by
  induction l with
  | nil => cases h
  | cons a l ih =>
    have ext : waitForStart builtin l = some (.ok r) → Undecided a →
        ∃ before after, a :: l = before ++ .ok r :: after ∧ (∀ a ∈ before, Undecided a) ∧
          r.status = .running := by
      intro h ha
      obtain ⟨b, c, e, h1, h2⟩ := ih h
      exact ⟨a :: b, c, by rw [e]; rfl, List.forall_mem_cons.2 ⟨ha, h1⟩, h2⟩
    cases a with
    | error e =>
      unfold waitForStart at h
      split at h
      · rename_i he; exact ext h he.1
      · cases h
    | ok r' =>
      unfold waitForStart at h
      cases hs : r'.status <;> rw [hs] at h
      · exact ext h (Or.inl hs)
      · cases h
        exact ⟨[], l, rfl, fun a ha => (by cases ha), hs⟩
      · exact ext h (Or.inr hs)
      · cases h
      · cases h

/-- C58: it raises for a cluster that has failed or stopped, and otherwise only what the request for the
report raised. -/
theorem C58_raises (builtin : Bool) (l : List (Except Exn Report)) (e : Exn)
    (h : waitForStart builtin l = some (.error e)) :
    ∃ before a after, l = before ++ a :: after ∧ (∀ a ∈ before, Undecided a) ∧
      ((∃ r, a = .ok r ∧ (r.status = .failed ∨ r.status = .stopped) ∧ ∃ m, e = .cluster m) ∨
        a = .error e ∧ (builtin = true → e ≠ .timeout)) := by
  induction l with
  | nil => cases h
  | cons a l ih =>
    have ext : waitForStart builtin l = some (.error e) → Undecided a →
        ∃ before a' after, a :: l = before ++ a' :: after ∧ (∀ a ∈ before, Undecided a) ∧
      ((∃ r, a' = .ok r ∧ (r.status = .failed ∨ r.status = .stopped) ∧ ∃ m, e = .cluster m) ∨
        a' = .error e ∧ (builtin = true → e ≠ .timeout)) := by
      intro h ha
      obtain ⟨b, a', c, e', h1, h2⟩ := ih h
      exact ⟨a :: b, a', c, by rw [e']; rfl, List.forall_mem_cons.2 ⟨ha, h1⟩, h2⟩
    cases a with
    | error e' =>
      unfold waitForStart at h
      split at h
      · rename_i he; exact ext h he.1
      · rename_i he
        cases h
        exact ⟨[], _, l, rfl, fun a ha => (by cases ha), Or.inr ⟨rfl, fun hb ht => he ⟨ht, hb⟩⟩⟩
    | ok r' =>
      unfold waitForStart at h
      cases hs : r'.status <;> rw [hs] at h
      · exact ext h (Or.inl hs)
      · cases h
      · exact ext h (Or.inr hs)
      · cases h
        exact ⟨[], _, l, rfl, fun a ha => (by cases ha), Or.inl ⟨r', rfl, Or.inr hs, _, rfl⟩⟩
      · cases h
        exact ⟨[], _, l, rfl, fun a ha => (by cases ha), Or.inl ⟨r', rfl, Or.inl hs, _, rfl⟩⟩

/-- C58: a report has the times and options of the cluster, and that of a running one comes with the address of its scheduler behind the proxy and the
credentials for it. -/
theorem C58_report (publicAddress proxyAddress : Str) (c : Api.Cluster) (r : Report)
    (h : Report.fromJson publicAddress proxyAddress c.toDict = some r) :
    r.name = c.name ∧ r.status = c.status ∧ r.options = c.options ∧
    c.startTime = some r.startTime ∧ r.stopTime = c.stopTime ∧
    (c.status = .running → r.schedulerAddress = some (proxyAddress ++ "/".toList ++ c.name) ∧
      r.tlsCert = some c.tlsCert ∧ r.tlsKey = some c.tlsKey) ∧
    (c.status ≠ .running → r.schedulerAddress = none ∧ r.dashboardLink = none ∧ r.tlsKey = none) ∧
    (c.status = .running → c.dashboardAddress ≠ [] →
      r.dashboardLink = some (publicAddress ++ "/clusters/".toList ++ c.name ++ "/status".toList)) := by
  unfold Report.fromJson at h
  split at h
  · cases h
  · rename_i hst
    cases h
    unfold Api.Cluster.toDict at hst ⊢
    dsimp only at hst ⊢
    refine ⟨rfl, rfl, rfl, hst, rfl, fun hr => ?_, fun hr => ?_, fun hr hd => ?_⟩
    · rw [if_pos hr, if_pos hr, if_pos hr]
      exact ⟨by simp, rfl, rfl⟩
    · rw [if_neg hr, if_neg hr, if_neg (fun h => hr h.1)]
      exact ⟨rfl, rfl, rfl⟩
    · rw [if_pos ⟨hr, hd⟩]
      simp

/-- C58 does not hold in full: under Python 3.10 a timeout of the HTTP client is not the built-in one, so
it ends the wait although nothing is decided. -/
theorem C58_violated : ¬ ∀ l : List (Except Exn Report),
    (∀ a ∈ l, Undecided a) → waitForStart false l = none := by
  intro h
  have := h [.error .timeout] (by intro a ha; rw [List.mem_singleton.1 ha]; exact rfl)
  revert this
  decide

/-- A pending cluster, a timeout, and then a running one. -/
example :
    let r (s : Status) : Report := ⟨['a'], .null, s, none, none, 0, none, none, none⟩
    waitForStart true [.ok (r .pending), .error .timeout, .ok (r .running), .ok (r .failed)] =
      some (.ok (r .running)) ∧
    waitForStart true [.ok (r .pending), .ok (r .stopping), .ok (r .stopped)] =
      some (.error (.cluster (.str "already stopped".toList))) := by decide +kernel

/-! ### C77 -/

private theorem intercalate_eq (l : List Str) : List.intercalate [','] l = Api.joinCommas l := by
  induction l with
  | nil => rfl
  | cons a l ih =>
    cases l with
    | nil => simp [List.intercalate, Api.joinCommas]
    | cons b l =>
      rw [show Api.joinCommas (a :: b :: l) = a ++ ',' :: Api.joinCommas (b :: l) from rfl, ← ih]
      simp [List.intercalate]

/-- C77: asking for clusters in some statuses lists exactly one's own clusters in these. `str.upper`
leaves the names of the statuses as they are. -/
theorem C77_list_partial (env : Api.Env) (hup : ∀ x : Status, env.upper x.name = x.name)
    (s : List Api.Cluster) (req : Api.Request) (u : Auth.User) (statuses : List Status)
    (hne : statuses ≠ []) (hr : req.route = .list (statusQuery (some statuses)))
    (hu : Api.LoggedInAs req u) :
    ∃ l, (Api.handle env s req).code = 200 ∧ (Api.handle env s req).body = .clusters l ∧
      ∀ v, v ∈ l ↔ ∃ c ∈ s, c.username = u.name ∧ c.status ∈ statuses ∧ v = c.toDict := by
  have hinj : ∀ x y : Status, x.name = y.name → x = y := by
    intro x y; cases x <;> cases y <;> decide
  have hq : statusQuery (some statuses) = some (Api.joinCommas (statuses.map Status.name)) := by
    change some (List.intercalate [','] _) = _; rw [intercalate_eq]
  rw [hq] at hr
  obtain ⟨l, h1, h2, h3⟩ := Api.C34_list_filtered env s req u (statuses.map Status.name)
    (by simpa using hne)
    (by
      intro p hp
      obtain ⟨x, _, rfl⟩ := List.mem_map.1 hp
      cases x <;> decide)
    hr hu
    (by
      intro p hp
      obtain ⟨x, _, rfl⟩ := List.mem_map.1 hp
      exact ⟨x, hup x⟩)
  refine ⟨l, h1, h2, fun v => ?_⟩
  rw [h3]
  constructor
  · rintro ⟨c, hc, hn, ⟨p, hp, he⟩, hv⟩
    obtain ⟨x, hx, rfl⟩ := List.mem_map.1 hp
    rw [hup] at he
    exact ⟨c, hc, hn, hinj _ _ he ▸ hx, hv⟩
  · rintro ⟨c, hc, hn, hs, hv⟩
    exact ⟨c, hc, hn, ⟨_, List.mem_map.2 ⟨_, hs, rfl⟩, hup _⟩, hv⟩

/-- C77: asking without statuses lists exactly one's own active clusters. -/
theorem C77_default (env : Api.Env) (s : List Api.Cluster) (req : Api.Request) (u : Auth.User)
    (hr : req.route = .list (statusQuery none)) (hu : Api.LoggedInAs req u) :
    ∃ l, (Api.handle env s req).code = 200 ∧ (Api.handle env s req).body = .clusters l ∧
      ∀ v, v ∈ l ↔ ∃ c ∈ s, c.username = u.name ∧ c.active = true ∧ v = c.toDict :=
  Api.C34_list_default env s req u hr hu

/-- C77 does not hold for no statuses at all: the request is refused instead of answered with nothing. -/
theorem C77_violated : ∃ (env : Api.Env) (req : Api.Request) (u : Auth.User), env.upper = id ∧
    Api.LoggedInAs req u ∧ req.route = .list (statusQuery (some [])) ∧
    (Api.handle env [] req).code = 422 := by
  let u : Auth.User := { name := ['u'], groups := [], admin := false }
  exact ⟨{ upper := id, retries := 0, contactOk := fun _ => true, startResult := .publicError, heartbeatResult := .ok () },
    { route := .list (statusQuery (some [])), cached := some u }, u, rfl, Or.inl rfl, rfl, by decide⟩

/-! ### C78 -/

/-- Specification: the client gets the server's answer to a scale or adapt request, as JSON, with a text
for what was told. -/
def Answers (r : Resp) (server : Api.Response) : Prop :=
  r.status = server.code ∧ ∀ told, server.body = .outcome told →
    ∃ text, text ≠ [] ∧ r.json = some (.obj [("ok".toList, .bool told.isNone),
      ("msg".toList, match told with | none => .null | some _ => .str text)])

private theorem warning_answers {r : Resp} {server : Api.Response} {told : Option (List Json)}
    (h : Answers r server) (hb : server.body = .outcome told) :
    (warning r = none ↔ told = none) := by
  obtain ⟨text, ht, hj⟩ := h.2 told hb
  unfold warning
  rw [hj]
  have h1 : ∀ (a b : Json), lookup [("ok".toList, a), ("msg".toList, b)] "ok".toList = some a := fun _ _ => rfl
  have h2 : ∀ (a b : Json), lookup [("ok".toList, a), ("msg".toList, b)] "msg".toList = some b := fun _ _ => rfl
  dsimp only
  rw [h1, h2]
  cases told with
  | none => simp [Api.truthy]
  | some t => simp [Api.truthy, ht]

private theorem handled {env : Api.Env} {s : List Api.Cluster} {n : Str} {c : Api.Cluster}
    {u : Auth.User} (hc : Api.Called s n c) (ho : u.name = c.username)
    (f : Option Nat → Except Nat (Api.Msg × Option (List Json))) (ck : Option Auth.User)
    (h : ((Api.messageHandler env s u n f).respond ck).code = 200) (hf : ∀ e, f c.maxWorkers = .error e → e ≠ 200) :
    ∃ msg told, f c.maxWorkers = .ok (msg, told) ∧
      ((Api.messageHandler env s u n f).respond ck).body = .outcome told := by
  unfold Api.messageHandler at h ⊢
  rw [show Api.find s n = some c from hc] at h ⊢
  dsimp only at h ⊢
  have hp : Api.hasPermissions u c = true := decide_eq_true ho
  rw [if_neg (by simp [hp])] at h ⊢
  cases he : f c.maxWorkers with
  | error e =>
    rw [he] at h
    exact absurd h (hf e he)
  | ok x =>
    obtain ⟨msg, told⟩ := x
    rw [he] at h
    refine ⟨msg, told, rfl, ?_⟩
    dsimp only at h ⊢
    unfold Api.forwardAndAnswer Api.Handled.respond at h ⊢
    dsimp only at h ⊢
    cases hw : (Api.forward env c msg).2 with
    | true => rfl
    | false => rw [hw] at h; exact absurd h (by simp)

/-- C78: a scale request that is answered warns its user exactly if it is for more workers than the
limit. -/
theorem C78_scale (env : Api.Env) (s : List Api.Cluster) (req : Api.Request) (n : Str) (c : Api.Cluster)
    (u : Auth.User) (hr : req.route = .scale n) (hc : Api.Called s n c) (hu : Api.LoggedInAs req u)
    (ho : u.name = c.username) (k : Nat)
    (hb : req.body = some (.obj [("count".toList, .num (.int k))]))
    (r : Resp) (ha : Answers r (Api.handle env s req)) (h200 : r.status = 200) :
    (warning r ≠ none ↔ ∃ m : Nat, c.maxWorkers = some m ∧ m < k) := by
  have hs : ∀ lim, Api.scaleRequest lim req.body = match lim with
      | none => .ok (.scale (.num (.int k)), none)
      | some m => if m < k then .ok (.scale (Api.limitJson m), some [.num (.int k), Api.limitJson m])
        else .ok (.scale (.num (.int k)), none) := by
    intro lim
    rw [hb]
    have hl : lookup [("count".toList, Json.num (.int k))] "count".toList = some (.num (.int k)) := rfl
    unfold Api.scaleRequest
    dsimp only
    rw [hl]
    simp only [Option.getD_some, Json.asNum]
    rw [if_neg (by omega)]
    cases lim with
    | none => rfl
    | some m =>
      dsimp only
      by_cases h : m < k
      · rw [if_pos h, if_pos (by omega)]
      · rw [if_neg h, if_neg (by omega)]
  have hh : Api.handle env s req = (Api.messageHandler env s u n
      (fun m => Api.scaleRequest m req.body)).respond (if req.cached.isSome then none else some u) := by
    unfold Api.handle
    rw [hr]
    dsimp only
    rw [Api.withUser_ok hu]
  have hcode := ha.1
  rw [h200, hh] at hcode
  obtain ⟨msg, told, h1, h2⟩ := handled hc ho _ _ hcode.symm (by
    intro e he
    rw [hs] at he
    cases hm : c.maxWorkers with
    | none => rw [hm] at he; cases he
    | some m =>
      rw [hm] at he
      dsimp only at he
      split at he <;> cases he)
  rw [← hh] at h2
  rw [Ne, warning_answers ha h2]
  rw [hs] at h1
  cases hm : c.maxWorkers with
  | none =>
    rw [hm] at h1
    cases h1
    simp
  | some m =>
    rw [hm] at h1
    dsimp only at h1
    by_cases h : m < k
    · rw [if_pos h] at h1
      cases h1
      simp [h]
    · rw [if_neg h] at h1
      cases h1
      simp [h]

/-- A bound of an adapt request as JSON. -/
def boundJson : Option Nat → Json
  | none => .null
  | some k => .num (.int k)

/-- C78: an adapt request that is answered warns its user exactly if a bound is above the limit. -/
theorem C78_adapt (env : Api.Env) (s : List Api.Cluster) (req : Api.Request) (n : Str) (c : Api.Cluster)
    (u : Auth.User) (hr : req.route = .adapt n) (hc : Api.Called s n c) (hu : Api.LoggedInAs req u)
    (ho : u.name = c.username) (lo hi : Option Nat) (active : Bool)
    (hb : req.body = some (.obj [("minimum".toList, boundJson lo), ("maximum".toList, boundJson hi),
      ("active".toList, .bool active)]))
    (r : Resp) (ha : Answers r (Api.handle env s req)) (h200 : r.status = 200) :
    (warning r ≠ none ↔ ∃ m k : Nat, c.maxWorkers = some m ∧ (lo = some k ∨ hi = some k) ∧ m < k) := by
  have hh : Api.handle env s req = (Api.messageHandler env s u n
      (fun m => Api.adaptRequest m req.body)).respond (if req.cached.isSome then none else some u) := by
    unfold Api.handle
    rw [hr]
    dsimp only
    rw [Api.withUser_ok hu]
  have hs : ∀ lim, ∃ msg told, Api.adaptRequest lim req.body = .ok (msg, told) ∧
      (told ≠ none ↔ ∃ m k : Nat, lim = some m ∧ (lo = some k ∨ hi = some k) ∧ m < k) := by
    intro lim
    rw [hb]
    have hl : ∀ a b c' : Json, lookup [("minimum".toList, a), ("maximum".toList, b), ("active".toList, c')]
        "minimum".toList = some a := fun _ _ _ => rfl
    have hl2 : ∀ a b c' : Json, lookup [("minimum".toList, a), ("maximum".toList, b), ("active".toList, c')]
        "maximum".toList = some b := fun _ _ _ => rfl
    unfold Api.adaptRequest
    dsimp only
    rw [hl, hl2]
    simp only [Option.getD_some]
    cases lim with
    | none => exact ⟨_, _, rfl, by simp⟩
    | some m =>
      have hgt : ∀ k : Nat, Api.pyGt (.num (.int k)) m = some (decide (m < k)) := by
        intro k
        simp [Api.pyGt, Json.asNum, Num.lt]
      have hmin : ∀ k : Nat, ∃ v, Api.pyMin m (.num (.int k)) = some v := fun k => ⟨_, rfl⟩
      have key : ∀ a b : Nat, ∃ x told, (match Api.exceeds m (.num (.int a)) (.num (.int b)) with
          | none => (.error 500 : Except Nat ((Json × Json) × Option (List Json)))
          | some false => .ok ((.num (.int a), .num (.int b)), none)
          | some true =>
            match Api.pyMin m (.num (.int b)), Api.pyMin m (.num (.int a)) with
            | some maximum', some minimum' =>
              .ok ((minimum', maximum'), some [.num (.int b), .num (.int a), Api.limitJson m, maximum', minimum'])
            | _, _ => .error 500) = .ok (x, told) ∧ (told ≠ none ↔ m < a ∨ m < b) := by
        intro a b
        obtain ⟨va, hva⟩ := hmin a
        obtain ⟨vb, hvb⟩ := hmin b
        unfold Api.exceeds
        rw [hgt b, hgt a, hva, hvb]
        by_cases h1 : m < b
        · rw [decide_eq_true h1]
          exact ⟨_, _, rfl, by simp [h1]⟩
        · rw [decide_eq_false h1]
          by_cases h2 : m < a
          · rw [decide_eq_true h2]
            exact ⟨_, _, rfl, by simp [h2]⟩
          · rw [decide_eq_false h2]
            exact ⟨_, _, rfl, by simp [h1, h2]⟩
      have hlim : ∀ l h : Option Nat, Api.limitBounds m (boundJson l) (boundJson h) =
          match Api.exceeds m (.num (.int (l.getD 0 : Nat))) (.num (.int (h.getD m : Nat))) with
          | none => (.error 500 : Except Nat ((Json × Json) × Option (List Json)))
          | some false => .ok ((.num (.int (l.getD 0 : Nat)), .num (.int (h.getD m : Nat))), none)
          | some true =>
            match Api.pyMin m (.num (.int (h.getD m : Nat))), Api.pyMin m (.num (.int (l.getD 0 : Nat))) with
            | some maximum', some minimum' =>
              .ok ((minimum', maximum'), some [.num (.int (h.getD m : Nat)), .num (.int (l.getD 0 : Nat)),
                Api.limitJson m, maximum', minimum'])
            | _, _ => .error 500 := by
        intro l h
        cases l <;> cases h <;> rfl
      dsimp only
      obtain ⟨x, told, hx, ht⟩ := key (lo.getD 0) (hi.getD m)
      rw [hlim, hx]
      refine ⟨_, told, rfl, ?_⟩
      rw [ht]
      constructor
      · rintro (h | h)
        · cases lo with
          | none => simp at h
          | some k => exact ⟨m, k, rfl, Or.inl rfl, h⟩
        · cases hi with
          | none => simp at h
          | some k => exact ⟨m, k, rfl, Or.inr rfl, h⟩
      · rintro ⟨m', k, e, h | h, hk⟩
        · cases e; rw [h]; exact Or.inl hk
        · cases e; rw [h]; exact Or.inr hk
  have hcode := ha.1
  rw [h200, hh] at hcode
  obtain ⟨msg', told', h1', h2'⟩ := hs c.maxWorkers
  obtain ⟨msg, told, h1, h2⟩ := handled hc ho _ _ hcode.symm (by
    intro e he
    rw [h1'] at he
    cases he)
  rw [← hh] at h2
  rw [Ne, warning_answers ha h2]
  rw [h1'] at h1
  cases h1
  exact h2'

/-- A request for 5 workers of at most 3. -/
example :
    warning ⟨200, some (.obj [("ok".toList, .bool false), ("msg".toList, .str "limit".toList)]), []⟩ =
      some (.str "limit".toList) ∧
    warning ⟨200, some (.obj [("ok".toList, .bool true), ("msg".toList, .null)]), []⟩ = none := by
  decide +kernel

end Verif.Client

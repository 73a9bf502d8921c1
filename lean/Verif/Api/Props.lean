import Verif.Api.Lemmas
/-! Properties C33-C37: authorisation, listing, secrets, limits on scale and adapt, forwarding. -/
set_option linter.unusedSimpArgs false
namespace Verif.Api

open Verif.Auth (User Outcome)

/-! ### C33 -/

private theorem allowed_message {env : Env} {s : List Cluster} {req : Request} {n : Str}
    (request : Option Nat → Except Nat (Msg × Option (List Json)))
    (hr : req.route = .scale n ∨ req.route = .adapt n) (e : Effect)
    (h : e ∈ (withUser req (fun u => messageHandler env s u n request)).effects) :
    Allowed s req e := by
  rcases withUser_cases req (fun u => messageHandler env s u n request) with
    ⟨u, hu, he⟩ | ⟨_, code, _, he⟩
  · rw [he, respond_effects] at h
    rcases message_cases env s u n request with ⟨code, hm⟩ | ⟨c, msg, told, hf, ho, _, hm⟩
    · rw [hm] at h; simp [Handled.raise] at h
    · rw [hm] at h
      simp only [forwardAndAnswer] at h
      have hn := (find_name hf).1
      rcases forward_effects _ _ _ e h with rfl | ⟨t, rfl⟩ | rfl
      · rw [hn]; exact ⟨c, u, hf, hn, hr, hu, ho⟩
      · trivial
      · rw [hn]; exact ⟨c, u, hf, hn, hr, hu, ho⟩
  · rw [he] at h; simp at h

/-- C33: whatever a request causes, it was entitled to: a cluster is started only for the user who
is logged in; it is stopped only by its owner or with its own token, contacted (or failed after
futile attempts) only by its owner's scale and adapt requests; and heartbeats count only with the
cluster's own token. -/
theorem C33_effects_authorised (env : Env) (s : List Cluster) (req : Request) (e : Effect)
    (h : e ∈ (handle env s req).effects) : Allowed s req e := by
  unfold handle at h
  cases hr : req.route with
  | options =>
    rw [hr] at h
    dsimp only at h
    rcases withUser_cases req (fun _ => ⟨[], .ok (200, .options)⟩) with ⟨u, hu, he⟩ | ⟨_, _, _, he⟩ <;>
      simp [he, respond_effects] at h
  | list q =>
    rw [hr] at h
    dsimp only at h
    rcases withUser_cases req (fun u => listHandler env s u q) with ⟨u, hu, he⟩ | ⟨_, _, _, he⟩
    · rw [he, respond_effects] at h
      simp only [listHandler] at h
      split at h <;> simp [Handled.raise] at h
    · simp [he] at h
  | create =>
    rw [hr] at h
    dsimp only at h
    rcases withUser_cases req (fun u => createHandler env u req.body) with
      ⟨u, hu, he⟩ | ⟨_, _, _, he⟩
    · rw [he, respond_effects] at h
      simp only [createHandler] at h
      split at h
      · split at h <;> simp only [List.mem_singleton] at h <;> subst h <;> exact ⟨hu, hr⟩
      · simp [Handled.raise] at h
    · simp [he] at h
  | get n =>
    rw [hr] at h
    dsimp only at h
    rcases withUser_cases req (fun u => getHandler s u n) with ⟨u, hu, he⟩ | ⟨_, _, _, he⟩
    · rw [he, respond_effects] at h
      simp only [getHandler] at h
      split at h
      · simp [Handled.raise] at h
      · split at h <;> simp [Handled.raise] at h
    · simp [he] at h
  | delete n =>
    rw [hr] at h
    dsimp only at h
    cases ht : tokenOk s req n with
    | none => rw [ht] at h; simp at h
    | some b =>
      rw [ht] at h
      cases b with
      | true =>
        obtain ⟨c, hf, hc⟩ := tokenOk_true.1 ht
        simp only [respond_effects, deleteHandler, hf, List.mem_singleton] at h
        subst h
        exact ⟨c, hf, (find_name hf).1, hr, Or.inl hc⟩
      | false =>
        rcases withUser_cases req (fun u => deleteHandler s (some u) n) with
          ⟨u, hu, he⟩ | ⟨_, _, _, he⟩
        · rw [he, respond_effects] at h
          simp only [deleteHandler] at h
          cases hf : find s n with
          | none => rw [hf] at h; simp at h
          | some c =>
            rw [hf] at h
            dsimp only at h
            by_cases hp : hasPermissions u c = true
            · rw [if_neg (by simp [hp])] at h
              simp only [List.mem_singleton] at h
              subst h
              exact ⟨c, hf, (find_name hf).1, hr, Or.inr ⟨u, hu, of_decide_eq_true hp⟩⟩
            · rw [if_pos hp] at h; simp [Handled.raise] at h
        · simp [he] at h
  | scale n => rw [hr] at h; exact allowed_message _ (Or.inl hr) e h
  | adapt n => rw [hr] at h; exact allowed_message _ (Or.inr hr) e h
  | heartbeat n =>
    rw [hr] at h
    dsimp only at h
    cases ht : tokenOk s req n with
    | none => rw [ht] at h; simp at h
    | some b =>
      rw [ht] at h
      cases b with
      | false => simp at h
      | true =>
        obtain ⟨c, hf, hc⟩ := tokenOk_true.1 ht
        simp only [respond_effects, heartbeatHandler] at h
        split at h
        · simp [Handled.raise] at h
        · simp only [List.mem_singleton] at h
          subst h
          exact ⟨c, hf, (find_name hf).1, hr, hc⟩

private theorem message_no_views {env : Env} {s : List Cluster} {u : User} {n : Str}
    {request : Option Nat → Except Nat (Msg × Option (List Json))} {code : Nat} {body : Body} {v : View}
    (h : (messageHandler env s u n request).result = .ok (code, body)) : v ∉ body.views := by
  rcases message_cases env s u n request with ⟨_, hm⟩ | ⟨c, msg, told, _, _, _, hm⟩
  · rw [hm] at h; simp [Handled.raise] at h
  · rw [hm] at h
    simp only [forwardAndAnswer] at h
    split at h
    · simp only [Except.ok.injEq, Prod.mk.injEq] at h
      rw [← h.2]; simp [Body.views]
    · simp at h

/-- C33: whatever a response shows of a cluster, it shows to the cluster's owner. -/
theorem C33_disclosure (env : Env) (s : List Cluster) (req : Request) (v : View)
    (h : v ∈ (handle env s req).body.views) :
    ∃ u c, LoggedInAs req u ∧ c ∈ s ∧ c.username = u.name ∧ v = c.toDict := by
  unfold handle at h
  -- a response to a user
  have user : ∀ handler : User → Handled, v ∈ (withUser req handler).body.views →
      ∃ u code body, LoggedInAs req u ∧ (handler u).result = .ok (code, body) ∧ v ∈ body.views := by
    intro handler hv
    rcases withUser_cases req handler with ⟨u, hu, he⟩ | ⟨_, _, _, he⟩
    · rw [he] at hv
      obtain ⟨code, body, h1, h2⟩ := respond_views _ _ _ hv
      exact ⟨u, code, body, hu, h1, h2⟩
    · rw [he] at hv; simp [Body.views] at hv
  have del : ∀ o n, ∀ code body, (deleteHandler s o n).result = .ok (code, body) →
      v ∉ body.views := by
    intro o n code body hd
    unfold deleteHandler at hd
    split at hd
    · simp only [Except.ok.injEq, Prod.mk.injEq] at hd; rw [← hd.2]; simp [Body.views]
    · split at hd
      · split at hd
        · simp [Handled.raise] at hd
        · simp only [Except.ok.injEq, Prod.mk.injEq] at hd; rw [← hd.2]; simp [Body.views]
      · simp only [Except.ok.injEq, Prod.mk.injEq] at hd; rw [← hd.2]; simp [Body.views]
  cases hr : req.route with
  | options =>
    rw [hr] at h
    obtain ⟨u, code, body, _, h1, h2⟩ := user _ h
    simp only [Except.ok.injEq, Prod.mk.injEq] at h1
    rw [← h1.2] at h2; simp [Body.views] at h2
  | list q =>
    rw [hr] at h
    obtain ⟨u, code, body, hu, h1, h2⟩ := user _ h
    unfold listHandler at h1
    split at h1
    · simp [Handled.raise] at h1
    · simp only [Except.ok.injEq, Prod.mk.injEq] at h1
      rw [← h1.2] at h2
      simp only [Body.views, List.mem_map, listClusters, List.mem_filter, Bool.and_eq_true,
        decide_eq_true_eq] at h2
      obtain ⟨c, ⟨hc, ho, _⟩, rfl⟩ := h2
      exact ⟨u, c, hu, hc, ho, rfl⟩
  | create =>
    rw [hr] at h
    obtain ⟨u, code, body, hu, h1, h2⟩ := user _ h
    unfold createHandler at h1
    split at h1
    · split at h1
      · simp only [Except.ok.injEq, Prod.mk.injEq] at h1
        rw [← h1.2] at h2; simp [Body.views] at h2
      · simp at h1
      · simp at h1
    · simp [Handled.raise] at h1
  | get n =>
    rw [hr] at h
    obtain ⟨u, code, body, hu, h1, h2⟩ := user _ h
    unfold getHandler at h1
    split at h1
    · simp [Handled.raise] at h1
    · rename_i c hf
      by_cases hp : hasPermissions u c = true
      · rw [if_neg (by simp [hp])] at h1
        simp only [Except.ok.injEq, Prod.mk.injEq] at h1
        rw [← h1.2] at h2
        simp only [Body.views, List.mem_singleton] at h2
        exact ⟨u, c, hu, (find_name hf).2, (of_decide_eq_true hp).symm, h2⟩
      · rw [if_pos hp] at h1; simp [Handled.raise] at h1
  | delete n =>
    rw [hr] at h
    dsimp only at h
    split at h
    · simp [Body.views] at h
    · obtain ⟨code, body, h1, h2⟩ := respond_views _ _ _ h
      exact absurd h2 (del _ _ _ _ h1)
    · obtain ⟨u, code, body, hu, h1, h2⟩ := user _ h
      exact absurd h2 (del _ _ _ _ h1)
  | scale n =>
    rw [hr] at h
    obtain ⟨u, code, body, hu, h1, h2⟩ := user _ h
    exact absurd h2 (message_no_views h1)
  | adapt n =>
    rw [hr] at h
    obtain ⟨u, code, body, hu, h1, h2⟩ := user _ h
    exact absurd h2 (message_no_views h1)
  | heartbeat n =>
    rw [hr] at h
    dsimp only at h
    split at h
    · simp [Body.views] at h
    · obtain ⟨code, body, h1, h2⟩ := respond_views _ _ _ h
      unfold heartbeatHandler at h1
      split at h1
      · simp [Handled.raise] at h1
      · dsimp only at h1
        split at h1
        · simp only [Except.ok.injEq, Prod.mk.injEq] at h1
          rw [← h1.2] at h2; simp [Body.views] at h2
        · simp at h1
        · simp at h1
    · simp [Body.views] at h

/-- C33: a request without credentials has no effect, gets an error and no cookie. -/
theorem C33_no_credentials (env : Env) (s : List Cluster) (req : Request)
    (h : NoCredentials s req) :
    (handle env s req).effects = [] ∧ (handle env s req).body = .error ∧
      (handle env s req).cookieFor = none ∧
      ((handle env s req).code = 401 ∨ (handle env s req).code = 500 ∨
        req.login = .fail (handle env s req).code) := by
  have user : ∀ handler : User → Handled,
      (withUser req handler).effects = [] ∧ (withUser req handler).body = .error ∧
      (withUser req handler).cookieFor = none ∧
      ((withUser req handler).code = 401 ∨ (withUser req handler).code = 500 ∨
        req.login = .fail (withUser req handler).code) := by
    intro handler
    rcases withUser_cases req handler with ⟨u, hu, _⟩ | ⟨_, code, hl, he⟩
    · exact absurd hu (h.1 u)
    · rw [he]; exact ⟨rfl, rfl, rfl, Or.inr (Or.inr hl)⟩
  have tok : ∀ n, req.route.cluster = some n → tokenOk s req n ≠ some true := by
    intro n hn ht
    obtain ⟨c, hf, hc⟩ := tokenOk_true.1 ht
    exact h.2 n c hn hf hc
  unfold handle
  cases hr : req.route with
  | options => exact user _
  | list q => exact user _
  | create => exact user _
  | get n => exact user _
  | scale n => exact user _
  | adapt n => exact user _
  | delete n =>
    have := tok n (by rw [hr]; rfl)
    dsimp only
    cases ht : tokenOk s req n with
    | none => exact ⟨rfl, rfl, rfl, Or.inr (Or.inl rfl)⟩
    | some b =>
      cases b with
      | true => exact absurd ht this
      | false => exact user _
  | heartbeat n =>
    have := tok n (by rw [hr]; rfl)
    dsimp only
    cases ht : tokenOk s req n with
    | none => exact ⟨rfl, rfl, rfl, Or.inr (Or.inl rfl)⟩
    | some b =>
      cases b with
      | true => exact absurd ht this
      | false => exact ⟨rfl, rfl, rfl, Or.inl rfl⟩

/-- C33: get, scale, adapt and stop (without the token) of somebody else's cluster are answered 403
and have no effect. -/
theorem C33_foreign (env : Env) (s : List Cluster) (req : Request) (n : Str) (c : Cluster) (u : User)
    (hr : req.route = .get n ∨ req.route = .scale n ∨ req.route = .adapt n ∨
      req.route = .delete n ∧ tokenOk s req n = some false)
    (hc : Called s n c) (hu : LoggedInAs req u) (hf : u.name ≠ c.username) :
    (handle env s req).code = 403 ∧ (handle env s req).body = .error ∧
      (handle env s req).effects = [] := by
  unfold Called at hc
  have hp : hasPermissions u c = false := by simp [hasPermissions, hf]
  unfold handle
  rcases hr with hr | hr | hr | ⟨hr, ht⟩ <;> rw [hr] <;> dsimp only
  · rw [withUser_ok hu]; simp [getHandler, hc, hp, Handled.raise, Handled.respond]
  · rw [withUser_ok hu]; simp [messageHandler, hc, hp, Handled.raise, Handled.respond]
  · rw [withUser_ok hu]; simp [messageHandler, hc, hp, Handled.raise, Handled.respond]
  · rw [ht]; dsimp only
    rw [withUser_ok hu]; simp [deleteHandler, hc, hp, Handled.raise, Handled.respond]

/-- C33: get, scale and adapt of a cluster that does not exist are answered 404, and stopping it
204, without effect. -/
theorem C33_unknown (env : Env) (s : List Cluster) (req : Request) (n : Str) (u : User)
    (hc : find s n = none) (hu : LoggedInAs req u) :
    (req.route = .get n ∨ req.route = .scale n ∨ req.route = .adapt n →
      (handle env s req).code = 404 ∧ (handle env s req).effects = []) ∧
    (req.route = .delete n ∧ tokenOk s req n = some false →
      (handle env s req).code = 204 ∧ (handle env s req).effects = []) := by
  unfold handle
  constructor
  · rintro (hr | hr | hr) <;> rw [hr] <;> dsimp only <;> rw [withUser_ok hu] <;>
      simp [getHandler, messageHandler, hc, Handled.raise, Handled.respond]
  · rintro ⟨hr, ht⟩
    rw [hr]; dsimp only
    rw [ht]; dsimp only
    rw [withUser_ok hu]; simp [deleteHandler, hc, Handled.respond]

/-- C33: the owner can see and stop the cluster, and the cluster's token stops it too. -/
theorem C33_owner_served (env : Env) (s : List Cluster) (req : Request) (n : Str) (c : Cluster)
    (hc : Called s n c) :
    (∀ u, LoggedInAs req u → u.name = c.username → req.route = .get n →
      (handle env s req).code = 200 ∧ (handle env s req).body = .cluster c.toDict) ∧
    (req.route = .delete n → (HasToken req c ∨
        tokenOk s req n = some false ∧ ∃ u, LoggedInAs req u ∧ u.name = c.username) →
      (handle env s req).code = 204 ∧ (handle env s req).effects = [.stop n false]) := by
  unfold Called at hc
  unfold handle
  constructor
  · intro u hu ho hr
    rw [hr]; dsimp only
    rw [withUser_ok hu]; simp [getHandler, hc, hasPermissions, ho, Handled.respond]
  · intro hr h
    rw [hr]; dsimp only
    rcases h with h | ⟨ht, u, hu, ho⟩
    · rw [tokenOk_true.2 ⟨c, hc, h⟩]; simp [deleteHandler, hc, Handled.respond]
    · rw [ht]; dsimp only
      rw [withUser_ok hu]; simp [deleteHandler, hc, hasPermissions, ho, Handled.respond]

/-- C33: a heartbeat with the cluster's token and a JSON body reaches the backend unchanged. -/
theorem C33_heartbeat_served (env : Env) (s : List Cluster) (req : Request) (n : Str) (c : Cluster)
    (msg : Json) (hc : Called s n c) (ht : HasToken req c) (hr : req.route = .heartbeat n)
    (hb : req.body = some msg) : (handle env s req).effects = [.heartbeat n msg] := by
  unfold handle
  rw [hr]; dsimp only
  rw [tokenOk_true.2 ⟨c, hc, ht⟩, hb]
  simp [heartbeatHandler, respond_effects]

/-- C33: a heartbeat with the cluster's token whose body is not JSON is an error of the server (500) and has no effect. -/
theorem C33_heartbeat_garbled (env : Env) (s : List Cluster) (req : Request) (n : Str) (c : Cluster)
    (hc : Called s n c) (ht : HasToken req c) (hr : req.route = .heartbeat n) (hb : req.body = none) :
    (handle env s req).effects = [] ∧ (handle env s req).code = 500 := by
  unfold handle
  rw [hr]; dsimp only
  rw [tokenOk_true.2 ⟨c, hc, ht⟩, hb]
  exact ⟨rfl, rfl⟩

private def alice : User := { name := "alice".toList }
private def bob : User := { name := "bob".toList }

private def ca : Cluster :=
  { name := "a".toList, username := "alice".toList, token := "ta".toList, status := .running
    active := true, maxWorkers := some 4, dashboardAddress := "d".toList, tlsCert := "cert".toList
    tlsKey := "key".toList }

private def cb : Cluster :=
  { name := "b".toList, username := "bob".toList, token := "tb".toList, status := .stopping
    active := false, tlsCert := "cert2".toList, tlsKey := "key2".toList }

private def env1 : Env :=
  { upper := fun s => s.map Char.toUpper, retries := 3, contactOk := fun n => n = 2
    startResult := .ok "new".toList, heartbeatResult := .ok () }

example :
    (handle env1 [ca, cb] { route := .get "a".toList, cached := some alice }).body =
      .cluster ca.toDict ∧
    (handle env1 [ca, cb] { route := .get "b".toList, cached := some alice }).code = 403 ∧
    (handle env1 [ca, cb] { route := .delete "b".toList, header := some "token tb".toList }).effects =
      [.stop "b".toList false] ∧
    (handle env1 [ca, cb] { route := .delete "b".toList, header := some "token ta".toList }).code =
      401 ∧
    (handle env1 [ca, cb] { route := .delete "b".toList, header := some "garbage".toList }).code =
      500 := by decide +kernel

example : NoCredentials [ca, cb] { route := .delete "b".toList, header := some "token ta".toList } := by
  constructor
  · intro u; simp [LoggedInAs]
  · intro n c hn hc ht
    simp only [Route.cluster, Option.some.injEq] at hn
    subst hn
    have : c = cb := by
      have : find [ca, cb] "b".toList = some cb := by rfl
      rw [Called, this] at hc
      exact (Option.some.inj hc).symm
    subst this
    revert ht
    unfold HasToken
    decide +kernel

/-! ### C34 -/

/-- C34: without a status filter, a list request shows exactly the caller's active clusters. -/
theorem C34_list_default (env : Env) (s : List Cluster) (req : Request) (u : User)
    (hr : req.route = .list none) (hu : LoggedInAs req u) :
    ∃ l, (handle env s req).code = 200 ∧ (handle env s req).body = .clusters l ∧
      ∀ v, v ∈ l ↔ ∃ c ∈ s, c.username = u.name ∧ c.active = true ∧ v = c.toDict := by
  unfold handle
  rw [hr]; dsimp only
  rw [withUser_ok hu]
  refine ⟨_, rfl, rfl, ?_⟩
  intro v
  simp only [listClusters, List.mem_map, List.mem_filter, Bool.and_eq_true, decide_eq_true_eq]
  constructor
  · rintro ⟨c, ⟨h1, h2, h3⟩, h4⟩; exact ⟨c, h1, h2, h3, h4.symm⟩
  · rintro ⟨c, h1, h2, h3, h4⟩; exact ⟨c, ⟨h1, h2, h3⟩, h4.symm⟩

/-- C34: with a list of status names, in any case of letters, a list request shows exactly the
caller's clusters that have one of the statuses. -/
theorem C34_list_filtered (env : Env) (s : List Cluster) (req : Request) (u : User)
    (names : List Str) (hne : names ≠ []) (hcomma : ∀ p ∈ names, ',' ∉ p)
    (hr : req.route = .list (some (joinCommas names))) (hu : LoggedInAs req u)
    (hknown : ∀ p ∈ names, ∃ x : Status, env.upper p = x.name) :
    ∃ l, (handle env s req).code = 200 ∧ (handle env s req).body = .clusters l ∧
      ∀ v, v ∈ l ↔ ∃ c ∈ s, c.username = u.name ∧ (∃ p ∈ names, env.upper p = c.status.name) ∧
        v = c.toDict := by
  have hk : ∃ r, names.mapM (Status.fromName env.upper) = some r := by
    have : ∀ p ∈ names, Status.fromName env.upper p =
        some ((Status.fromName env.upper p).getD .pending) := by
      intro p hp
      obtain ⟨x, hx⟩ := hknown p hp
      rw [mem_fromName.2 hx]; rfl
    exact ⟨_, mapM_some _ _ _ this⟩
  obtain ⟨r, hk⟩ := hk
  have hmem := mapM_mem _ _ _ hk
  have hasked : askedStatuses env.upper (some (joinCommas names)) = some (some r) := by
    simp [askedStatuses, splitAll_join names hne hcomma, hk]
  unfold handle
  rw [hr]; dsimp only
  rw [withUser_ok hu]
  simp only [listHandler, hasked]
  refine ⟨_, rfl, rfl, ?_⟩
  intro v
  simp only [listClusters, List.mem_map, List.mem_filter, Bool.and_eq_true, decide_eq_true_eq]
  have hm : ∀ c : Cluster, c.status ∈ r ↔ ∃ p ∈ names, env.upper p = c.status.name := by
    intro c
    rw [hmem]
    constructor
    · rintro ⟨p, hp, h⟩; exact ⟨p, hp, mem_fromName.1 h⟩
    · rintro ⟨p, hp, h⟩; exact ⟨p, hp, mem_fromName.2 h⟩
  constructor
  · rintro ⟨c, ⟨h1, h2, h3⟩, h4⟩; exact ⟨c, h1, h2, (hm c).1 h3, h4.symm⟩
  · rintro ⟨c, h1, h2, h3, h4⟩; exact ⟨c, ⟨h1, h2, (hm c).2 h3⟩, h4.symm⟩

/-- C34: an unknown status name is rejected. -/
theorem C34_unknown_status (env : Env) (s : List Cluster) (req : Request) (u : User)
    (names : List Str) (hcomma : ∀ p ∈ names, ',' ∉ p)
    (hr : req.route = .list (some (joinCommas names))) (hu : LoggedInAs req u)
    (p : Str) (hp : p ∈ names) (hunknown : ∀ x : Status, env.upper p ≠ x.name) :
    (handle env s req).code = 422 ∧ (handle env s req).body = .error := by
  have hne : names ≠ [] := by intro e; rw [e] at hp; simp at hp
  have hn : Status.fromName env.upper p = none := by
    cases hf : Status.fromName env.upper p with
    | none => rfl
    | some x => exact absurd (mem_fromName.1 hf) (hunknown x)
  have hasked : askedStatuses env.upper (some (joinCommas names)) = none := by
    simp [askedStatuses, splitAll_join names hne hcomma, mapM_none _ _ p hp hn]
  unfold handle
  rw [hr]; dsimp only
  rw [withUser_ok hu]
  simp [listHandler, hasked, Handled.raise, Handled.respond]

example :
    (handle env1 [ca, cb] { route := .list (some "running,Stopping".toList), cached := some bob }).body =
      .clusters [cb.toDict] ∧
    (handle env1 [ca, cb] { route := .list none, cached := some bob }).body = .clusters [] ∧
    (handle env1 [ca, cb] { route := .list (some "foo".toList), cached := some bob }).code = 422 ∧
    joinCommas ["running".toList, "Stopping".toList] = "running,Stopping".toList := by
  decide +kernel

/-! ### C35 -/

/-- C35: a response shows the certificate, the key or the dashboard route of a cluster only if the
cluster is running (and has a dashboard), and then the cluster's own. -/
theorem C35_secrets (env : Env) (s : List Cluster) (req : Request) (v : View)
    (h : v ∈ (handle env s req).body.views) :
    ∃ c ∈ s, v.name = c.name ∧ v.status = c.status ∧
      (∀ x, v.tlsCert = some x → c.status = .running ∧ x = c.tlsCert) ∧
      (∀ x, v.tlsKey = some x → c.status = .running ∧ x = c.tlsKey) ∧
      (∀ x, v.dashboardRoute = some x → c.status = .running ∧ c.dashboardAddress ≠ [] ∧
        x = "/clusters/".toList ++ c.name ++ "/status".toList) := by
  obtain ⟨u, c, _, hc, _, rfl⟩ := C33_disclosure env s req v h
  refine ⟨c, hc, rfl, rfl, ?_, ?_, ?_⟩ <;> intro x hx <;> simp only [Cluster.toDict] at hx <;>
    split at hx
  · rename_i hr; exact ⟨hr, (Option.some.inj hx).symm⟩
  · simp at hx
  · rename_i hr; exact ⟨hr, (Option.some.inj hx).symm⟩
  · simp at hx
  · rename_i hr; exact ⟨hr.1, hr.2, (Option.some.inj hx).symm⟩
  · simp at hx

/-- C35: the owner of a running cluster does get the credentials and the dashboard route. -/
theorem C35_running_served (c : Cluster) (h : c.status = .running) :
    c.toDict.tlsCert = some c.tlsCert ∧ c.toDict.tlsKey = some c.tlsKey ∧
      (c.dashboardAddress ≠ [] → c.toDict.dashboardRoute =
        some ("/clusters/".toList ++ c.name ++ "/status".toList)) := by
  refine ⟨if_pos h, if_pos h, fun hd => if_pos ⟨h, hd⟩⟩

example : (ca.toDict.tlsKey = some "key".toList ∧
    ca.toDict.dashboardRoute = some "/clusters/a/status".toList) ∧ cb.toDict.tlsKey = none := by
  decide +kernel

/-! ### C37 -/

/-- The wait before attempt `k + 2`: 0.1 s doubled `k` times, at most 5 s. -/
def wait : Nat → Rat
  | 0 => 1 / 10
  | k + 1 => if wait k * 2 ≤ 5 then wait k * 2 else 5

/-- `k` failed attempts, each followed by its wait. -/
def failedAttempts (c : Cluster) (msg : Msg) : (start k : Nat) → List Effect
  | _, 0 => []
  | i, k + 1 => .contact c.name msg :: .sleep (wait i) :: failedAttempts c msg (i + 1) k

private theorem loop_success (env : Env) (c : Cluster) (msg : Msg) (fuel i k : Nat)
    (hk : env.contactOk (i + 1 + k) = true) (hf : ∀ j < k, env.contactOk (i + 1 + j) = false)
    (hr : k = 0 ∨ i + 1 + k ≤ env.retries) (hfuel : fuel + i = env.retries) :
    forwardLoop env c msg fuel (i + 1) (wait i) =
      (failedAttempts c msg i k ++ [.contact c.name msg], true) := by
  induction k generalizing i fuel with
  | zero =>
    cases fuel with
    | zero => simp at hk; simp [forwardLoop, hk, failedAttempts]
    | succ n => simp at hk; simp [forwardLoop, hk, failedAttempts]
  | succ k ih =>
    rcases hr with hr | hr
    · simp at hr
    · cases fuel with
      | zero => omega
      | succ n =>
        have h0 := hf 0 (by omega)
        simp only [Nat.add_zero] at h0
        rw [forwardLoop, h0, if_neg (by simp), if_pos (by omega)]
        have := ih n (i + 1) (by rw [← hk]; congr 1; omega)
          (fun j hj => by rw [← hf (j + 1) (by omega)]; congr 1; omega) (Or.inr (by omega)) (by omega)
        rw [wait] at this
        simp only [this, failedAttempts, List.cons_append]

private theorem loop_failure (env : Env) (c : Cluster) (msg : Msg) (fuel i : Nat)
    (hf : ∀ j, i + 1 ≤ j → j ≤ max 1 env.retries → env.contactOk j = false)
    (hfuel : fuel + i = env.retries) (hi : i + 1 ≤ max 1 env.retries) :
    forwardLoop env c msg fuel (i + 1) (wait i) =
      (failedAttempts c msg i (max 1 env.retries - (i + 1)) ++ [.contact c.name msg], false) := by
  induction fuel generalizing i with
  | zero =>
    have : max 1 env.retries - (i + 1) = 0 := by omega
    rw [this]
    simp [forwardLoop, failedAttempts, hf (i + 1) (Nat.le_refl _) hi]
  | succ n ih =>
    rw [forwardLoop, hf (i + 1) (Nat.le_refl _) hi, if_neg (by simp)]
    by_cases h : i + 1 < env.retries
    · rw [if_pos h]
      have := ih (i + 1) (fun j h1 h2 => hf j (by omega) h2) (by omega) (by omega)
      rw [wait] at this
      have e : max 1 env.retries - (i + 1) = (max 1 env.retries - (i + 1 + 1)) + 1 := by omega
      simp only [this, e, failedAttempts, List.cons_append]
    · rw [if_neg h]
      have : max 1 env.retries - (i + 1) = 0 := by omega
      rw [this]; simp [failedAttempts]

/-- C37: a cluster that is not running is not contacted, and the request fails. -/
theorem C37_not_running (env : Env) (c : Cluster) (msg : Msg) (h : c.status ≠ .running) :
    forward env c msg = ([], false) := by
  unfold forward; rw [if_pos h]

/-- C37: if the n-th attempt is the first that succeeds, and n is at most `max 1 retries`, there are
exactly n attempts with the waits between them, the cluster is not failed, and the forwarding
succeeds. -/
theorem C37_success (env : Env) (c : Cluster) (msg : Msg) (n : Nat) (hrun : c.status = .running)
    (hn : 1 ≤ n) (hmax : n ≤ max 1 env.retries) (hok : env.contactOk n = true)
    (hbad : ∀ j, 1 ≤ j → j < n → env.contactOk j = false) :
    forward env c msg = (failedAttempts c msg 0 (n - 1) ++ [.contact c.name msg], true) := by
  unfold forward
  rw [if_neg (by simp [hrun])]
  have := loop_success env c msg env.retries 0 (n - 1) (by rw [← hok]; congr 1; omega)
    (fun j hj => hbad _ (by omega) (by omega)) (by omega) (by omega)
  rw [show (1 / 10 : Rat) = wait 0 from rfl, this]
  simp

/-- C37: if the first `max 1 retries` attempts fail, exactly those are made, then the cluster is
failed, and the forwarding fails. -/
theorem C37_failure (env : Env) (c : Cluster) (msg : Msg) (hrun : c.status = .running)
    (hbad : ∀ j, 1 ≤ j → j ≤ max 1 env.retries → env.contactOk j = false) :
    forward env c msg =
      (failedAttempts c msg 0 (max 1 env.retries - 1) ++ [.contact c.name msg, .stop c.name true],
        false) := by
  unfold forward
  rw [if_neg (by simp [hrun])]
  have := loop_failure env c msg env.retries 0 (fun j h1 h2 => hbad j h1 h2) (by omega) (by omega)
  rw [show (1 / 10 : Rat) = wait 0 from rfl, this]
  simp

/-- C37: every wait is positive and at most 5 s. -/
theorem C37_waits (k : Nat) : 0 < wait k ∧ wait k ≤ 5 := by
  induction k with
  | zero => constructor <;> (unfold wait; decide +kernel)
  | succ k ih =>
    unfold wait
    split
    · constructor <;> grind
    · constructor <;> grind

/-- C37: the number of attempts is always between 1 and `max 1 retries` for a running cluster, and
the client of a scale or adapt request is answered 409 exactly if the forwarding failed. -/
theorem C37_bounded (env : Env) (c : Cluster) (msg : Msg) (told : Option (List Json))
    (cookie : Option User) :
    contacts (forward env c msg).1 ≤ max 1 env.retries ∧
      (((forwardAndAnswer env c msg told).respond cookie).code = 409 ↔
        (forward env c msg).2 = false) := by
  have fa : ∀ i k, contacts (failedAttempts c msg i k) = k := by
    intro i k
    induction k generalizing i with
    | zero => rfl
    | succ k ih =>
      have := ih (i + 1)
      simp only [contacts, failedAttempts, List.countP_cons] at this ⊢
      simp [this]
  constructor
  · by_cases hrun : c.status = .running
    · by_cases h : ∃ n, 1 ≤ n ∧ n ≤ max 1 env.retries ∧ env.contactOk n = true
      · -- the least such n
        have least : ∀ b n, n ≤ b → 1 ≤ n → n ≤ max 1 env.retries → env.contactOk n = true →
            ∃ m, 1 ≤ m ∧ m ≤ max 1 env.retries ∧ env.contactOk m = true ∧
              ∀ j, 1 ≤ j → j < m → env.contactOk j = false := by
          intro b
          induction b with
          | zero => intro n h1 h2; omega
          | succ b ih =>
            intro n h1 h2 h3 h4
            by_cases hj : ∃ j, 1 ≤ j ∧ j < n ∧ env.contactOk j = true
            · obtain ⟨j, g1, g2, g3⟩ := hj
              exact ih j (by omega) g1 (by omega) g3
            · refine ⟨n, h2, h3, h4, fun j g1 g2 => ?_⟩
              cases hc : env.contactOk j with
              | false => rfl
              | true => exact absurd ⟨j, g1, g2, hc⟩ hj
        obtain ⟨n, h1, h2, h3⟩ := h
        obtain ⟨m, g1, g2, g3, g4⟩ := least n n (Nat.le_refl _) h1 h2 h3
        rw [C37_success env c msg m hrun g1 g2 g3 g4]
        have := fa 0 (m - 1)
        simp only [contacts, List.countP_append] at this ⊢
        simp [this]
        omega
      · have hbad : ∀ j, 1 ≤ j → j ≤ max 1 env.retries → env.contactOk j = false := by
          intro j g1 g2
          cases hc : env.contactOk j with
          | false => rfl
          | true => exact absurd ⟨j, g1, g2, hc⟩ h
        rw [C37_failure env c msg hrun hbad]
        have := fa 0 (max 1 env.retries - 1)
        simp only [contacts, List.countP_append] at this ⊢
        simp [this]
        omega
    · rw [C37_not_running env c msg hrun]; simp [contacts]
  · unfold forwardAndAnswer Handled.respond
    dsimp only
    cases h : (forward env c msg).2 <;> simp

example : forward env1 ca (.scale (limitJson 2)) =
    ([.contact "a".toList (.scale (limitJson 2)), .sleep (1 / 10),
      .contact "a".toList (.scale (limitJson 2))], true) := by decide +kernel

example : forward { env1 with contactOk := fun _ => false } ca (.scale (limitJson 2)) =
    ([.contact "a".toList (.scale (limitJson 2)), .sleep (1 / 10),
      .contact "a".toList (.scale (limitJson 2)), .sleep (1 / 5),
      .contact "a".toList (.scale (limitJson 2)), .stop "a".toList true], false) := by decide +kernel

/-! ### C36 -/

/-- C36 for scale: what an owner's request forwards. A whole number that is not negative is
forwarded, cut to the limit, and the answer has a message exactly if it was cut (the cluster being
reachable); anything else is rejected without any effect. -/
theorem C36_scale (env : Env) (s : List Cluster) (req : Request) (n : Str) (c : Cluster) (u : User)
    (hr : req.route = .scale n) (hc : Called s n c) (hu : LoggedInAs req u)
    (ho : u.name = c.username) :
    (∀ d count k, req.body = some (.obj d) → lookup d "count".toList = some count →
      Json.whole count = some k → 0 ≤ k →
      ∃ v told, Json.whole v =
          some (match c.maxWorkers with | none => k | some m => min k m) ∧
        (told = none ↔ ∀ m : Nat, c.maxWorkers = some m → k ≤ m) ∧
        (handle env s req).effects = (forward env c (.scale v)).1 ∧
        ((forward env c (.scale v)).2 = true →
          (handle env s req).code = 200 ∧ (handle env s req).body = .outcome told)) ∧
    (∀ d, req.body = some (.obj d) →
      (∀ k, ((lookup d "count".toList).bind Json.whole) = some k → k < 0) →
      (handle env s req).code = 422 ∧ (handle env s req).effects = []) ∧
    ((∀ d, req.body ≠ some (.obj d)) →
      (handle env s req).code = 500 ∧ (handle env s req).effects = []) := by
  have hh : handle env s req =
      (messageHandler env s u n (fun m => scaleRequest m req.body)).respond
        (if req.cached.isSome then none else some u) := by
    unfold handle; rw [hr]; dsimp only; rw [withUser_ok hu]
  unfold Called at hc
  rw [hh, message_owner hc ho]
  refine ⟨?_, ?_, ?_⟩
  · intro d count k hb hl hw hk
    have hnum : count.asNum = some (.int k) := by
      unfold Json.whole at hw
      split at hw
      · rename_i k' e; rw [e, Option.some.inj hw]
      · simp at hw
    have hsr : scaleRequest c.maxWorkers req.body =
        match c.maxWorkers with
        | none => .ok (.scale count, none)
        | some m => if k > m then .ok (.scale (limitJson m), some [count, limitJson m])
          else .ok (.scale count, none) := by
      rw [hb]
      simp only [scaleRequest, hl, Option.getD_some, hnum]
      rw [if_neg (by omega)]
      cases c.maxWorkers <;> rfl
    try dsimp only
    rw [hsr]
    cases hm : c.maxWorkers with
    | none =>
      refine ⟨count, none, hw, by simp, ?_, ?_⟩
      · simp [forwardAndAnswer, respond_effects]
      · intro hok; simp [forwardAndAnswer, Handled.respond, hok]
    | some m =>
      dsimp only
      by_cases hgt : k > m
      · rw [if_pos hgt]
        refine ⟨limitJson m, some [count, limitJson m], ?_, ?_, ?_, ?_⟩
        · simp only [limitJson, Json.whole, Json.asNum]
          rw [Int.min_eq_right (by omega)]
        · constructor
          · intro e; simp at e
          · intro e; have := e m rfl; omega
        · simp [forwardAndAnswer, respond_effects]
        · intro hok; simp [forwardAndAnswer, Handled.respond, hok]
      · rw [if_neg hgt]
        refine ⟨count, none, ?_, ?_, ?_, ?_⟩
        · rw [hw, Int.min_eq_left (by omega)]
        · constructor
          · intro _ m' e; have := Option.some.inj e; omega
          · intro _; rfl
        · simp [forwardAndAnswer, respond_effects]
        · intro hok; simp [forwardAndAnswer, Handled.respond, hok]
  · intro d hb hbad
    have hsr : scaleRequest c.maxWorkers req.body = .error 422 := by
      rw [hb]
      simp only [scaleRequest]
      cases hl : lookup d "count".toList with
      | none => rfl
      | some count =>
        simp only [Option.getD_some]
        split
        · rename_i k e
          have : k < 0 := hbad k (by rw [hl]; simp [Json.whole, e])
          rw [if_pos this]
        · rfl
    try dsimp only
    rw [hsr]
    simp [Handled.raise, Handled.respond]
  · intro hb
    have hsr : scaleRequest c.maxWorkers req.body = .error 500 := by
      unfold scaleRequest
      split
      · rename_i d e; exact absurd e (hb d)
      · rfl
    try dsimp only
    rw [hsr]
    simp [Handled.raise, Handled.respond]

/-- C36 in full for adapt: any bounds forwarded are whole numbers with
`0 ≤ minimum ≤ maximum ≤ max_workers`. -/
def C36_adapt_full : Prop := ∀ (maxWorkers : Option Nat) (body : Option Json) (lo hi active : Json)
    (told : Option (List Json)),
  adaptRequest maxWorkers body = .ok (.adapt lo hi active, told) →
  ∃ a b, Json.whole lo = some a ∧ Json.whole hi = some b ∧ 0 ≤ a ∧ a ≤ b ∧
    ∀ m : Nat, maxWorkers = some m → b ≤ m

/-- C36 is false of the code for adapt: bounds are not checked at all (beyond the limit), so for
example a minimum above the maximum is forwarded. -/
theorem C36_adapt_violated : ¬ C36_adapt_full := by
  intro h
  obtain ⟨a, b, h1, h2, _, h4, _⟩ := h (some 10)
    (some (.obj [("minimum".toList, .num (.int 5)), ("maximum".toList, .num (.int 2))]))
    (.num (.int 5)) (.num (.int 2)) (.bool true) none rfl
  simp only [Json.whole, Json.asNum, Option.some.injEq] at h1 h2
  omega

/-- More of what is forwarded: negative bounds, and without a limit anything at all. -/
example : adaptRequest (some 10)
      (some (.obj [("minimum".toList, .num (.int (-5))), ("maximum".toList, .num .ninf)])) =
    .ok (.adapt (.num (.int (-5))) (.num .ninf) (.bool true), none) ∧
    adaptRequest none (some (.obj [("minimum".toList, .str "x".toList)])) =
      .ok (.adapt (.str "x".toList) .null (.bool true), none) := by decide +kernel

private theorem min_atMost {m : Nat} {a b : Json} (h : pyMin m a = some b) :
    AtMost b m ∧ ∃ x, a.asNum = some x ∧
      (b = a ∧ Num.lt x (.int m) = true ∨ b = limitJson m ∧ Num.lt x (.int m) = false) := by
  unfold pyMin at h
  cases ha : a.asNum with
  | none => rw [ha] at h; simp at h
  | some x =>
    rw [ha] at h
    simp only [Option.map_some, Option.some.injEq] at h
    by_cases hl : Num.lt x (.int m) = true
    · rw [if_pos hl] at h
      subst h
      refine ⟨⟨x, ha, ?_⟩, x, rfl, Or.inl ⟨rfl, hl⟩⟩
      cases x <;> simp [Num.lt] at hl ⊢
      · omega
      · grind
    · rw [if_neg hl] at h
      subst h
      refine ⟨⟨.int m, rfl, by simp [Num.lt]⟩, x, rfl, Or.inr ⟨rfl, by simpa using hl⟩⟩

private theorem limitBounds_ok {m : Nat} {lo₁ hi₁ lo hi lo₀ hi₀ : Json} {told : Option (List Json)}
    (h : limitBounds m lo₁ hi₁ = .ok ((lo, hi), told))
    (hlo₀ : lo₀ = if lo₁ = .null then .num (.int 0) else lo₁)
    (hhi₀ : hi₀ = if hi₁ = .null then limitJson m else hi₁) :
    AtMost lo m ∧ AtMost hi m ∧
    ∃ a b, lo₀.asNum = some a ∧ hi₀.asNum = some b ∧
        (told = none ↔ Num.lt (.int m) a = false ∧ Num.lt (.int m) b = false) ∧
        (told = none → lo = lo₀ ∧ hi = hi₀) ∧
        (Num.lt (.int m) a = true → lo = limitJson m) ∧
        (Num.lt (.int m) b = true → hi = limitJson m) ∧
        (Num.lt a (.int m) = true → lo = lo₀) ∧ (Num.lt b (.int m) = true → hi = hi₀) := by
  simp only [limitBounds, ← hlo₀, ← hhi₀] at h
  have asym : ∀ x : Num, Num.lt (.int m) x = true → Num.lt x (.int m) = false := by
    intro x hx
    cases x <;> simp [Num.lt] at hx ⊢
    · omega
    · grind
  cases hb : hi₀.asNum with
  | none => simp [exceeds, pyGt, hb] at h
  | some b =>
    cases ha : lo₀.asNum with
    | none =>
      simp only [exceeds, pyGt, hb, ha, Option.map_some, Option.map_none, pyMin] at h
      cases hbb : Num.lt (.int m) b <;> simp [hbb] at h
    | some a =>
      have pa : pyMin m lo₀ = some (if Num.lt a (.int m) then lo₀ else limitJson m) := by
        simp [pyMin, ha]
      have pb : pyMin m hi₀ = some (if Num.lt b (.int m) then hi₀ else limitJson m) := by
        simp [pyMin, hb]
      by_cases ex : Num.lt (.int m) b = true ∨ Num.lt (.int m) a = true
      · have e : exceeds m lo₀ hi₀ = some true := by
          unfold exceeds
          simp only [pyGt, ha, hb, Option.map_some]
          cases hbb : Num.lt (.int m) b with
          | true => rfl
          | false =>
            rcases ex with ex | ex
            · rw [hbb] at ex; simp at ex
            · rw [ex]
        rw [e] at h
        simp only [pa, pb, Except.ok.injEq, Prod.mk.injEq] at h
        obtain ⟨⟨h1, h2⟩, h4⟩ := h
        refine ⟨h1 ▸ (min_atMost pa).1, h2 ▸ (min_atMost pb).1, a, b, rfl, rfl,
          ?_, ?_, ?_, ?_, ?_, ?_⟩
        · rw [← h4]
          constructor
          · intro e; simp at e
          · rintro ⟨e1, e2⟩; rcases ex with ex | ex
            · rw [e2] at ex; simp at ex
            · rw [e1] at ex; simp at ex
        · intro e; rw [← h4] at e; simp at e
        · intro e; rw [← h1, asym _ e]; simp
        · intro e; rw [← h2, asym _ e]; simp
        · intro e; rw [← h1, if_pos e]
        · intro e; rw [← h2, if_pos e]
      · simp only [not_or, Bool.not_eq_true] at ex
        have e : exceeds m lo₀ hi₀ = some false := by
          simp [exceeds, pyGt, ha, hb, ex.1, ex.2]
        rw [e] at h
        simp only [Except.ok.injEq, Prod.mk.injEq] at h
        obtain ⟨⟨h1, h2⟩, h4⟩ := h
        rw [← h1, ← h2, ← h4]
        refine ⟨⟨a, ha, ex.2⟩, ⟨b, hb, ex.1⟩, a, b, rfl, rfl, ?_, ?_, ?_, ?_, ?_, ?_⟩
        · simp [ex.1, ex.2]
        · intro _; exact ⟨rfl, rfl⟩
        · intro e; rw [ex.2] at e; simp at e
        · intro e; rw [ex.1] at e; simp at e
        · intro _; rfl
        · intro _; rfl

/-- C36, the part that holds for adapt: with a limit set, the bounds forwarded are numbers not above
it; a bound the client gave that is within the limit is forwarded as it is, one above it becomes the
limit; an absent maximum becomes the limit and an absent minimum 0; the client is told exactly if a
bound it gave exceeds the limit. Missing: nothing rejects negative bounds, a minimum above the
maximum, or any value at all if there is no limit. -/
theorem C36_adapt_partial (m : Nat) (d : List (Str × Json)) (lo hi active : Json)
    (told : Option (List Json))
    (h : adaptRequest (some m) (some (.obj d)) = .ok (.adapt lo hi active, told)) :
    AtMost lo m ∧ AtMost hi m ∧ active = (lookup d "active".toList).getD (.bool true) ∧
    (∀ lo₀ hi₀, lo₀ = (match lookup d "minimum".toList with
          | none => .num (.int 0) | some v => if v = .null then .num (.int 0) else v) →
        hi₀ = (match lookup d "maximum".toList with
          | none => limitJson m | some v => if v = .null then limitJson m else v) →
      ∃ a b, lo₀.asNum = some a ∧ hi₀.asNum = some b ∧
        (told = none ↔ Num.lt (.int m) a = false ∧ Num.lt (.int m) b = false) ∧
        (told = none → lo = lo₀ ∧ hi = hi₀) ∧
        (Num.lt (.int m) a = true → lo = limitJson m) ∧
        (Num.lt (.int m) b = true → hi = limitJson m) ∧
        (Num.lt a (.int m) = true → lo = lo₀) ∧ (Num.lt b (.int m) = true → hi = hi₀)) := by
  unfold adaptRequest at h
  dsimp only at h
  generalize "minimum".toList = kmin at *
  generalize "maximum".toList = kmax at *
  generalize "active".toList = kact at *
  cases hb : limitBounds m ((lookup d kmin).getD .null) ((lookup d kmax).getD .null) with
  | error code => rw [hb] at h; simp at h
  | ok p =>
    obtain ⟨⟨lo', hi'⟩, told'⟩ := p
    rw [hb] at h
    simp only [Except.ok.injEq, Prod.mk.injEq, Msg.adapt.injEq] at h
    obtain ⟨⟨rfl, rfl, rfl⟩, rfl⟩ := h
    have key := limitBounds_ok hb rfl rfl
    refine ⟨key.1, key.2.1, rfl, ?_⟩
    intro lo₀ hi₀ h1 h2
    have e1 : lo₀ = if (lookup d kmin).getD .null = .null then .num (.int 0)
        else (lookup d kmin).getD .null := by
      rw [h1]; cases lookup d kmin <;> simp
    have e2 : hi₀ = if (lookup d kmax).getD .null = .null then limitJson m
        else (lookup d kmax).getD .null := by
      rw [h2]; cases lookup d kmax <;> simp
    exact (limitBounds_ok hb e1 e2).2.2

/-- C36: with a limit set, bounds that are not numbers are rejected, and a request that is rejected
forwards nothing. -/
theorem C36_adapt_rejects (env : Env) (s : List Cluster) (req : Request) (n : Str) (c : Cluster)
    (u : User) (hr : req.route = .adapt n) (hc : Called s n c) (hu : LoggedInAs req u)
    (ho : u.name = c.username) :
    (∀ code, adaptRequest c.maxWorkers req.body = .error code →
      (handle env s req).code = code ∧ (handle env s req).effects = []) ∧
    (∀ msg told, adaptRequest c.maxWorkers req.body = .ok (msg, told) →
      (handle env s req).effects = (forward env c msg).1 ∧
      ((forward env c msg).2 = true →
          (handle env s req).code = 200 ∧ (handle env s req).body = .outcome told)) ∧
    ((∀ d, req.body ≠ some (.obj d)) → adaptRequest c.maxWorkers req.body = .error 500) ∧
    (∀ m d v, c.maxWorkers = some m → req.body = some (.obj d) →
      (lookup d "minimum".toList = some v ∨ lookup d "maximum".toList = some v) → v ≠ .null →
      v.asNum = none → adaptRequest c.maxWorkers req.body = .error 500) := by
  have hh : handle env s req =
      (messageHandler env s u n (fun m => adaptRequest m req.body)).respond
        (if req.cached.isSome then none else some u) := by
    unfold handle; rw [hr]; dsimp only; rw [withUser_ok hu]
  unfold Called at hc
  rw [hh, message_owner hc ho]
  refine ⟨?_, ?_, ?_, ?_⟩
  · intro code h
    try dsimp only
    rw [h]
    simp [Handled.raise, Handled.respond]
  · intro msg told h
    try dsimp only
    rw [h]
    refine ⟨by simp [forwardAndAnswer, respond_effects], ?_⟩
    intro hok; simp [forwardAndAnswer, Handled.respond, hok]
  · intro hb
    unfold adaptRequest
    split
    · rename_i d e; exact absurd e (hb d)
    · rfl
  · intro m d v hm hb hv hnull hnum
    rw [hm, hb]
    cases hres : adaptRequest (some m) (some (.obj d)) with
    | error code =>
      unfold adaptRequest at hres
      dsimp only at hres
      generalize "minimum".toList = kmin at *
      generalize "maximum".toList = kmax at *
      generalize "active".toList = kact at *
      cases hb : limitBounds m ((lookup d kmin).getD .null) ((lookup d kmax).getD .null) with
      | ok p => rw [hb] at hres; simp at hres
      | error code' =>
        rw [hb] at hres
        simp only [Except.error.injEq] at hres
        rw [← hres]
        congr 1
        unfold limitBounds at hb
        dsimp only at hb
        split at hb
        · simpa using hb.symm
        · simp at hb
        · split at hb
          · simp at hb
          · simpa using hb.symm
    | ok p =>
      obtain ⟨msg, told⟩ := p
      have hmsg : ∃ lo hi active, msg = .adapt lo hi active := by
        unfold adaptRequest at hres
        dsimp only at hres
        generalize "minimum".toList = kmin at *
        generalize "maximum".toList = kmax at *
        generalize "active".toList = kact at *
        split at hres
        · simp at hres
        · simp only [Except.ok.injEq, Prod.mk.injEq] at hres
          exact ⟨_, _, _, hres.1.symm⟩
      obtain ⟨lo, hi, active, rfl⟩ := hmsg
      obtain ⟨_, _, _, hall⟩ := C36_adapt_partial m d lo hi active told hres
      obtain ⟨a, b, e3, e4, _⟩ := hall _ _ rfl rfl
      rcases hv with hv | hv
      · rw [hv] at e3
        dsimp only at e3
        rw [if_neg hnull, hnum] at e3; simp at e3
      · rw [hv] at e4
        dsimp only at e4
        rw [if_neg hnull, hnum] at e4; simp at e4

private def scaleBody (k : Int) : Option Json := some (.obj [("count".toList, .num (.int k))])

example : (handle env1 [ca, cb]
      { route := .scale "a".toList, cached := some alice, body := scaleBody 9 }).body =
        .outcome (some [.num (.int 9), limitJson 4]) ∧
    (handle env1 [ca, cb]
      { route := .scale "a".toList, cached := some alice, body := scaleBody (-1) }).code = 422 ∧
    (handle env1 [ca, cb]
      { route := .scale "b".toList, cached := some bob, body := scaleBody 3 }).code = 409 := by
  decide +kernel

example : adaptRequest (some 4)
      (some (.obj [("minimum".toList, .num (.int 2)), ("maximum".toList, .num .pinf)])) =
    .ok (.adapt (.num (.int 2)) (limitJson 4) (.bool true),
      some [.num .pinf, .num (.int 2), limitJson 4, limitJson 4, .num (.int 2)]) := by
  decide +kernel

/-! ### C68 -/

/-- The JSON values that are empty or zero: they stand for no options. -/
def blanks : List Json :=
  [.null, .bool false, .num (.int 0), .num (.fin 0), .str [], .arr [], .obj []]

private theorem blank_or (x : Json) :
    (x ∈ blanks → (if truthy x then x else .obj []) = .obj []) ∧
      (x ∉ blanks → (if truthy x then x else .obj []) = x) := by
  cases x with
  | null => simp [blanks, truthy]
  | bool b => cases b <;> simp [blanks, truthy]
  | num n =>
    by_cases h1 : n = .int 0
    · subst h1; simp [blanks, truthy]
    · by_cases h2 : n = .fin 0
      · subst h2; simp [blanks, truthy]
      · simp [blanks, truthy, h1, h2]
  | str t => by_cases h : t = [] <;> simp [blanks, truthy, h]
  | arr l => cases l <;> simp [blanks, truthy]
  | obj l => cases l <;> simp [blanks, truthy]

/-- C68: a create request of a logged-in user asks the backend once to start a cluster, for that user
and with the options the client sent (none if it sent none, or an empty value); the answer tells the name of the new
cluster exactly if the backend accepted. -/
theorem C68_create (env : Env) (s : List Cluster) (req : Request) (u : User)
    (d : List (Str × Json)) (hr : req.route = .create) (hu : LoggedInAs req u)
    (hb : req.body = some (.obj d)) :
    ∃ o, (handle env s req).effects = [.start u o] ∧
      (∀ l, lookup d "cluster_options".toList = some (.obj l) → o = .obj l) ∧
      (lookup d "cluster_options".toList = none → o = .obj []) ∧
      (∀ x, lookup d "cluster_options".toList = some x →
        (x ∈ blanks → o = .obj []) ∧ (x ∉ blanks → o = x)) ∧
      (∀ n, env.startResult = .ok n →
        (handle env s req).code = 201 ∧ (handle env s req).body = .created n) ∧
      (env.startResult = .publicError → (handle env s req).code = 422 ∧
        (handle env s req).body = .error) ∧
      (env.startResult = .otherError → (handle env s req).code = 500 ∧
        (handle env s req).body = .error) := by
  unfold handle
  rw [hr]; dsimp only
  rw [withUser_ok hu, hb]
  simp only [createHandler]
  generalize "cluster_options".toList = k
  have key : ∀ x : Option Json,
      (∀ l, x = some (.obj l) → (if truthy (x.getD .null) then x.getD .null else .obj []) = .obj l) ∧
      (x = none → (if truthy (x.getD .null) then x.getD .null else .obj []) = .obj []) ∧
      (∀ y, x = some y →
        (y ∈ blanks → (if truthy (x.getD .null) then x.getD .null else .obj []) = .obj []) ∧
        (y ∉ blanks → (if truthy (x.getD .null) then x.getD .null else .obj []) = y)) := by
    intro x
    refine ⟨?_, ?_, ?_⟩
    · rintro l rfl
      cases l <;> rfl
    · rintro rfl; rfl
    · rintro y rfl; exact blank_or y
  cases env.startResult with
  | ok n => exact ⟨_, rfl, (key _).1, (key _).2.1, (key _).2.2, fun n' h => by cases h; exact ⟨rfl, rfl⟩,
      fun h => (by cases h), fun h => (by cases h)⟩
  | publicError => exact ⟨_, rfl, (key _).1, (key _).2.1, (key _).2.2, fun n' h => (by cases h),
      fun _ => ⟨rfl, rfl⟩, fun h => (by cases h)⟩
  | otherError => exact ⟨_, rfl, (key _).1, (key _).2.1, (key _).2.2, fun n' h => (by cases h),
      fun h => (by cases h), fun _ => ⟨rfl, rfl⟩⟩

example : (handle env1 [] { route := .create, cached := some alice
                            body := some (.obj [("cluster_options".toList,
                              .obj [("cores".toList, .num (.int 2))])]) }).effects =
    [.start alice (.obj [("cores".toList, .num (.int 2))])] := by decide +kernel

/-- A value that is no object is passed on as well, unless it is empty. -/
example : (handle env1 [] { route := .create, cached := some alice
                            body := some (.obj [("cluster_options".toList, .num (.int 1))]) }).effects =
    [.start alice (.num (.int 1))] ∧
  (handle env1 [] { route := .create, cached := some alice
                    body := some (.obj [("cluster_options".toList, .num (.int 0))]) }).effects =
    [.start alice (.obj [])] := by decide +kernel

end Verif.Api

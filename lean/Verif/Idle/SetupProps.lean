import Verif.Idle.Props
import Verif.Secrets.Lemmas
/-! Properties C146 and C147: the start of the service within a scheduler, and the addresses it reports. -/
set_option linter.unusedSimpArgs false
set_option linter.unusedVariables false
namespace Verif.Idle

/-! ### C146: specification -/

/-- Specification: the scheduler of `distributed` knows the options for itself, and neither those for the gateway nor
their values. -/
structure Knows (known : Str → Option Bool) (values : List Str) : Prop where
  own : ∀ w ∈ ["--protocol", "--port", "--host", "--dashboard-address", "--preload"].map String.toList, known w = some true
  others : ∀ w ∈ ["--dg-api-address", "--dg-heartbeat-period", "--dg-adaptive-period", "--dg-idle-timeout"].map String.toList,
    known w = none
  values : ∀ v ∈ values, known v = none

/-- Specification: a service with these settings, which is up on this machine: it has an API at the host and port, talks to
the gateway as its cluster, and checks for idleness if there is an idle timeout. -/
structure Configured (h : Host) (host : Str) (port : Int) (heartbeat adaptive idle : Rat) (s : Service) : Prop where
  client : Boot.makeClient h.env h.files = some s.client
  bound : h.bind host port = some s.port
  hostOk : s.host = host
  address : httpAddress h.address s.port = some s.apiAddress
  adaptiveOk : s.adaptivePeriod = adaptive
  period : s.heartbeatPeriod = if heartbeat ≤ 0 then 0 else heartbeat
  slowest : s.heartbeatMax = if heartbeat ≤ 0 then 3600 else heartbeat
  first : s.heartbeatInitial = if heartbeat ≤ 0 then 3600 else 1 / 4
  timeout : s.idleTimeout = if idle ≤ 0 then 0 else idle
  checking : s.checking = true ↔ 0 < idle

/-! ### C146: lemmas -/

private theorem left_own {known : Str → Option Bool} {w : Str} (h : known w = some true) (v : Str) (l : List Str) :
    leftover known (w :: v :: l) = leftover known l := by
  rw [leftover, h]

private theorem left_other {known : Str → Option Bool} {w : Str} (h : known w = none) (l : List Str) :
    leftover known (w :: l) = w :: leftover known l := by
  cases l with
  | nil => simp only [leftover, h]
  | cons v l => rw [leftover, h]

private theorem parse_step {float : Str → Option Rat} {o o' : Opts} {name value : Str} (h : o.set float name value = some o')
    (l : List Str) : parse float o (name :: value :: l) = parse float o' l := by
  rw [parse, h]

private theorem set_adaptive {float : Str → Option Rat} (o : Opts) {v : Str} {x : Rat} (h : float v = some x) :
    o.set float "--dg-adaptive-period".toList v = some { o with adaptivePeriod := x } := by
  unfold Opts.set
  rw [if_pos rfl, h]
  rfl

private theorem set_heartbeat {float : Str → Option Rat} (o : Opts) {v : Str} {x : Rat} (h : float v = some x) :
    o.set float "--dg-heartbeat-period".toList v = some { o with heartbeatPeriod := x } := by
  unfold Opts.set
  rw [if_neg (by decide +kernel), if_pos rfl, h]
  rfl

private theorem set_idle {float : Str → Option Rat} (o : Opts) {v : Str} {x : Rat} (h : float v = some x) :
    o.set float "--dg-idle-timeout".toList v = some { o with idleTimeout := x } := by
  unfold Opts.set
  rw [if_neg (by decide +kernel), if_neg (by decide +kernel), if_pos rfl, h]
  rfl

private theorem set_address {float : Str → Option Rat} (o : Opts) (v : Str) :
    o.set float "--dg-api-address".toList v = some { o with apiAddress := v } := by
  unfold Opts.set
  rw [if_neg (by decide +kernel), if_neg (by decide +kernel), if_neg (by decide +kernel), if_pos rfl]

/-- What `dask_setup` does once the command line is read. -/
private theorem setup_of {float : Str → Option Rat} {argv : List Str} {o : Opts} (h : Host)
    (hp : parse float .default argv = some o) {host : Str} (n : Nat) (hh : ':' ∉ host)
    (ha : o.apiAddress = host ++ ':' :: Nat.toDigits 10 n) :
    (∀ s, daskSetup float h argv = .serving s ↔
      Configured h host n o.heartbeatPeriod o.adaptivePeriod o.idleTimeout s) ∧
    (daskSetup float h argv = .exit1 ∨ ∃ s, daskSetup float h argv = .serving s) := by
  have hd : ∀ x : Rat, max 0 x = if x ≤ 0 then 0 else x := by intro x; grind
  unfold daskSetup
  rw [hp]
  dsimp only
  rw [ha, Api.splitAll_append _ _ _ hh, Api.splitAll_piece _ _ (Boot.colon_free n)]
  dsimp only
  rw [Boot.pyInt_digits]
  dsimp only
  cases hc : Boot.makeClient h.env h.files with
  | none =>
    refine ⟨fun s => ⟨fun e => (by cases e), fun e => ?_⟩, Or.inl rfl⟩
    have := e.client
    rw [hc] at this
    cases this
  | some client =>
    dsimp only
    cases hb : h.bind host (n : Int) with
    | none =>
      refine ⟨fun s => ⟨fun e => (by cases e), fun e => ?_⟩, Or.inl rfl⟩
      have := e.bound
      rw [hb] at this
      cases this
    | some port =>
      dsimp only
      cases hu : httpAddress h.address port with
      | none =>
        refine ⟨fun s => ⟨fun e => (by cases e), fun e => ?_⟩, Or.inl rfl⟩
        have h1 := e.bound
        rw [hb] at h1
        injection h1 with h1
        have := e.address
        rw [← h1, hu] at this
        cases this
      | some api =>
        dsimp only
        refine ⟨fun s => ⟨fun e => ?_, fun e => ?_⟩, Or.inr ⟨_, rfl⟩⟩
        · injection e with e
          subst e
          refine ⟨hc, hb, rfl, hu, rfl, hd _, ?_, ?_, hd _, ?_⟩
          · show Sched.heartbeatMax o.heartbeatPeriod = _
            unfold Sched.heartbeatMax
            grind
          · show Sched.heartbeatInitial o.heartbeatPeriod = _
            unfold Sched.heartbeatInitial
            grind
          · show decide (max 0 o.idleTimeout > 0) = true ↔ _
            rw [decide_eq_true_eq]
            grind
        · obtain ⟨e1, e2, e3, e4, e5, e6, e7, e8, e9, e10⟩ := e
          have h1 : s.client = client := by rw [hc] at e1; injection e1 with e1; exact e1.symm
          have h2 : s.port = port := by rw [hb] at e2; injection e2 with e2; exact e2.symm
          have h3 : s.apiAddress = api := by rw [h2, hu] at e4; injection e4 with e4; exact e4.symm
          have h7 : Sched.heartbeatMax o.heartbeatPeriod = s.heartbeatMax := by
            rw [e7]; unfold Sched.heartbeatMax; grind
          have h8 : Sched.heartbeatInitial o.heartbeatPeriod = s.heartbeatInitial := by
            rw [e8]; unfold Sched.heartbeatInitial; grind
          have h10 : decide (max 0 o.idleTimeout > 0) = s.checking := by
            rw [Bool.eq_iff_iff, decide_eq_true_eq, e10]
            grind
          rw [h7, h8, h10, hd, hd, ← e6, ← e9, ← e5, ← e3, ← h1, ← h2, ← h3]

private theorem command_args {float : Str → Option Rat} {known : Str → Option Bool} {host hb ad id : Str} {x y z : Rat}
    (hk : Knows known [host ++ ":0".toList, hb, ad, id]) (f1 : float hb = some x) (f2 : float ad = some y)
    (f3 : float id = some z) :
    parse float .default (leftover known
      ["--protocol".toList, "tls".toList, "--port".toList, "0".toList, "--host".toList, host,
        "--dashboard-address".toList, host ++ ":0".toList,
        "--preload".toList, "dask_gateway.scheduler_preload".toList,
        "--dg-api-address".toList, host ++ ":0".toList,
        "--dg-heartbeat-period".toList, hb, "--dg-adaptive-period".toList, ad, "--dg-idle-timeout".toList, id]) =
      some { adaptivePeriod := y, heartbeatPeriod := x, idleTimeout := z, apiAddress := host ++ ":0".toList } := by
  rw [left_own (hk.own _ (by simp)), left_own (hk.own _ (by simp)), left_own (hk.own _ (by simp)),
    left_own (hk.own _ (by simp)), left_own (hk.own _ (by simp)),
    left_other (hk.others _ (by simp)), left_other (hk.values _ (by simp)),
    left_other (hk.others _ (by simp)), left_other (hk.values _ (by simp)),
    left_other (hk.others _ (by simp)), left_other (hk.values _ (by simp)),
    left_other (hk.others _ (by simp)), left_other (hk.values _ (by simp)), leftover,
    parse_step (set_address _ _), parse_step (set_heartbeat _ f1), parse_step (set_adaptive _ f2),
    parse_step (set_idle _ f3), parse]

/-! ### C146 -/

/-- C146: the scheduler of a cluster on one of the backends with a database runs with a service that has exactly the settings
of the configuration, or exits. Further words in the command of the scheduler (`extra`) are options that the scheduler knows.
The hosts of the backends are `0.0.0.0` and `127.0.0.1`; for others see `C146_colon_refused`. -/
theorem C146_service (float : Str → Option Rat) (known : Str → Option Bool) (b : Batch.Sys) (c : Batch.Conf)
    (h : Host) (exe : Str) (extra : List Str) (hc : c.schedulerCmd = exe :: extra)
    (hx : ∀ l, leftover known (extra ++ l) = leftover known l)
    (hk : Knows known [b.defaultHost ++ ":0".toList, b.heartbeatPeriod, c.adaptivePeriod, c.idleTimeout])
    (heartbeat adaptive idle : Rat) (f1 : float b.heartbeatPeriod = some heartbeat)
    (f2 : float c.adaptivePeriod = some adaptive) (f3 : float c.idleTimeout = some idle) (hh : ':' ∉ b.defaultHost) :
    let out := daskSetup float h (leftover known ((Batch.schedulerCommand b c).drop 1))
    (∀ s, out = .serving s ↔ Configured h b.defaultHost 0 heartbeat adaptive idle s) ∧
      (out = .exit1 ∨ ∃ s, out = .serving s) := by
  dsimp only
  have hp : parse float .default (leftover known ((Batch.schedulerCommand b c).drop 1)) =
      some { adaptivePeriod := adaptive, heartbeatPeriod := heartbeat, idleTimeout := idle,
             apiAddress := b.defaultHost ++ ":0".toList } := by
    unfold Batch.schedulerCommand
    rw [hc, List.cons_append, List.drop_succ_cons, List.drop_zero, hx]
    exact command_args hk f1 f2 f3
  exact setup_of h hp 0 hh rfl

/-- C146: with an address like `::` as the host of a backend (which is no setting, but a subclass might choose it) the
scheduler exits whatever is there to be found. -/
theorem C146_colon_refused (float : Str → Option Rat) (known : Str → Option Bool) (b : Batch.Sys) (c : Batch.Conf)
    (h : Host) (exe : Str) (extra : List Str) (hc : c.schedulerCmd = exe :: extra)
    (hx : ∀ l, leftover known (extra ++ l) = leftover known l)
    (hk : Knows known [b.defaultHost ++ ":0".toList, b.heartbeatPeriod, c.adaptivePeriod, c.idleTimeout])
    (heartbeat adaptive idle : Rat) (f1 : float b.heartbeatPeriod = some heartbeat)
    (f2 : float c.adaptivePeriod = some adaptive) (f3 : float c.idleTimeout = some idle) (hh : ':' ∈ b.defaultHost) :
    daskSetup float h (leftover known ((Batch.schedulerCommand b c).drop 1)) = .exit1 := by
  have hp : parse float .default (leftover known ((Batch.schedulerCommand b c).drop 1)) =
      some { adaptivePeriod := adaptive, heartbeatPeriod := heartbeat, idleTimeout := idle,
             apiAddress := b.defaultHost ++ ":0".toList } := by
    unfold Batch.schedulerCommand
    rw [hc, List.cons_append, List.drop_succ_cons, List.drop_zero, hx]
    exact command_args hk f1 f2 f3
  unfold daskSetup
  rw [hp]
  dsimp only
  split
  · rename_i x y hs
    exfalso
    obtain ⟨e1, e2, e3⟩ := Secrets.splitAll_two hs
    have e4 : b.defaultHost ++ ':' :: ['0'] = x ++ ':' :: y := e1
    rcases List.append_eq_append_iff.mp e4 with ⟨a, h1, h2⟩ | ⟨a, h1, h2⟩
    · exact e2 (by rw [h1]; exact List.mem_append_left _ hh)
    · cases a with
      | nil =>
        rw [List.append_nil] at h1
        rw [h1] at hh
        exact e2 hh
      | cons c a =>
        rw [List.cons_append] at h2
        injection h2 with h3 h4
        exact e3 (by rw [h4]; simp)
  · rfl

/-- C146: the same on Kubernetes, where the API is at port 8788 of all interfaces and heartbeats are sent on changes
only. -/
theorem C146_kubernetes (float : Str → Option Rat) (known : Str → Option Bool) (exe : Str) (extra : List Str)
    (ad id : Str) (h : Host) (hx : ∀ l, leftover known (extra ++ l) = leftover known l)
    (hk : Knows known [":8788".toList, "0".toList, ad, id]) (adaptive idle : Rat) (f1 : float "0".toList = some 0)
    (f2 : float ad = some adaptive) (f3 : float id = some idle) :
    let out := daskSetup float h (leftover known ((kubeSchedulerCommand (exe :: extra) ad id).drop 1))
    (∀ s, out = .serving s ↔ Configured h [] 8788 0 adaptive idle s) ∧ (out = .exit1 ∨ ∃ s, out = .serving s) := by
  dsimp only
  have hp : parse float .default (leftover known ((kubeSchedulerCommand (exe :: extra) ad id).drop 1)) =
      some { adaptivePeriod := adaptive, heartbeatPeriod := 0, idleTimeout := idle, apiAddress := ":8788".toList } := by
    unfold kubeSchedulerCommand
    rw [List.cons_append, List.drop_succ_cons, List.drop_zero, hx,
      left_own (hk.own _ (by simp)), left_own (hk.own _ (by simp)), left_own (hk.own _ (by simp)),
      left_own (hk.own _ (by simp)),
      left_other (hk.others _ (by simp)), left_other (hk.values _ (by simp)), left_own (hk.own _ (by simp)),
      left_other (hk.others _ (by simp)), left_other (hk.values _ (by simp)),
      left_other (hk.others _ (by simp)), left_other (hk.values _ (by simp)),
      left_other (hk.others _ (by simp)), left_other (hk.values _ (by simp)), leftover,
      parse_step (set_address _ _), parse_step (set_heartbeat _ f1), parse_step (set_adaptive _ f2),
      parse_step (set_idle _ f3), parse]
  exact setup_of (host := []) h hp 8788 (by simp) (show ":8788".toList = [] ++ ':' :: Nat.toDigits 10 8788 from by decide +kernel)

/-- The options of the scheduler of `distributed` in the examples. -/
def known0 (w : Str) : Option Bool :=
  if w ∈ ["--protocol", "--port", "--host", "--dashboard-address", "--preload"].map String.toList then some true else none

/-- A machine with the environment of a cluster. -/
def host0 : Host :=
  { env := [("DASK_GATEWAY_CLUSTER_NAME".toList, "a".toList), ("DASK_GATEWAY_API_URL".toList, "u".toList),
      ("DASK_GATEWAY_API_TOKEN".toList, "t".toList)]
    files := fun _ => none, bind := fun _ p => some (if p = 0 then 40001 else p.toNat), address := "tls://10.0.0.7:8786".toList }

/-- A scheduler on Kubernetes with an idle timeout of 30 minutes. -/
example :
    daskSetup (fun v => if v = "0".toList then some 0 else if v = "3".toList then some 3 else some 1800) host0
      (leftover known0 ((kubeSchedulerCommand ["dask-scheduler".toList] "3".toList "1800".toList).drop 1)) =
    .serving
      { client := { cluster := "a".toList, token := "t".toList, url := "u".toList }, adaptivePeriod := 3, heartbeatPeriod := 0,
        heartbeatMax := 3600, heartbeatInitial := 3600, idleTimeout := 1800, host := [], port := 8788,
        apiAddress := "http://10.0.0.7:8788".toList, checking := true } := by decide +kernel

example : Knows known0 [":8788".toList, "0".toList, "3".toList, "1800".toList] :=
  ⟨by decide +kernel, by decide +kernel, by decide +kernel⟩

/-! ### C147 -/

theorem scheme_tls : Boot.Scheme "tls".toList :=
  ⟨fun x => List.dropWhile_cons_of_neg (by decide), by decide +kernel, by decide +kernel, fun x => ⟨'t', rfl, by decide⟩,
    by decide +kernel, by decide +kernel⟩

private theorem urlparse_bare (s nl : Str) (hs : Boot.Scheme s) (hl : Addr.Netloc nl) :
    Addr.urlparse (s ++ "://".toList ++ nl) = some { scheme := s, netloc := nl, path := [] } := by
  have hsep : "://".toList = [':', '/', '/'] := rfl
  have hshape : s ++ "://".toList ++ nl = s ++ ':' :: '/' :: '/' :: nl := by rw [hsep]; simp
  rw [hshape]
  have hclean : Addr.clean (s ++ ':' :: '/' :: '/' :: nl) = s ++ ':' :: '/' :: '/' :: nl := by
    unfold Addr.clean
    rw [hs.start, List.filter_eq_self]
    intro c hc
    cases hr : Addr.removed.contains c with
    | false => rfl
    | true =>
      exfalso
      have hm := List.contains_iff_mem.1 hr
      simp only [List.mem_append, List.mem_cons] at hc
      rcases hc with hc | rfl | rfl | rfl | hc
      · exact hs.kept c hm hc
      · revert hm; decide
      · revert hm; decide
      · revert hm; decide
      · exact hl.kept c hm hc
  have hcolon := Boot.takeWhile_until (p := fun x => x != ':') (a := s) (b := '/' :: '/' :: nl) (c := ':')
    (fun x hx => by simpa using fun e : x = ':' => hs.colon (e ▸ hx)) (by decide)
  have hsplit : Addr.splitScheme (s ++ ':' :: '/' :: '/' :: nl) = (s, '/' :: '/' :: nl) := by
    unfold Addr.splitScheme
    obtain ⟨c, h1, h2⟩ := hs.head (':' :: '/' :: '/' :: nl)
    rw [h1]
    dsimp only
    unfold Addr.before Addr.after
    rw [hcolon.1, hcolon.2, h2, hs.chars, hs.lower]
    have hc : (s ++ ':' :: '/' :: '/' :: nl).contains ':' = true := by
      rw [List.contains_iff_mem]; simp
    rw [hc]
    rfl
  unfold Addr.urlparse
  rw [hclean, hsplit]
  dsimp only
  have htake : List.take 2 ('/' :: '/' :: nl) = ['/', '/'] := rfl
  have hN : Addr.netlocOf ('/' :: '/' :: nl) = nl.takeWhile (fun c => !Addr.delims.contains c) := if_pos htake
  have hR : Addr.restOf ('/' :: '/' :: nl) = nl.dropWhile (fun c => !Addr.delims.contains c) := if_pos htake
  have hall : ∀ x ∈ nl, (!Addr.delims.contains x) = true := by
    intro x hx
    have a1 : x ≠ '/' := fun e => hl.slash (e ▸ hx)
    have a2 : x ≠ '?' := fun e => hl.question (e ▸ hx)
    have a3 : x ≠ '#' := fun e => hl.hash (e ▸ hx)
    simp [Addr.delims, a1, a2, a3]
  have h1 := Boot.takeWhile_whole hall
  have h2 : nl.dropWhile (fun c => !Addr.delims.contains c) = [] := by
    have := List.takeWhile_append_dropWhile (p := fun c => !Addr.delims.contains c) (l := nl)
    rw [h1] at this
    exact List.append_cancel_left (by rw [this, List.append_nil])
  rw [hN, hR, h1, h2]
  have hbr : nl.contains '[' = nl.contains ']' := by
    have := hl.brackets
    rw [← List.contains_iff_mem, ← List.contains_iff_mem] at this
    cases h : nl.contains '[' <;> cases h' : nl.contains ']' <;> simp_all
  rw [if_pos hbr]
  rfl

/-- Specification: an URL of HTTP for a path at a host and a port. -/
def Leads (url host : Str) (port : Nat) (path : Str) : Prop :=
  ∃ u, Addr.urlparse url = some u ∧ u.scheme = "http".toList ∧ Addr.hostname u.netloc = some host ∧
    Addr.port u.netloc = some (some port) ∧ u.path = path

/-- C147: the addresses that a scheduler reports lead to the machine it runs on, and there to the port of its API or its
dashboard: those the gateway calls to scale the cluster, and the proxy for users of the dashboard. Holds for names and IPv4
addresses; see `C147_ipv6_violated`. -/
theorem C147_addresses_partial (host : Str) (q p : Nat) (hh : Addr.Host host) (hp : p ≤ 65535) :
    ∃ a, httpAddress ("tls".toList ++ "://".toList ++ (host ++ ':' :: Nat.toDigits 10 q)) p = some a ∧
      dashboardAddress ("tls".toList ++ "://".toList ++ (host ++ ':' :: Nat.toDigits 10 q)) (some p) = some a ∧
      Leads a host p [] ∧ Leads (a ++ "/api/comm".toList) host p "/api/comm".toList := by
  have h1 := urlparse_bare _ _ scheme_tls (Addr.host_port hh q).1
  refine ⟨"http".toList ++ "://".toList ++ (host ++ ':' :: Nat.toDigits 10 p), ?_, ?_, ?_, ?_⟩
  · unfold httpAddress
    rw [h1, Option.map_some]
    dsimp only
    rw [(Addr.host_port hh q).2.1]
    have : "http://".toList = "http".toList ++ "://".toList := rfl
    rw [this]
    simp [Addr.showHost]
  · unfold dashboardAddress httpAddress
    dsimp only
    rw [h1, Option.map_some]
    dsimp only
    rw [(Addr.host_port hh q).2.1]
    have : "http://".toList = "http".toList ++ "://".toList := rfl
    rw [this]
    simp [Addr.showHost]
  · exact ⟨_, urlparse_bare _ _ Boot.scheme_http (Addr.host_port hh p).1, rfl, (Addr.host_port hh p).2.1,
      (Addr.host_port hh p).2.2 hp, rfl⟩
  · exact ⟨_, Boot.urlparse_path _ _ _ Boot.scheme_http (Addr.host_port hh p).1 ⟨rfl, by unfold Forward.Plain; decide +kernel⟩,
      rfl, (Addr.host_port hh p).2.1, (Addr.host_port hh p).2.2 hp, rfl⟩

/-- C147: without a dashboard the address is empty. -/
theorem C147_no_dashboard (address : Str) : dashboardAddress address none = some [] := rfl

/-- C147 fails with IPv6: the address that is reported for a scheduler at `tls://[fd00::7]:8786` is `http://fd00::7:8788`, which has
the host `fd00` and no port at all. -/
theorem C147_ipv6_violated : ∃ a, httpAddress "tls://[fd00::7]:8786".toList 8788 = some a ∧
    a = "http://fd00::7:8788".toList ∧ ∀ host port path, ¬ Leads a host port path := by
  refine ⟨"http://fd00::7:8788".toList, by decide +kernel, rfl, ?_⟩
  rintro host port path ⟨u, h1, h2, h3, h4, h5⟩
  have h : Addr.urlparse "http://fd00::7:8788".toList =
      some { scheme := "http".toList, netloc := "fd00::7:8788".toList, path := [] } := by decide +kernel
  rw [h] at h1
  injection h1 with h1
  rw [← h1] at h4
  have : Addr.port "fd00::7:8788".toList = none := by decide +kernel
  rw [this] at h4
  cases h4

example : httpAddress "tls://10.0.0.7:8786".toList 8788 = some "http://10.0.0.7:8788".toList := by decide +kernel
example : Addr.Host "10.0.0.7".toList := ⟨by decide +kernel, by decide +kernel, by decide +kernel⟩

end Verif.Idle

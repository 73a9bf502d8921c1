import Verif.Boot.Model
import Verif.Api.Lemmas
/-
C125: the proxy runs with the settings of the gateway. C126: a proxy that is started separately.
-/
set_option linter.unusedSimpArgs false
set_option linter.unusedVariables false
namespace Verif.Boot

/-! ### The command line -/

theorem parse_step (f f' : Flags) (w v name : Str) (l : List Str) (hw : word w = .flag name none)
    (hc : name ≠ "is-child-process".toList) (hs : f.set name v = some f') :
    parseFlags f (w :: v :: l) = parseFlags f' l := by
  rw [parseFlags, hw]
  dsimp only
  rw [if_neg hc, hs]

theorem parse_child (f : Flags) (l : List Str) :
    parseFlags f ("-is-child-process".toList :: l) = parseFlags { f with child := true } l := by
  have hw : word "-is-child-process".toList = .flag "is-child-process".toList none := by decide +kernel
  have hb : parseBool ((none : Option Str).getD "true".toList) = some true := by decide +kernel
  cases l with
  | nil =>
    rw [parseFlags, parseFlags, hw]
    dsimp only
    rw [if_pos rfl, hb]
    rfl
  | cons v l =>
    rw [parseFlags, hw]
    dsimp only
    rw [if_pos rfl, hb]

theorem set_address (f : Flags) (v : Str) : f.set "address".toList v = some { f with address := v } := by
  unfold Flags.set
  rw [if_pos rfl]

theorem set_tcp (f : Flags) (v : Str) : f.set "tcp-address".toList v = some { f with tcpAddress := v } := by
  unfold Flags.set
  rw [if_neg (by decide +kernel), if_pos rfl]

theorem set_url (f : Flags) (v : Str) : f.set "api-url".toList v = some { f with apiUrl := v } := by
  unfold Flags.set
  rw [if_neg (by decide +kernel), if_neg (by decide +kernel), if_pos rfl]

theorem set_level (f : Flags) (v : Str) : f.set "log-level".toList v = some { f with logLevel := v } := by
  unfold Flags.set
  rw [if_neg (by decide +kernel), if_neg (by decide +kernel), if_neg (by decide +kernel), if_pos rfl]

theorem set_cert (f : Flags) (v : Str) : f.set "tls-cert".toList v = some { f with tlsCert := v } := by
  unfold Flags.set
  rw [if_neg (by decide +kernel), if_neg (by decide +kernel), if_neg (by decide +kernel), if_neg (by decide +kernel),
    if_pos rfl]

theorem set_key (f : Flags) (v : Str) : f.set "tls-key".toList v = some { f with tlsKey := v } := by
  unfold Flags.set
  rw [if_neg (by decide +kernel), if_neg (by decide +kernel), if_neg (by decide +kernel), if_neg (by decide +kernel),
    if_neg (by decide +kernel), if_pos rfl]

/-- Specification: the settings a proxy process is to run with. -/
def Wanted (s : Settings) (child : Bool) (f : Flags) : Prop :=
  f.address = s.address ∧ f.tcpAddress = s.tcpAddress ∧ f.apiUrl = s.gatewayUrl ++ "/api/v1/routes".toList ∧
  f.logLevel = s.logLevel ∧ f.child = child ∧ f.tlsCert = s.tlsCert ∧ f.tlsKey = s.tlsKey

/-- A certificate and a key, or neither. -/
def Paired (s : Settings) : Prop := s.tlsCert = [] ↔ s.tlsKey = []

/-- C125: the command is refused if and only if there is a certificate without a key or a key without a certificate. -/
theorem C125_refused (exe : Str) (s : Settings) (child : Bool) : startCommand exe s child = none ↔ ¬ Paired s := by
  unfold startCommand Paired
  by_cases h : (s.tlsCert = []) ≠ (s.tlsKey = [])
  · rw [if_pos h]
    simpa using h
  · rw [if_neg h]
    simp only [reduceCtorEq, false_iff, Classical.not_not]
    simpa using h

theorem command_parses (exe : Str) (s : Settings) (child : Bool) (cmd : List Str)
    (h : startCommand exe s child = some cmd) :
    ∃ args f, cmd = exe :: args ∧ parseFlags .init args = some f ∧ Wanted s child f := by
  unfold startCommand at h
  by_cases hp : (s.tlsCert = []) ≠ (s.tlsKey = [])
  · rw [if_pos hp] at h; cases h
  · rw [if_neg hp] at h
    injection h with h
    refine ⟨["-address".toList, s.address, "-tcp-address".toList, s.tcpAddress, "-api-url".toList,
        s.gatewayUrl ++ "/api/v1/routes".toList, "-log-level".toList, s.logLevel] ++
      (if child then ["-is-child-process".toList] else []) ++
      (if s.tlsCert = [] then [] else ["-tls-cert".toList, s.tlsCert, "-tls-key".toList, s.tlsKey]), { address := s.address, tcpAddress := s.tcpAddress, apiUrl := s.gatewayUrl ++ "/api/v1/routes".toList, logLevel := s.logLevel, child := child, tlsCert := s.tlsCert, tlsKey := s.tlsKey }, h.symm, ?_, ?_⟩
    · simp only [List.cons_append, List.nil_append]
      rw [parse_step _ _ _ _ "address".toList _ (by decide +kernel) (by decide +kernel) (set_address _ _),
        parse_step _ _ _ _ "tcp-address".toList _ (by decide +kernel) (by decide +kernel) (set_tcp _ _),
        parse_step _ _ _ _ "api-url".toList _ (by decide +kernel) (by decide +kernel) (set_url _ _),
        parse_step _ _ _ _ "log-level".toList _ (by decide +kernel) (by decide +kernel) (set_level _ _)]
      have tail : ∀ f : Flags, f.tlsCert = [] → f.tlsKey = [] →
          parseFlags f (if s.tlsCert = [] then [] else ["-tls-cert".toList, s.tlsCert, "-tls-key".toList, s.tlsKey]) =
            some { f with tlsCert := s.tlsCert, tlsKey := s.tlsKey } := by
        intro f hf hk
        by_cases hc : s.tlsCert = []
        · have hk' : s.tlsKey = [] := by
            have := Classical.not_not.mp hp
            rw [← this]; exact hc
          rw [if_pos hc, parseFlags, hc, hk', ← hf]
          congr 1
          cases f
          simp only at hf hk
          subst hf hk
          rfl
        · rw [if_neg hc,
            parse_step _ _ _ _ "tls-cert".toList _ (by decide +kernel) (by decide +kernel) (set_cert _ _),
            parse_step _ _ _ _ "tls-key".toList _ (by decide +kernel) (by decide +kernel) (set_key _ _), parseFlags]
      cases child with
      | false =>
        simp only [Bool.false_eq_true, if_false, List.nil_append]
        rw [tail _ rfl rfl]
        rfl
      | true =>
        simp only [if_true, List.cons_append, List.nil_append]
        rw [parse_child, tail _ rfl rfl]
    · exact ⟨rfl, rfl, rfl, rfl, rfl, rfl, rfl⟩

theorem level_known (s : Str) (h : s ∈ levels) : s ∈ goLevels := by
  have : ∀ x ∈ levels, x ∈ goLevels := by decide +kernel
  exact this s h

/-- C125: whatever the settings are, even if a value starts with a dash or is empty, the process that is started with
the command and the token of the gateway runs with exactly these settings, unless the token is empty or the URL of the
gateway cannot be parsed; then it ends at once. -/
theorem C125_settings (parses : Str → Bool) (exe : Str) (s : Settings) (child : Bool) (cmd : List Str)
    (h : startCommand exe s child = some cmd) (hl : s.logLevel ∈ levels) :
    ∃ args, cmd = exe :: args ∧
      (s.apiToken ≠ [] → parses (s.gatewayUrl ++ "/api/v1/routes".toList) = true →
        ∃ f, goMain parses args s.apiToken = .run f s.apiToken ∧ Wanted s child f) ∧
      (s.apiToken = [] ∨ parses (s.gatewayUrl ++ "/api/v1/routes".toList) = false →
        goMain parses args s.apiToken = .panic) := by
  obtain ⟨args, f, h1, h2, w⟩ := command_parses exe s child cmd h
  obtain ⟨w1, w2, w3, w4, w5, w6, w7⟩ := w
  have hp : Paired s := Classical.not_not.mp (fun hn => by
    rw [(C125_refused exe s child).mpr hn] at h; cases h)
  have hurl : f.apiUrl ≠ [] := by
    rw [w3]
    intro e
    have := congrArg List.length e
    rw [List.length_append] at this
    have h9 : ("/api/v1/routes".toList).length = 14 := by decide +kernel
    rw [h9] at this
    simp at this
  have hlev : ¬ f.logLevel ∉ goLevels := fun hn => hn (w4 ▸ level_known _ hl)
  have htls : ¬ ((f.tlsCert = []) ≠ (f.tlsKey = [])) := by
    rw [w6, w7]
    intro hn
    exact hn (propext hp)
  refine ⟨args, h1, ?_, ?_⟩
  · intro ht hu
    refine ⟨f, ?_, w1, w2, w3, w4, w5, w6, w7⟩
    unfold goMain
    rw [h2]
    dsimp only
    rw [if_neg ht, if_neg hlev, if_neg htls, if_neg hurl, if_neg (by rw [w3, hu]; simp)]
  · intro hor
    unfold goMain
    rw [h2]
    dsimp only
    rcases hor with ht | hu
    · rw [if_pos ht]
    · by_cases ht : s.apiToken = []
      · rw [if_pos ht]
      · rw [if_neg ht, if_neg hlev, if_neg htls, if_neg hurl, if_pos (by rw [w3, hu])]

/-- The log level of settings that are accepted is one of the four. -/
theorem settled_level (m : Machine) (r : Raw) (s : Settings) (h : settle m r = some s) : s.logLevel ∈ levels := by
  unfold settle at h
  split at h
  · rename_i gw a pre level h1 h2 h3 h4
    split at h
    · injection h with h
      subst h
      unfold validLevel at h4
      exact List.mem_of_find?_eq_some h4
    · cases h
  · cases h

/-- C125: of a configuration that is accepted: whatever it says about addresses, levels and prefix, the process that is
started runs with the settings the gateway has, if there is a token and the URL can be parsed. -/
theorem C125_partial (parses : Str → Bool) (m : Machine) (r : Raw) (s : Settings) (exe : Str) (child : Bool)
    (hs : settle m r = some s) (hp : Paired s) (ht : s.apiToken ≠ [])
    (hu : parses (s.gatewayUrl ++ "/api/v1/routes".toList) = true) :
    ∃ args f, startCommand exe s child = some (exe :: args) ∧ goMain parses args s.apiToken = .run f s.apiToken ∧
      Wanted s child f := by
  cases hc : startCommand exe s child with
  | none => exact absurd hp ((C125_refused exe s child).mp hc)
  | some cmd =>
    obtain ⟨args, h1, h2, _⟩ := C125_settings parses exe s child cmd hc (settled_level m r s hs)
    obtain ⟨f, h3, h4⟩ := h2 ht hu
    exact ⟨args, f, by rw [h1], h3, h4⟩

/-! ### Where it listens -/

/-- C125: a process that gets to listen serves HTTP at the address, and schedulers at the address for schedulers, and
nothing else anywhere; and it gets to listen if the operating system allows the addresses it needs. -/
theorem C125_listens (free : List Str → Str → Bool) (f : Flags) (ht : f.tcpAddress ≠ []) :
    (∀ ls, listen free f = some ls →
      (∀ l ∈ ls, (l.http = true ↔ l.address = f.address) ∧ (l.tcp = true ↔ l.address = f.tcpAddress) ∧
        (l.http = true ∨ l.tcp = true)) ∧
      (∃ l ∈ ls, l.http = true) ∧ (∃ l ∈ ls, l.tcp = true)) ∧
    (listen free f = none ↔
      free [] f.tcpAddress = false ∨ (f.address ≠ f.tcpAddress ∧ free [f.tcpAddress] f.address = false)) := by
  unfold listen
  dsimp only
  rw [if_neg ht]
  by_cases h1 : free [] f.tcpAddress = false
  · rw [if_pos h1]
    exact ⟨fun ls hls => (by cases hls), by simp [h1]⟩
  · rw [if_neg h1]
    by_cases h2 : f.address = f.tcpAddress
    · rw [if_pos h2]
      refine ⟨?_, ?_⟩
      · intro ls hls
        injection hls with hls
        subst hls
        simp [h2]
      · simp [h1, h2]
    · rw [if_neg h2]
      have h2' : ¬ f.tcpAddress = f.address := fun e => h2 e.symm
      by_cases h3 : free [f.tcpAddress] f.address = false
      · rw [if_pos h3]
        exact ⟨fun ls hls => (by cases hls), by simp [h2, h3]⟩
      · rw [if_neg h3]
        refine ⟨?_, ?_⟩
        · intro ls hls
          injection hls with hls
          subst hls
          simp [h2, h2']
        · simp [h1, h3]

/-! ### Addresses -/

theorem digits_fold (l : Str) (h : ∀ c ∈ l, c.isDigit = true) (n : Nat) (a : Bool) (hne : l ≠ [] ∨ a = true) :
    digits n a l = some (Nat.ofDigitChars 10 l n) := by
  induction l generalizing n a with
  | nil =>
    rcases hne with h | h
    · exact absurd rfl h
    · rw [digits, if_pos h]; rfl
  | cons c l ih =>
    have hc := h c (by simp)
    have hu : c ≠ '_' := by intro e; subst e; revert hc; decide
    rw [digits, if_neg hu, if_pos hc, ih (fun d hd => h d (by simp [hd])) _ _ (Or.inr rfl)]
    rw [Nat.ofDigitChars_cons]
    rfl

theorem digit_no_space (c : Char) (h : c.isDigit = true) : Batch.isSpace c = false := by
  cases hs : Batch.isSpace c with
  | false => rfl
  | true =>
    exfalso
    unfold Batch.isSpace at hs
    simp only [Char.isDigit, Bool.and_eq_true, decide_eq_true_eq] at h
    obtain ⟨h1, h2⟩ := h
    have e1 : 48 ≤ c.toNat := UInt32.le_iff_toNat_le.mp h1
    have e2 : c.toNat ≤ 57 := UInt32.le_iff_toNat_le.mp h2
    simp at hs
    omega

theorem strip_solid (s : Str) (h : ∀ c ∈ s, Batch.isSpace c = false) : Batch.strip s = s := by
  unfold Batch.strip
  have e : ∀ t : Str, (∀ c ∈ t, Batch.isSpace c = false) → t.dropWhile Batch.isSpace = t := by
    intro t ht
    cases t with
    | nil => rfl
    | cons c t => rw [List.dropWhile_cons, if_neg (by rw [ht c (by simp)]; simp)]
  rw [e s h, e _ (fun c hc => h c (List.mem_reverse.mp hc)), List.reverse_reverse]

theorem toDigits_digit (n : Nat) : ∀ c ∈ Nat.toDigits 10 n, c.isDigit = true :=
  fun c hc => Nat.isDigit_of_mem_toDigits (by decide) (by decide) hc

theorem pyInt_digits (n : Nat) : pyInt (Nat.toDigits 10 n) = some (n : Int) := by
  unfold pyInt
  rw [strip_solid _ (fun c hc => digit_no_space c (toDigits_digit n c hc))]
  have hd := digits_fold (Nat.toDigits 10 n) (toDigits_digit n) 0 false (Or.inl Nat.toDigits_ne_nil)
  rw [Nat.ofDigitChars_ten_toDigits] at hd
  have hh := toDigits_digit n
  generalize Nat.toDigits 10 n = l at hd hh
  split
  · exact absurd (hh '-' (by simp)) (by decide)
  · exact absurd (hh '+' (by simp)) (by decide)
  · rw [hd]; rfl

/-- Specification: an address with a host (maybe none) and a number. -/
def Addressed (address host : Str) (port : Nat) : Prop := ':' ∉ host ∧ address = host ++ ':' :: Nat.toDigits 10 port

theorem colon_free (n : Nat) : ':' ∉ Nat.toDigits 10 n := by
  intro h
  have := toDigits_digit n ':' h
  revert this
  decide

/-- The host a process is to be contacted at. -/
def contactHost (hostname host : Str) : Str := if host = [] ∨ host = "0.0.0.0".toList then hostname else host

/-- C125: an address keeps its host and its port, and a port of zero becomes the fresh one; the host is replaced only
for addresses to be contacted at, and only if it stands for all interfaces. -/
theorem C125_address (hostname : Str) (fresh : Nat) (resolve : Bool) (address host : Str) (port : Nat)
    (h : Addressed address host port) :
    normalizeAddress hostname fresh resolve address =
      some ((if resolve then contactHost hostname host else host) ++
        ':' :: Nat.toDigits 10 (if port = 0 then fresh else port)) := by
  obtain ⟨h1, rfl⟩ := h
  unfold normalizeAddress contactHost
  rw [Api.splitAll_append _ _ _ h1, Api.splitAll_piece _ _ (colon_free port)]
  dsimp only
  rw [pyInt_digits]
  dsimp only
  have hs : ∀ n : Nat, showInt (n : Int) = Nat.toDigits 10 n := by
    intro n
    unfold showInt
    rw [if_neg (by omega)]
    rfl
  have hz : (if (port : Int) = 0 then (fresh : Int) else (port : Int)) = ((if port = 0 then fresh else port : Nat) : Int) := by
    by_cases hp : port = 0
    · subst hp; rfl
    · rw [if_neg (by omega), if_neg hp]
  rw [hz, hs]
  cases resolve with
  | false => simp
  | true => simp

/-- C125: only texts with exactly one colon, and a number behind it, are addresses; so what is accepted is an address with
the host that was given. IPv6 addresses are refused. -/
theorem C125_address_refused (hostname : Str) (fresh : Nat) (resolve : Bool) (address : Str)
    (h : (Api.splitAll ':' address).length ≠ 2) : normalizeAddress hostname fresh resolve address = none := by
  unfold normalizeAddress
  split
  · rename_i e; rw [e] at h; exact absurd rfl h
  · rfl

/-! ### The prefix -/

/-- C125: a prefix that is accepted is empty or starts with a slash, has no slash at its end, and is the configured one
up to slashes at the end. -/
theorem C125_prefix (p q : Str) (h : validPrefix p = some q) :
    (∃ n, p = q ++ List.replicate n '/') ∧ q.getLast? ≠ some '/' ∧ (q = [] ∨ q.head? = some '/') := by
  unfold validPrefix at h
  by_cases hp : p = []
  · rw [if_pos hp] at h
    injection h with h
    subst h; subst hp
    exact ⟨⟨0, rfl⟩, by simp, Or.inl rfl⟩
  · rw [if_neg hp] at h
    by_cases hh : p.head? ≠ some '/'
    · rw [if_pos hh] at h; cases h
    · rw [if_neg hh] at h
      injection h with h
      have hhead : p.head? = some '/' := Classical.not_not.mp hh
      unfold Addr.rstrip at h
      have hsplit : p.reverse = p.reverse.takeWhile (fun c => c == '/') ++ p.reverse.dropWhile (fun c => c == '/') :=
        (List.takeWhile_append_dropWhile).symm
      have hrep : p.reverse.takeWhile (fun c => c == '/') =
          List.replicate (p.reverse.takeWhile (fun c => c == '/')).length '/' := by
        rw [List.eq_replicate_iff]
        refine ⟨rfl, ?_⟩
        intro b hb
        have := List.all_takeWhile (l := p.reverse) (p := fun c => c == '/')
        rw [List.all_eq_true] at this
        simpa using this b hb
      have hpq : p = q ++ List.replicate (p.reverse.takeWhile (fun c => c == '/')).length '/' := by
        have := congrArg List.reverse hsplit
        rw [List.reverse_reverse, List.reverse_append, h, hrep, List.reverse_replicate] at this
        exact this
      refine ⟨⟨_, hpq⟩, ?_, ?_⟩
      · rw [← h, List.getLast?_reverse]
        intro he
        have := List.head?_dropWhile_not (fun c => c == '/') p.reverse
        rw [he] at this
        simp at this
      · cases hq : q with
        | nil => exact Or.inl rfl
        | cons c q' =>
          right
          rw [hpq, hq] at hhead
          exact hhead

/-- C125: and any other prefix is refused. -/
theorem C125_prefix_refused (p : Str) : validPrefix p = none ↔ p ≠ [] ∧ p.head? ≠ some '/' := by
  unfold validPrefix
  by_cases hp : p = []
  · simp [hp]
  · rw [if_neg hp]
    by_cases hh : p.head? ≠ some '/'
    · rw [if_pos hh]; simp [hp, hh]
    · rw [if_neg hh]; simp [hp, hh]

/-! ### A proxy that is started separately -/

/-- Specification: a token is fixed: it is configured, or the variable has the same value in both processes. -/
def FixedToken (r : Raw) (a b : Machine) : Prop := r.apiToken ≠ none ∨ (a.envToken ≠ [] ∧ a.envToken = b.envToken)

/-- C126: two processes with the same configuration have the same token if and only if it is configured, or the variable
is set to the same in both; or what one of them draws at random happens to be what the other has. -/
theorem C126_token (r : Raw) (a b : Machine) (ha : a.uuid ≠ b.uuid) (hb : a.uuid ≠ b.envToken) (hc : b.uuid ≠ a.envToken) :
    apiToken a r = apiToken b r ↔ FixedToken r a b := by
  unfold apiToken FixedToken
  cases r.apiToken with
  | some t => simp
  | none =>
    dsimp only
    by_cases h1 : a.envToken = []
    · rw [if_pos h1]
      by_cases h2 : b.envToken = []
      · rw [if_pos h2]; simp [ha, h1]
      · rw [if_neg h2]; simp [hb, h1]
    · rw [if_neg h1]
      by_cases h2 : b.envToken = []
      · rw [if_pos h2]
        simp only [ne_eq, not_true_eq_false, h1, not_false_eq_true, true_and, false_or, h2, or_false]
        constructor
        · intro e; exact absurd e.symm hc
        · intro e; exact e.elim
      · rw [if_neg h2]; simp [h1]

theorem settled (m : Machine) (r : Raw) (s : Settings) (h : settle m r = some s) :
    gatewayAddress m r = some s.gateway ∧ httpAddress m r = some s.address ∧
    tcpAddress m r s.address = some s.tcpAddress ∧ validPrefix (r.pathPrefix.getD []) = some s.pathPrefix ∧
    gatewayUrl m r s.gateway = some s.gatewayUrl ∧ s.apiToken = apiToken m r ∧ s.tlsKey = r.tlsKey ∧
    s.tlsCert = r.tlsCert ∧ validLevel (r.logLevel.getD "warn".toList) = some s.logLevel := by
  unfold settle at h
  split at h
  · rename_i gw a pre level h1 h2 h3 h4
    split at h
    · rename_i tcp url h5 h6
      injection h with h
      subst h
      exact ⟨h1, h2, h5, h3, h6, rfl, rfl, rfl, h4⟩
    · cases h
  · cases h

/-- Specification: what is configured for an address, and what comes of it: the default, or the same host and port, or a
fresh port instead of zero. -/
def Heard (configured : Option Str) (default result : Str) (fresh : Nat) : Prop :=
  (configured = none → result = default) ∧
  ∀ a host port, configured = some a → Addressed a host port →
    result = host ++ ':' :: Nat.toDigits 10 (if port = 0 then fresh else port)

/-- C125: each setting is the configured one, and where nothing is configured, the default; that of the address for
schedulers is the address for HTTP. -/
theorem C125_configured (m : Machine) (r : Raw) (s : Settings) (h : settle m r = some s) :
    Heard r.address ":8000".toList s.address (m.port 1) ∧ Heard r.tcpAddress s.address s.tcpAddress (m.port 2) ∧
    s.tlsCert = r.tlsCert ∧ s.tlsKey = r.tlsKey ∧ (∀ t, r.apiToken = some t → s.apiToken = t) ∧
    (∀ u, r.gatewayUrl = some u → s.gatewayUrl = u) ∧ (r.pathPrefix = none → s.pathPrefix = []) ∧
    (∀ l ∈ levels, r.logLevel = some l → s.logLevel = l) ∧ (r.logLevel = none → s.logLevel = "warn".toList) := by
  obtain ⟨h1, h2, h3, h4, h5, h6, h7, h8, h9⟩ := settled m r s h
  refine ⟨⟨?_, ?_⟩, ⟨?_, ?_⟩, h8, h7, ?_, ?_, ?_, ?_, ?_⟩
  · intro e
    unfold httpAddress at h2
    rw [e] at h2
    injection h2 with h2
    exact h2.symm
  · intro a host port e ha
    unfold httpAddress at h2
    rw [e] at h2
    dsimp only at h2
    rw [C125_address _ _ _ _ _ _ ha, if_neg (by simp)] at h2
    injection h2 with h2
    exact h2.symm
  · intro e
    unfold tcpAddress at h3
    rw [e] at h3
    injection h3 with h3
    exact h3.symm
  · intro a host port e ha
    unfold tcpAddress at h3
    rw [e] at h3
    dsimp only at h3
    rw [C125_address _ _ _ _ _ _ ha, if_neg (by simp)] at h3
    injection h3 with h3
    exact h3.symm
  · intro t e
    rw [h6]
    unfold apiToken
    rw [e]
  · intro u e
    unfold gatewayUrl at h5
    rw [e] at h5
    injection h5 with h5
    exact h5.symm
  · intro e
    rw [e] at h4
    have : validPrefix ((none : Option Str).getD []) = some [] := rfl
    rw [this] at h4
    injection h4 with h4
    exact h4.symm
  · intro l hl e
    rw [e] at h9
    have : ∀ l ∈ levels, validLevel ((some l).getD "warn".toList) = some l := by decide +kernel
    rw [this l hl] at h9
    injection h9 with h9
    exact h9.symm
  · intro e
    rw [e] at h9
    have : validLevel ((none : Option Str).getD "warn".toList) = some "warn".toList := by decide +kernel
    rw [this] at h9
    injection h9 with h9
    exact h9.symm

/-- Specification: the configured address of the gateway is `host:port`, with a fixed port. -/
def FixedGateway (r : Raw) (host : Str) (port : Nat) : Prop :=
  port ≠ 0 ∧ ∃ address, r.gateway = some address ∧ Addressed address host port

/-- C126, in part: if the gateway has a fixed token and a fixed address, then a proxy that is started on its own from the
same configuration on the same machine asks for its routes at the very host and port at which the gateway listens, with
the token that the gateway demands. Missing: configurations without them, see `C126_token`, `C126_port_violated`. -/
theorem C126_partial (r : Raw) (a b : Machine) (s t : Settings) (host : Str) (port : Nat)
    (hs : settle a r = some s) (ht : settle b r = some t) (hf : FixedGateway r host port) (hn : r.gatewayUrl = none)
    (hk : FixedToken r a b) (ha : a.uuid ≠ b.uuid) (hb : a.uuid ≠ b.envToken) (hc : b.uuid ≠ a.envToken)
    (parses : Str → Bool) (hp : Paired t) (htok : t.apiToken ≠ [])
    (hu : parses (t.gatewayUrl ++ "/api/v1/routes".toList) = true) (exe : Str) :
    s.gateway = host ++ ':' :: Nat.toDigits 10 port ∧
    ∃ args f, startCommand exe t false = some (exe :: args) ∧ goMain parses args t.apiToken = .run f s.apiToken ∧
      f.apiUrl = "http://".toList ++ contactHost b.hostname host ++ ':' :: Nat.toDigits 10 port ++ "/api/v1/routes".toList ∧
      f.child = false := by
  obtain ⟨h0, address, h1, h2⟩ := hf
  obtain ⟨s1, s2, s3, s4, s5, s6, s7, s8, s9⟩ := settled a r s hs
  obtain ⟨t1, t2, t3, t4, t5, t6, t7, t8, t9⟩ := settled b r t ht
  have e : ∀ m : Machine, gatewayAddress m r = some (host ++ ':' :: Nat.toDigits 10 port) := by
    intro m
    unfold gatewayAddress
    rw [h1, Option.getD_some, C125_address _ _ _ _ _ _ h2, if_neg (by simp), if_neg h0]
  have htoken : s.apiToken = t.apiToken := by
    rw [s6, t6]
    exact (C126_token r a b ha hb hc).mpr hk
  refine ⟨by rw [e a] at s1; injection s1 with s1; exact s1.symm, ?_⟩
  obtain ⟨args, f, c1, c2, c3⟩ := C125_partial parses b r t exe false ht hp htok hu
  refine ⟨args, f, c1, by rw [htoken]; exact c2, ?_, c3.2.2.2.2.1⟩
  rw [c3.2.2.1]
  rw [e b] at t1
  injection t1 with t1
  unfold gatewayUrl at t5
  rw [hn, ← t1] at t5
  dsimp only at t5
  rw [C125_address b.hostname (b.port 3) true _ host port ⟨h2.1, rfl⟩, if_pos rfl, if_neg h0] at t5
  injection t5 with t5
  rw [← t5]
  simp

/-- C126: with a configured URL of the gateway, the proxy asks there, wherever it runs. -/
theorem C126_url (r : Raw) (b : Machine) (t : Settings) (u : Str) (ht : settle b r = some t) (h : r.gatewayUrl = some u) :
    t.gatewayUrl = u := by
  obtain ⟨t1, t2, t3, t4, t5, _⟩ := settled b r t ht
  unfold gatewayUrl at t5
  rw [h] at t5
  injection t5 with t5
  exact t5.symm

theorem digits_inj (a b : Nat) (h : Nat.toDigits 10 a = Nat.toDigits 10 b) : a = b := by
  have := congrArg (fun l => Nat.ofDigitChars 10 l 0) h
  simpa [Nat.ofDigitChars_ten_toDigits] using this

/-- C126 does not hold by default: without a configured address the gateway listens at a random port, and a proxy that is
started separately asks at a different one, which it draws itself. -/
theorem C126_port_violated (r : Raw) (a b : Machine) (s t : Settings) (hs : settle a r = some s) (ht : settle b r = some t)
    (hg : r.gateway = none) (hn : r.gatewayUrl = none) (ha : a.port 0 ≠ 0) (hb : b.port 0 ≠ 0) (hne : a.port 0 ≠ b.port 0) :
    s.gateway = "127.0.0.1".toList ++ ':' :: Nat.toDigits 10 (a.port 0) ∧
    t.gatewayUrl = "http://127.0.0.1".toList ++ ':' :: Nat.toDigits 10 (b.port 0) ∧
    t.gatewayUrl ≠ "http://".toList ++ s.gateway := by
  have hdef : Addressed "127.0.0.1:0".toList "127.0.0.1".toList 0 := ⟨by decide +kernel, by decide +kernel⟩
  have e : ∀ m : Machine, gatewayAddress m r = some ("127.0.0.1".toList ++ ':' :: Nat.toDigits 10 (m.port 0)) := by
    intro m
    unfold gatewayAddress
    rw [hg, Option.getD_none, C125_address _ _ _ _ _ _ hdef, if_neg (by simp), if_pos rfl]
  obtain ⟨s1, _⟩ := settled a r s hs
  obtain ⟨t1, t2, t3, t4, t5, _⟩ := settled b r t ht
  rw [e a] at s1
  rw [e b] at t1
  injection s1 with s1
  injection t1 with t1
  unfold gatewayUrl at t5
  rw [hn, ← t1] at t5
  dsimp only at t5
  have hA : Addressed ("127.0.0.1".toList ++ ':' :: Nat.toDigits 10 (b.port 0)) "127.0.0.1".toList (b.port 0) :=
    ⟨hdef.1, rfl⟩
  have hch : contactHost b.hostname "127.0.0.1".toList = "127.0.0.1".toList := by
    unfold contactHost
    rw [if_neg (by decide +kernel)]
  rw [C125_address _ _ _ _ _ _ hA, if_pos rfl, if_neg hb, hch] at t5
  injection t5 with t5
  have hpre : "http://127.0.0.1".toList = "http://".toList ++ "127.0.0.1".toList := by decide +kernel
  refine ⟨s1.symm, by rw [← t5, hpre, List.append_assoc], ?_⟩
  rw [← t5, ← s1]
  intro h
  have h1 := List.append_cancel_left h
  have h2 := List.append_cancel_left h1
  injection h2 with _ h3
  exact hne (digits_inj _ _ h3).symm

end Verif.Boot

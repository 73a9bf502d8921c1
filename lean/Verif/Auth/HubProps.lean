import Verif.Auth.Hub
import Verif.Auth.Props
/-
C191: a gateway with JupyterHub authentication believes only the hub that it was told to ask.
-/
set_option linter.unusedSimpArgs false
namespace Verif.Auth

/-! ### Specification -/

/-- The address of the hub: the configured one, else that of the environment. -/
def HubAt (c : HubConn) (env : Str → Option Str) (base : Str) : Prop :=
  c.url = some base ∨ (c.url = none ∧ env "JUPYTERHUB_API_URL".toList = some base ∧ base ≠ [])

/-- The hub has shown who it is: with a certificate for the gateway, by the configured authority; without one, by an authority
of the system. -/
def Shown (c : HubConn) (server : HubServer) : Prop :=
  (c.tlsCert ≠ [] ∧ c.tlsKey ≠ [] ∧ c.tlsCa ≠ [] ∧ .file c.tlsCa ∈ server.signers) ∨
  ((c.tlsCert = [] ∨ c.tlsKey = []) ∧ .system ∈ server.signers)

/-- What a hub says of the user of a request. -/
def Vouches (c : HubCfg) (header : Option Str) (reply : Str → HubReply) (u : User) : Prop :=
  ∃ token d, header = some ("jupyterhub ".toList ++ token) ∧ (reply token).status < 400 ∧ (reply token).data = some d ∧
    (c.enforce = true → "access:services".toList ∈ d.scopes ∨ "access:services!service=".toList ++ c.serviceName ∈ d.scopes) ∧
    u = { name := hubUsername d.kind d.name, groups := d.groups, admin := d.admin }

/-! ### C191 -/

theorem apiUrl_iff (c : HubConn) (env : Str → Option Str) (base : Str) : c.apiUrl env = some base ↔ HubAt c env base := by
  unfold HubConn.apiUrl HubAt
  cases c.url with
  | some u => simp
  | none =>
    cases he : env "JUPYTERHUB_API_URL".toList with
    | none => simp
    | some e =>
      cases e with
      | nil => simp
      | cons x e =>
        simp only [Option.some.injEq, reduceCtorEq, false_or, true_and]
        constructor
        · rintro rfl; simp
        · exact fun h => h.1

theorem accepts_iff (c : HubConn) (loads : Str → Bool) (ssl : Ssl) (hs : c.setup loads = some ssl) (server : HubServer) :
    ssl.accepts server = true ↔ Shown c server := by
  unfold HubConn.setup at hs
  unfold Shown
  split at hs
  · rename_i h
    split at hs
    · split at hs
      · rename_i hca
        split at hs
        · cases hs
          simp [Ssl.accepts, h, hca]
        · cases hs
      · rename_i hca
        cases hs
        have : c.tlsCa = [] := Classical.not_not.mp hca
        simp [Ssl.accepts, h, this]
    · cases hs
  · rename_i h
    cases hs
    have h' : c.tlsCert = [] ∨ c.tlsKey = [] := by
      rcases Classical.em (c.tlsCert = []) with e | e
      · exact Or.inl e
      · exact Or.inr (Classical.not_not.mp (fun e' => h ⟨e, e'⟩))
    simp only [Ssl.accepts, List.contains_iff_mem]
    constructor
    · exact fun hm => Or.inr ⟨h', hm⟩
    · rintro (⟨h1, h2, _⟩ | ⟨_, hm⟩)
      · exact absurd ⟨h1, h2⟩ h
      · exact hm

/-- C191: a request is taken for one of a user exactly if the hub at the configured address, or else that of the environment, says so of
the token in the request, and over TLS only if the hub has shown who it is. Partial: not if an authority is configured without a
certificate for the gateway, or the other way round, see `C191_authority_violated` and `C191_certificate_violated`. -/
theorem C191_exact_partial (c : HubConn) (loads : Str → Bool) (ssl : Ssl) (hs : c.setup loads = some ssl) (env : Str → Option Str)
    (net : Str → Option HubServer) (header : Option Str) (u : User) :
    c.authenticate ssl env net header = .user u ↔
      ∃ base server, HubAt c env base ∧ net (base ++ "/user".toList) = some server ∧
        ("https://".toList <+: base ++ "/user".toList → Shown c server) ∧ Vouches c.hub header server.reply u := by
  have hv : ∀ server : HubServer, Vouches c.hub header server.reply u ↔ hubAuthenticate c.hub header server.reply = .user u :=
    fun server => (C66_scopes c.hub header server.reply u).symm
  constructor
  · intro h
    unfold HubConn.authenticate at h
    split at h
    · cases h
    · cases h
    · cases hb : c.apiUrl env with
      | none => rw [hb] at h; cases h
      | some base =>
        rw [hb] at h
        dsimp only at h
        cases hn : net (base ++ "/user".toList) with
        | none => rw [hn] at h; cases h
        | some server =>
          rw [hn] at h
          dsimp only at h
          split at h
          · cases h
          · rename_i hx
            refine ⟨base, server, (apiUrl_iff c env base).mp hb, hn, fun hp => ?_, (hv server).mpr h⟩
            rw [← accepts_iff c loads ssl hs]
            have : isHttps (base ++ "/user".toList) = true := List.isPrefixOf_iff_prefix.mpr hp
            rw [this] at hx
            simpa using hx
  · rintro ⟨base, server, hb, hn, hp, hu⟩
    have ht : ∃ t, hubToken header = some (some t) := by
      have h := (hv server).mp hu
      unfold hubAuthenticate at h
      split at h
      · cases h
      · cases h
      · rename_i t ht
        exact ⟨t, ht⟩
    obtain ⟨t, ht⟩ := ht
    unfold HubConn.authenticate
    rw [ht, (apiUrl_iff c env base).mpr hb]
    dsimp only
    rw [hn]
    dsimp only
    rw [if_neg, (hv server).mp hu]
    intro hx
    rw [Bool.and_eq_true] at hx
    have := (accepts_iff c loads ssl hs server).mpr (hp (List.isPrefixOf_iff_prefix.mp hx.1))
    rw [this] at hx
    exact absurd hx.2 (by decide)

/-- C191: files for TLS that are configured and cannot be loaded keep the gateway from starting. -/
theorem C191_files (c : HubConn) (loads : Str → Bool) (h1 : c.tlsCert ≠ []) (h2 : c.tlsKey ≠ []) :
    c.setup loads = none ↔ loads c.tlsCert = false ∨ loads c.tlsKey = false ∨ (c.tlsCa ≠ [] ∧ loads c.tlsCa = false) := by
  unfold HubConn.setup
  rw [if_pos ⟨h1, h2⟩]
  by_cases h3 : c.tlsCa = [] <;> cases loads c.tlsCert <;> cases loads c.tlsKey <;> cases loads c.tlsCa <;> simp [h3]

/-! ### Where the code does not do it -/

/-- A hub that knows one token. -/
def demoHub (signers : List Authority) : HubServer where
  signers := signers
  reply t := if t = "t1".toList then ⟨200, some { name := "alice".toList, kind := "user".toList }⟩ else ⟨404, none⟩

/-- It is at this address. -/
def demoNet (signers : List Authority) : Str → Option HubServer :=
  fun u => if u = "https://hub/api/user".toList then some (demoHub signers) else none

/-- C191 is refuted for an authority that is configured without a certificate for the gateway: it is ignored, so that a hub that it
signed is not asked, and another one, which it did not sign, is believed. -/
theorem C191_authority_violated : ∃ (c : HubConn) (ssl : Ssl) (header : Option Str), c.tlsCa ≠ [] ∧ c.setup (fun _ => true) = some ssl ∧
    c.authenticate ssl (fun _ => none) (demoNet [.file c.tlsCa]) header = .fail 500 ∧
    c.authenticate ssl (fun _ => none) (demoNet [.system]) header = .user { name := "alice".toList } :=
  ⟨⟨some "https://hub/api".toList, [], [], "ca.pem".toList, { serviceName := [] }⟩, .system, some "jupyterhub t1".toList,
    by decide, by decide, by decide +kernel, by decide +kernel⟩

/-- C191 is refuted for a certificate for the gateway without an authority: no hub is believed over TLS, whoever signed its
certificate. -/
theorem C191_certificate_violated (c : HubConn) (loads : Str → Bool) (ssl : Ssl) (hs : c.setup loads = some ssl)
    (h1 : c.tlsCert ≠ []) (h2 : c.tlsKey ≠ []) (h3 : c.tlsCa = []) (base : Str) (hb : c.url = some base)
    (hp : "https://".toList <+: base) (env : Str → Option Str) (net : Str → Option HubServer) (header : Option Str) (u : User) :
    c.authenticate ssl env net header ≠ .user u := by
  intro h
  obtain ⟨b, server, hat, _, hsh, _⟩ := (C191_exact_partial c loads ssl hs env net header u).mp h
  have e : b = base := by
    rcases hat with h | ⟨h, _⟩
    · rw [hb] at h; exact (Option.some.inj h).symm
    · rw [hb] at h; cases h
  subst e
  rcases hsh (hp.trans (List.prefix_append _ _)) with ⟨_, _, h, _⟩ | ⟨h, _⟩
  · exact h h3
  · rcases h with h | h
    · exact h1 h
    · exact h2 h

/-- A gateway that was not told where its hub is starts all the same, and answers each request that has a token with an error. -/
theorem C191_late_violated : ∃ c : HubConn, (∀ loads, c.setup loads = some .system) ∧
    ∀ net token, c.authenticate .system (fun _ => none) net (some ("jupyterhub ".toList ++ token)) = .fail 500 := by
  refine ⟨⟨none, [], [], [], { serviceName := [] }⟩, fun _ => rfl, fun net token => ?_⟩
  unfold HubConn.authenticate
  split
  · rfl
  · rename_i ht
    have hs : split1 ' ' ("jupyterhub".toList ++ ' ' :: token) = some ("jupyterhub".toList, token) :=
      split1_append _ _ _ (by decide)
    have hne : "jupyterhub ".toList ++ token = 'j' :: ("upyterhub".toList ++ ' ' :: token) := rfl
    have he : "jupyterhub".toList ++ ' ' :: token = 'j' :: ("upyterhub".toList ++ ' ' :: token) := rfl
    rw [he] at hs
    rw [hne] at ht
    unfold hubToken at ht
    simp only [hs] at ht
    simp at ht
  · rfl

/-! ### Examples -/

example : (⟨some "https://hub/api".toList, "k".toList, "c".toList, "ca.pem".toList, { serviceName := [] }⟩ : HubConn).authenticate
    (.context (some "ca.pem".toList)) (fun _ => none) (demoNet [.file "ca.pem".toList]) (some "jupyterhub t1".toList) =
    .user { name := "alice".toList } := by decide +kernel
example : (⟨some "https://hub/api".toList, "k".toList, "c".toList, "ca.pem".toList, { serviceName := [] }⟩ : HubConn).authenticate
    (.context (some "ca.pem".toList)) (fun _ => none) (demoNet [.system]) (some "jupyterhub t1".toList) = .fail 500 := by decide +kernel
example : (⟨some "https://hub/api".toList, "k".toList, "c".toList, [], { serviceName := [] }⟩ : HubConn).setup (fun _ => true) =
    some (.context none) := by decide

/-- C191: a request without a token for the hub is answered with 401, which asks for one, whatever the settings and whether
or not there is a hub. -/
theorem C191_anonymous (c : HubConn) (ssl : Ssl) (env : Str → Option Str) (net : Str → Option HubServer) (header : Option Str)
    (h : header = none ∨ header = some [] ∨ ∃ kind rest, ' ' ∉ kind ∧ kind ≠ "jupyterhub".toList ∧
      header = some (kind ++ ' ' :: rest)) : c.authenticate ssl env net header = .fail 401 := by
  have ht : hubToken header = some none := by
    rcases h with rfl | rfl | ⟨kind, rest, hk, hn, rfl⟩
    · rfl
    · rfl
    · cases hc : kind ++ ' ' :: rest with
      | nil => simp at hc
      | cons a l =>
        have hs := split1_append ' ' kind rest hk
        rw [hc] at hs
        simp only [hubToken, hs, if_neg hn]
  unfold HubConn.authenticate
  rw [ht]

example : (⟨none, [], [], [], { serviceName := [] }⟩ : HubConn).authenticate .system (fun _ => none) (fun _ => none)
    (some "basic YQ==".toList) = .fail 401 := by decide

end Verif.Auth

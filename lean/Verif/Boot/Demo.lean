import Verif.Boot.Requests
/-
Examples and violations for C125, C126 and C127.
-/
namespace Verif.Boot
open Verif.Router (tableOf key)

/-- An empty configuration. -/
def nothing : Raw := ⟨none, none, none, none, none, none, [], [], none⟩

/-- The machine of a gateway. -/
def here : Machine := ⟨"gw".toList, [], fun n => 40000 + n, "0a1b".toList⟩

/-- The same machine, for a process that is started later. -/
def later : Machine := ⟨"gw".toList, [], fun n => 50000 + n, "2c3d".toList⟩

/-- The default settings. -/
def defaults : Settings :=
  { gateway := "127.0.0.1:40000".toList, address := ":8000".toList, tcpAddress := ":8000".toList, pathPrefix := [],
    gatewayUrl := "http://127.0.0.1:40000".toList, apiToken := "0a1b".toList, tlsKey := [], tlsCert := [],
    logLevel := "warn".toList }

example : settle here nothing = some defaults := by decide +kernel

example : Paired defaults ∧ defaults.apiToken ≠ [] ∧ defaults.logLevel ∈ levels := by
  refine ⟨?_, by decide +kernel, by decide +kernel⟩
  unfold Paired
  decide +kernel

/-- Odd values come through: an address and a key that look like flags. -/
example : (startCommand "exe".toList
      { defaults with address := "-x".toList, tlsCert := "--".toList, tlsKey := "-address".toList } true).bind
    (fun cmd => match goMain (fun _ => true) (cmd.drop 1) "t".toList with
      | .run f _ => some (f.address, f.child, f.tlsCert, f.tlsKey)
      | _ => none) = some ("-x".toList, true, "--".toList, "-address".toList) := by decide +kernel

/-- A certificate without a key. -/
example : startCommand "exe".toList { defaults with tlsCert := "c".toList } true = none := by decide +kernel

example : Addressed "0.0.0.0:8000".toList "0.0.0.0".toList 8000 := ⟨by decide +kernel, by decide +kernel⟩

example : normalizeAddress "gw".toList 1 true "0.0.0.0:8000".toList = some "gw:8000".toList ∧
    normalizeAddress "gw".toList 1 false "0.0.0.0:8000".toList = some "0.0.0.0:8000".toList ∧
    normalizeAddress "gw".toList 41 false "x:0".toList = some "x:41".toList ∧
    normalizeAddress "gw".toList 41 false "[::1]:8000".toList = none ∧
    normalizeAddress "gw".toList 41 false "8000".toList = none ∧
    normalizeAddress "gw".toList 41 false "x: 8_0".toList = some "x:80".toList := by decide +kernel

example : validPrefix "/a/b//".toList = some "/a/b".toList ∧ validPrefix "a".toList = none ∧ validPrefix "/".toList = some [] := by
  decide +kernel

/-- C125 does not hold for an empty token: the configuration is accepted, and each process that is started ends at once. -/
theorem C125_token_violated :
    ∃ s, settle here { nothing with apiToken := some [] } = some s ∧ Paired s ∧
      ∀ parses child cmd, startCommand "exe".toList s child = some cmd →
        goMain parses (cmd.drop 1) s.apiToken = .panic := by
  refine ⟨{ defaults with apiToken := [] }, by decide +kernel, ⟨fun _ => rfl, fun _ => rfl⟩, ?_⟩
  intro parses child cmd h
  obtain ⟨args, rfl, _, h2⟩ := C125_settings parses "exe".toList _ child cmd h (by decide +kernel)
  exact h2 (Or.inl rfl)

/-- An operating system on which a process cannot listen twice at a port of all interfaces; `""` and `"0.0.0.0"` both
stand for these. -/
def wildcard (address : Str) : Option Str :=
  match Api.splitAll ':' address with
  | [host, port] => if host = [] ∨ host = "0.0.0.0".toList then some port else none
  | _ => none

/-- `free` of such a system. -/
def system (held : List Str) (address : Str) : Bool :=
  held.all (fun h => decide (wildcard h = none ∨ wildcard h ≠ wildcard address))

/-- C125 does not hold for two ways to write an address: the one for HTTP and the one for schedulers are both port 8000 of
all interfaces, and would be shared if they were written the same way, but the process cannot listen and ends. -/
theorem C125_wildcard_violated :
    ∃ s, settle here { nothing with address := some "0.0.0.0:8000".toList, tcpAddress := some ":8000".toList } = some s ∧
      ∀ f, Wanted s true f → listen system f = none ∧
        (∃ ls, listen system { f with tcpAddress := f.address } = some ls) := by
  refine ⟨{ defaults with address := "0.0.0.0:8000".toList }, by decide +kernel, ?_⟩
  intro f hf
  obtain ⟨h1, h2, _⟩ := hf
  have h1' : f.address = "0.0.0.0:8000".toList := h1
  have h2' : f.tcpAddress = ":8000".toList := h2
  cases f with
  | mk a b c d e g i =>
  subst h1' h2'
  refine ⟨by rfl, [{ address := "0.0.0.0:8000".toList, tcp := true, http := true }], by rfl⟩

/-- C125: numbers that are no ports are accepted as well. -/
theorem C125_port_violated :
    (settle here { nothing with address := some ":99999".toList }).isSome ∧
    (settle here { nothing with address := some ":-1".toList }).isSome := by decide +kernel

/-! ### A proxy that is started separately -/

/-- A configuration with a fixed token and address. -/
def fixed : Raw := { nothing with gateway := some ":9000".toList, apiToken := some "secret".toList }

example : FixedGateway fixed [] 9000 ∧ FixedToken fixed here later ∧ here.uuid ≠ later.uuid ∧
    here.uuid ≠ later.envToken ∧ later.uuid ≠ here.envToken :=
  ⟨⟨by decide, ":9000".toList, rfl, by decide +kernel, by decide +kernel⟩, Or.inl (by decide), by decide +kernel, by decide +kernel,
    by decide +kernel⟩

example : (settle here fixed).map (fun s => (s.gateway, s.apiToken)) = some (":9000".toList, "secret".toList) ∧
    (settle later fixed).map (fun s => (s.gatewayUrl, s.apiToken)) = some ("http://gw:9000".toList, "secret".toList) := by
  decide +kernel

/-- The settings of the separate proxy by default. -/
def others : Settings :=
  { gateway := "127.0.0.1:50000".toList, address := ":8000".toList, tcpAddress := ":8000".toList, pathPrefix := [],
    gatewayUrl := "http://127.0.0.1:50000".toList, apiToken := "2c3d".toList, tlsKey := [], tlsCert := [],
    logLevel := "warn".toList }

/-- C126 does not hold by default: neither the token nor the port of the gateway are known to the proxy. -/
theorem C126_default_violated :
    ∃ s t, settle here nothing = some s ∧ settle later nothing = some t ∧
      s.apiToken ≠ t.apiToken ∧ t.gatewayUrl ≠ "http://".toList ++ s.gateway := by
  refine ⟨defaults, others, by decide +kernel, by decide +kernel, by decide +kernel, by decide +kernel⟩

/-! ### The requests of a scheduler -/

/-- The gateway's place. -/
def gatewayAt : Forward.Url := ⟨"http".toList, "127.0.0.1:40000".toList, [], [], false, []⟩

/-- The routes for a gateway with a prefix and one cluster. -/
def demoOps : List (Router.Op Forward.Url) :=
  [.put "/dask/".toList gatewayAt, .put "/dask/clusters/c1".toList ⟨"http".toList, "10.0.0.1:8787".toList, [], [], false, []⟩]

theorem demo_table : Table (tableOf demoOps) "/dask".toList gatewayAt := by
  have k1 : key "/dask/".toList = ["dask".toList] := by decide +kernel
  have k2 : key "/dask/clusters/c1".toList = ["dask".toList, "clusters".toList, "c1".toList] := by decide +kernel
  have k3 : key ("/dask".toList ++ ['/']) = ["dask".toList] := by decide +kernel
  have ht : ∀ k, tableOf demoOps k = if k = key "/dask/clusters/c1".toList then
      some ⟨"http".toList, "10.0.0.1:8787".toList, [], [], false, []⟩
      else if k = key "/dask/".toList then some gatewayAt else none := fun _ => rfl
  refine ⟨?_, ?_⟩
  · rw [ht, k1, k2, k3, if_neg (by decide +kernel), if_pos rfl]
  · intro k h
    rw [ht, k1, k2] at h
    rw [k3]
    by_cases h2 : k = ["dask".toList, "clusters".toList, "c1".toList]
    · right; exact ⟨["c1".toList], h2⟩
    · rw [if_neg h2] at h
      by_cases h1 : k = ["dask".toList]
      · left; exact h1
      · rw [if_neg h1] at h; cases h

example : Way demoOps "/dask".toList "127.0.0.1:40000".toList := ⟨gatewayAt, demo_table, rfl, rfl, rfl⟩

example : Prefixed "/dask".toList ∧ Named "c1".toList :=
  ⟨⟨Or.inr rfl, by decide +kernel, string_plain _ (by decide +kernel)⟩,
    ⟨by decide +kernel, by decide +kernel, string_plain _ (by decide +kernel)⟩⟩

example : TokenAt (fun p => if p = "/etc/dask-credentials/api-token".toList then some "t".toList else none)
      "/etc/dask-credentials/api-token".toList "t".toList ∧
    TokenAt (fun _ => none) "t".toList "t".toList :=
  ⟨⟨by decide +kernel, Or.inr ⟨by decide +kernel, by decide +kernel⟩⟩, ⟨by decide +kernel, Or.inl ⟨by decide +kernel, rfl⟩⟩⟩

example : apiUrl here { defaults with pathPrefix := "/dask".toList } = some "http://gw:8000/dask/api".toList := by
  decide +kernel

example : (Client.heartbeat ⟨"c1".toList, "t".toList, "http://gw:8000/dask/api".toList⟩).target =
    some "/dask/api/v1/clusters/c1/heartbeat".toList := by decide +kernel

example : proxied (Router.Router.run demoOps) "/dask/api/v1/clusters/c1/heartbeat".toList =
    some ("127.0.0.1:40000".toList, "/api/v1/clusters/c1/heartbeat".toList) := by decide +kernel

/-- A scheduler without one of the variables ends. -/
example : makeClient [("DASK_GATEWAY_CLUSTER_NAME".toList, "c1".toList), ("DASK_GATEWAY_API_TOKEN".toList, "t".toList)]
    (fun _ => none) = none := by decide +kernel

end Verif.Boot

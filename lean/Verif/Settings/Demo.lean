import Verif.Settings.Props
/-! Closed cases for C133 and C135: that the theorems are not empty, and where the code falls short. -/
namespace Verif.Settings
open Verif.Options (Field Made Distinct)
open Verif.Addr (Netloc)

private def env0 : Str → Option Str := fun n => if n = "PORT".toList then some "8786".toList else none

private def conf0 : Conf := { address := none, publicAddress := none, proxyAddress := .none }

private def conf1 : Conf := { conf0 with proxyAddress := .str "{PORT}".toList }

/-- **C135 (violated).** A proxy's address with a path and without a scheme: the clusters of the client use another
address than the client. -/
theorem C135_path_violated : ∃ g g',
    gateway env0 conf0 (some "http://gw".toList) none (.str "proxy:8786/x".toList) = .ok g ∧
    derived env0 conf0 g = .ok g' ∧ g'.proxyAddress ≠ g.proxyAddress := by
  refine ⟨{ address := "http://gw".toList, publicAddress := "http://gw".toList,
            proxyAddress := "gateway://proxy:8786/x".toList },
    { address := "http://gw".toList, publicAddress := "http://gw".toList,
      proxyAddress := "gateway://proxy:8786".toList }, by decide +kernel, by decide +kernel, by decide +kernel⟩

/-- **C135 (violated).** The documentation says that the proxy's address in the configuration may be a port, and that it
may be a template. If the template gives a port, it is taken for the name of a host; a port given as a number is not. -/
theorem C135_port_violated : ∃ g g',
    gateway env0 conf1 (some "http://gw".toList) none .none = .ok g ∧
    g.proxyAddress = "gateway://8786".toList ∧
    gateway env0 { conf0 with proxyAddress := .int 8786 } (some "http://gw".toList) none .none = .ok g' ∧
    g'.proxyAddress = "gateway://gw:8786".toList := by
  refine ⟨{ address := "http://gw".toList, publicAddress := "http://gw".toList,
            proxyAddress := "gateway://8786".toList },
    { address := "http://gw".toList, publicAddress := "http://gw".toList,
      proxyAddress := "gateway://gw:8786".toList }, by decide +kernel, rfl, by decide +kernel, rfl⟩

/-- The hypotheses of `C135_same_gateway_partial` and `C135_proxy`. -/
example : gateway env0 conf0 (some "https://gw/x/".toList) none .none =
    .ok { address := "https://gw/x".toList, publicAddress := "https://gw/x".toList,
          proxyAddress := "gateway://gw:443".toList } := by decide +kernel

example : Clear "https://gw/x/".toList .none := by
  show '[' ∉ "https://gw/x/".toList
  decide +kernel

/-- The hypotheses of C133: two fields, of which one is set in the configuration by a template and one by a keyword. -/
example : (∀ f ∈ [Options.coresField, Options.memField], Made f) ∧ Distinct [Options.coresField, Options.memField] :=
  ⟨by simp [Options.cores_made, Options.mem_made], by unfold Distinct; decide⟩

example : (match clusterOptions env0 [("cores".toList, .num (.int 3))]
      ([Options.coresField, Options.memField].map Options.jsonSpec) true with
    | .ok o => (submit env0 [("cores".toList, .num (.int 3))] (some o) [("mem".toList, .num (.int 5))]).toOption
    | .error _ => none) =
    some (.obj [("cores".toList, .num (.int 3)), ("mem".toList, .num (.int 5))]) := by decide +kernel

/-- A name that the server does not know, refused by the client. -/
example : (match clusterOptions env0 [("core".toList, .num (.int 3))] ([Options.coresField].map Options.jsonSpec) true with
    | .ok _ => none
    | .error e => some e) = some (SErr.option .key) := by decide +kernel

/-! The hypotheses of C134 and its errors. -/

private def demoEnv : Str → Option Str := fun n =>
  if n = "USER".toList then some "a{USER}".toList else none

/-- A variable whose value looks like a template, braces in the text, and some errors. -/
example : format demoEnv "x-{USER}-{{y}}".toList = .ok "x-a{USER}-{y}".toList ∧
    format demoEnv "{HOME}".toList = .error .key ∧ format demoEnv "{}".toList = .error .index ∧
    format demoEnv "a}b".toList = .error .value ∧ format demoEnv "{USER".toList = .error .value ∧
    format demoEnv "{".toList = .error .value := by decide +kernel

example : (∀ p ∈ [Piece.lit "x-".toList, .var "USER".toList, .lit "-{y}".toList], p.Plain) ∧
    write [Piece.lit "x-".toList, .var "USER".toList, .lit "-{y}".toList] = "x-{USER}-{{y}}".toList := by
  refine ⟨?_, by decide +kernel⟩
  intro p hp
  simp only [List.mem_cons, List.not_mem_nil, or_false] at hp
  rcases hp with rfl | rfl | rfl
  · exact trivial
  · exact ⟨by decide, by decide⟩
  · exact trivial

end Verif.Settings

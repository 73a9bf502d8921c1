/-
Model of the hook that builds wheels of the server with the proxy's executable in them:
dask-gateway-server/hatch_build.py.

Simplified: letters and digits are those of ASCII (`\d`, `\w`, `lower`); the Go compiler is a parameter (it builds for the
platform it is told, or for its own if it is told none).
-/
namespace Verif.Build

/-- Text (hatch_build.py:1-250). -/
abbrev Str := List Char

/-- What the hook finds around it: the environment variables (hatch_build.py:24, 123, 175), `sysconfig.get_platform()`
(60, 133), `platform.system()` and `platform.machine()` (157, 163), whether there is a `go` (110), and whether it can build
for a platform (232). -/
structure Env where
  noProxy : Option Str
  goos : Option Str
  goarch : Option Str
  platform : Str
  system : Str
  machine : Str
  go : Bool
  builds : Str → Str → Bool

/-- `str.lower` (hatch_build.py:157, 163, 179, 181). -/
def lower (s : Str) : Str := s.map Char.toLower

/-- hatch_build.py:173-187 `_get_env_bool`; `none` is the `ValueError`. -/
def envBool (value : Option Str) (dflt : Bool) : Option Bool :=
  match value with
  | none => some dflt
  | some v =>
    if lower v = "1".toList ∨ lower v = "true".toList then some true
    else if lower v = "0".toList ∨ lower v = "false".toList then some false
    else none

/-- hatch_build.py:190-199 `_to_goarch`. -/
def goarchOf (arch : Str) : Str :=
  if arch = "amd64".toList ∨ arch = "x86_64".toList then "amd64".toList
  else if arch = "arm64".toList ∨ arch = "aarch64".toList then "arm64".toList
  else []

/-- `re.sub("[-. ]", "_", ...)` (hatch_build.py:60). -/
def underscored (s : Str) : Str := s.map (fun c => if c = '-' ∨ c = '.' ∨ c = ' ' then '_' else c)

/-- What follows a prefix (for the regular expressions of hatch_build.py:75, 134-137). -/
def after (p s : Str) : Option Str :=
  match p, s with
  | [], s => some s
  | _ :: _, [] => none
  | a :: p, c :: s => if a = c then after p s else none

/-- `\d+_` (hatch_build.py:75): the digits, and what follows the underscore. -/
def digitsThen (s : Str) : Option (Str × Str) :=
  match s.takeWhile Char.isDigit, s.dropWhile Char.isDigit with
  | [], _ => none
  | d :: ds, '_' :: r => some (d :: ds, r)
  | _, _ => none

/-- `\w` (hatch_build.py:75). -/
def isWord (c : Char) : Bool := c.isAlphanum || c == '_'

/-- hatch_build.py:75-79: the regular expression for macOS: the major version and the architecture. -/
def macTag (s : Str) : Option (Str × Str) :=
  match after "macosx_".toList s with
  | none => none
  | some r => match digitsThen r with
    | none => none
    | some (major, r) => match digitsThen r with
      | none => none
      | some (_, arch) => if arch ≠ [] ∧ arch.all isWord = true then some (major, arch) else none

/-- `int` of digits (hatch_build.py:78). -/
def intOf (ds : Str) : Nat := ds.foldl (fun n c => 10 * n + (c.toNat - '0'.toNat)) 0

/-- hatch_build.py:56-82 `_get_platform_tag`. -/
def platformTag (platform : Str) : Str :=
  match macTag (underscored platform) with
  | none => underscored platform
  | some (major, arch) =>
    if 11 ≤ intOf major then "macosx_".toList ++ major ++ "_0_".toList ++ arch else underscored platform

/-- `(aarch64|arm64|x86_64|amd64)` at the beginning of a text (hatch_build.py:135). -/
def archAt (s : Str) : Option Str :=
  ["aarch64".toList, "arm64".toList, "x86_64".toList, "amd64".toList].find? (fun a => (after a s).isSome)

/-- `.+-(aarch64|arm64|x86_64|amd64)` at the beginning of a text, `seen` if `.+` already has a character
(hatch_build.py:135): the longest `.+` that can be completed is taken. -/
def lastArch (seen : Bool) (s : Str) : Option Str :=
  match s with
  | [] => none
  | c :: s =>
    match (if c = '\n' then none else lastArch true s) with
    | some a => some a
    | none => if seen = true ∧ c = '-' then archAt s else none

/-- hatch_build.py:134-153: system and architecture of a platform. -/
def parsed (platform : Str) : Option (Str × Str) :=
  match (after "win-".toList platform).bind archAt with
  | some a => some ("windows".toList, goarchOf a)
  | none => match (after "linux-".toList platform).bind archAt with
    | some a => some ("linux".toList, goarchOf a)
    | none => match (after "macosx-".toList platform).bind (lastArch false) with
      | some a => some ("darwin".toList, goarchOf a)
      | none => none

/-- `os.environ.get(...)` is there and not empty (hatch_build.py:123). -/
def given (v : Option Str) : Option Str :=
  match v with
  | some (c :: s) => some (c :: s)
  | _ => none

/-- hatch_build.py:121-170 `_target_platform`. -/
def target (e : Env) : Str × Str :=
  match given e.goos, given e.goarch with
  | some os, some arch => (os, arch)
  | _, _ => match parsed e.platform with
    | some t => t
    | none =>
      (if lower e.system ∈ ["windows".toList, "darwin".toList, "linux".toList] then lower e.system else [],
       goarchOf (lower e.machine))

/-- A wheel: its tag, and the values of `GOOS` and `GOARCH` its executable was built with, if it has one
(hatch_build.py:45-54, 243-250). -/
structure Wheel where
  tag : Str
  binary : Option (Str × Str)
deriving DecidableEq

/-- hatch_build.py:45-54, 84-119, 202-232 `_prepare_wheel`; `none` if the build fails. -/
def wheel (e : Env) : Option Wheel :=
  match envBool e.noProxy false with
  | none => none
  | some true => some { tag := "py3-none-any".toList, binary := none }
  | some false =>
    if e.go = true ∧ e.builds (target e).1 (target e).2 = true then
      some { tag := "py3-none-".toList ++ platformTag e.platform, binary := some (target e) }
    else none

end Verif.Build

/-!
# `dask-gateway-server generate-config`

Model of `GenerateConfig.start` (dask-gateway-server/dask_gateway_server/app.py:48-63): the command that writes a
configuration file with the default settings. Each of its steps that looks at the disk or changes it is one step here,
so that other programs may act between two steps and the command may be killed after any of them.
-/

namespace Verif.Generate

/-- What a path may lead to: a directory, or a file with its contents. Links are not modelled.
(app.py:50, 55, the two questions `os.path.isdir` and `os.path.exists`) -/
inductive Node where
  | dir
  | file (contents : List Char)
  deriving DecidableEq, Repr

/-- The disk: what each path, as written, leads to. (app.py:49-63) -/
abbrev Disk := String → Option Node

/-- The settings `output` and `force` (app.py:33-37), the directory `os.path.dirname(os.path.abspath(output))`
(app.py:49; computed from the path alone, so any string here), and the text that `generate_config_file` returns
(app.py:58-60; whatever it is). -/
structure Call where
  output : String
  folder : String
  force : Bool
  text : List Char
  deriving DecidableEq, Repr

/-- Why the command gives up before it writes: the two calls of `self.exit`. (app.py:51-54, 56) -/
inductive Refusal where
  | noFolder
  | present
  deriving DecidableEq, Repr

/-- How far the command has come. `writing n`: the file is open and `n` characters of the text are in it. (app.py:48-63) -/
inductive At where
  | begun
  | folderSeen
  | free
  | generated
  | writing (n : Nat)
  | refused (why : Refusal)
  | raised
  | done
  deriving DecidableEq, Repr

/-- The command and the disk. (app.py:48-63) -/
structure State where
  pos : At
  disk : Disk

/-- Put `v` at the path `p`. (app.py:62-63; also what other programs do) -/
def put (d : Disk) (p : String) (v : Option Node) : Disk := fun q => if q = p then v else d q

/-- `os.path.isdir` (app.py:50). -/
def isDir (d : Disk) (p : String) : Bool := d p == some .dir

/-- `os.path.exists` (app.py:55). -/
def present (d : Disk) (p : String) : Bool := (d p).isSome

/-- The next step of the command (app.py:48-63). `open(..., "w")` empties a file that is there, makes one that is not, and
raises for a directory or when the directory around it is gone; permissions are not modelled. The characters are written
one after another: a kill may then come after any number of them. Each write sets the contents of the path to the text
so far; a file that another program moved away while it was open is not modelled. -/
def next (c : Call) (s : State) : State :=
  match s.pos with
  | .begun => if isDir s.disk c.folder then { s with pos := .folderSeen } else { s with pos := .refused .noFolder }
  | .folderSeen =>
    if present s.disk c.output && !c.force then { s with pos := .refused .present } else { s with pos := .free }
  | .free => { s with pos := .generated }
  | .generated =>
    if s.disk c.output = some .dir then { s with pos := .raised }
    else if isDir s.disk c.folder then { pos := .writing 0, disk := put s.disk c.output (some (.file [])) }
    else { s with pos := .raised }
  | .writing n =>
    if n < c.text.length then
      { pos := .writing (n + 1), disk := put s.disk c.output (some (.file (c.text.take (n + 1)))) }
    else { s with pos := .done }
  | .refused _ => s
  | .raised => s
  | .done => s

/-- One step of the machine: the command goes on, or another program changes what one path leads to. (app.py:48-63) -/
inductive Step where
  | own
  | other (path : String) (becomes : Option Node)
  deriving DecidableEq, Repr

/-- The effect of a step. (app.py:48-63) -/
def step (c : Call) (s : State) : Step → State
  | .own => next c s
  | .other p v => { s with disk := put s.disk p v }

/-- What is there after these steps. A command that is killed takes no further step, so every list of steps is also a
history that ends with a kill. (app.py:48-63) -/
def run (c : Call) (s : State) (h : List Step) : State := h.foldl (step c) s

end Verif.Generate

import Verif.Json
/-
What `/bin/sh` makes of one line of a script: the words of a simple command (POSIX, Shell Command Language, 2.2
Quoting, 2.3 Token Recognition, 2.6.2 Parameter Expansion, 2.6.5 Field Splitting). The shell is not part of the
repository; the scripts given to it are built in
`dask-gateway-server/dask_gateway_server/backends/jobqueue/slurm.py:70-88`, `pbs.py:138-156` and
`dask-gateway-server/dask_gateway_server/backends/yarn.py:144-153`.

Covered: words, blanks, quotes, backslashes and parameters. Any other character with a meaning to the shell, and a
first word that is a reserved word or an assignment, gives no simple command here (`none`).
-/
namespace Verif.Batch

/-- Blanks between words (slurm.py:74, the `" ".join`). -/
def isBlank (c : Char) : Bool := c == ' ' || c == '\t'

/-- Characters that have a meaning to the shell (those that slurm.py:74 does not protect). -/
def special (c : Char) : Bool := "|&;<>()`*?[]#~!{}\n".toList.contains c

/-- Characters of the name of a parameter (yarn.py:148-149, 133). -/
def isName (c : Char) : Bool := c.isAlphanum || c == '_'

/-- Words with a meaning of their own in front of a command (slurm.py:74). -/
def reserved : List Str :=
  ["if", "then", "else", "elif", "fi", "do", "done", "case", "esac", "while", "until", "for", "in"].map String.toList

/-- Where the shell is within a line (slurm.py:74). -/
inductive Mode where
  /-- Outside quotes. -/
  | plain
  /-- After a backslash. -/
  | esc
  /-- Within single quotes. -/
  | single
  /-- Within double quotes; parameters and backslashes there are not covered. -/
  | double
  /-- After a dollar sign, with the name so far. -/
  | param (name : Str)
  /-- After a dollar sign and a brace, with the name so far. -/
  | brace (name : Str)
deriving DecidableEq, Repr

/-- A field that is under way gets a further text (POSIX 2.6; see yarn.py:144-150). -/
def push (cur : Option Str) (s : Str) : Option Str := some (cur.getD [] ++ s)

/-- The field under way ends (slurm.py:74). -/
def close (cur : Option Str) (acc : List Str) : List Str :=
  match cur with
  | none => acc
  | some w => acc ++ [w]

/-- The value of a parameter, outside quotes: it is put in if it is there and has neither blanks nor characters with a
meaning to the shell; other values are not covered (yarn.py:148-149, 244-251). -/
def expand (env : Str → Option Str) (name : Str) (cur : Option Str) : Option (Option Str) :=
  match env name with
  | none => some cur
  | some v =>
    if v.any (fun c => isBlank c || special c) then none
    else if v = [] then some cur
    else some (push cur v)

/-- The fields of a line (slurm.py:74, pbs.py:141, yarn.py:144-150). -/
def fields (env : Str → Option Str) : Mode → Option Str → List Str → Str → Option (List Str)
  | .plain, cur, acc, [] => some (close cur acc)
  | .esc, _, _, [] => none
  | .single, _, _, [] => none
  | .double, _, _, [] => none
  | .param name, cur, acc, [] => (expand env name cur).map (fun cur => close cur acc)
  | .brace _, _, _, [] => none
  | .plain, cur, acc, c :: s =>
    if isBlank c then fields env .plain none (close cur acc) s
    else if c = '\\' then fields env .esc cur acc s
    else if c = '\'' then fields env .single (push cur []) acc s
    else if c = '"' then fields env .double (push cur []) acc s
    else if c = '$' then fields env (.param []) cur acc s
    else if special c then none
    else fields env .plain (push cur [c]) acc s
  | .esc, cur, acc, c :: s => if c = '\n' then none else fields env .plain (push cur [c]) acc s
  | .single, cur, acc, c :: s =>
    if c = '\'' then fields env .plain cur acc s else fields env .single (push cur [c]) acc s
  | .double, cur, acc, c :: s =>
    if c = '"' then fields env .plain cur acc s
    else if c = '$' ∨ c = '\\' ∨ c = '`' then none
    else fields env .double (push cur [c]) acc s
  | .param name, cur, acc, c :: s =>
    if name = [] ∧ c = '{' then fields env (.brace []) cur acc s
    else if isName c then fields env (.param (name ++ [c])) cur acc s
    else if name = [] then none
    else
      match expand env name cur with
      | none => none
      | some cur =>
        if isBlank c then fields env .plain none (close cur acc) s
        else if c = '\\' then fields env .esc cur acc s
        else if c = '\'' then fields env .single (push cur []) acc s
        else if c = '"' then fields env .double (push cur []) acc s
        else if c = '$' then fields env (.param []) cur acc s
        else if special c then none
        else fields env .plain (push cur [c]) acc s
  | .brace name, cur, acc, c :: s =>
    if isName c then fields env (.brace (name ++ [c])) cur acc s
    else if c = '}' ∧ name ≠ [] then
      match expand env name cur with
      | none => none
      | some cur => fields env .plain cur acc s
    else none

/-- The words of the simple command in a line (slurm.py:74, pbs.py:141, yarn.py:144-150): none if it is no such
command. -/
def shWords (env : Str → Option Str) (line : Str) : Option (List Str) :=
  match fields env .plain none [] line with
  | none => none
  | some [] => none
  | some (w :: ws) => if w.contains '=' || reserved.contains w then none else some (w :: ws)

/-- The last line of a text (slurm.py:70-76). -/
def lastLine (s : Str) : Str := (s.reverse.takeWhile (· ≠ '\n')).reverse

end Verif.Batch

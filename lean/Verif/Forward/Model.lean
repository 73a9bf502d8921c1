import Verif.Router.Model
/-
Model of `ServeHTTP` in `dask-gateway-server/dask-gateway-proxy/cmd/dask-gateway-proxy/main.go`
(388-415): which URL a request for the HTTP proxy is sent on to, and of the part of Go's `net/url` that
reads and writes the URLs (`ParseRequestURI`, `setPath`, `EscapedPath`, `RequestURI`), which is not in
the repository and is modelled after its documentation.

A Go string is a list of its bytes; each byte is the character with its number. The request target is in
origin form ("/path?query"), as clients send it to a server. Headers and bodies are not modelled, nor
what `httputil.ReverseProxy` does with them; the URL it sends is that of the request it is given.
-/
namespace Verif.Forward
open Verif.Router (Str)

/-- The digit for `n` in an escape (`net/url`: `upperhex`), used where main.go:411 writes the request. -/
def upperhex (n : Nat) : Char := "0123456789ABCDEF".toList.getD n '0'

/-- The value of a hexadecimal digit, if it is one (`net/url`: `ishex`, `unhex`), used where the server
of main.go:436-450 reads the request. -/
def unhex (c : Char) : Option Nat :=
  if 48 ≤ c.toNat ∧ c.toNat ≤ 57 then some (c.toNat - 48)
  else if 97 ≤ c.toNat ∧ c.toNat ≤ 102 then some (c.toNat - 97 + 10)
  else if 65 ≤ c.toNat ∧ c.toNat ≤ 70 then some (c.toNat - 65 + 10)
  else none

/-- `net/url`: `unescape` with the mode for paths: escapes are replaced by their bytes; a percent sign
that starts no escape is an error. Used where the server of main.go:436-450 reads the request. -/
def unescape : Str → Option Str
  | [] => some []
  | c :: cs =>
    if c = '%' then
      match cs with
      | a :: b :: ds =>
        match unhex a, unhex b with
        | some x, some y => (unescape ds).map (Char.ofNat (x * 16 + y) :: ·)
        | _, _ => none
      | _ => none
    else (unescape cs).map (c :: ·)

/-- `net/url`: `shouldEscape` with the mode for paths. Used where main.go:411 writes the request. -/
def shouldEscape (c : Char) : Bool :=
  if c.isAlphanum then false
  else if ['-', '_', '.', '~'].contains c then false
  else if ['$', '&', '+', ',', '/', ':', ';', '=', '?', '@'].contains c then c == '?'
  else true

/-- One byte in `net/url`: `escape`. Used where main.go:411 writes the request. -/
def escape1 (c : Char) : Str :=
  if shouldEscape c then ['%', upperhex (c.toNat / 16), upperhex (c.toNat % 16)] else [c]

/-- `net/url`: `escape` with the mode for paths. Used where main.go:411 writes the request. -/
def escape (s : Str) : Str := s.flatMap escape1

/-- `net/url`: `validEncoded` with the mode for paths. Used where main.go:411 writes the request. -/
def validEncoded (s : Str) : Bool :=
  s.all fun c =>
    ['!', '$', '&', '\'', '(', ')', '*', '+', ',', ';', '=', ':', '@', '[', ']', '%'].contains c || !shouldEscape c

/-- Go's `url.URL` as far as main.go:398-407 reads or writes it. -/
structure Url where
  scheme : Str
  host : Str
  path : Str
  rawPath : Str
  forceQuery : Bool
  rawQuery : Str
deriving DecidableEq

/-- `net/url`: `setPath` on a URL without scheme and host: the decoded path, and the path as written
unless that is how the decoded path is written by default. Used where the server of main.go:436-450 reads
the request. -/
def setPath (u : Url) (p : Str) : Option Url :=
  match unescape p with
  | none => none
  | some path =>
    some { scheme := u.scheme, host := u.host, path := path, rawPath := if p = escape path then [] else p,
           forceQuery := u.forceQuery, rawQuery := u.rawQuery }

/-- `net/url`: `stringContainsCTLByte`. Used where the server of main.go:436-450 reads the request. -/
def hasCtl (s : Str) : Bool := s.any fun c => c.toNat < 32 || c.toNat = 127

/-- The URL of a request (`net/url`: `ParseRequestURI` for a target in origin form, as the server of
main.go:436-450 reads it). `none`: the server answers 400. -/
def parseTarget (s : Str) : Option Url :=
  if hasCtl s then none
  else
    let p := s.takeWhile (· != '?')
    let q := (s.dropWhile (· != '?')).drop 1
    if p.head? ≠ some '/' then none
    else setPath { scheme := [], host := [], path := [], rawPath := [],
                   forceQuery := decide (s ≠ p) && decide (q = []), rawQuery := q } p

/-- `net/url`: `EscapedPath`. Used where main.go:411 writes the request. -/
def escapedPath (u : Url) : Str :=
  if u.rawPath ≠ [] ∧ validEncoded u.rawPath = true ∧ unescape u.rawPath = some u.path then u.rawPath
  else if u.path = ['*'] then ['*']
  else escape u.path

/-- `net/url`: `RequestURI`, the target on the request line that is sent (main.go:411). -/
def requestURI (u : Url) : Str :=
  (if escapedPath u = [] then ['/'] else escapedPath u) ++
    (if u.forceQuery ∨ u.rawQuery ≠ [] then '?' :: u.rawQuery else [])

/-- What becomes of a request (main.go:388-415). -/
inductive Answer where
  /-- 413-414: 404. -/
  | notFound
  /-- 411: the request is sent to `host`, by `scheme`. -/
  | forward (u : Url)
deriving DecidableEq

/-- main.go:388-415 `ServeHTTP`. -/
def serveHTTP (router : Router.Router Url) (req : Url) : Answer :=
  match router.match_ req.path with
  | none => .notFound
  | some (target, path) =>
    .forward
      { scheme := target.scheme, host := target.host,
        path := Router.singleJoiningSlash target.path path,
        rawPath := req.rawPath,
        forceQuery := req.forceQuery,
        rawQuery :=
          if target.rawQuery = [] ∨ req.rawQuery = [] then target.rawQuery ++ req.rawQuery
          else target.rawQuery ++ '&' :: req.rawQuery }

end Verif.Forward

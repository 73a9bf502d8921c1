import Verif.Json
/-
Model of the addresses of clusters: dask-gateway/dask_gateway/comm.py:19-81 and
dask-gateway/dask_gateway/client.py:199-208, 281-319, with the parts of Python's `urllib.parse` that they
use.
-/
namespace Verif.Addr

/-! ### `urllib.parse`, used at comm.py:22, client.py:297, 307, 310, 314 -/

/-- `s.partition(c)[0]`, within `urlparse` (comm.py:22). -/
def before (c : Char) (s : Str) : Str := s.takeWhile (fun x => x != c)

/-- `s.partition(c)[2]`, within `urlparse` (comm.py:22). -/
def after (c : Char) (s : Str) : Str := (s.dropWhile (fun x => x != c)).drop 1

/-- `s.rpartition(c)[2]`, within `urlparse` (comm.py:22). -/
def afterLast (c : Char) (s : Str) : Str := (s.reverse.takeWhile (fun x => x != c)).reverse

/-- `c.lower()` within `urllib.parse` (comm.py:22), for letters of ASCII; hosts with other letters are not modelled. -/
def lowerC (c : Char) : Char := if 65 ≤ c.toNat ∧ c.toNat ≤ 90 then Char.ofNat (c.toNat + 32) else c

/-- The characters that `urlsplit` removes (comm.py:22) -/
def removed : List Char := ['\t', '\r', '\n']

/-- `urlsplit` (comm.py:22) first strips control characters and blanks on the left and removes tabs and ends of
lines. -/
def clean (s : Str) : Str := (s.dropWhile (fun c => decide (c.toNat ≤ 32))).filter (fun c => !removed.contains c)

/-- The characters of schemes for `urlsplit` (comm.py:22) -/
def schemeChar (c : Char) : Bool := c.isAlphanum || c == '+' || c == '-' || c == '.'

/-- The parts of a URL that are used here (comm.py:22-26, client.py:297-314) -/
structure Url where
  scheme : Str
  netloc : Str
  path : Str
  deriving DecidableEq

/-- The scheme as `urlsplit` (client.py:314) finds it, which must begin with a letter, and the rest. -/
def splitScheme (s : Str) : Str × Str :=
  match s.head? with
  | none => ([], s)
  | some c => if s.contains ':' && c.isAlpha && (before ':' s).all schemeChar then ((before ':' s).map lowerC, after ':' s) else ([], s)

/-- The characters that end the part for host and port in `urlsplit` (comm.py:22) -/
def delims : List Char := ['/', '?', '#']

/-- The part for host and port in `urlsplit` (comm.py:22) -/
def netlocOf (s : Str) : Str :=
  if s.take 2 = ['/', '/'] then (s.drop 2).takeWhile (fun c => !delims.contains c) else []

/-- What comes after the part for host and port in `urlsplit` (comm.py:22) -/
def restOf (s : Str) : Str :=
  if s.take 2 = ['/', '/'] then (s.drop 2).dropWhile (fun c => !delims.contains c) else s

/-- `urlparse` (comm.py:22, client.py:297, 307, 310, 314); `none` is the `ValueError` for brackets without match. Query, fragment and parameters are
cut off; the parameters of the last segment only for schemes other than `gateway`, where the path is not
used. The check of addresses within brackets is left out. -/
def urlparse (url : Str) : Option Url :=
  let p := splitScheme (clean url)
  if (netlocOf p.2).contains '[' = (netlocOf p.2).contains ']' then
    some { scheme := p.1, netloc := netlocOf p.2, path := before '?' (before '#' (restOf p.2)) }
  else none

/-- `_hostinfo` of `urllib.parse`, which gives `hostname` and `port` (comm.py:26). -/
def hostinfo (netloc : Str) : Str × Str :=
  let h := afterLast '@' netloc
  if h.contains '[' then (before ']' (after '[' h), after ':' (after ']' (after '[' h)))
  else (before ':' h, after ':' h)

/-- `hostname` of `urllib.parse` (comm.py:26, client.py:303, 308) -/
def hostname (netloc : Str) : Option Str :=
  let h := (hostinfo netloc).1
  if h = [] then none
  else some ((before '%' h).map lowerC ++ h.dropWhile (fun x => x != '%'))

/-- `port` of `urllib.parse` (comm.py:26, client.py:299, 302); the outer `none` is the `ValueError`. -/
def port (netloc : Str) : Option (Option Nat) :=
  let p := (hostinfo netloc).2
  if p = [] then some none
  else if p.all Char.isDigit then
    let n := Nat.ofDigitChars 10 p 0
    if n ≤ 65535 then some (some n) else none
  else none

/-! ### comm.py -/

/-- `s.rstrip("/")` (client.py:285, 292) -/
def rstrip (s : Str) : Str := (s.reverse.dropWhile (fun c => c == '/')).reverse

/-- `s.strip("/")` (comm.py:25) -/
def strip (s : Str) : Str := rstrip (s.dropWhile (fun c => c == '/'))

/-- comm.py:20, 41 the scheme -/
def gatewayScheme : Str := "gateway://".toList

/-- comm.py:19-26 `parse_gateway_address`: host, port and path, or `none` for the `ValueError`. -/
def parseGateway (address : Str) : Option (Option Str × Option Nat × Str) :=
  let a := if gatewayScheme.isPrefixOf address then address else gatewayScheme ++ address
  match urlparse a with
  | none => none
  | some u =>
    if u.path = [] then none
    else (port u.netloc).map (fun p => (hostname u.netloc, p, strip u.path))

/-- comm.py:35-36 the server name of the greeting -/
def sni (path : Str) : Str := "daskgateway-".toList ++ path

/-- comm.py:78-81 `resolve_address`; `ensureIp` is `ensure_ip` of the library, and `none` stands for an
error, here also that of formatting a missing port. -/
def resolve (ensureIp : Str → Option Str) (loc : Str) : Option Str :=
  match parseGateway loc with
  | some (some host, some port, path) =>
    (ensureIp host).map (fun ip => ip ++ ':' :: Nat.toDigits 10 port ++ '/' :: path)
  | _ => none

/-! ### client.py -/

/-- The argument `proxy_address` after the configuration was consulted (client.py:294-309). -/
inductive ProxyArg where
  | none
  | port (n : Nat)
  | addr (s : Str)

/-- `"%s" % hostname` (client.py:303, 308) -/
def showHost : Option Str → Str
  | some h => h
  | none => "None".toList

/-- client.py:300 the port that belongs to a scheme -/
def defaultPort (scheme : Str) : Nat :=
  if scheme = "http".toList then 80 else if scheme = "https".toList then 443 else 8786

/-- client.py:296-311 `proxy_netloc`, from the address without slashes at its end; `none` for an error. -/
def proxyNetloc (address : Str) : ProxyArg → Option Str
  | .none =>
    match urlparse address with
    | .none => .none
    | .some u =>
      if u.netloc = [] then some "None".toList
      else (port u.netloc).map (fun p => showHost (hostname u.netloc) ++ ':' :: Nat.toDigits 10 (p.getD (defaultPort u.scheme)))
  | .port n =>
    match urlparse address with
    | .none => .none
    | .some u => some (showHost (hostname u.netloc) ++ ':' :: Nat.toDigits 10 n)
  | .addr s =>
    match urlparse s with
    | .none => .none
    | .some u => some (if u.netloc = [] then s else u.netloc)

/-- client.py:285, 294-319 `Gateway.proxy_address`; `none` for an error. -/
def proxyAddress (address : Str) (arg : ProxyArg) : Option Str :=
  match proxyNetloc (rstrip address) arg, urlparse (rstrip address) with
  | some n, some _ => some (gatewayScheme ++ n)
  | _, _ => none

/-- client.py:206-208 the address of the scheduler of a running cluster -/
def schedulerAddress (proxy name : Str) : Str := proxy ++ '/' :: name

end Verif.Addr

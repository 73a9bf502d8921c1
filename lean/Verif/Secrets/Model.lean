import Verif.Auth.Model
import Verif.Api.Model

/-!
The encryption keys of the database and the credentials stored in it
(dask-gateway-server/dask_gateway_server/backends/db_base.py:29-49, 313-357, 410-428, 590-672, 841-843).

A byte string is modelled as a string of characters below 256, one character per byte.
-/

namespace Verif.Secrets

open Verif.Auth (b64encode b64decodeLoop)
open Verif.Api (splitAll)

/-- An encryption key as the operator writes it: `str` or `bytes` (backends/db_base.py:29-31). -/
inductive Key
  | str (s : Str)
  | bytes (b : Str)
  deriving DecidableEq

/-- The translation of `base64.urlsafe_b64encode` (backends/db_base.py:40). -/
def toUrl (c : Char) : Char := if c = '+' then '-' else if c = '/' then '_' else c

/-- The translation of `base64.urlsafe_b64decode` (backends/db_base.py:35). -/
def ofUrl (c : Char) : Char := if c = '-' then '+' else if c = '_' then '/' else c

/-- `base64.urlsafe_b64encode` (backends/db_base.py:40). -/
def urlsafeEncode (b : Str) : Str := (b64encode (b.map Char.toNat)).map toUrl

/-- `base64.urlsafe_b64decode` on bytes (backends/db_base.py:35): as lenient as `b64decode`, so that
bytes outside the alphabet are skipped. `none` is `binascii.Error`, which is a `ValueError`. -/
def urlsafeDecode (s : Str) : Option Str :=
  (b64decodeLoop 0 0 0 (s.map ofUrl)).map (fun b => b.map Char.ofNat)

/-- backends/db_base.py:30-31 the key as bytes; `none` is `UnicodeEncodeError`. -/
def Key.encode : Key → Option Str
  | .str s => if s.all (fun c => c.toNat < 128) then some s else none
  | .bytes b => some b

/-- backends/db_base.py:33-37. -/
def decode44 (k : Str) : Str :=
  if k.length = 44 then
    match urlsafeDecode k with
    | some raw => raw
    | none => k
  else k

/-- backends/db_base.py:29-45 `_normalize_encrypt_key`; `none` is `ValueError`. -/
def normalizeKey (key : Key) : Option Str :=
  match key.encode with
  | none => none
  | some k => if (decode44 k).length = 32 then some (urlsafeEncode (decode44 k)) else none

/-- backends/db_base.py:48-49 `_is_in_memory_db`. -/
def inMemory (url : Str) : Bool := url = "sqlite://".toList || url = "sqlite:///:memory:".toList

/-- The whitespace that `bytes.strip()` removes (backends/db_base.py:612). -/
def isSpace (c : Char) : Bool :=
  c = ' ' || c = '\t' || c = '\n' || c = '\r' || c = Char.ofNat 11 || c = Char.ofNat 12

/-- `bytes.strip()` (backends/db_base.py:612). -/
def strip (s : Str) : Str := ((s.dropWhile isSpace).reverse.dropWhile isSpace).reverse

/-- backends/db_base.py:611-615 the keys in `DASK_GATEWAY_ENCRYPT_KEYS`. -/
def envKeys (env : Str) : List Str := ((splitAll ';' env).map strip).filter (fun k => k ≠ [])

/-- backends/db_base.py:618-625 `_db_encrypt_keys_validate`; `none` is `ValueError`. -/
def validateKeys (url : Str) (keys : List Key) : Option (List Str) :=
  if keys = [] ∧ inMemory url = false then none else keys.mapM normalizeKey

/-- The value of `db_encrypt_keys` (backends/db_base.py:590-625): the configured list, or else the
keys of the environment (an unset variable is an empty one, line 613). -/
def configuredKeys (url : Str) (config : Option (List Key)) (env : Str) : Option (List Str) :=
  match config with
  | some keys => validateKeys url keys
  | none => validateKeys url ((envKeys env).map Key.bytes)

/-- backends/db_base.py:665-672 `_stop_clusters_on_shutdown_validate`; `none` is `ValueError`. -/
def validateStop (url : Str) (stop : Bool) : Option Bool :=
  if stop = false ∧ inMemory url = true then none else some stop

/-- The `Fernet` class of the cryptography package as used on backends/db_base.py:322, 412, 416: its
two functions, for a key. The randomness and the time that go into a message are an argument of
`enc`. `dec` gives `none` for `InvalidToken`. -/
structure Fernet where
  enc : (key : Str) → (random : Nat) → (message : Str) → Str
  dec : (key : Str) → (token : Str) → Option Str

/-- The assumptions on `Fernet` (backends/db_base.py:322): what was encrypted with a key can be
decrypted with that key and with no other key. This idealises authenticated encryption. -/
structure Fernet.Ideal (F : Fernet) : Prop where
  same : ∀ k r m, F.dec k (F.enc k r m) = some m
  other : ∀ k k' r m, k ≠ k' → F.dec k' (F.enc k r m) = none

/-- backends/db_base.py:317-322 the attribute `fernet`: the outer `none` is the `ValueError` that
`MultiFernet` raises for an empty list, the inner one is no encryption. -/
def cipher (url : Str) (keys : List Str) : Option (Option (List Str)) :=
  if inMemory url = true then some none
  else if keys = [] then none
  else some (some keys)

/-- backends/db_base.py:410-412 `encrypt`: `MultiFernet` encrypts with its first key. -/
def encrypt (F : Fernet) (c : Option (List Str)) (r : Nat) (m : Str) : Str :=
  match c with
  | none => m
  | some ks => F.enc (ks.headD []) r m

/-- backends/db_base.py:414-416 `decrypt`: `MultiFernet` tries its keys in order. -/
def decrypt (F : Fernet) (c : Option (List Str)) (m : Str) : Option Str :=
  match c with
  | none => some m
  | some ks => ks.findSome? (fun k => F.dec k m)

/-- The private data of a cluster (backends/db_base.py:344-357). -/
structure Creds where
  name : Str
  token : Str
  cert : Str
  key : Str
  deriving DecidableEq

/-- The columns of the table `clusters` that hold them (backends/db_base.py:274, 282, 286). -/
structure Row where
  name : Str
  token : Str
  tls : Str
  deriving DecidableEq

/-- A new record (backends/db_base.py:418-419, 424-425, 461-485): the token (ASCII, so that UTF-8 is
one byte per character) and the TLS credentials, encrypted. `r1` and `r2` are the randomness used. -/
def store (F : Fernet) (c : Option (List Str)) (r1 r2 : Nat) (x : Creds) : Row :=
  { name := x.name
    token := encrypt F c r1 x.token
    tls := encrypt F c r2 (x.cert ++ ';' :: x.key) }

/-- One record read back at startup (backends/db_base.py:340-357, 421-422, 427-428): `none` is the
`InvalidToken` of the decryption or the `ValueError` of unpacking the pieces into two. -/
def load (F : Fernet) (c : Option (List Str)) (row : Row) : Option Creds :=
  match decrypt F c row.tls with
  | none => none
  | some t =>
    match splitAll ';' t with
    | [cert, key] =>
      match decrypt F c row.token with
      | none => none
      | some token => some { name := row.name, token := token, cert := cert, key := key }
    | _ => none

/-- One life of the gateway: its configuration and the clusters created in it, with the randomness
used (backends/db_base.py:580-672, 841-843). -/
structure Life where
  config : Option (List Key)
  env : Str
  stop : Bool
  creates : List (Nat × Nat × Creds)

/-- The database connection of a gateway (backends/db_base.py:841-843); `none` if the gateway does
not start because its configuration is rejected. -/
def Life.cipher (url : Str) (l : Life) : Option (Option (List Str)) :=
  match configuredKeys url l.config l.env, validateStop url l.stop with
  | some keys, some _ => Secrets.cipher url keys
  | _, _ => none

/-- The startup of a gateway on a database with these rows (backends/db_base.py:317-357, 841-843): the
clusters it knows; `none` if it does not start. -/
def Life.start (F : Fernet) (url : Str) (l : Life) (rows : List Row) : Option (List Creds) :=
  match l.cipher url with
  | none => none
  | some c => rows.mapM (load F c)

/-- The rows of the database after a gateway has lived (backends/db_base.py:461-485). A gateway that
does not start writes nothing. A database in memory starts empty, and is lost at the end
(backends/db_base.py:318-320). Removal of rows is not part of this model. -/
def Life.live (F : Fernet) (url : Str) (rows : List Row) (l : Life) : List Row :=
  match l.start F url rows, l.cipher url with
  | some _, some c =>
    if inMemory url = true then [] else rows ++ l.creates.map (fun p => store F c p.1 p.2.1 p.2.2)
  | _, _ => rows

/-- The rows after a sequence of lives of gateways on the same database (backends/db_base.py:313-357). -/
def history (F : Fernet) (url : Str) (ls : List Life) : List Row := ls.foldl (Life.live F url) []

end Verif.Secrets

import Verif.Json
/-
Model of helpers in dask-gateway-server/dask_gateway_server/utils.py (rate limiter, LRU cache) and of
the encoding of stored credentials in backends/db_base.py.

Times and token counts of the rate limiter are exact rationals (floats in the code).
-/
namespace Verif.Utils

/-! ### The rate limiter -/

/-- utils.py:92-100 the fields of `RateLimiter` that it reads back (`_max_elapsed` is
`burst / rate`). -/
structure Limiter where
  rate : Rat
  burst : Rat
  tokens : Rat
  last : Rat

/-- utils.py:92-100 `RateLimiter.__init__` at time `now`; `none` is `ZeroDivisionError`
(utils.py:96). -/
def Limiter.new (rate burst now : Rat) : Option Limiter :=
  if rate = 0 then none else some { rate, burst, tokens := burst, last := now }

/-- The smaller of two numbers, `min(a, b)` (utils.py:104-105). -/
def minQ (a b : Rat) : Rat := if b < a then b else a

/-- utils.py:104-107 the tokens that are left after one is taken at time `now`. -/
def Limiter.left (l : Limiter) (now : Rat) : Rat :=
  minQ (l.tokens + minQ (now - l.last) (l.burst / l.rate) * l.rate) l.burst - 1

/-- utils.py:102-116 `RateLimiter._delay` at time `now`: the delay and the new state. -/
def Limiter.delay (l : Limiter) (now : Rat) : Rat × Limiter :=
  (if l.left now < 0 then -(l.left now) / l.rate else 0,
   { l with tokens := l.left now, last := now })

/-- utils.py:118-122 calls of `acquire` at the given times: for each the time at which its sleep is
over. -/
def Limiter.acquires (l : Limiter) : List Rat → List Rat
  | [] => []
  | now :: times => (now + (l.delay now).1) :: (l.delay now).2.acquires times

/-! ### The LRU cache -/

/-- utils.py:250-252 `LRUCache`: the `OrderedDict` as a list, oldest first. -/
structure Lru (α β : Type) where
  maxSize : Nat
  cache : List (α × β)

variable {α β : Type} [DecidableEq α]

/-- The value under a key of the `OrderedDict` (utils.py:258). -/
def find (d : List (α × β)) (k : α) : Option β := (d.find? (fun e => e.1 = k)).map (·.2)

/-- `del d[k]` of the `OrderedDict` (utils.py:271). -/
def erase (d : List (α × β)) (k : α) : List (α × β) := d.filter (fun e => e.1 ≠ k)

/-- `d[k] = v` of the `OrderedDict`: an existing key keeps its place (utils.py:264). -/
def assign (d : List (α × β)) (k : α) (v : β) : List (α × β) :=
  if (find d k).isSome then d.map (fun e => if e.1 = k then (k, v) else e) else d ++ [(k, v)]

/-- utils.py:254-260 `LRUCache.get`. -/
def Lru.get (c : Lru α β) (k : α) : Option β × Lru α β :=
  match find c.cache k with
  | none => (none, c)
  | some v => (some v, { c with cache := erase c.cache k ++ [(k, v)] })

/-- utils.py:262-266 `LRUCache.put`. -/
def Lru.put (c : Lru α β) (k : α) (v : β) : Lru α β :=
  if c.maxSize < (assign c.cache k v).length
  then { c with cache := (assign c.cache k v).tail }
  else { c with cache := assign c.cache k v }

/-- utils.py:268-273 `LRUCache.discard`. -/
def Lru.discard (c : Lru α β) (k : α) : Lru α β := { c with cache := erase c.cache k }

/-- The operations of the cache (utils.py:254, 262, 268). -/
inductive Op (α β : Type) where
  | get (k : α)
  | put (k : α) (v : β)
  | discard (k : α)

/-- One operation (utils.py:254-273). -/
def Lru.step (c : Lru α β) : Op α β → Lru α β
  | .get k => (c.get k).2
  | .put k v => c.put k v
  | .discard k => c.discard k

/-- A history of operations on an empty cache (utils.py:250-252). -/
def Lru.run (maxSize : Nat) (h : List (Op α β)) : Lru α β :=
  h.foldl Lru.step { maxSize, cache := [] }

/-! ### Stored credentials -/

/-- `data.split(sep)` for a single byte `sep` (db_base.py:422). -/
def split (sep : UInt8) : List UInt8 → List (List UInt8)
  | [] => [[]]
  | b :: l =>
    if b = sep then [] :: split sep l
    else match split sep l with
      | [] => [[b]]
      | w :: ws => (b :: w) :: ws

/-- The separator `;` (db_base.py:419, 422). -/
def semicolon : UInt8 := 59

/-- db_base.py:410-416 the encryption in use, `fernet` or none; outside the repository. -/
structure Cipher where
  encrypt : List UInt8 → List UInt8
  decrypt : List UInt8 → List UInt8

/-- db_base.py:418-419 `encode_tls_credentials`. -/
def encodeTls (c : Cipher) (cert key : List UInt8) : List UInt8 :=
  c.encrypt (cert ++ semicolon :: key)

/-- db_base.py:421-422 `decode_tls_credentials`. -/
def decodeTls (c : Cipher) (data : List UInt8) : List (List UInt8) := split semicolon (c.decrypt data)

/-- db_base.py:354-359, 1028-1031 (`tls_cert, tls_key = decode_tls_credentials(...)`): the unpacking
fails (`none`) unless there are exactly two parts. -/
def loadTls (c : Cipher) (data : List UInt8) : Option (List UInt8 × List UInt8) :=
  match decodeTls c data with
  | [cert, key] => some (cert, key)
  | _ => none

end Verif.Utils

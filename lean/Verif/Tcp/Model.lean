import Verif.Json
/-
Model of the TCP side of the proxy: dask-gateway-server/dask-gateway-proxy/pkg/sni/sni.go and
dask-gateway-server/dask-gateway-proxy/cmd/dask-gateway-proxy/main.go:451-535.
-/
namespace Verif.Tcp

/-- One byte of a connection (sni.go:29, 35). -/
abbrev Byte := UInt8

/-- What arrives on a connection until its end: the pieces that reads find, in order (sni.go:44). -/
abbrev Conn := List (List Byte)

/-- One read of at most `k` bytes of a connection (sni.go:44), which gives nothing at the end only. -/
def Conn.read (k : Nat) : Conn → List Byte × Conn
  | [] => ([], [])
  | [] :: cs => Conn.read k cs
  | (b :: c) :: cs =>
    if (b :: c).length ≤ k then (b :: c, cs) else ((b :: c).take k, (b :: c).drop k :: cs)

/-- The size of the buffer of `bufio.NewReader` (sni.go:61). -/
def bufSize : Nat := 4096

/-- A buffered reader (sni.go:61): the bytes in its buffer, and its connection. -/
structure Buf where
  buf : List Byte
  conn : Conn
  deriving DecidableEq

/-- `Peek` of a buffered reader (sni.go:62, 73, 79): reads until there are `n` bytes, the buffer is full
or the connection at its end. Each read adds a byte, so that `fuel` is enough as the size of the
buffer. `none` is the error. -/
def Buf.fill (n : Nat) : Nat → Buf → Buf × Option (List Byte)
  | 0, b => (b, if n ≤ b.buf.length then some (b.buf.take n) else none)
  | fuel + 1, b =>
    if n ≤ b.buf.length then (b, some (b.buf.take n))
    else if bufSize ≤ b.buf.length then (b, none)
    else
      match Conn.read (bufSize - b.buf.length) b.conn with
      | ([], conn) => ({ b with conn }, none)
      | (bytes, conn) => Buf.fill n fuel { buf := b.buf ++ bytes, conn }

/-- sni.go:62, 73, 79 -/
def Buf.peek (b : Buf) (n : Nat) : Buf × Option (List Byte) := b.fill n bufSize

/-- sni.go:29-45 `peekedTCPConn`: the bytes read ahead, and the connection. -/
structure Peeked where
  peeked : List Byte
  conn : Conn
  deriving DecidableEq

/-- sni.go:35-45 `Read` -/
def Peeked.read (p : Peeked) (k : Nat) : List Byte × Peeked :=
  match p.peeked with
  | [] => ((Conn.read k p.conn).1, { p with conn := (Conn.read k p.conn).2 })
  | _ => (p.peeked.take k, { p with peeked := p.peeked.drop k })

/-- sni.go:47-50 `wrapPeeked` -/
def Buf.wrap (b : Buf) : Peeked := { peeked := b.buf, conn := b.conn }

/-- What reading the name gave: the name, whether the connection is TLS, and the connection to go on with
(sni.go:60). -/
structure Sni where
  name : Str
  isTLS : Bool
  conn : Peeked
  deriving DecidableEq

/-- sni.go:78 the length that the header of a record gives -/
def recLen (hdr : List Byte) : Nat := (hdr.getD 3 0).toNat * 256 + (hdr.getD 4 0).toNat

/-- sni.go:60-94 `ReadSNI`; `hello` is the server name that `crypto/tls` finds in a record, empty if none
(sni.go:84-91). `none` is the error. -/
def readSNI (hello : List Byte → Str) (conn : Conn) : Option Sni :=
  match Buf.peek { buf := [], conn } 1 with
  | (_, none) => none
  | (b, some first) =>
    if first.head? ≠ some 0x16 then some { name := [], isTLS := false, conn := b.wrap }
    else
      match b.peek 5 with
      | (b, none) => some { name := [], isTLS := false, conn := b.wrap }
      | (b, some hdr) =>
        match b.peek (5 + recLen hdr) with
        | (b, none) => some { name := [], isTLS := true, conn := b.wrap }
        | (b, some bytes) => some { name := hello bytes, isTLS := true, conn := b.wrap }

/-- What becomes of a new connection (main.go:477-526). -/
inductive Fate where
  /-- main.go:483, 494 closed -/
  | closed
  /-- main.go:490 handled as HTTP -/
  | web (conn : Peeked)
  /-- main.go:507-510 no such cluster: closed -/
  | unknown (name : Str)
  /-- main.go:514-525 connected with the address -/
  | dial (address : Str) (conn : Peeked)
  deriving DecidableEq

/-- main.go:487 -/
def sniPrefix : Str := "daskgateway-".toList

/-- main.go:477-526 `handleConnection`; `routes` gives the empty address for unknown names. -/
def handle (hello : List Byte → Str) (routes : Str → Str) (forwarder : Bool) (conn : Conn) : Fate :=
  match readSNI hello conn with
  | none => .closed
  | some r =>
    if r.isTLS = false ∨ sniPrefix.isPrefixOf r.name = false then
      if forwarder then .web r.conn else .closed
    else
      let name := r.name.drop sniPrefix.length
      if routes name = [] then .unknown name else .dial (routes name) r.conn

/-! ### The two directions of a proxied connection -/

/-- One direction (main.go:519-535). -/
structure Way where
  /-- what its source has sent -/
  sent : List Byte := []
  /-- of this, what the proxy has not read yet -/
  queue : List Byte := []
  /-- whether the source has ended its sending -/
  fin : Bool := false
  /-- what its destination got -/
  delivered : List Byte := []
  /-- whether the proxy's loop is over (main.go:529-531) -/
  over : Bool := false
  /-- whether the proxy closed the reading side of the source (main.go:533) -/
  readClosed : Bool := false
  /-- whether the proxy closed the writing side of the destination (main.go:534) -/
  writeClosed : Bool := false
  deriving DecidableEq

/-- A connection that is being proxied: `true` is the direction from the client (main.go:523-524). -/
structure Session where
  ways : Bool → Way

/-- The beginning (main.go:520-524). -/
def Session.init : Session := { ways := fun _ => {} }

/-- main.go:519-524 -/
def Session.set (s : Session) (d : Bool) (w : Way) : Session :=
  { ways := fun e => if e = d then w else s.ways e }

/-- What happens with it (main.go:519-535). -/
inductive TOp where
  /-- the source of a direction sends -/
  | send (d : Bool) (bytes : List Byte)
  /-- the source of a direction ends its sending -/
  | fin (d : Bool)
  /-- the proxy's loop of a direction reads at most so many bytes and writes them (main.go:530) -/
  | copy (d : Bool) (k : Nat)
  /-- the loop finds the end (main.go:530-534) -/
  | eof (d : Bool)
  deriving DecidableEq

/-- main.go:528-535 the end of the loop of a direction. `io.Copy(in, out)` copies from `out` to `in`, so
that `in.CloseRead()` and `out.CloseWrite()` close the other direction. -/
def Session.finish (s : Session) (d : Bool) : Session :=
  let s := s.set d { s.ways d with over := true }
  s.set (!d) { s.ways (!d) with readClosed := true, writeClosed := true }

/-- One step (main.go:519-535). Writing to a connection closed for writing fails and ends the loop
(main.go:530); bytes that arrive on one closed for reading are still read until there are none, as on
Linux. -/
def Session.step (s : Session) : TOp → Session
  | .send d bytes =>
    let w := s.ways d
    if w.fin then s else s.set d { w with sent := w.sent ++ bytes, queue := w.queue ++ bytes }
  | .fin d => s.set d { s.ways d with fin := true }
  | .copy d k =>
    let w := s.ways d
    if w.over ∨ w.queue = [] ∨ k = 0 then s
    else if w.writeClosed then
      (s.set d { w with queue := w.queue.drop k }).finish d
    else s.set d { w with queue := w.queue.drop k, delivered := w.delivered ++ w.queue.take k }
  | .eof d =>
    let w := s.ways d
    if w.over = false ∧ w.queue = [] ∧ (w.fin ∨ w.readClosed) then s.finish d else s

/-- A history (main.go:519-535). -/
def Session.run (ops : List TOp) : Session := ops.foldl Session.step Session.init

end Verif.Tcp

import Verif.Env.Model
/-
Model of the credentials of clusters as they are used on connections:
dask-gateway-server/dask_gateway_server/tls.py, dask-gateway/dask_gateway/client.py:54-83, 189-196 and
dask-gateway/dask_gateway/comm.py:28-60. Keys are symbols: nobody finds out a key that they were not given, and
nobody signs with a key that they do not hold.
-/
namespace Verif.Handshake

/-- A pair of keys (tls.py:24-26); the public and the private half have the same number. -/
abbrev Key := Nat

/-- What a certificate says (tls.py:45-55); `signer` is the key it was signed with. Times are in seconds. -/
structure Cert where
  subject : Str
  issuer : Str
  altNames : List Str
  key : Key
  signer : Key
  notBefore : Nat
  notAfter : Nat
  deriving DecidableEq

/-- tls.py:10-59 `new_keypair`; `key` is the fresh key and `now` the time. The texts of both are left out; the
serial number is, too. -/
def newKeypair (sni : Str) (key : Key) (now : Nat) : Cert × Key :=
  ({ subject := "dask-internal".toList, issuer := "dask-internal".toList,
     altNames := [sni, "dask-internal".toList, "skein-internal".toList],
     key := key, signer := key, notBefore := now, notAfter := now + 365 * 86400 }, key)

/-! ### What OpenSSL does for the contexts of client.py:76-82 -/

/-- The time is within the period of the certificate (tls.py:52-53). -/
def inPeriod (now : Nat) (c : Cert) : Bool := decide (c.notBefore ≤ now) && decide (now ≤ c.notAfter)

/-- `c` was issued by the holder of `by_` (tls.py:47-48, 54). -/
def issuedBy (c by_ : Cert) : Bool := decide (c.issuer = by_.subject) && decide (c.signer = by_.key)

/-- The chain of certificates of the other end leads to the one in `cafile` (client.py:76-79). OpenSSL asks more of
certificates in the middle of the chain, so that it accepts fewer. -/
def chainOk (anchor : Cert) (now : Nat) : List Cert → Bool
  | [] => inPeriod now anchor && issuedBy anchor anchor
  | c :: rest => inPeriod now c && issuedBy c (rest.headD anchor) && chainOk anchor now rest

/-- An SSL context (client.py:76-81): the certificate in `cafile`, the own certificate with its key, whether the other
end must show a certificate and whether this has to carry the name that was asked for. -/
structure Context where
  anchor : Cert
  own : Cert
  key : Key
  verify : Bool
  checkHost : Bool
  deriving DecidableEq

/-- `load_cert_chain` (client.py:81) raises `SSLError` when key and certificate do not match. -/
def loadCertChain (anchor own : Cert) (key : Key) (verify checkHost : Bool) : Option Context :=
  if own.key = key then some ⟨anchor, own, key, verify, checkHost⟩ else none

/-- client.py:68-82 `get_connection_args`, without the files (for these see `Files`). -/
def connectionArgs (cert : Cert) (key : Key) : Option Context :=
  loadCertChain cert cert key true false

/-- What an end shows in a handshake (comm.py:46-48): its certificate with others that were used to sign it, and the
key with which it signs the handshake. -/
structure Offer where
  chain : List Cert
  key : Key
  deriving DecidableEq

/-- What an end with this context shows (client.py:81). -/
def Context.offer (c : Context) : Offer := ⟨[c.own], c.key⟩

/-- Whether an end goes on after what the other has shown (comm.py:46-50). The server of a handshake always shows a
certificate and signs with its key; `name` is the name asked for, if any. -/
def accepts (ctx : Context) (name : Option Str) (now : Nat) (o : Offer) : Bool :=
  match o.chain with
  | [] => !ctx.verify
  | leaf :: _ =>
    decide (o.key = leaf.key) &&
    (!ctx.verify || chainOk ctx.anchor now o.chain) &&
    (!ctx.checkHost || (match name with | some n => leaf.altNames.contains n | none => true))

/-- What `connect` makes of the connection arguments (comm.py:34-59). -/
inductive Outcome where
  | typeError
  | refused
  | connected
  deriving DecidableEq

/-- comm.py:34-59 `connect`; `path` is that of the address, `peer` what the other end shows, and `peerAccepts` what it
makes of this end. Both ends must be content. Failures of the network are left out. -/
def connect (ctx : Option Context) (path : Str) (now : Nat) (peer : Offer) (peerAccepts : Offer → Bool) : Outcome :=
  match ctx with
  | none => .typeError
  | some c =>
    if accepts c (some ("daskgateway-".toList ++ path)) now peer && peerAccepts c.offer then .connected else .refused

/-- client.py:189-196 `security` with `get_connection_args`: the report of a cluster may come without credentials. -/
def reportArgs : Option (Cert × Key) → Option Context
  | none => none
  | some p => connectionArgs p.1 p.2

/-! ### Schedulers and workers -/

/-- What is in a file (local.py:176-178, jobqueue/base.py:173-176): a certificate, a key or anything else. -/
inductive Content where
  | cert (c : Cert)
  | key (k : Key)
  | other
  deriving DecidableEq

/-- Scheduler or worker (db_base.py:1404, 1416) -/
inductive Role where
  | scheduler
  | worker
  deriving DecidableEq

/-- The name of the variable with the key (db_base.py:1410, 1422) -/
def Role.keyVar : Role → Str
  | .scheduler => "DASK_DISTRIBUTED__COMM__TLS__SCHEDULER__KEY".toList
  | .worker => "DASK_DISTRIBUTED__COMM__TLS__WORKER__KEY".toList

/-- The name of the variable with the certificate (db_base.py:1411, 1423) -/
def Role.certVar : Role → Str
  | .scheduler => "DASK_DISTRIBUTED__COMM__TLS__SCHEDULER__CERT".toList
  | .worker => "DASK_DISTRIBUTED__COMM__TLS__WORKER__CERT".toList

/-- The environment of the process (db_base.py:1404-1426) -/
def Role.env (r : Role) (env : List (Str × Str)) (cert key : Str) : List (Str × Str) :=
  match r with
  | .scheduler => Env.schedulerEnv env cert key
  | .worker => Env.workerEnv env cert key

/-- A certificate read from a file that a variable names (db_base.py:1409, 1411). -/
def readCert (files : List (Str × Content)) (path : Option Str) : Option Cert :=
  match path.bind (lookup files) with
  | some (.cert c) => some c
  | _ => none

/-- A key read from a file that a variable names (db_base.py:1410). -/
def readKey (files : List (Str × Content)) (path : Option Str) : Option Key :=
  match path.bind (lookup files) with
  | some (.key k) => some k
  | _ => none

/-- The context that `distributed` makes from the variables that the gateway sets (db_base.py:1407-1411, 1419-1423): the
other end must show a certificate, its name does not matter. -/
def processContext (r : Role) (env : List (Str × Str)) (files : List (Str × Content)) : Option Context :=
  match readCert files (lookup env "DASK_DISTRIBUTED__COMM__TLS__CA_FILE".toList),
        readCert files (lookup env r.certVar), readKey files (lookup env r.keyVar) with
  | some ca, some own, some k => loadCertChain ca own k true false
  | _, _, _ => none

/-- The directory of the certificates and the two paths, below the working directory of the cluster
(local.py:196-209). -/
def localPaths (workdir : Str) : Str × Str :=
  (workdir ++ "/.certs/dask.crt".toList, workdir ++ "/.certs/dask.pem".toList)

/-- The two files below the directory that is staged for the cluster (jobqueue/base.py:83-88); `dir` is that of
`get_staging_directory`. -/
def stagedPaths (dir : Str) : Str × Str := (dir ++ "/dask.crt".toList, dir ++ "/dask.pem".toList)

/-- The two files in the working directory of the process (db_base.py:1386-1388 for YARN, pbs.py:112-114). -/
def plainPaths : Str × Str := ("dask.crt".toList, "dask.pem".toList)

/-- Writing both files for the process (local.py:174-179, jobqueue/base.py:173-176, yarn.py:141-142). -/
def writePair (files : List (Str × Content)) (paths : Str × Str) (p : Cert × Key) : List (Str × Content) :=
  Dict.set (Dict.set files paths.1 (.cert p.1)) paths.2 (.key p.2)

/-! ### Who holds which key -/

/-- Anyone but the gateway: a user, the processes of a cluster, the proxy, or somebody else on the network
(db_base.py:453-460 makes the pairs, models.py:147-148 and db_base.py:1404-1426 hand them out). -/
abbrev Party := Nat

/-- What there is: the keys that were made, the clusters with their pairs (db_base.py:453-490), who holds which key
and all certificates that anyone has made. -/
structure World where
  fresh : Key
  clusters : List (Str × (Cert × Key))
  holds : List (Party × Key)
  certs : List Cert
  deriving DecidableEq

/-- Before the first cluster is created (db_base.py:330). -/
def World.init : World := ⟨0, [], [], []⟩

/-- What may happen, in any order: the gateway creates a cluster (db_base.py:453-490, controller.py:1205-1207), hands
the pair of a cluster to somebody (models.py:147-152, local.py:176-178), somebody makes a key of their own, passes a key on, or signs
a certificate with any content. -/
inductive Op where
  | create (name : Str) (now : Nat)
  | hand (name : Str) (q : Party)
  | own (q : Party)
  | pass (p q : Party) (k : Key)
  | sign (p : Party) (k : Key) (c : Cert)

/-- One of these (db_base.py:453-490, models.py:147-152): names of clusters are not used twice, keys only passed on by
those who hold them, and certificates signed only with keys that one holds. -/
def World.step (w : World) : Op → World
  | .create name now =>
    match lookup w.clusters name with
    | some _ => w
    | none =>
      let p := newKeypair name w.fresh now
      { w with fresh := w.fresh + 1, clusters := w.clusters ++ [(name, p)], certs := w.certs ++ [p.1] }
  | .hand name q =>
    match lookup w.clusters name with
    | some p => { w with holds := w.holds ++ [(q, p.2)] }
    | none => w
  | .own q => { w with fresh := w.fresh + 1, holds := w.holds ++ [(q, w.fresh)] }
  | .pass p q k => if (p, k) ∈ w.holds then { w with holds := w.holds ++ [(q, k)] } else w
  | .sign p k c => if (p, k) ∈ w.holds then { w with certs := w.certs ++ [{ c with signer := k }] } else w

/-- Any number of them (db_base.py:453-490). -/
def World.run (w : World) (ops : List Op) : World := ops.foldl World.step w

/-- What somebody can show in a handshake: any certificates that there are, but they only sign with a key that they
hold (comm.py:46-48). -/
def World.canShow (w : World) (q : Party) (o : Offer) : Prop :=
  (∀ c ∈ o.chain, c ∈ w.certs) ∧ (q, o.key) ∈ w.holds

/-! ### The files of the client -/

/-- The steps of client.py:68-82 that may fail: making the directory, writing the two files, making the context with
`cafile`, and loading the pair. -/
inductive FileStep where
  | mkdir
  | writeKey
  | writeCert
  | context
  | load
  deriving DecidableEq

/-- A file on disk (client.py:69-75): the directory, the name in it, and whether only the user may enter the
directory (that is how `TemporaryDirectory` makes it). -/
structure File where
  dir : Str
  name : Str
  content : Content
  priv : Bool
  deriving DecidableEq

/-- The disk after one step (client.py:72-75); making the context and loading the pair only read. -/
def writeFile (disk : List File) (dir : Str) (cert : Cert) (key : Key) : FileStep → List File
  | .writeKey => disk ++ [⟨dir, "dask.pem".toList, .key key, true⟩]
  | .writeCert => disk ++ [⟨dir, "dask.crt".toList, .cert cert, true⟩]
  | _ => disk

/-- The disk after each step of the body of the `with` statement (client.py:70-81), up to the one that fails, if any. -/
def bodyTrace (disk : List File) (dir : Str) (cert : Cert) (key : Key) : List FileStep → Option FileStep → List (List File)
  | [], _ => []
  | s :: rest, fails =>
    if fails = some s then []
    else writeFile disk dir cert key s :: bodyTrace (writeFile disk dir cert key s) dir cert key rest fails

/-- client.py:69 `TemporaryDirectory.__exit__`: the directory and what is in it are removed. -/
def removeDir (disk : List File) (dir : Str) : List File := disk.filter (fun f => f.dir != dir)

/-- client.py:68-82 the disk after each step of `get_connection_args`; the last is the one on return. `dir` is a name
that is not in use; `fails` is the step that raises. A step that is cut short may leave a part of its file, which is
in the same directory. -/
def argsTrace (disk : List File) (dir : Str) (cert : Cert) (key : Key) (fails : Option FileStep) : List (List File) :=
  if fails = some .mkdir then [disk]
  else
    let body := bodyTrace disk dir cert key [.writeKey, .writeCert, .context, .load] fails
    disk :: body ++ [removeDir (body.getLastD disk) dir]

end Verif.Handshake

# Formal model of dask-gateway: design

Lean 4.33.0. All paths below are relative to `/repo`. Short names: `S` =
`dask-gateway-server/dask_gateway_server`, `P` = `dask-gateway-server/dask-gateway-proxy`,
`C` = `dask-gateway/dask_gateway`.

## 1. How the model is built

* One Lean directory per subsystem under `lean/Verif/`. `Model.lean` holds definitions that mirror the code
  branch by branch (each with the file and lines it models, and every simplification). `Spec.lean` (or the head of
  `Props.lean`) holds the small independent specification. `Lemmas.lean` holds helpers. `Props.lean` holds only the
  property theorems, each followed by an `example` that meets its hypotheses on a concrete non-trivial case.
* Stateful code is a `step` function over a list of operations. A property of "every history" is a theorem about
  every state reached by `run` from `init` over every operation list.
* Concurrency. Both asyncio programs and the Go proxy's locked sections are atomic between suspension points. A
  coroutine is split at each `await` that can really suspend; an `await` of a coroutine that never suspends (such as
  `Proxy.add_route`) is not a split point. What is in flight is explicit state, so every interleaving is an operation
  list. Outcomes of external calls (start, stop, check, HTTP) are arguments of the operation that resumes the coroutine.
* Exceptions are values (`Except`, `Option` or an explicit result type).
* Crash: the volatile state is dropped and the state is rebuilt from the persistent fields by the code's own load path.
* Time is an integer or rational carried by operations. Floats are modelled by rationals (rounding, NaN and infinity are
  outside the model unless a definition says otherwise).

Where the unchanged code violates a property, the negation is proved on a concrete reachable witness (named
`..._violated` or `..._counterexample`) and the strongest true version is kept as `..._partial`.

## 2. Plan, property by property

| id | what is modelled | how it is proved |
|----|------------------|------------------|
| C01-C04 | `S/workqueue.py` `WorkQueue`: queue, dirty, processing, closed, waiters | invariant over operation lists; refinement of the visible behaviour to an abstract multiset/FIFO specification |
| C05 | timers of `put_after` with an explicit clock | invariant: armed time = minimum of outstanding requests |
| C06 | `Backoff` over rationals, and with the overflow of floats | closed form by induction over the operation list; for floats up to 1024 failures, refuted beyond |
| C07 | waiters and wake-up tokens, cancellation as an operation | invariant without cancellation of woken waiters (`_partial`); counterexample with it |
| C08-C10 | `P/pkg/router/router.go` trie, byte-level path splitting | refinement of the trie to a finite map from segment lists; longest-prefix specification stated on the map |
| C11-C15 | `S/proxy/core.py` event log, `P/cmd/.../main.go` client loop | simulation: proxy table = fold of the event history; C14 negation on a witness, partial version |
| C16-C32 | `S/backends/db_base.py`: clusters, workers, queue, routes, in-flight calls, checks, crash/restart | one transition system, inductive invariants; C17, C22, C24, C30 have counterexamples plus partial theorems |
| C33-C36 | `S/routes.py`, `S/models.py` handlers as functions to a response and effects | decision theorems |
| C37 | `S/backends/base.py` retry loop | induction over outcome lists |
| C38 | `S/auth.py` `UserCache` | invariant over histories |
| C39-C40 | string functions of `S/auth.py`, `C/auth.py` | injectivity / round trip over character lists |
| C41-C43 | `S/options.py`, `C/options.py` over a JSON value type | structural proofs over field lists |
| C44 | `S/backends/base.py` limit computation over integers/rationals | arithmetic |
| C45 | `S/utils.py` `RateLimiter` over rationals | potential argument by induction over acquire times |
| C46 | `S/utils.py` `LRUCache` | refinement to a recency list |
| C47 | byte-list join/split | round trip |
| C48 | `S/backends/kubernetes/utils.py` `merge_json_objects` | structural induction over JSON |
| C49-C53 | `S/backends/kubernetes/utils.py`, `controller.py` informer, pod bookkeeping, scaling, phases | invariants and decision theorems; C51 has a counterexample |
| C54-C56 | `C/scheduler_preload.py` | invariants over histories |
| C57-C58 | `C/client.py` | induction over response lists |
| C59 | `P/pkg/sni/sni.go` peeked connection | induction over read sizes |
| C60, C61, C83-C85 | `S/backends/jobqueue/*`, `yarn.py`, `local.py`, `inprocess.py`: memory requests, status checks, stop calls | arithmetic and list proofs, induction over the attempts; counterexamples where the code is wrong |
| C62 | `get_env` and friends of `S/backends/base.py`, `local.py`, `jobqueue/base.py`, the containers of `kubernetes/controller.py` | dictionary lemmas for every configured environment |
| C63 | `C/comm.py`, address handling of `C/client.py`, with the part of `urllib.parse` they use | string proofs over all hosts, ports, paths and cluster names |
| C64 | the proxy's event stream reader (scanner buffer) | simulation as for C11; counterexample for long lines |
| C65, C66 | `S/auth.py` cookie hand-out and hub scopes | invariant over histories; decision theorem |
| C67 | options handlers of `S/options.py` | structural proof over the fields |
| C68 | the create handler of `S/routes.py` | decision theorem |
| C69 | `S/backends/base.py`, `traitlets` configuration loading | induction over the assignments |
| C70, C71, C93 | `S/backends/kubernetes/controller.py` reconciliation, pod events, removal of records | invariants over operation lists with crashes |
| C72-C76 | `C/scheduler_preload.py` heartbeats, adaptive loop, HTTP handlers | invariants over operation lists |
| C77-C80 | `C/client.py` listing, scaling, life of a cluster object, worker table | induction over histories and responses |
| C81, C82 | `P/pkg/sni/sni.go` proxying | induction over the reads and writes of both directions |
| C86, C87 | objects the Kubernetes controller makes | dictionary and string proofs |
| C88-C92 | `S/backends/kubernetes/backend.py` view of the cluster objects | invariants over histories of objects, secrets and waiting requests |
| C94 | `wait_until` conditions of `get_cluster(wait=True)` on the Backend model | every state satisfying the invariant: the waiters' flags are set as soon as a cluster can no longer become ready |
| C95 | shutdown of the gateway: the set of clusters waited for, on the Backend model | invariant over histories plus the measure of C23 |
| C96 | identity fields of clusters on the Backend model | induction over histories |
| C97 | the reported outcome (stopped or failed) against what happened to the cluster | the stored target never changes once set; witnesses for the two exceptions |
| C98 | a worker reported as running against its messages | induction over histories; witness for the exception |
| C99 | `_normalize_encrypt_key`, base64 with its leniency | counting argument over the decoder loop |
| C100 | `DASK_GATEWAY_ENCRYPT_KEYS` parsing | split and strip lemmas |
| C101 | database records over sequences of gateway lives | induction over the sequence |
| C102 | MultiFernet with idealised Fernet, credentials joined with `;` | induction over the sequence, journal as specification |
| C103 | `stop_clusters_on_shutdown` validation and the rows | case analysis |
| C104 | client retry, cookie jar, cookie cache and authenticators composed | invariant over histories: the jar's cookie is nobody else's; a rejected cookie is dead |
| C105 | the same with Kerberos on both sides, the library a parameter | as C104; witness for the exception |
| C106 | `KerberosAuthenticator.authenticate` | string proofs; witness for two realms |
| C107 | `ServeHTTP` with the router of C08 and Go's URL parsing and writing | string proofs; escape/unescape inverse lemmas; witness for the escaped slash |
| C108 | proxy process, monitor task, shutdown and the proxy's own end as events with times | invariants over histories: older processes are dead, when the monitor's sleep ends |
| C109 | what setup starts and what cleanup stops, in order; any point of failure | list induction; witnesses |
| C110 | `routes_handler`'s check of the header | string proof, `split1` |
| C111 | any number of watching requests over the event log of C11 to C15 | invariant: sent ++ queued is what is owed |
| C112 | `CancelGroup`, `_on_shutdown` | invariant: once cancelled nothing streams; written is a fixed list |
| C113 | backend, routing table and proxy composed into one transition system with crashes | simulation: the table holds exactly the routes of the backend's state; then C11 and C25 |
| C114 | the same | `can_catch_up` of the proxy's loop, backend untouched |
| C115 | the same | invariant: every address in table, events in flight and proxy was reported by that cluster |
| C116 | schedulers and gateway backend composed, with lost, late and interrupted heartbeats | invariant: every worker the gateway thinks runs is known to its scheduler and in every heartbeat under way |
| C117 | the same | invariant: marks of expected closing come from heartbeats that were sent; then C22; counterexample for any number of later heartbeats |
| C118 | the same | C116 and C117, counting of names |
| C119 | the commands, the scripts of Slurm, PBS and YARN, and the words that a POSIX shell makes of a line | induction over words and characters: plain words are read as they are; a command with a blank in a word is read as another |
| C120 | staging directories, `str.format`, `os.path.join`, and starts and stops with every point of failure | the last part of the path is the name; case analysis over steps |
| C121 | the same histories, and those of the local backend | invariant of histories without lost answers; for the others, what is unknown to the gateway stays through any history |
| C122 | `splitlines`, `split`, `strip`, the tables of `squeue` and `qstat` | induction over rows and characters |
| C123 | the command lines of submissions, and how options are read from them | options by name, for all values |
| C124 | `sudo -u` and the accounts | the account of the name that the home directory was looked up for |
| C125 | settings of the proxy, `normalize_address`, start command, Go's flags and `main`, listening | the command line is parsed flag by flag for arbitrary values; decimal round trip of ports; three violations with witnesses |
| C126 | two processes that settle the same configuration with different random draws | token and URL compared; equivalence for the token; violation for default ports |
| C127 | scheduler's client and URLs, proxy, server routes, authentication composed | target of the URL, key of the path below the prefix, longest route, exact request line, then C33 and C62 |
| C128 | the controller's work for one cluster, call by call, with users, pods, endpoints, late informers, failures and restarts in between | invariant of all interleavings: a run's data, and that an idle cluster was last looked at as it is |
| C129 | same | invariant on what is recorded and what exists; violation with a witness of eleven steps |
| C130 | same | the history of the pod as shown runs through four modes in order; invariants on versions, runs and wake-ups; violation with a witness |
| C131 | same | a measure: ranks of unseen versions, pending wake-ups, changes of the pod still possible, calls ahead |
| C132 | the workers of one running cluster: batches of requests one by one, lost answers, pods that change, are deleted and shown late, restarts (`Verif/KubeLoop/Crew.lean`) | invariant: where every pod is placed, how many expected creations and deletions can still be seen, and that a wake-up comes or the books are balanced; a course to rest from every state, by a measure on rounds; violations with witnesses |
| C133 | the options a client shows and sends, from keywords, options object and local configuration, and what the server makes of them (`Verif/Settings/Model.lean`, `Verif/Options/Model.lean`) | what the server makes depends only on the value per field; the options object tracks, per field, the value the server would have |
| C134 | `format_template` on texts (same) | templates written from their parts, both directions, by induction over the text |
| C135 | the addresses of a client and of the clients within its clusters (same, `Verif/Addr/Model.lean`) | parsing of what was written before; violations with witnesses |
| C136 | the texts of JSON as Python writes them and as Python and Go read them (`Verif/Wire/Model.lean`) | by induction over the fuel of the reader: a written value is read back with any rest; what was read of a text is read again when the text goes on, so that nothing can be read of a cut one |
| C137 | the messages between gateway and proxy as texts, Go's decoding, the scanner of lines and its limit (`Verif/Wire/Stream.lean`) | by induction over the batches; connected to the steps of the system of C10 to C14; violation with witness |
| C138 | certificates, keys as symbols, what both ends of a handshake check, and who may hold which key (`Verif/Handshake/Model.lean`) | invariant over all histories: certificates are the cluster's own or signed by a holder of the key; then induction over the chain that is shown |
| C139 | the same, with the environment and the files of processes | equations for what is read from the files; exact period; violation with witness |
| C140 | the steps of `get_connection_args` with the disk (same) | induction over the steps, any of which may fail |
| C141 | clusters on YARN: applications, containers, calls in threads with their results, both caches, the states in the database, restarts (`Verif/Yarn/Model.lean`) | invariant over all histories: cached clients and addresses are those of the recorded application, which stays the same once the start is over |
| C142 | the same | invariant of undisturbed clusters over all histories; violations with witnesses |
| C143 | the same | the cache of clients is one of C46; invariant for stopped clusters; violations with witnesses |
| C144 | `_build_specification` (same) | equations for every part; induction over the files |
| C145 | `check_idle`, `listen`, `stop` of the scheduler's service (Idle/Model) | the loop over streams of turns with any delays; Archimedes for the first check after the timeout; violation with witness |
| C146 | `dask_setup`, the commands of schedulers (same; Batch/Model) | equations for the options; equivalence with a specification of the service |
| C147 | `dashboard_address`, `api_address` (same) | `urlparse` of C63 on both sides; violation with witness |
| C148 | the processes of the machine with their ids, jobs and their states in the database, the steps of starts and stops, crashes (`Verif/Local/Model.lean`) | invariant over all histories: the process at the id of a job that was not stopped is its own; violation with witness |
| C149 | the same | invariant for one job: its processes got SIGKILL or are known by their id; violations with witnesses |
| C150 | the same, with the checks | from the two invariants; violation with witness |
| C151 | the rights of processes, `make_preexec_fn` (same) | equivalence with a specification over the databases of users and groups; violation with witness |
| C152 | cluster objects used by several tasks (`Concurrent`) | invariant over all schedules of calls, steps of tasks, cancellations and answers |
| C153 | the same | invariant relating the closes that returned to the requests; violation with witness |
| C154 | the same | invariant; violation with witness |
| C155 | the same | invariant, and a measure for the end of closes; violation with witness |
| C156 | the in-process backend and its checks (`Inproc`) | equivalence for all states, which is the opposite of the property; witness |
| C157 | starts, stops and restarts of the same | invariant over all histories; violations with witnesses |
| C158 | the values of a Helm release, the text of the configuration file, and how Python reads it (`Helm`) | reading back what was quoted, for all strings; a loop over fields; equivalences; violation with witness |
| C159 | extra configuration in the same file | reading back an indented block; uniqueness of a sorted list |
| C160 | tokens and passwords in values | the file is the same for all tokens; violation with witness |
| C161 | the authenticator in the same file | case analysis for all values |
| C162 | names of the objects of releases | injectivity of names under bounds; violations for all releases and with witnesses |
| C163 | routes and middlewares of Traefik for a release with any clusters | the longest rule that matches; uniqueness of the route of a cluster; violations |
| C164 | resources and commands in pods, amounts as rational numbers and text | rounding to thousandths, reading the text back; violation with witness |
| C165 | objects with owners, and the collector of Kubernetes, for all histories | invariant on owners; the collector gets smaller states; nothing in use is collectable |
| C166 | labels and selectors, and the object of a new cluster | reading the selector back; lookups in updated labels |
| C167 | questions to the backend and their answers, over histories with crashes | the list asked, kept until its answer; positions of the answer; effect on every row |
| C168 | roles and bindings of the chart, requests of gateway and controller, installed releases | case analysis of requests and rules; first letters of names |
| C169 | the script that makes the packaged schema, and what schemas accept | mutual induction over schemas |
| C170 | the cluster manager of the database backends with its timeout checks | invariant that pending work is queued; measure of C20; refutation by a state that every check leaves as it is |
| C171 | sessions of a client, with tasks that interleave at awaits | invariant over courses with one close at a time; refutation with a stable witness |
| C172 | a client and a family of replicas, each with its own cache and cookie | the invariant of C104 for each replica; refutation with two replicas and Kerberos |
| C173 | option parsing with the rounding of integers to floats | case analysis over kinds; bounds of rounding to a grid of powers of two |
| C174 | several replicas with their views, the objects of the API server, and requests to stop; the database backends | invariant: a view only holds clusters that exist or have ended; refutation with a request before the view is filled |
| C175 | the tables with their numbers, the objects that carry the numbers, updates and deletions by number, reading the tables after a crash | refinement: a relation between tables and state that every write keeps; refutation with a number that is given out again |
| C176 | the hook that builds wheels: environment variables, regular expressions for platforms, tags, the target of the Go compiler | parsing lemmas for digits and the longest match; case analysis over platforms |
| C177 | the background tasks as programs in a small language with awaits, exceptions, cancellation and `finally`, run against any sequence of outcomes; pools of tasks | an analysis of how programs can end, proved right by induction over programs and loops; a run that ended is kept by more events; turns of loops by cases; refutations with a failed request, a bad list and ill-timed cancellations |
| C178 | the proxy process as a whole: both accept loops, the goroutine of every connection, the descriptors it holds and their limit | invariant and characterisation of the end over all histories; from every state a course that ends the process; composed with C81 and C82 |
| C179 | the choice of the HTTP proxy of clients: settings, templates, URLs with percent-encoded credentials, the environment | encoding and parsing round trip for every user, password and host; case analysis; refuted for hosts excluded by the environment |
| C180 | the choice and construction of the client's authentication: argument, settings with templates, environment, imports | case analysis over all settings and environments; templates by C134, the gateway's side by C40; refuted for arguments meant for another authentication and for numeric passwords |
| C181 | the handler of cluster options: Python signatures and the binding of positional arguments, the choice between one and two arguments, the frozen mapping, options by user | induction over the parameters shows that binding is counting; arithmetic over all signatures; composed with C67; refuted for keyword-only parameters and for options named like methods |
| C182 | times in cluster objects: ordinals and dates as Python computes them, the text to the second and how it is read, the age of records, the time a client shows | the computed calendar agrees with counting day by day, by induction over the days (injectivity of ordinals, arithmetic over the cycles of 400, 100, 4 and 1 years); round trip of padded numbers by induction over the digits; arithmetic for the age |
| C183 | the options object of the client with all methods of a mutable mapping, the inputs of its form with their bounds and handlers, which set options again; YAML is a parameter | every operation is a list of assignments, by induction over the depth of handlers and over histories, composed with C43; the form by an invariant over histories; refuted for bounds that are zero, integers beyond 64 bits and names of methods |
| C184 | the wrapped clients with their caches and their one rate limiter, calls that sleep, wake up late or are cancelled | invariant over courses on numbers and methods; the times at which sleeps end are a permutation of what the limiter gave, so that C45 applies; refuted for idle time after a long queue and for the number of calls in one second |
| C185 | Flag with its future, the futures that shield makes, and tasks that are cancelled, released and run again at any time | invariant over all histories |
| C186 | run_main with the loop as a list of events: tasks created, tasks ended in any way, signals | induction over events up to the end of the main task, then over those of the cancellation; refuted for tasks that are created during the cancellation |
| C187 | traverse and MarshalJSON on the trie of C08 | induction over tries without double keys, which updates keep; names of routes are split back into segments |
| C188 | the trait Command, the arguments of containers with the references that Kubernetes replaces, the words given to the system by the local backend; the shell of C119 | the shell reads a line that goes on with further words as the words of its beginning and these, by induction over its modes; refuted for texts of several words |
| C189 | the status part of the widget with its cache, the batches of messages, the loss of the connection; the table of C80 | the shown numbers fit the table after every event, by induction over the events; refuted for what happens after the connection was lost |
| C190 | the options for the two classes, their validation with the import of dotted names, the sources of configuration with the rules of traitlets for names of files | the start succeeds exactly with the classes that a relational specification of the sources gives; refuted for files that are missing or have another extension and for misspelled options |
| C191 | the settings for the hub, the TLS context that is made of them, the request to the hub; the answers as in C66 | a request is accepted exactly if a relational specification of address, certificate and answer holds; refuted for an authority or a certificate on its own and for a missing address |
| C192 | each step of `generate-config` that looks at the disk or changes it; other programs act between the steps | invariants over all histories; left alone, it ends as a specification by cases says; refuted for a file made after the check and for a kill while writing |
| C193 | the tasks that take items from a queue, with the wait after a failure in floats | invariant over all histories that counts the tasks that are left; refuted for an object that fails more than 1024 times in succession |
| C194 | the reasons of refusals in the gateway, the error answer, and what the client makes of it | by cases of refusals, for all texts; refuted for messages of several lines and for clusters of others |

Nothing in the list is judged inexpressible. What the models leave out (OS processes, sockets, TLS, SQL engine,
floating point rounding, asyncio's own scheduler, Kubernetes API server) is listed in section 4.

## 3. Trusted base

* Lean's kernel and the axioms `propext`, `Classical.choice`, `Quot.sound` (at most; see the audit in section 6).
* The reading of the code: each definition's citation comment.
* The assumptions in section 4.

## 4. Modelled and not modelled

| code | model | left out |
|------|-------|----------|
| `S/workqueue.py` | `WorkQueue` (all of it) | asyncio's own scheduler (any order is allowed); rationals for floats, but for the overflow of waits (`WorkQueue.Float`). Other models take the wait after a failure to be computable, which is so for 1024 failures in succession (C06, C193) |
| `P/pkg/router/router.go` | `Router` (all of it) | the URL parser of Go |
| `S/proxy/core.py`, `P/cmd/dask-gateway-proxy/main.go` | `ProxyEvents`: the event log, the answers to the proxy, the proxy's client loop; `Watch`: many watchers and shutdown; `Forward`: the URL a request is sent on to; `Supervise`: the proxy's process; `EndToEnd`: together with the backend; `Boot`: settings, command line and listeners; `Serving`: accepting, all connections and their descriptors; `Wire`: the JSON and the event stream between the two | TLS itself; HTTP itself (headers, bodies, connections) |
| `P/pkg/sni/sni.go` | `Tcp`: peeking, choice of the route, copying in both directions | `crypto/tls`' parser of the greeting (a parameter), sockets, time limits of reads |
| `S/backends/db_base.py` | `Backend`: clusters, workers, reconciliation, heartbeats, checks, purging, crash and restart; `Backend/Sql`: tables and row numbers | the SQL engine (a statement does what SQL says, a transaction is one step) |
| `S/backends/db_base.py` encryption keys and stored credentials | `Secrets` | the Fernet cipher (two functions with idealised laws), SQL |
| `S/backends/base.py` | `Config` (limits, overrides), `Api` (forwarding) | traitlets beyond loading, defaults, validation and observation |
| `S/routes.py`, `S/models.py` | `Api` | `/api/health`, `/api/version`, the texts of messages, routing by aiohttp |
| `S/auth.py`, `C/auth.py` | `Auth`, `Session` (client and gateway together, Kerberos) | the Kerberos library (a parameter), HTTP transport, the guessing of secrets, `WWW-Authenticate` headers with several challenges |
| `S/options.py`, `C/options.py` | `Options` | widgets; Python functions given by the administrator are parameters |
| `S/utils.py` | `Utils`: `RateLimiter`, `LRUCache`; `Backends`: process termination | logging, `random_port` |
| `S/tls.py` | `Handshake`: what the certificates say and which connections they allow; elsewhere credentials are byte strings (C47) | the cryptography (keys are symbols) |
| `S/backends/local.py`, `jobqueue/*`, `yarn.py`, `inprocess.py` | `Backends`, `Batch`, `Env`, `Yarn`, `Local`, `Inproc` | the operating system, batch systems and YARN behind their commands (any answer is allowed) |
| `S/backends/kubernetes/utils.py` | `Kube/Merge`, `Kube/Informer` | timestamps as text |
| `S/backends/kubernetes/controller.py` | `Kube/Pods`, `Scaling`, `Phases`, `Objects`, `Amounts`, `Owned`, `Expire`, `KubeLoop` | leader election (there is none), metrics, signals; the API server obeys its list and watch contract, the collector its own |
| `S/backends/kubernetes/backend.py` | `Kube/View`, `Kube/Objects`, `Kube/Start` | the HTTP calls themselves (any answer is allowed) |
| `C/scheduler_preload.py` | `Sched`: heartbeats, adaptive scaling, idle check, HTTP handlers; `Fleet`: heartbeats together with the gateway; `Boot`: its client and the way of its requests; `Idle`: the start of its service and the loop of the idle check | the scheduler of distributed: its events and answers are arguments |
| `C/client.py`, `C/comm.py` | `Client` (with the numbers of the widget), `Addr`, `Concurrent`, `Settings` | the rest of the widget, `repr`, synchronous wrappers, the rpc of distributed |
| `S/app.py`, `run_main` in `S/utils.py` | `Startup`: what is started and stopped, in order; `Stop`: how tasks are ended; `Boot`: addresses; `Chosen`: the classes that the configuration names; `Generate`: the command `generate-config` (the text it writes is any text) | logging, the parsing of the command line |
| `resources/helm/dask-gateway/templates`: configuration maps, secret, names, middlewares, routes | `Helm` | Helm, YAML and Traefik themselves; service accounts, security contexts, probes, the `traefik` templates |
| `dask-gateway-server/hatch_build.py` | `Build` | hatchling, the Go compiler (a parameter), the flags of the linker |
| the loops of background tasks (`S/backends`, `S/proxy/core.py`, `C/scheduler_preload.py`), `TaskPool` of `S/utils.py` | `Tasks`: their control flow with exceptions and cancellation | what the awaited calls do inside (modelled elsewhere), logging, lengths of pauses |

Strings are lists of characters (code points), bytes are natural numbers, JSON is an inductive type with exact numbers
(and NaN and the infinities as separate values where options use them). Names that the gateway draws at random are never
drawn twice.

Other software (traitlets, ipywidgets, Kubernetes, Helm, Traefik, skein, batch systems, Go's and Python's standard
libraries) could not be run or looked up while this was written. Where a comment or note says that such software is modelled
as documented, or after its documentation, this is from memory of that documentation and has not been checked against it.

## 5. Disagreements found between code and property

Each is proved on a concrete witness; the `_partial` theorems of the same property say what does hold.

* C01 (Work items are processed by one consumer at a time). Holds for consumers that mark done only what they hold; the third theorem shows the discipline is needed. Code: dask-gateway-server/dask_gateway_server/workqueue.py: WorkQueue._put, _get, task_done. Theorems: `WorkQueue.mutual_exclusion_needs_discipline`.
* C06 (Retry backoff is exponential, capped and resettable). The formula is proved over exact rationals, and for the floats of the program up to 1024 failures in succession; after that the wait raises OverflowError (C06_overflow_violated). Code: dask-gateway-server/dask_gateway_server/workqueue.py: Backoff.backoff, reset, failures. Theorems: `WorkQueue.C06_overflow_violated`.
* C07 (No getter sleeps while an item is queued). The code loses a wake-up when a getter is cancelled after it was woken; proved for histories without such cancellations, and the violation is proved on a concrete history. Code: dask-gateway-server/dask_gateway_server/workqueue.py: WorkQueue._wakeup_next, get. Theorems: `WorkQueue.no_lost_wakeup_violated`.
* C105 (With Kerberos, too, callers get the answer of the gateway). Refuted: an error raised by a handler skips pre_response, so the response lacks the server's ticket and the client reports a failed negotiation instead of the error, on every call for which it has to log in. Proved for all other calls. Code: dask-gateway-server/dask_gateway_server/auth.py:KerberosAuthenticator; dask-gateway-server/dask_gateway_server/auth.py:Authenticator.authenticate_and_handle; dask-gateway-server/dask_gateway_server/routes.py:_wrap_error_handler; dask-gateway/dask_gateway/auth.py:KerberosAuth. Theorems: `Session.C105_violated`.
* C106 (Different Kerberos principals are different users). Refuted across realms: the realm is cut off. Proved within a realm, and that a ticket is needed. Code: dask-gateway-server/dask_gateway_server/auth.py:KerberosAuthenticator.authenticate. Theorems: `Session.C106_violated`.
* C107 (A proxied request arrives as it was sent). Refuted as stated: behind a route with a prefix an escaped slash arrives as a slash (RawPath is not adjusted, so Go encodes the path anew), and a leading double slash collapses. Proved: 404 exactly without a route, the decoded path and the query always arrive, the gateway's own requests arrive byte for byte, and canonically written paths arrive as written. Go's net/url is modelled after its documentation; headers and bodies are not modelled. Code: dask-gateway-server/dask-gateway-proxy/cmd/dask-gateway-proxy/main.go:ServeHTTP. Theorems: `Forward.C107_violated`.
* C109 (A failed or interrupted start stops everything it had started). Proved for the controller at every point. Refuted for the gateway: if the backend has not opened its session yet, the cleanup stops at the missing attribute and the authenticator's session stays open; with YARN, if the skein client fails, the proxy process, tasks and sessions are not stopped. Proved for the gateway from the last such point on. Code: dask-gateway-server/dask_gateway_server/app.py:DaskGateway.main; dask-gateway-server/dask_gateway_server/app.py:DaskGateway.cleanup; dask-gateway-server/dask_gateway_server/utils.py:run_main; dask-gateway-server/dask_gateway_server/backends/db_base.py:DBBackendBase.cleanup; dask-gateway-server/dask_gateway_server/backends/kubernetes/controller.py:KubeController.cleanup. Theorems: `Startup.C109_violated`.
* C113 (Traffic for a cluster reaches that cluster). Proved for histories in which every restart of the gateway is noticed by the proxy (otherwise C14 is refuted, and here C113_finished_gets_nothing_violated) and every reported dashboard address is a URL that Go accepts. Composes Verif.Backend with Verif.ProxyEvents and Verif.Tcp. Code: dask-gateway-server/dask_gateway_server/backends/db_base.py:DBBackendBase._check_cluster_proxied; dask-gateway-server/dask_gateway_server/backends/db_base.py:DBBackendBase._cluster_to_stopped; dask-gateway-server/dask_gateway_server/proxy/core.py:Proxy.add_route; dask-gateway-server/dask-gateway-proxy/cmd/dask-gateway-proxy/main.go:routesWatcher; dask-gateway-server/dask-gateway-proxy/cmd/dask-gateway-proxy/main.go:ServeHTTP. Theorems: `EndToEnd.C113_finished_gets_nothing_violated`.
* C116 (A scheduler's heartbeats are handled). Composes Verif.Sched with Verif.Backend: heartbeats are those that a scheduler made. If the scheduler's process is replaced the statement fails (C116_replaced_violated), which is why the property excludes it. Code: dask-gateway/dask_gateway/scheduler_preload.py:GatewaySchedulerService.heartbeat; dask-gateway/dask_gateway/scheduler_preload.py:GatewaySchedulerService.worker_added; dask-gateway/dask_gateway/scheduler_preload.py:GatewaySchedulerService.worker_removed; dask-gateway-server/dask_gateway_server/backends/db_base.py:DBBackendBase.on_cluster_heartbeat. Theorems: `Fleet.C116_replaced_violated`.
* C117 (A worker that fails is replaced). The code violates the property: if the answer to a heartbeat that announced a worker as closing is lost, or its retirement fails, the worker stays marked; when it fails later it is not replaced, through any number of further heartbeats. Proved up to workers that were announced, and in full for schedulers that never had more workers than they requested. Code: dask-gateway/dask_gateway/scheduler_preload.py:GatewaySchedulerService.heartbeat; dask-gateway-server/dask_gateway_server/backends/db_base.py:DBBackendBase.on_cluster_heartbeat; dask-gateway-server/dask_gateway_server/backends/db_base.py:DBBackendBase.reconcile_worker; dask-gateway-server/dask_gateway_server/backends/db_base.py:DBBackendBase._check_cluster_scale. Theorems: `Fleet.C117_failed_replaced_violated`.
* C119 (Jobs run the configured command). The code violates the property: words are joined by blanks without quotes, so a word with a blank becomes two (C119_violated). Proved for words without characters that have a meaning to the shell. The shell is modelled after POSIX. Code: dask-gateway-server/dask_gateway_server/backends/jobqueue/slurm.py:SlurmBackend.get_submit_cmd_env_stdin; dask-gateway-server/dask_gateway_server/backends/jobqueue/pbs.py:PBSBackend.get_submit_cmd_env_stdin; dask-gateway-server/dask_gateway_server/backends/yarn.py:YarnBackend._build_specification; dask-gateway-server/dask_gateway_server/backends/db_base.py:DBBackendBase.get_scheduler_command; dask-gateway-server/dask_gateway_server/backends/db_base.py:DBBackendBase.get_worker_command. Theorems: `Batch.C119_violated`.
* C121 (Nothing is left of a cluster that has ended). The code violates the property: after a refused submission the key stays for good; if the answer is lost or the gateway ends before it is stored, job and key stay; the local backend leaves the key if an exception comes before the directory is recorded. Proved for histories without these. Code: dask-gateway-server/dask_gateway_server/backends/jobqueue/base.py:JobQueueBackend.do_start_cluster; dask-gateway-server/dask_gateway_server/backends/jobqueue/base.py:JobQueueBackend.do_stop_cluster; dask-gateway-server/dask_gateway_server/backends/jobqueue/launcher.py:start; dask-gateway-server/dask_gateway_server/backends/jobqueue/launcher.py:stop; dask-gateway-server/dask_gateway_server/backends/local.py:LocalBackend.do_start_cluster; dask-gateway-server/dask_gateway_server/backends/local.py:LocalBackend.do_stop_cluster. Theorems: `Batch.C121_nothing_left_violated`, `Batch.C121_orphan_violated`, `Batch.C121_local_violated`.
* C122 (Jobs are known to the batch system by the id the gateway uses). Proved for PBS and for Slurm with one cluster. On Slurm with several clusters `sbatch --parsable` prints the cluster's name after the id and the code takes both for the id (C122_violated): every running job is then taken for gone and cannot be cancelled. Code: dask-gateway-server/dask_gateway_server/backends/jobqueue/slurm.py:SlurmBackend.parse_job_states; dask-gateway-server/dask_gateway_server/backends/jobqueue/slurm.py:SlurmBackend.parse_job_id; dask-gateway-server/dask_gateway_server/backends/jobqueue/pbs.py:PBSBackend.parse_job_states; dask-gateway-server/dask_gateway_server/backends/jobqueue/pbs.py:PBSBackend.parse_job_id; dask-gateway-server/dask_gateway_server/backends/jobqueue/base.py:JobQueueBackend._do_check. Theorems: `Batch.C122_violated`.
* C125 (The proxy process runs with exactly the settings of the gateway). Accepted settings reach the process exactly, for all values. Not true as stated: an empty token is accepted although each process then ends at once (C125_token_violated); two spellings of the same address make the process end (C125_wildcard_violated); numbers that are no ports are accepted (C125_port_violated). Go's flag package is modelled after its source; which URLs url.Parse accepts and where the system allows to listen are parameters. Code: dask-gateway-server/dask_gateway_server/proxy/core.py: Proxy.get_start_command, get_start_env, validators; dask-gateway-server/dask_gateway_server/utils.py: normalize_address; dask-gateway-server/dask-gateway-proxy/cmd/dask-gateway-proxy/main.go: main, run. Theorems: `Boot.C125_token_violated`, `Boot.C125_wildcard_violated`, `Boot.C125_port_violated`.
* C126 (A proxy that is started on its own finds the gateway and is let in). Holds if the token is configured or set in both environments and the gateway has a fixed port or its URL is configured. Not true by default: both processes draw their own token and port (C126_default_violated, C126_port_violated). Code: dask-gateway-server/dask_gateway_server/proxy/core.py: ProxyApp.start, Proxy.api_token, Proxy.gateway_url; dask-gateway-server/dask_gateway_server/app.py: DaskGateway.address. Theorems: `Boot.C126_port_violated`, `Boot.C126_default_violated`.
* C129 (A cluster on Kubernetes that has ended has left nothing behind). Proved for clusters that are stopped after their pod and credentials are recorded. Not true as stated: a stop during the first reconciliation leaves pod and credentials, although no call fails (C129_violated). Code: dask-gateway-server/dask_gateway_server/backends/kubernetes/controller.py: cleanup_cluster_resources, handle_pending_cluster, create_scheduler_pod_if_not_exists, create_secret_if_not_exists, patch_cluster_status; dask-gateway-server/dask_gateway_server/backends/kubernetes/backend.py: do_stop_cluster. Theorems: `KubeLoop.C129_violated`.
* C13 (Retained events are bounded). Proved for max_events >= 2; for 0 and 1 the code never drops an event and the violation is proved. Code: dask-gateway-server/dask_gateway_server/proxy/core.py: Proxy._append_event. Theorems: `ProxyEvents.retained_bounded_violated`.
* C130 (The recorded phase of a cluster on Kubernetes follows its scheduler). That a cluster fails only if its scheduler ended or was deleted holds for every interleaving (C130_failed). The phase follows the scheduler if others delete the pod only after the controller has seen that it is recorded (C130_follows_partial). Not true as stated: if the pod of a pending cluster is deleted, the cluster stays pending for ever (C130_violated). Code: dask-gateway-server/dask_gateway_server/backends/kubernetes/controller.py: handle_pending_cluster, handle_running_cluster, on_pod_event, on_endpoints_event, handle_cluster; dask-gateway-server/dask_gateway_server/backends/kubernetes/utils.py: Informer. Theorems: `KubeLoop.C130_violated`.
* C132 (A running cluster on Kubernetes gets the workers it asked for). For every interleaving, if every existing worker pod has a container status that fits a set, and others delete only pods the controller has seen. Without either the code violates the property: a pod without container status (no node has room for it) is never counted, so the expected creation stays open and later scale requests are ignored, witness C132_stuck_violated; a pod that others delete before it was seen is not replaced, witness C132_unseen_violated. Both last until the expectations expire after 600 seconds and another event wakes the controller. That the controller can always get to where nothing is left to do is C132_settles_partial: a course of its own steps leads there from every reachable state; that every course does is not proved. Code: dask-gateway-server/dask_gateway_server/backends/kubernetes/controller.py: ClusterInfo, on_pod_update, on_pod_delete, handle_running_cluster, batch_create_pods, create_pod, delete_pod, handle_scale_up, handle_scale_down; dask-gateway-server/dask_gateway_server/backends/kubernetes/backend.py: on_cluster_heartbeat. Theorems: `KubeLoop.C132_stuck_violated`, `KubeLoop.C132_unseen_violated`.
* C135 (Arguments win over the configuration, and the clusters of a client use the same gateway). The second part holds if the address of the proxy is given as a URL, as host and port, or not at all and the gateway is not given by an IPv6 address. An address with a path but no scheme is cut differently the second time, witness C135_path_violated. A port that is given by a template, as the documentation allows, is taken for a host, witness C135_port_violated. Code: dask-gateway/dask_gateway/client.py: Gateway.__init__, GatewayCluster._init_internal; dask-gateway/dask_gateway/utils.py: format_template. Theorems: `Settings.C135_path_violated`, `Settings.C135_port_violated`.
* C137 (The proxy takes over the changes of routes as the gateway wrote them, wherever the connection breaks). Holds for batches whose text is shorter than 64 KiB. The proxy takes a longer one for the end of the stream and asks for it again for ever, witnesses C137_long_violated and C137_stuck (C64). Code: dask-gateway-server/dask_gateway_server/proxy/core.py: Proxy.routes_handler, _append_event; dask-gateway-server/dask-gateway-proxy/cmd/dask-gateway-proxy/main.go: evIter.Next, getRoutingTable, watchRoutes. Theorems: `Wire.C137_long_violated`.
* C139 (Those who hold the credentials of a cluster can connect to each other). Holds for 365 days after the creation of a cluster. Certificates are never renewed, so that later no client and no worker can connect to a cluster that still runs: witness C139_year_violated. Code: dask-gateway-server/dask_gateway_server/tls.py: new_keypair; dask-gateway/dask_gateway/client.py: GatewaySecurity.get_connection_args; dask-gateway/dask_gateway/comm.py: GatewayConnector.connect; dask-gateway-server/dask_gateway_server/backends/db_base.py: get_scheduler_env, get_worker_env, get_tls_paths; dask-gateway-server/dask_gateway_server/backends/local.py: _get_tls_paths; dask-gateway-server/dask_gateway_server/backends/jobqueue/base.py: get_tls_paths; dask-gateway-server/dask_gateway_server/backends/yarn.py: get_tls_paths. Theorems: `Handshake.C139_year_violated`.
* C14 (A gateway restart does not leave the proxy stale). The code violates the property when no request of the proxy fails during the restart: ids start again at 1 and the stale last_id is accepted. Proved for restarts that the proxy notices. Code: dask-gateway-server/dask_gateway_server/proxy/core.py: Proxy.setup, _events_after; dask-gateway-server/dask-gateway-proxy/cmd/dask-gateway-proxy/main.go: watchRoutes. Theorems: `ProxyEvents.restart_not_stale_violated`.
* C142 (On YARN, nothing of a cluster goes on running after it was stopped). Violated when the submission takes longer than the gateway waits, when the gateway is killed while a cluster is being started (it submits a second application and forgets the first), and when YARN cannot be told to end the application, of which only a warning is left. Proved for all other histories. Code: dask-gateway-server/dask_gateway_server/backends/yarn.py: do_start_cluster, do_stop_cluster; dask-gateway-server/dask_gateway_server/backends/db_base.py: start_cluster, stop_cluster. Theorems: `Yarn.C142_late_violated`, `Yarn.C142_crash_violated`, `Yarn.C142_recorded_violated`, `Yarn.C142_failed_violated`.
* C143 (On YARN, nothing is kept for clusters that have ended). Violated when the check of workers goes on with a cluster that has been stopped since it began, and when the request to end the application fails: then the address stays until the gateway is restarted. Proved for all other histories. Code: dask-gateway-server/dask_gateway_server/backends/yarn.py: _get_app_client, do_stop_cluster, do_check_workers; dask-gateway-server/dask_gateway_server/utils.py: LRUCache. Theorems: `Yarn.C143_check_violated`, `Yarn.C143_failed_violated`.
* C145 (An idle cluster is shut down). Violated after a request that fails, for instance while the gateway restarts: the exception ends the loop, and the cluster is never shut down. Proved as long as no request fails. Code: dask-gateway/dask_gateway/scheduler_preload.py: GatewaySchedulerService.check_idle, listen, stop. Theorems: `Idle.C145_violated`.
* C147 (The addresses that a scheduler reports lead to it). Violated for schedulers at IPv6 addresses, whose brackets are lost. Proved for names and IPv4 addresses. Code: dask-gateway/dask_gateway/scheduler_preload.py: dashboard_address, listen; dask-gateway-server/dask_gateway_server/backends/base.py: forward_message_to_scheduler. Theorems: `Idle.C147_ipv6_violated`.
* C148 (The gateway signals only the processes that it started). Violated when the system gives the id of an ended process to another one: only the id is kept, so the stop sends SIGINT, SIGTERM and SIGKILL to a stranger. Proved for all histories in which no new process gets the id of a job that has not been stopped. Code: dask-gateway-server/dask_gateway_server/backends/local.py: stop_process, do_stop_cluster, do_stop_worker, is_running; dask-gateway-server/dask_gateway_server/backends/db_base.py: _cluster_to_stopped, _worker_to_closed. Theorems: `Local.C148_reuse_violated`.
* C149 (A stopped cluster or worker of the local backend leaves no process). Violated by a crash of the gateway between the start of a process and the write of the status: the process is left running. Proved for jobs that are not hit by a crash in that interval, with any other crashes and any use of process ids. Code: dask-gateway-server/dask_gateway_server/backends/local.py: start_process, stop_process; dask-gateway-server/dask_gateway_server/backends/db_base.py: _cluster_to_starting, _worker_to_starting, _cluster_to_stopped, load_database_state. Theorems: `Local.C149_crash_violated`, `Local.C149_again_violated`, `Local.C149_created_violated`.
* C150 (The checks of the local backend tell whether the process runs). Violated when the id of the process is used again. Proved that a running process is said to run (unless the gateway crashed during its start) and, without such use, the converse. Code: dask-gateway-server/dask_gateway_server/backends/local.py: do_check_clusters, do_check_workers, is_running. Theorems: `Local.C150_reuse_violated`.
* C151 (The processes of a cluster have only the rights of its user). Violated where the further groups cannot be set: the failure is printed only, and the process keeps the groups of the gateway. User, group and directory are always right, or the process is not run. Code: dask-gateway-server/dask_gateway_server/backends/local.py: make_preexec_fn, start_process. Theorems: `Local.C151_groups_violated`.
* C153 (Closing with shutdown asks for the stop of the cluster, whatever other tasks do). Violated when the close comes during the submission: the name is not known yet, so the cluster is left running. Proved for all other schedules. Code: dask-gateway/dask_gateway/client.py: GatewayCluster._start_internal, _start_async, _stop_internal, _stop_async, close; dask-gateway/dask_gateway/utils.py: cancel_task. Theorems: `Concurrent.C153_submission_violated`.
* C154 (An object told not to shut down keeps its cluster). Violated by close(shutdown=False) during the start of an object with shutdown_on_close: a waiting task cleans up and stops the cluster. Code: dask-gateway/dask_gateway/client.py: GatewayCluster._start_internal, _start_async, _stop_internal, _stop_async, close; dask-gateway/dask_gateway/utils.py: cancel_task. Theorems: `Concurrent.C154_keep_violated`.
* C155 (A close ends, and can be repeated after being cancelled). Violated by a close that is cancelled: the shared stop task stays cancelled, and later closes raise CancelledError without a request. Every call of close ends. Code: dask-gateway/dask_gateway/client.py: GatewayCluster._start_internal, _start_async, _stop_internal, _stop_async, close; dask-gateway/dask_gateway/utils.py: cancel_task; dask-gateway/dask_gateway/client.py: Gateway.sync. Theorems: `Concurrent.C155_cancelled_violated`.
* C156 (Checks of the in-process backend fail only clusters and workers that do not run). Violated throughout: the test of the status is inverted, so the clusters and workers that run are counted as failed and the closed ones are not. Only those that are not there at all are treated as they should be. Code: dask-gateway-server/dask_gateway_server/backends/inprocess.py: InProcessBackend._check_status, do_check_clusters, do_check_workers; dask-gateway-server/dask_gateway_server/backends/db_base.py: check_clusters_loop, check_workers_loop. Theorems: `Inproc.C156_failed_violated`, `Inproc.C156_inverted_violated`.
* C157 (A stopped cluster of the in-process backend leaves nothing). Violated when the start failed before the scheduler object, or the gateway was restarted: the stop raises KeyError and the directory stays. Proved for all clusters with a scheduler object. Code: dask-gateway-server/dask_gateway_server/backends/inprocess.py: InProcessBackend.do_start_cluster, do_stop_cluster, do_start_worker, do_stop_worker; dask-gateway-server/dask_gateway_server/backends/db_base.py: _cluster_to_stopped. Theorems: `Inproc.C157_directory_violated`, `Inproc.C157_stays_violated`.
* C158 (Values of a Helm release arrive in the gateway's configuration as given). Holds for the sixteen settings of clusters and for the image. It does not hold for the secrets to pull images: they are dropped if the values name no image, and are set to null if they are null, which no cluster can be started with. Reading back JSON is an assumption on Go and Python, the quoting between them is proved. Code: resources/helm/dask-gateway/templates/gateway/configmap.yaml: _PROPERTIES, get_property, fields of KubeClusterConfig; resources/helm/dask-gateway/values.yaml: gateway.backend. Theorems: `Helm.C158_secrets_violated`.
* C160 (Secrets in the values of a Helm release are kept in Secrets). Holds for the token of JupyterHub. The password of the simple authenticator is written to the ConfigMap. Code: resources/helm/dask-gateway/templates/gateway/configmap.yaml: _PROPERTIES; resources/helm/dask-gateway/templates/gateway/secret.yaml; resources/helm/dask-gateway/templates/gateway/deployment.yaml: JUPYTERHUB_API_TOKEN. Theorems: `Helm.C160_password_violated`.
* C162 (The parts of one Helm release belong together, those of different releases do not). The parts of a release belong together. Different releases are apart if their names are different and not too long, and both or neither contain the name of the chart. Releases of one name in several namespaces are not apart: each takes the clusters of the others for its own. Helm refuses to install them together where the chart sets up the accounts (C162_installed_partial), but not where accounts are given. Code: resources/helm/dask-gateway/templates/_helpers.tpl: dask-gateway.fullname, apiName, controllerName; resources/helm/dask-gateway/templates/gateway/configmap.yaml; resources/helm/dask-gateway/templates/controller/configmap.yaml; resources/helm/dask-gateway/templates/gateway/middleware.yaml; dask-gateway-server/dask_gateway_server/backends/kubernetes/backend.py: label_selector. Theorems: `Helm.C162_namespace_violated`, `Helm.C162_contains_violated`, `Helm.Rbac.C162_installed_violated`.
* C163 (Requests below the prefix of a Helm release reach the API or the right cluster). Holds for prefixes that begin with a slash and do not end with one, and for names of the allowed characters. Without a slash at the beginning nothing reaches the API; with two at the end the pages of clusters get wrong paths; paths that only begin with the characters of the prefix also reach the API. Code: resources/helm/dask-gateway/templates/gateway/ingressroute.yaml; resources/helm/dask-gateway/templates/gateway/middleware.yaml; dask-gateway-server/dask_gateway_server/backends/kubernetes/controller.py: make_ingressroute, proxy_prefix. Theorems: `Helm.C163_slash_violated`, `Helm.C163_paths_violated`.
* C164 (Pods ask Kubernetes for what was configured or chosen). Holds unless the extra configuration of pods names resources or arguments itself. Refuted for acceptability: if the configuration sets a limit and the options let users choose more, the pods ask for more than their limit, which Kubernetes refuses. Cores are written to within half a thousandth. Code: dask-gateway-server/dask_gateway_server/backends/kubernetes/controller.py: make_pod, get_worker_command; dask-gateway-server/dask_gateway_server/backends/kubernetes/backend.py: KubeClusterConfig; dask-gateway-server/dask_gateway_server/backends/base.py: ClusterConfig. Theorems: `Kube.C164_acceptable_violated`.
* C165 (On Kubernetes nothing of a cluster outlives it). The collector of Kubernetes is modelled by its contract: it removes an object all of whose owners are gone. Code: dask-gateway-server/dask_gateway_server/backends/kubernetes/controller.py: make_secret, make_pod, make_service, make_ingressroute, make_ingressroutetcp, set_owner. Theorems: `Kube.Owned.C165_no_leak`.
* C166 (A new cluster on Kubernetes is watched by its own gateway, under the name its user gets). Refuted: extra pod labels replace that of the instance, so that a pod is hidden from the controller that made it and shown to another. Holds for instance names without commas and equality signs (no others are values of labels) and unless the extra configuration of pods sets the labels of the gateway itself. Code: dask-gateway-server/dask_gateway_server/backends/kubernetes/backend.py: start_cluster, make_cluster_object, get_labels, label_selector, get_cluster_name; dask-gateway-server/dask_gateway_server/backends/kubernetes/controller.py: label_selector, setup. Theorems: `Kube.C166_violated`.
* C168 (The parts of a Helm release may do in Kubernetes what they need, and little else). Holds except that the gateway may read all secrets of all namespaces (refuted). Kubernetes' authorization by roles is modelled by its contract; accounts that are given in the values are not covered. Code: resources/helm/dask-gateway/templates/gateway/rbac.yaml; resources/helm/dask-gateway/templates/controller/rbac.yaml; resources/helm/dask-gateway/templates/gateway/deployment.yaml; resources/helm/dask-gateway/templates/controller/deployment.yaml; dask-gateway-server/dask_gateway_server/backends/kubernetes/backend.py: start_cluster, stop_cluster, on_cluster_heartbeat, sync_cluster; dask-gateway-server/dask_gateway_server/backends/kubernetes/controller.py: setup, delete_cluster, patch_cluster_status, cleanup_cluster_resources, create_*_if_not_exists. Theorems: `Helm.Rbac.C168_secrets_violated`.
* C17 (Every stored cluster can be queried). The code violates the property: a status check of clusters that returns after the cluster stopped leaves it without a status. Proved for histories in which no such check returns, and for all clusters that are not finished in every history. Code: dask-gateway-server/dask_gateway_server/backends/db_base.py: Cluster.model_status, to_model, check_clusters_loop. Theorems: `Backend.C17_queryable_violated`.
* C170 (Nobody waits for ever for a cluster to start). Proved unless a running cluster was not heard of since the gateway started: then every timeout check raises, and a pending cluster of another user is never given up (C170_waits_violated). That the work caused by the check ends is C20_stop_bounded. Code: dask-gateway-server/dask_gateway_server/backends/db_base.py: _check_timeouts, reconcile_cluster, _cluster_to_submitted. Theorems: `Backend.C170_waits_violated`.
* C171 (A client keeps one connection pool and closes it). Proved if closes do not overlap; if two closes overlap and a request is made in between, its session is forgotten and stays open (C171_leak_violated). Sessions and connectors of aiohttp are assumed to behave as stated at the head of Client/Conn.lean. Code: dask-gateway/dask_gateway/client.py: Gateway._request, Gateway._cleanup, Gateway.close. Theorems: `Client.Conn.C171_leak_violated`.
* C172 (The gateway can be scaled to several replicas). That each call is carried out once and for the right user is proved for all authenticators, and the result for basic and JupyterHub authentication. With Kerberos the result is proved only for calls whose requests all go to one replica: otherwise a call that was carried out can be reported as a failed negotiation (C172_kerberos_violated). The default name of the cookie is assumed, which differs between replicas. Code: docs/source/install-kube.rst; resources/helm/dask-gateway/templates/gateway/deployment.yaml; dask-gateway-server/dask_gateway_server/auth.py: Authenticator.authenticate_and_handle, UserCache; dask-gateway/dask_gateway/client.py: Gateway._request; dask-gateway/dask_gateway/auth.py: KerberosAuth.post_response. Theorems: `Session.Replicas.C172_kerberos_violated`.
* C174 (A request to stop a cluster that is answered with success takes effect). Holds for the database backends (C174_database). On Kubernetes it holds for clusters the replica knows; a request for one it has not heard of yet is answered with 204 and ignored (C174_violated, C174_restart_violated). Code: dask-gateway-server/dask_gateway_server/routes.py: delete_cluster; dask-gateway-server/dask_gateway_server/backends/kubernetes/backend.py: KubeBackend.get_cluster, stop_cluster, start_cluster, sync_clusters_loop; dask-gateway-server/dask_gateway_server/backends/db_base.py: DBBackendBase.stop_cluster. Theorems: `Kube.C174_violated`, `Kube.C174_restart_violated`.
* C175 (What the gateway knows is what is in its database). Holds for databases that never use the number of a row twice (C175_sequence, C175_refines). SQLite does: there it holds as long as nothing is written about removed clusters (C175_sqlite_partial), but a check that is answered late changes the row of another cluster (C175_sqlite_violated). Code: dask-gateway-server/dask_gateway_server/backends/db_base.py: DataManager (load_database_state, cleanup_expired, create_cluster, create_worker, update_cluster, update_clusters, update_worker, update_workers), _IntEnum, DBBackendBase.check_clusters_loop. Theorems: `Backend.C175_sqlite_violated`.
* C176 (The executable in a wheel of the server is for the platform of the wheel). Holds where Python names one processor and the variables of the Go compiler are not both set. If both are set the tag is that of the machine and not of the executable (C176_cross_violated); the Python of macOS for both processors gives a wheel for both with an executable for one (C176_universal_violated). Code: dask-gateway-server/hatch_build.py: CustomBuildHook._prepare_wheel, _get_platform_tag, _target_platform, _get_env_bool, _to_goarch, _go_env. Theorems: `Build.C176_cross_violated`, `Build.C176_universal_violated`.
* C177 (Background work goes on whatever fails, and ends when told to). Proved for the tasks of the gateway and the controller and for heartbeats and adaptive scaling. The tasks that take items from a queue end when the wait after a failure cannot be computed, which is so after 1024 failures of one item in succession (C177_backoff_violated; C177_goes_on and C177_retried take it to be computable). One failed request to stop ends the task that stops idle clusters (C177_idle_violated); a list of objects that cannot be taken in ends the watch (C177_informer_violated); a cancellation of heartbeats during an interruption, or of adaptive scaling while it asks for workers, is swallowed (C177_heartbeat_violated, C177_adapt_violated). What is awaited is one step that ends when it is cancelled, whatever it awaits inside. Code: dask-gateway-server/dask_gateway_server/backends/db_base.py: check_timeouts_loop, check_clusters_loop, check_workers_loop, cleanup_db_loop, reconciler_loop; dask-gateway-server/dask_gateway_server/backends/kubernetes/controller.py: reconciler_loop, cleanup_expired_cluster_records_loop; dask-gateway-server/dask_gateway_server/backends/kubernetes/backend.py: sync_clusters_loop; dask-gateway-server/dask_gateway_server/backends/kubernetes/utils.py: Informer.run, watch; dask-gateway-server/dask_gateway_server/proxy/core.py: monitor_proxy_process; dask-gateway/dask_gateway/scheduler_preload.py: check_idle, heartbeat_loop, adapt_loop, Waiter; dask-gateway-server/dask_gateway_server/utils.py: TaskPool. Theorems: `Tasks.C177_informer_violated`, `Tasks.C177_idle_violated`, `Tasks.C177_heartbeat_violated`, `Tasks.C177_adapt_violated`, `Tasks.C177_backoff_violated`.
* C178 (No client can stop the proxy for the others). The proxy runs as long as descriptors are left, and then serves each client whatever the others do. Refuted without this: nothing limits the time in which a client has to send its greeting (C178_silent_violated), and when the descriptors are used up the error of Accept is logged and then ignored, so that the type assertion on the missing connection ends the process with all connections of all clusters (C178_violated: from every state, by opening connections only). The HTTP port, if it has its own, waits instead (C178_web). Code: dask-gateway-server/dask-gateway-proxy/cmd/dask-gateway-proxy/main.go: runTCP, handleConnection, proxyConnections, runHTTP, awaitShutdown, Forwarder. Theorems: `Serving.C178_violated`, `Serving.C178_silent_violated`.
* C179 (A client contacts the gateway through the HTTP proxy it was told to use). Proved apart from excluded hosts: the client asks for the proxies of the environment without looking at NO_PROXY, so that hosts excluded there are contacted through the HTTP proxy (C179_bypass_violated). Code: dask-gateway/dask_gateway/client.py: _get_default_request_kwargs, Gateway.__init__, Gateway._request; dask-gateway/dask_gateway/gateway.yaml. Theorems: `Settings.C179_bypass_violated`.
* C180 (A client authenticates in the way it was told to). Proved apart from two things that the code does not do: an authentication given by name gets the arguments that the settings have for another and is refused (C180_other_arguments_violated), and a password of digits only, which YAML reads as a number, is accepted but raises when it is to be sent (C180_number_violated). Code: dask-gateway/dask_gateway/auth.py: get_auth, _import_object, BasicAuth, KerberosAuth, JupyterHubAuth; dask-gateway/dask_gateway/gateway.yaml. Theorems: `Session.C180_other_arguments_violated`, `Session.C180_number_violated`.
* C181 (A handler of cluster options is called with what it takes and sees every option). Proved apart from two things that the code does not do: a handler with keyword-only parameters or **kwargs besides the options is called with two arguments, so that every request fails (C181_alone_violated); an option called get, items, keys or values cannot be read as an attribute (C181_read_violated). Code: dask-gateway-server/dask_gateway_server/options.py: Options.handler, Options.get_configuration; dask-gateway-server/dask_gateway_server/utils.py: FrozenAttrDict; dask-gateway-server/dask_gateway_server/backends/base.py: Backend.get_cluster_options, Backend.process_cluster_options. Theorems: `Options.C181_alone_violated`, `Options.C181_read_violated`.
* C183 (The options object of a client stays valid, and its form shows what is sent). Proved apart from three things that the code does not do: the form of a float ignores a bound that is zero, so that it shows what is not sent (C183_form_violated); with a form displayed, an integer beyond 64 bits is changed if the field has one bound only (C183_set_violated); an option called like a method of mappings cannot be read as an attribute (C183_attribute_violated). C183_accepted needs distinct names of fields, as C43 does. Code: dask-gateway/dask_gateway/options.py: Options, Field.set, Field.widget, Integer._widget, Float._widget, Mapping.set, Mapping.transform, Mapping.widget. Theorems: `Options.C183_form_violated`, `Options.C183_set_violated`, `Options.C183_attribute_violated`.
* C184 (The controller keeps to its limits on calls of Kubernetes, and no call is lost or changed by that). Proved apart from two things that the code does not do. RateLimiter credits at most burst / rate seconds of idle time even when its tokens are far below zero, so that after a long queue calls are delayed although nothing has been sent for any length of time (C184_idle_violated; C184_idle_partial holds if no call slept longer than (burst - 1) / rate). The help of k8s_api_rate_limit_burst speaks of the maximum number of calls per second, but burst + rate can go out in a second (C184_second_violated, C184_window_partial). Times are exact rationals. Code: dask-gateway-server/dask_gateway_server/backends/kubernetes/utils.py: RateLimitedClient; dask-gateway-server/dask_gateway_server/utils.py: RateLimiter; dask-gateway-server/dask_gateway_server/backends/kubernetes/controller.py: KubeController.setup, k8s_api_rate_limit, k8s_api_rate_limit_burst. Theorems: `Kube.Limited.C184_idle_violated`, `Kube.Limited.C184_second_violated`.
* C186 (No task is left in the middle of its work when a process of the gateway ends). Proved for all tasks that exist when the main task ends. A task that is created while others are cancelled is neither cancelled nor awaited (C186_ended_violated); a main task that fails while it is cancelled keeps the others from being cancelled (C186_signal_violated), which the main tasks of the two programs do not do as they catch what their cleanup raises. Code: dask-gateway-server/dask_gateway_server/utils.py: run_main, _cancel_all_tasks, cancel_task; dask-gateway-server/dask_gateway_server/app.py: DaskGateway.start; dask-gateway-server/dask_gateway_server/backends/kubernetes/controller.py: KubeController.start. Theorems: `Stop.C186_ended_violated`, `Stop.C186_signal_violated`.
* C187 (The listing of the proxy's routes shows exactly its routes). The listing is exact for all histories. That its entries give the same routing is proved for tables without a route that ends in an empty segment; such a route (added as /a//) is listed as /a/, which is read back as /a (C187_reload_violated). The proxy itself does not read listings; the function is there for debugging. Code: dask-gateway-server/dask-gateway-proxy/pkg/router/router.go: traverse, MarshalJSON, Put. Theorems: `Router.C187_reload_violated`.
* C188 (A configured command means the same on every backend). Lists are run exactly by the local backend and, without dollar signs, on Kubernetes; texts are run as the shell reads them on batch systems (lists there: C119). Not true as stated: a text of several words is taken for the name of one program by the local backend and on Kubernetes (C188_text_violated); Kubernetes changes words with dollar signs (C188_reference_violated); the empty text is accepted (C188_empty_violated). That Kubernetes replaces references in arguments is modelled from memory and not checked against it. Code: dask-gateway-server/dask_gateway_server/traitlets.py: Command; dask-gateway-server/dask_gateway_server/backends/base.py: ClusterConfig.scheduler_cmd, worker_cmd; dask-gateway-server/dask_gateway_server/backends/local.py: start_process; dask-gateway-server/dask_gateway_server/backends/kubernetes/controller.py: get_scheduler_command, get_worker_command, make_pod; dask-gateway-server/dask_gateway_server/backends/jobqueue/slurm.py: get_submit_cmd_env_stdin; dask-gateway-server/dask_gateway_server/backends/jobqueue/pbs.py: get_submit_cmd_env_stdin. Theorems: `Command.C188_text_violated`, `Command.C188_reference_violated`, `Command.C188_empty_violated`.
* C189 (A cluster object shows the workers it has). For schedulers that remove only workers they had added, as for C80, the numbers are those of the workers at the time the scheduler was last heard. Not true as stated: after the connection was lost, or the object closed, the former numbers stay (C189_lost_violated). The text that dask makes of the bytes is not modelled. Code: dask-gateway/dask_gateway/client.py: GatewayCluster._init_internals, _watch_worker_status, _widget_status, _widget, _ipython_display_. Theorems: `Client.C189_lost_violated`.
* C190 (A gateway runs with the authenticator and the backend of its configuration, or not at all). For files whose names end in .py the two classes are characterised exactly. Not true as stated: a configuration file that is missing is ignored and the gateway starts with the defaults, which let in anybody without a password (C190_missing_violated); a file with another extension is not read (C190_extension_violated); a misspelled option is ignored but for a warning (C190_misspelled_violated). The reading of configuration is that of traitlets, modelled from memory and not checked against it. Code: dask-gateway-server/dask_gateway_server/app.py: DaskGateway.initialize, config_file, authenticator_class, backend_class; dask-gateway-server/dask_gateway_server/traitlets.py: Type.validate. Theorems: `Chosen.C190_missing_violated`, `Chosen.C190_extension_violated`, `Chosen.C190_misspelled_violated`.
* C191 (A gateway with JupyterHub authentication believes only the hub it was told to ask). Who is believed is characterised exactly for all settings. Not true as stated: an authority that is configured without a certificate for the gateway is ignored (C191_authority_violated); with a certificate and no authority no hub is believed over TLS (C191_certificate_violated); a gateway without an address of its hub starts and answers requests with 500 (C191_late_violated). The TLS of Python and aiohttp is modelled from memory and not checked against it; names in certificates, redirects and cookies of the hub are not modelled. Code: dask-gateway-server/dask_gateway_server/auth.py: JupyterHubAuthenticator.setup, authenticate, _default_jupyterhub_api_url, tls_key, tls_cert, tls_ca. Theorems: `Auth.C191_authority_violated`, `Auth.C191_certificate_violated`, `Auth.C191_late_violated`.
* C192 (The command that writes a default configuration destroys no file it was not told to overwrite). How the command ends when left alone, and that it touches no other path, is proved for all disks and histories. Not true as stated: a file made between the check and the write is overwritten without --force (C192_race_violated), and a kill may leave a part of the new text and nothing of the old one (C192_killed_violated). Links and permissions are not modelled. Code: dask-gateway-server/dask_gateway_server/app.py: GenerateConfig.start. Theorems: `Generate.C192_race_violated`, `Generate.C192_killed_violated`.
* C193 (An object that keeps failing is tried again for ever and stops nothing else). How many tasks are left is proved exactly for all histories. Not true as stated: the 1025th failure of an object in succession raises OverflowError where the wait is computed, inside the handler of the failure, so the object is not put again and the task ends; later events for the object end one task each, until none is left (C193_stops_violated). The conversion of integers to floats in Python is modelled from memory and not checked. Code: dask-gateway-server/dask_gateway_server/workqueue.py: Backoff.backoff, WorkQueue.put_backoff; dask-gateway-server/dask_gateway_server/backends/db_base.py: reconciler_loop; dask-gateway-server/dask_gateway_server/backends/kubernetes/controller.py: reconciler_loop; dask-gateway-server/dask_gateway_server/backends/kubernetes/backend.py: sync_clusters_loop. Theorems: `WorkQueue.C193_stops_violated`.
* C194 (Users are told why their request was refused). Which messages arrive is characterised exactly. Not true as stated: with an aiohttp that refuses line feeds in reasons, a message of several lines becomes an error 500 without it (C194_lines_violated); the message for a cluster of somebody else is dropped by the client (C194_forbidden_violated). What aiohttp does with line feeds is modelled from memory and not checked. Code: dask-gateway-server/dask_gateway_server/routes.py: _wrap_error_handler, list_clusters, create_cluster, get_cluster, scale_cluster, adapt_cluster; dask-gateway/dask_gateway/client.py: Gateway._request. Theorems: `Client.C194_lines_violated`, `Client.C194_forbidden_violated`.
* C22 (Requested workers are provided). The code violates the property when a worker that was announced as closing closes while the requested count stays; proved up to those workers. Each look at a running cluster provides the requested number, and whatever is missing later was announced as closing and finished since that look. Code: dask-gateway-server/dask_gateway_server/backends/db_base.py: _check_cluster_scale, reconcile_worker, on_cluster_heartbeat. Theorems: `Backend.C22_workers_provided_violated`.
* C24 (No started worker is leaked). The code violates the property when the gateway dies during a start call; proved for all other histories. Code: dask-gateway-server/dask_gateway_server/backends/db_base.py: _worker_to_submitted, _worker_to_stopped. Theorems: `Backend.C24_no_leak_partial`, `Backend.C24_no_leak_violated`.
* C28 (Missed heartbeats and slow starts fail the cluster or worker). The code violates the property after a restart in which a submitted cluster that had already reported its address becomes running without a heartbeat: the check fails before it does anything. Proved in all other states. Code: dask-gateway-server/dask_gateway_server/backends/db_base.py: _check_timeouts. Theorems: `Backend.C28_timeouts_violated`.
* C29 (Heartbeats never stop a running worker and never over-stop). That no running worker is stopped is proved in full. The code violates the bound on pending workers when a pending worker was already asked to stop; proved in all other states. Code: dask-gateway-server/dask_gateway_server/backends/db_base.py: on_cluster_heartbeat. Theorems: `Backend.C29_never_over_stops_violated`.
* C30 (A heartbeat in which a running worker is not mentioned is handled). The code violates the property: an assertion fails for exactly the heartbeats that do not mention a running or closing worker. Code: dask-gateway-server/dask_gateway_server/backends/db_base.py: on_cluster_heartbeat. Theorems: `Backend.C30_heartbeat_handled_violated`.
* C31 (Repeated worker start failures fail the cluster).  Code: dask-gateway-server/dask_gateway_server/backends/db_base.py: _check_cluster_scale, check_workers_loop, _worker_to_submitted. Theorems: `Backend.C31_restart_forgets`.
* C36 (Scale and adapt requests respect the worker limit). Proved in full for scale. The code violates the property for adapt: with a limit it does not reject negative bounds or a minimum above the maximum, and without a limit it forwards any value. Code: dask-gateway-server/dask_gateway_server/routes.py: scale_cluster, adapt_cluster. Theorems: `Api.C36_adapt_violated`.
* C40 (Basic credentials survive the wire). The code violates the property for latin-1 characters outside ASCII: the client sends them and the server answers 500. Proved for ASCII credentials. Code: dask-gateway/dask_gateway/auth.py: BasicAuth; dask-gateway-server/dask_gateway_server/auth.py: SimpleAuthenticator.authenticate. Theorems: `Auth.C40_basic_violated`, `Auth.C40_colon_confuses`.
* C41 (Accepted options satisfy the declared constraints). The code violates the property: true is accepted for an integer field, and NaN is accepted for any bounded float field. Everything else is proved. Code: dask-gateway-server/dask_gateway_server/options.py: Options.parse_options, Field.validate. Theorems: `Options.C41_types_violated`, `Options.C41_bounds_violated`.
* C42 (Parsing options is idempotent). Proved for declarations with distinct field names; false of the code if two fields share a name. Code: dask-gateway-server/dask_gateway_server/options.py: Options.parse_options. Theorems: `Options.C42_duplicates_violated`.
* C43 (Client-side and server-side validation agree). Proved for declarations with distinct field names; false of the code if two fields share a name. Code: dask-gateway/dask_gateway/options.py: Field.validate; dask-gateway-server/dask_gateway_server/options.py: Field.validate. Theorems: `Options.C43_duplicates_violated`.
* C44 (Resource limits bound the whole cluster). The code violates the property: a number of workers is validated against the limits known when it is assigned, and is not validated again when the configuration file or the overrides change those limits. Proved for the computed limit and for the configurations named in the theorem. Code: dask-gateway-server/dask_gateway_server/backends/base.py: ClusterConfig._worker_limit_from_resources, _validate_cluster_max_workers. Theorems: `Config.C44_override_violated`, `Config.C44_stale_violated`.
* C46 (The LRU cache is a bounded map). The code violates the eviction order: putting a key that is present does not count as a use. Proved for histories that put only absent keys (the gateway's); everything but the order is proved for all. Code: dask-gateway-server/dask_gateway_server/utils.py: LRUCache. Theorems: `Utils.C46_lru_violated`.
* C50 (Pod bookkeeping partitions the pods). At most one set per pod, no other pod counted, and the right set whenever the latest report shows one. Refuted in full: a running pod whose container waits is in no set if not seen before. Code: dask-gateway-server/dask_gateway_server/backends/kubernetes/controller.py: ClusterInfo, on_pod_update, on_pod_delete. Theorems: `Kube.C50_violated`.
* C51 (Scaling on Kubernetes neither overshoots nor undershoots). Scale-up exact, no overshoot over executions, running workers never deleted. Refuted in full: a scale-down can delete too many pending workers; exactly when is proved. Code: dask-gateway-server/dask_gateway_server/backends/kubernetes/controller.py: handle_running_cluster, handle_scale_up, handle_scale_down. Theorems: `Kube.C51_violated`.
* C52 (Expectations prevent acting on stale information). Holds if only the controller creates and deletes workers and failed requests have no effect. Refuted when others delete workers. Code: dask-gateway-server/dask_gateway_server/backends/kubernetes/controller.py: ClusterInfo.set_expectations, should_trigger, batch_create_pods, create_pod, delete_pod. Theorems: `Kube.C52_violated`.
* C53 (A Kubernetes cluster's phase only moves forward). Holds if the controller acts on the latest version of the cluster object; stopped is final in any case. Refuted for stale views. Code: dask-gateway-server/dask_gateway_server/backends/kubernetes/controller.py: handle_cluster, handle_pending_cluster, handle_running_cluster. Theorems: `Kube.C53_violated`, `Kube.C53_final_violated`.
* C54 (Adaptive scaling stays within bounds). The maximum is refuted after it is lowered while scaling adaptively: the window keeps demands made under the old bounds. Code: dask-gateway/dask_gateway/scheduler_preload.py: GatewaySchedulerService.adapt_loop, adapt, scale. Theorems: `Sched.C54_violated`.
* C56 (Idle shutdown happens only when idle). For a scheduler whose transition log keeps at least one entry and in which work changes only with a logged transition; refuted for a log that keeps none. Code: dask-gateway/dask_gateway/scheduler_preload.py: check_idle. Theorems: `Sched.C56_no_log_violated`.
* C58 (Waiting for start returns only on a decision). Refuted for Python before 3.11, where a timeout of the HTTP client is not the built-in TimeoutError and ends the wait with an error; with it the wait ends exactly at the first report that settles it. Code: dask-gateway/dask_gateway/client.py: Gateway._wait_for_start. Theorems: `Client.C58_violated`.
* C60 (Job memory requests are not rounded below the need). Proved with the surplus bounded by a tenth, for amounts below 2^53 bytes (and for Slurm from 10 KiB on). Refuted for Slurm between 1 KiB and 10 KiB, where always 1K is requested, and beyond 2^53, where the division rounds. Code: dask-gateway-server/dask_gateway_server/backends/jobqueue/slurm.py: slurm_format_memory; dask-gateway-server/dask_gateway_server/backends/jobqueue/pbs.py: qsub_format_memory. Theorems: `Backends.C60_small_violated`, `Backends.C60_large_violated`.
* C61 (Status checks answer for the right worker). Proved in full for batch systems and the local backend. Refuted on YARN for workers of several clusters (a variable is reused, so that answers for the last cluster's workers are taken for the first workers of the list) and where one cluster has no application; refuted for the in-process backend, whose answers are inverted. Code: dask-gateway-server/dask_gateway_server/backends/yarn.py: do_check_workers; dask-gateway-server/dask_gateway_server/backends/local.py: do_check_workers; dask-gateway-server/dask_gateway_server/backends/jobqueue/base.py: _do_check. Theorems: `Backends.C61_yarn_violated`, `Backends.C61_yarn_clusters_violated`, `Backends.C61_inprocess_violated`.
* C62 (User environment cannot override gateway variables). Proved in full for batch systems and YARN (for batch systems also that the variables are exported). Refuted for the local backend, where inherited variables such as PATH replace configured ones, and on Kubernetes, where variables of the extra container configuration replace the gateway's; proved there for all variables on which those settings are silent. Code: dask-gateway-server/dask_gateway_server/backends/db_base.py: get_env, get_scheduler_env, get_worker_env; dask-gateway-server/dask_gateway_server/backends/kubernetes/controller.py: get_env. Theorems: `Env.C62_local_violated`, `Kube.C62_kube_violated`.
* C63 (Gateway addresses parse back). Proved for every URL of a gateway whose host is a name or an IPv4 address, with or without port and prefix, and for every kind of proxy argument. Refuted for gateways at IPv6 addresses, whose brackets are lost, and for addresses without a scheme, whose host is lost. Python's urlparse is modelled here, with lower case for ASCII only. Code: dask-gateway/dask_gateway/comm.py: parse_gateway_address; dask-gateway-server/dask-gateway-proxy/cmd/dask-gateway-proxy/main.go: handleConnection. Theorems: `Addr.C63_ipv6_violated`, `Addr.C63_no_url_violated`.
* C64 (A lagging proxy catches up). The code violates the property for batches longer than the scanner's buffer; proved when batches fit. Code: dask-gateway-server/dask-gateway-proxy/cmd/dask-gateway-proxy/main.go: evIter.Next, watchRoutes; dask-gateway-server/dask_gateway_server/proxy/core.py: Proxy.routes_handler. Theorems: `ProxyEvents.catch_up_progress_violated`.
* C65 (A login hands out a cookie that works). The code violates the property: an expired cookie that was not presented since is handed out again. Proved for all other logins. Code: dask-gateway-server/dask_gateway_server/auth.py: UserCache, Authenticator.authenticate_and_handle. Theorems: `Auth.C65_fresh_cookie_violated`.
* C70 (A stopped Kubernetes cluster leaves nothing running). Holds without crashes between creation and recording. Refuted for such a crash followed by a stop. Code: dask-gateway-server/dask_gateway_server/backends/kubernetes/controller.py: handle_cluster, cleanup_cluster_resources, handle_pending_cluster. Theorems: `Kube.C70_violated`.
* C72 (A requested number of workers reaches the gateway promptly). Refuted for a request that comes while a heartbeat is under way: it is told only with the next regular heartbeat. Code: dask-gateway/dask_gateway/scheduler_preload.py: Waiter, heartbeat_loop, _scale. Theorems: `Sched.C72_violated`.
* C73 (An explicit scale request takes effect). Refuted for a request that comes while the adaptive loop is itself changing the count: the cancellation is swallowed and the request never answered. Code: dask-gateway/dask_gateway/scheduler_preload.py: scale, adapt, adapt_loop, Waiter.interrupt; dask-gateway/dask_gateway/utils.py: cancel_task. Theorems: `Sched.C73_violated`.
* C75 (Lost and surplus workers are reported within seconds). Refuted when the timer fires while a heartbeat is under way: it has no effect and blocks further timers until the next regular heartbeat. Code: dask-gateway/dask_gateway/scheduler_preload.py: worker_added, worker_removed, Waiter.interrupt_soon, heartbeat_loop. Theorems: `Sched.C75_violated`.
* C77 (Listing clusters from the client). Refuted for an empty set of statuses, which the server answers with an error; holds for every other. Code: dask-gateway/dask_gateway/client.py: Gateway._clusters; dask-gateway-server/dask_gateway_server/routes.py: list_clusters. Theorems: `Client.C77_violated`.
* C79 (Cluster objects shut down what they started). Refuted where the answer to the submission is lost (the cluster stays), and where an object in synchronous mode was closed before without shutdown (the later shutdown does nothing). The start is one step; requests to stop count when sent. Code: dask-gateway/dask_gateway/client.py: GatewayCluster._init_internal, _start_async, _stop_internal, _stop_async, close, cleanup_lingering_clusters. Theorems: `Client.C79_lost_violated`, `Client.C79_closed_violated`.
* C81 (A TLS connection for a cluster reaches its scheduler). Refuted for greetings of more than 4096 bytes, which exceed the buffer and are not routed; proved for all others. The parse of the greeting by crypto/tls is a parameter. Code: dask-gateway-server/dask-gateway-proxy/cmd/dask-gateway-proxy/main.go: handleConnection; dask-gateway-server/dask-gateway-proxy/pkg/sni/sni.go: ReadSNI. Theorems: `Tcp.C81_violated`.
* C82 (A proxied connection delivers both directions in full). Refuted: the end of one direction closes the other one (the arguments of the two close calls are reversed), so that an answer after the end of the request is lost. Proved: no reordering or corruption ever, nothing lost before the opposite direction ended, and the direction that ends first arrives in full. Code: dask-gateway-server/dask-gateway-proxy/cmd/dask-gateway-proxy/main.go: handleConnection, proxyConnections. Theorems: `Tcp.C82_violated`.
* C83 (Starting a local cluster hands over its files and nothing else). Refuted: the paths of the credentials are added letter by letter, so that the root directory is handed over, the key is not, and the start fails unless one-letter files exist. Proved for the three directories. Code: dask-gateway-server/dask_gateway_server/backends/local.py: setup_working_directory. Theorems: `Backends.C83_files_violated`, `Backends.C83_root_violated`.
* C84 (A stopped batch cluster has its job cancelled). Success is only reported if the job was cancelled. Refuted: after an attempt whose cancel command failed no further attempt cancels, since the staging directory is gone. Code: dask-gateway-server/dask_gateway_server/backends/jobqueue/launcher.py: main, stop; dask-gateway-server/dask_gateway_server/backends/jobqueue/base.py: stop_job, do_stop_cluster, do_stop_worker. Theorems: `Backends.C84_violated`.
* C86 (Pods belong to the cluster they were made for). Refuted: extra pod labels replace the gateway's, so that a pod can be made that of another cluster. Proved for extra labels without these three names, whatever the common labels. Code: dask-gateway-server/dask_gateway_server/backends/kubernetes/controller.py: make_pod, get_labels, get_cluster_key. Theorems: `Kube.C86_violated`.
* C87 (Routes on Kubernetes lead to the right scheduler). Refuted: with extra pod labels (see C86) the service of a cluster selects the schedulers of other clusters, or the workers of its own. Proved otherwise. Code: dask-gateway-server/dask_gateway_server/backends/kubernetes/controller.py: make_service, make_ingressroute, make_ingressroutetcp, make_pod. Theorems: `Kube.C87_violated`.
* C89 (Listings on Kubernetes are complete and per user). Listings over all users are proved for every history. Listings of a user are proved if the user of an object name never changes, and refuted otherwise: a changed user leaves the cluster listed for the old one, also after its deletion. Code: dask-gateway-server/dask_gateway_server/backends/kubernetes/backend.py: list_clusters, sync_cluster. Theorems: `Kube.C89_violated`.
* C91 (Stop and scale requests reach the right object). Proved for namespaces and names without a dot. Refuted for object names with a dot, which Kubernetes allows: such clusters are shown but can be neither stopped nor scaled (ValueError). Code: dask-gateway-server/dask_gateway_server/backends/kubernetes/backend.py: stop_cluster, on_cluster_heartbeat. Theorems: `Kube.C91_violated`.
* C92 (Requests that wait for a cluster are released). Also proved: requests for unknown names leave one flag each for ever (C92_leak). Code: dask-gateway-server/dask_gateway_server/backends/kubernetes/backend.py: get_cluster, sync_cluster. Theorems: `Kube.C92_leak`.
* C93 (Records of ended clusters are removed in time). Safety is proved if an ended object stays ended until it is seen deleted, completeness if no name has a dot. Both are refuted in general: an object made again under the same name within a gap of the watch is removed although it runs, and one expired name with a dot stops all removals. Code: dask-gateway-server/dask_gateway_server/backends/kubernetes/controller.py: cleanup_expired_cluster_records_loop, reconcile_cluster, on_cluster_delete. Theorems: `Kube.C93_removed_violated`, `Kube.C93_only_ended_violated`.
* C97 (A cluster ends as it was asked to). Refuted: a failed start of the scheduler that is reported after the user's stop, or a status check that was under way at the stop, turns the outcome into failed. Proved in all other cases; and proved without conditions that failed clusters never end as stopped. Code: dask-gateway-server/dask_gateway_server/backends/db_base.py: stop_cluster, _cluster_to_submitted, _check_clusters, _cluster_to_stopped. Theorems: `Backend.C97_outcome_violated`, `Backend.C97_check_violated`.
* C98 (A running worker is not given up as never started). Refuted: if the worker connects before the call that starts it returns, the return marks it as submitted again and the next timeout check can stop it. Proved for workers seen running while no such call is in flight. Code: dask-gateway-server/dask_gateway_server/backends/db_base.py: on_cluster_heartbeat, _worker_to_submitted, _check_timeouts. Theorems: `Backend.C98_running_worker_violated`.

## 6. Axiom audit

`#print axioms` for the 837 theorems named in MANIFEST.json; no other axiom occurs.

| axioms | theorems |
|--------|----------|
| Classical.choice, Quot.sound, propext | 659 |
| Quot.sound, propext | 107 |
| propext | 62 |
| no axiom | 9 |

## 7. Mutation tests

`seeded/LOG.jsonl` has one line for each wrong program tried: the edited definition, the edit, the claim it breaks, the
theorems that failed, and those that were tightened because the edit had survived at first. Entries marked `inconclusive`
did not compile.

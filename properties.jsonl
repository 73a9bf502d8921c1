{"id": "C01", "title": "Work items are processed by one consumer at a time", "statement": "While a consumer holds an item obtained from the work queue and has not marked it done, no other get returns that item, no matter how often it is put again in the meantime.", "quantifier": "every finite history of put, put_after, put_backoff, get, task_done, timer firings and close by any number of consumers that mark done only what they hold", "why_tests_cant": "A test samples a few schedules; the claim is about every interleaving of producers, consumers and timers.", "anchors": ["dask-gateway-server/dask_gateway_server/workqueue.py: WorkQueue._put, _get, task_done"]}
{"id": "C02", "title": "No put is lost", "statement": "After put(x) the item x is either still waiting in the queue, or is held by a consumer and will be waiting again when that consumer marks it done, until a later get returns it: a put made while x is being processed always causes one more delivery.", "quantifier": "every history of queue operations before and after the put", "why_tests_cant": "Needs all positions of the put relative to get/task_done, an unbounded set.", "anchors": ["dask-gateway-server/dask_gateway_server/workqueue.py: WorkQueue.put, get, task_done"]}
{"id": "C03", "title": "Duplicate puts are merged and order is first-in first-out", "statement": "The queue never holds the same item twice, so any number of puts before delivery cause exactly one delivery, and items are delivered in the order in which they became ready.", "quantifier": "every history of queue operations with disciplined consumers", "why_tests_cant": "Histories of any length; the failing case (task_done by a non-holder) is one a test would not write.", "anchors": ["dask-gateway-server/dask_gateway_server/workqueue.py: WorkQueue._put, task_done"]}
{"id": "C04", "title": "A closed queue delivers nothing", "statement": "Once the queue is closed, every get fails with WorkQueueClosed, including when items are still queued and for getters that were already waiting, and this stays so for ever.", "quantifier": "every history after the close", "why_tests_cant": "Every later history, not one.", "anchors": ["dask-gateway-server/dask_gateway_server/workqueue.py: WorkQueue.close, get, _get"]}
{"id": "C05", "title": "Delayed puts fire at the earliest requested time", "statement": "If an item is scheduled several times with put_after, it is enqueued no later than the earliest outstanding requested time; a later request never postpones an earlier one, and at most one timer is armed per item.", "quantifier": "every sequence of put_after calls, clock readings and timer firings", "why_tests_cant": "All sequences of delays and clock values.", "anchors": ["dask-gateway-server/dask_gateway_server/workqueue.py: WorkQueue.put_after, _put_delayed"]}
{"id": "C06", "title": "Retry backoff is exponential, capped and resettable", "statement": "The n-th consecutive failure of an item waits min(base*2^n, cap): never more than the cap, never less than the previous wait; success resets it; items do not influence each other.", "quantifier": "every sequence of failures and resets over every set of items, all base and cap", "why_tests_cant": "Unbounded sequences and real-valued parameters.", "anchors": ["dask-gateway-server/dask_gateway_server/workqueue.py: Backoff.backoff, reset, failures"]}
{"id": "C07", "title": "No getter sleeps while an item is queued", "statement": "If an item is queued and a getter is blocked, some getter has been woken and will run: no wake-up is lost, including when waiting getters are cancelled.", "quantifier": "every interleaving of puts, gets, wake-ups and cancellations", "why_tests_cant": "The failing schedule needs a cancellation between wake-up and resumption, which cannot be timed in a test.", "anchors": ["dask-gateway-server/dask_gateway_server/workqueue.py: WorkQueue._wakeup_next, get"]}
{"id": "C08", "title": "HTTP routing picks the longest registered prefix", "statement": "For every routing table and request path, the proxy forwards to the target of the longest registered route whose path segments are a prefix of the request's segments, and answers not-found exactly when there is none.", "quantifier": "every history of route additions and removals, every request path", "why_tests_cant": "All tables and all paths, including nested and overlapping prefixes.", "anchors": ["dask-gateway-server/dask-gateway-proxy/pkg/router/router.go: Router.Match, HasMatch, getSegment, normalizePath"]}
{"id": "C09", "title": "The route trie behaves as a map", "statement": "Adding a route makes exactly that path's target current and leaves every other route alone; deleting removes exactly that route; deleting an absent route changes nothing; different histories with the same final table route identically and leave no residue of deleted routes.", "quantifier": "every history of Put and Delete", "why_tests_cant": "Unbounded histories of overlapping paths; pruning bugs appear only for particular shapes.", "anchors": ["dask-gateway-server/dask-gateway-proxy/pkg/router/router.go: Router.Put, Delete, traverse"]}
{"id": "C10", "title": "The forwarded path is what follows the matched prefix", "statement": "The part of the path handed to the backend, joined back to the matched route, gives the original request path: no segment is dropped, duplicated or reordered.", "quantifier": "every table and every request path", "why_tests_cant": "All strings, including repeated and trailing slashes.", "anchors": ["dask-gateway-server/dask-gateway-proxy/pkg/router/router.go: Router.Match", "dask-gateway-server/dask-gateway-proxy/cmd/dask-gateway-proxy/main.go: ServeHTTP, singleJoiningSlash"]}
{"id": "C11", "title": "A watching proxy converges to the gateway's routes", "statement": "A proxy that fetches the routes and then applies the events it is sent holds, whenever it has caught up, exactly the gateway's current routes: for every history of route changes, every disconnect and reconnect, and however many events the gateway has discarded.", "quantifier": "every interleaving of route changes, event batches, disconnects, reconnects with last_id, and full refreshes against one gateway process", "why_tests_cant": "Depends on discards racing with reconnects over an unbounded log.", "anchors": ["dask-gateway-server/dask_gateway_server/proxy/core.py: Proxy._append_event, _events_after, routes_handler", "dask-gateway-server/dask-gateway-proxy/cmd/dask-gateway-proxy/main.go: watchRoutes, evIter, UpdateFromEvents, UpdateFromRoutes"]}
{"id": "C12", "title": "The event log never answers with a gap", "statement": "A reconnecting proxy that reports the last event it saw receives either every later event, in order and without gaps, or an explicit demand for a full refresh; never an incomplete suffix.", "quantifier": "every log history, every retention limit, every last_id the gateway has issued", "why_tests_cant": "All offsets and limits, including the degenerate limits 0 and 1.", "anchors": ["dask-gateway-server/dask_gateway_server/proxy/core.py: Proxy._append_event, _events_after, max_events"]}
{"id": "C13", "title": "Retained events are bounded", "statement": "The gateway never retains more than max_events route events however many changes occur.", "quantifier": "every history of route changes and every configured limit", "why_tests_cant": "Unbounded histories and limits 0 and 1.", "anchors": ["dask-gateway-server/dask_gateway_server/proxy/core.py: Proxy._append_event"]}
{"id": "C14", "title": "A gateway restart does not leave the proxy stale", "statement": "After the gateway process restarts, a proxy that reconnects ends up with the restarted gateway's routes.", "quantifier": "every pre-restart history and every post-restart history", "why_tests_cant": "Needs particular relations between the old and the new event numbers.", "anchors": ["dask-gateway-server/dask_gateway_server/proxy/core.py: Proxy.setup, _events_after", "dask-gateway-server/dask-gateway-proxy/cmd/dask-gateway-proxy/main.go: watchRoutes"]}
{"id": "C15", "title": "SNI and PATH routes do not interfere and invalid updates change nothing", "statement": "A route event affects only its own kind and key in the proxy; a malformed event leaves the tables unchanged.", "quantifier": "every table and every event", "why_tests_cant": "All tables and events.", "anchors": ["dask-gateway-server/dask-gateway-proxy/cmd/dask-gateway-proxy/main.go: putRoute, deleteRoute, Route.Validate"]}
{"id": "C16", "title": "Reported cluster status only moves forward", "statement": "For each cluster the status a client sees moves only along pending, running, stopping, then stopped or failed; stopped and failed are final and the recorded stop time never changes.", "quantifier": "every interleaving of API calls, heartbeats, reconcilers, background checks, external call outcomes, crashes and restarts", "why_tests_cant": "Every interleaving and crash point.", "anchors": ["dask-gateway-server/dask_gateway_server/backends/db_base.py: Cluster._status_map, reconcile_cluster, _cluster_to_*"]}
{"id": "C17", "title": "Every stored cluster can be queried", "statement": "For every cluster the gateway knows, get and list return a status and never an internal error.", "quantifier": "every reachable gateway state", "why_tests_cant": "The failing state needs a status check racing with a complete shutdown.", "anchors": ["dask-gateway-server/dask_gateway_server/backends/db_base.py: Cluster.model_status, to_model, check_clusters_loop"]}
{"id": "C18", "title": "A stop request is never undone", "statement": "Once a cluster has been asked to stop (by a user, a timeout, a failure or shutdown), it is never again pending or running, and no further worker is created for it.", "quantifier": "every later history, including crashes", "why_tests_cant": "Every later history.", "anchors": ["dask-gateway-server/dask_gateway_server/backends/db_base.py: stop_cluster, reconcile_cluster, _check_cluster_scale"]}
{"id": "C19", "title": "A stopping cluster is never forgotten", "statement": "Whenever a cluster has been asked to stop and is not yet stopped, the gateway has queued, scheduled or in-flight work for it or for one of its unfinished workers, so that the shutdown goes on without further requests, also after a crash and restart.", "quantifier": "every reachable state", "why_tests_cant": "A missing enqueue shows only in specific interleavings.", "anchors": ["dask-gateway-server/dask_gateway_server/backends/db_base.py: _cluster_to_closing, reconcile_worker, is_cluster_ready_to_close, setup"]}
{"id": "C20", "title": "The stop of a cluster completes", "statement": "From every reachable state in which a cluster has been asked to stop, processing the queued work with external calls that return brings the cluster to stopped or failed in a bounded number of reconciliations, with all its workers finished.", "quantifier": "every reachable state with a stop requested", "why_tests_cant": "Termination from every state.", "anchors": ["dask-gateway-server/dask_gateway_server/backends/db_base.py: reconcile_cluster, reconcile_worker"]}
{"id": "C21", "title": "The worker limit is never exceeded", "statement": "The number of active workers of a cluster never exceeds its cluster_max_workers, whatever counts the scheduler reports.", "quantifier": "every reachable state, every heartbeat content, every limit", "why_tests_cant": "Every history, including malicious heartbeats.", "anchors": ["dask-gateway-server/dask_gateway_server/backends/db_base.py: on_cluster_heartbeat, _check_cluster_scale"]}
{"id": "C22", "title": "Requested workers are provided", "statement": "When a running cluster has no queued or in-flight work, its number of active workers is at least the count its scheduler last requested.", "quantifier": "every reachable quiescent state", "why_tests_cant": "The failing history is a quick scale down and up, which a test would not time.", "anchors": ["dask-gateway-server/dask_gateway_server/backends/db_base.py: _check_cluster_scale, reconcile_worker, on_cluster_heartbeat"]}
{"id": "C23", "title": "A cluster is reported finished only after its workers are", "statement": "When a cluster is reported stopped or failed, the backend's stop call has been made for it after its last start call, and every worker of it is finished.", "quantifier": "every reachable state", "why_tests_cant": "Every interleaving of worker starts with cluster stops.", "anchors": ["dask-gateway-server/dask_gateway_server/backends/db_base.py: _cluster_to_stopped, is_cluster_ready_to_close"]}
{"id": "C24", "title": "No started worker is leaked", "statement": "When a worker is finished, the backend's stop call has been made for it, or for its whole cluster, after its last start call.", "quantifier": "every reachable state, with and without crashes", "why_tests_cant": "The failing case needs a crash in the middle of a start.", "anchors": ["dask-gateway-server/dask_gateway_server/backends/db_base.py: _worker_to_submitted, _worker_to_stopped"]}
{"id": "C25", "title": "Proxy routes follow the cluster's life", "statement": "A route for a cluster exists only between the cluster starting to run and its shutdown finishing, and always points at the address its scheduler reported; when a running cluster has no queued or in-flight work its route exists.", "quantifier": "every reachable state, including after restarts", "why_tests_cant": "Every interleaving.", "anchors": ["dask-gateway-server/dask_gateway_server/backends/db_base.py: _check_cluster_proxied, _cluster_to_stopped"]}
{"id": "C26", "title": "A restart reloads exactly what was stored", "statement": "After a crash at any point the restarted gateway knows exactly the clusters and workers it knew before with the same persistent fields, and every unfinished one is queued for reconciliation.", "quantifier": "every crash point of every history", "why_tests_cant": "Every crash point.", "anchors": ["dask-gateway-server/dask_gateway_server/backends/db_base.py: DataManager.__init__, update_*, setup"]}
{"id": "C27", "title": "Only finished clusters are purged", "statement": "Expiry removes a cluster exactly if it stopped longer ago than the maximum age, removes its workers with it, and never removes a cluster that is not finished; name, user and id look-ups stay consistent.", "quantifier": "every reachable state and clock value", "why_tests_cant": "Every state and clock value.", "anchors": ["dask-gateway-server/dask_gateway_server/backends/db_base.py: DataManager.cleanup_expired, create_cluster"]}
{"id": "C28", "title": "Missed heartbeats and slow starts fail the cluster or worker", "statement": "A timeout check fails exactly those active clusters that were submitted too long ago or whose last heartbeat is too old, and exactly those submitted workers of healthy running clusters that are too old; it touches nothing else.", "quantifier": "every state, clock value and timeout setting", "why_tests_cant": "All clock values and states.", "anchors": ["dask-gateway-server/dask_gateway_server/backends/db_base.py: _check_timeouts"]}
{"id": "C29", "title": "Heartbeats never stop a running worker and never over-stop", "statement": "A heartbeat asks to stop only workers the scheduler reports closed, or pending workers in excess of the requested count, and never so many that reported-active plus pending workers fall below that count.", "quantifier": "every heartbeat message and cluster state", "why_tests_cant": "All messages and worker sets.", "anchors": ["dask-gateway-server/dask_gateway_server/backends/db_base.py: on_cluster_heartbeat"]}
{"id": "C30", "title": "A heartbeat in which a running worker is not mentioned is handled", "statement": "The gateway processes every well-formed heartbeat without an internal error.", "quantifier": "every reachable state and heartbeat", "why_tests_cant": "The failing heartbeat omits a worker the gateway believes running.", "anchors": ["dask-gateway-server/dask_gateway_server/backends/db_base.py: on_cluster_heartbeat"]}
{"id": "C31", "title": "Repeated worker start failures fail the cluster", "statement": "When the number of consecutive worker start failures reaches the limit, the next reconciliation of a running cluster fails it, and below the limit it does not; a worker that starts resets the count.", "quantifier": "every state and limit", "why_tests_cant": "All counts.", "anchors": ["dask-gateway-server/dask_gateway_server/backends/db_base.py: _check_cluster_scale, check_workers_loop, _worker_to_submitted"]}
{"id": "C32", "title": "At most one scheduler start per cluster", "statement": "The backend's start call is made at most once per cluster while the gateway does not crash.", "quantifier": "every crash-free history", "why_tests_cant": "Every interleaving.", "anchors": ["dask-gateway-server/dask_gateway_server/backends/db_base.py: reconcile_cluster, _cluster_to_submitted"]}
{"id": "C33", "title": "Users can only touch their own clusters", "statement": "Get, stop, scale and adapt succeed only for a cluster owned by the authenticated user; a cluster's token opens only that cluster's heartbeat and stop; no request without valid credentials has any effect or shows any cluster.", "quantifier": "every state, user, cluster and request", "why_tests_cant": "All combinations of identity and target.", "anchors": ["dask-gateway-server/dask_gateway_server/routes.py: _wrap_authenticated, get_cluster, delete_cluster, scale_cluster, adapt_cluster, handle_heartbeat", "dask-gateway-server/dask_gateway_server/models.py: User.has_permissions"]}
{"id": "C34", "title": "Listing shows exactly the user's matching clusters", "statement": "A list request returns exactly the caller's clusters whose status is among those asked for (active ones by default); an unknown status is rejected.", "quantifier": "every state and query", "why_tests_cant": "All states and queries.", "anchors": ["dask-gateway-server/dask_gateway_server/routes.py: list_clusters", "dask-gateway-server/dask_gateway_server/backends/db_base.py: list_clusters"]}
{"id": "C35", "title": "TLS secrets are disclosed only while running", "statement": "A cluster's certificate and key are included in a response only if the cluster is running, and the dashboard route only if it is running and has a dashboard.", "quantifier": "every cluster", "why_tests_cant": "All statuses and field values.", "anchors": ["dask-gateway-server/dask_gateway_server/models.py: Cluster.to_dict"]}
{"id": "C36", "title": "Scale and adapt requests respect the worker limit", "statement": "Whatever an API client asks for, the count or bounds forwarded to the scheduler are within [0, max_workers], minimum <= maximum, and the client is told whenever its request was reduced; ill-formed requests are rejected and forward nothing.", "quantifier": "every request body and limit", "why_tests_cant": "All JSON bodies.", "anchors": ["dask-gateway-server/dask_gateway_server/routes.py: scale_cluster, adapt_cluster"]}
{"id": "C37", "title": "Forwarding to a scheduler is bounded and decisive", "statement": "A message to a scheduler is tried at most max(1, retries) times with waits that never exceed the cap; it either succeeds on some attempt, or the cluster is failed and the client is told; a cluster that is not running is never contacted.", "quantifier": "every sequence of attempt outcomes and settings", "why_tests_cant": "All outcome sequences.", "anchors": ["dask-gateway-server/dask_gateway_server/backends/base.py: forward_message_to_scheduler"]}
{"id": "C38", "title": "Login cookies identify exactly one user and expire", "statement": "A cookie resolves to the user it was issued for or to nobody; an expired cookie is never accepted; different users never share a cookie.", "quantifier": "every history of logins and requests and all clock values", "why_tests_cant": "Unbounded histories.", "anchors": ["dask-gateway-server/dask_gateway_server/auth.py: UserCache, Authenticator.authenticate_and_handle"]}
{"id": "C39", "title": "Hub principals map to distinct usernames", "statement": "Two different JupyterHub principals (kind, name) never get the same gateway username.", "quantifier": "all pairs of principals", "why_tests_cant": "All strings.", "anchors": ["dask-gateway-server/dask_gateway_server/auth.py: JupyterHubAuthenticator.authenticate"]}
{"id": "C40", "title": "Basic credentials survive the wire", "statement": "The username and password the client puts in the Basic header are the ones the server checks.", "quantifier": "all usernames and passwords the protocol allows", "why_tests_cant": "All strings.", "anchors": ["dask-gateway/dask_gateway/auth.py: BasicAuth", "dask-gateway-server/dask_gateway_server/auth.py: SimpleAuthenticator.authenticate"]}
{"id": "C41", "title": "Accepted options satisfy the declared constraints", "statement": "If option parsing succeeds, the result has exactly the declared fields, each of the declared type and within its bounds or choices; unknown fields and ill-typed values are rejected; absent fields get their default.", "quantifier": "every option declaration and every request", "why_tests_cant": "All JSON values.", "anchors": ["dask-gateway-server/dask_gateway_server/options.py: Options.parse_options, Field.validate"]}
{"id": "C42", "title": "Parsing options is idempotent", "statement": "Parsing the output of parsing returns it unchanged, so stored options can be replayed.", "quantifier": "every declaration and request", "why_tests_cant": "All JSON values.", "anchors": ["dask-gateway-server/dask_gateway_server/options.py: Options.parse_options"]}
{"id": "C43", "title": "Client-side and server-side validation agree", "statement": "An option value accepted by the client's validation is accepted by the server for the same declaration, with the same normalised value.", "quantifier": "every field declaration and JSON value", "why_tests_cant": "All values.", "anchors": ["dask-gateway/dask_gateway/options.py: Field.validate", "dask-gateway-server/dask_gateway_server/options.py: Field.validate"]}
{"id": "C44", "title": "Resource limits bound the whole cluster", "statement": "With max-memory or max-cores limits set, a cluster that has its scheduler and as many workers as the computed limit never exceeds them, and one more worker would exceed one of them.", "quantifier": "all resource settings", "why_tests_cant": "All integers and rationals, including zero and too-small limits.", "anchors": ["dask-gateway-server/dask_gateway_server/backends/base.py: ClusterConfig._worker_limit_from_resources, _validate_cluster_max_workers"]}
{"id": "C45", "title": "The rate limiter honours its rate", "statement": "In any window of length t at most burst + rate*t acquisitions proceed.", "quantifier": "every sequence of acquire times, all rates and bursts", "why_tests_cant": "Unbounded sequences of real times.", "anchors": ["dask-gateway-server/dask_gateway_server/utils.py: RateLimiter"]}
{"id": "C46", "title": "The LRU cache is a bounded map", "statement": "The cache never holds more than max_size entries, never two for one key, returns the last value put or nothing, and evicts the least recently used entry.", "quantifier": "every history of get, put and discard", "why_tests_cant": "Unbounded histories.", "anchors": ["dask-gateway-server/dask_gateway_server/utils.py: LRUCache"]}
{"id": "C47", "title": "Stored TLS credentials round-trip", "statement": "The certificate and key read back from the database are the ones stored, for all credentials the generator can produce.", "quantifier": "all byte strings without the separator", "why_tests_cant": "All byte strings.", "anchors": ["dask-gateway-server/dask_gateway_server/backends/db_base.py: encode_tls_credentials, decode_tls_credentials"]}
{"id": "C48", "title": "Extra pod configuration merges predictably", "statement": "Merging configuration leaves both inputs unchanged, keeps every key of both, lets the override win on leaves, concatenates lists, and merging with an empty override changes nothing.", "quantifier": "all JSON documents", "why_tests_cant": "All documents.", "anchors": ["dask-gateway-server/dask_gateway_server/backends/kubernetes/utils.py: merge_json_objects"]}
{"id": "C49", "title": "The informer cache follows the event stream", "statement": "After any initial listing and stream of watch events the cache holds exactly the latest version of each live object and each change triggers exactly one callback.", "quantifier": "every event stream", "why_tests_cant": "Unbounded streams.", "anchors": ["dask-gateway-server/dask_gateway_server/backends/kubernetes/utils.py: Informer.handle_initial, handle"]}
{"id": "C50", "title": "Pod bookkeeping partitions the pods", "statement": "Each live worker pod of a cluster is in exactly one of pending, running, succeeded or failed, and no other pod is counted.", "quantifier": "every stream of pod updates and deletions", "why_tests_cant": "Unbounded streams in any order.", "anchors": ["dask-gateway-server/dask_gateway_server/backends/kubernetes/controller.py: ClusterInfo, on_pod_update, on_pod_delete"]}
{"id": "C51", "title": "Scaling on Kubernetes neither overshoots nor undershoots", "statement": "A scale-up creates exactly the missing pods; a scale-down deletes pending pods only, and never so many that fewer than the requested replicas remain.", "quantifier": "every pod population and replica count", "why_tests_cant": "Negative slice arithmetic shows only for particular population sizes.", "anchors": ["dask-gateway-server/dask_gateway_server/backends/kubernetes/controller.py: handle_running_cluster, handle_scale_up, handle_scale_down"]}
{"id": "C52", "title": "Expectations prevent acting on stale information", "statement": "While created or deleted pods have not been observed yet, no further scaling is started (until the expectation timeout), and failed requests do not leave expectations open.", "quantifier": "every sequence of scaling actions, failures and observations", "why_tests_cant": "All interleavings.", "anchors": ["dask-gateway-server/dask_gateway_server/backends/kubernetes/controller.py: ClusterInfo.set_expectations, should_trigger, batch_create_pods, create_pod, delete_pod"]}
{"id": "C53", "title": "A Kubernetes cluster's phase only moves forward", "statement": "The recorded phase moves only from pending to running to stopped or failed, and a requested stop is honoured from every non-final phase.", "quantifier": "every sequence of reconciliations and observations", "why_tests_cant": "All sequences.", "anchors": ["dask-gateway-server/dask_gateway_server/backends/kubernetes/controller.py: handle_cluster, handle_pending_cluster, handle_running_cluster"]}
{"id": "C54", "title": "Adaptive scaling stays within bounds", "statement": "Every count requested by adaptive scaling lies within [minimum, maximum], grows at once when demand grows, and shrinks only to the largest recent demand.", "quantifier": "every sequence of desired sizes and times", "why_tests_cant": "Unbounded sequences.", "anchors": ["dask-gateway/dask_gateway/scheduler_preload.py: GatewaySchedulerService.adapt_loop, adapt, scale"]}
{"id": "C55", "title": "The scheduler reports each worker in one category", "statement": "A heartbeat lists every known worker as exactly one of active, closing or closed, and every closed worker is reported until a heartbeat delivering it succeeds.", "quantifier": "every history of worker arrivals, departures, retirements and heartbeat outcomes", "why_tests_cant": "All interleavings.", "anchors": ["dask-gateway/dask_gateway/scheduler_preload.py: worker_added, worker_removed, heartbeat"]}
{"id": "C56", "title": "Idle shutdown happens only when idle", "statement": "The cluster shuts itself down for idleness only if it has been without work for at least the idle timeout.", "quantifier": "every sequence of activity observations", "why_tests_cant": "Unbounded sequences.", "anchors": ["dask-gateway/dask_gateway/scheduler_preload.py: check_idle"]}
{"id": "C57", "title": "Client requests classify every response", "statement": "Each response status leads to exactly one of success, retry with fresh credentials (at most once), or the documented exception; a request is sent at most twice.", "quantifier": "every sequence of responses", "why_tests_cant": "All response sequences.", "anchors": ["dask-gateway/dask_gateway/client.py: Gateway._request"]}
{"id": "C58", "title": "Waiting for start returns only on a decision", "statement": "Waiting for a cluster returns a report only if the cluster is running, raises if it failed or stopped, and otherwise keeps waiting.", "quantifier": "every sequence of status reports", "why_tests_cant": "All sequences.", "anchors": ["dask-gateway/dask_gateway/client.py: Gateway._wait_for_start"]}
{"id": "C59", "title": "The TCP proxy loses no bytes", "statement": "The bytes the backend receives on a proxied connection are exactly those the client sent, including the ones inspected to find the destination, for every chunking of reads.", "quantifier": "every byte stream and sequence of read sizes", "why_tests_cant": "All streams and chunkings.", "anchors": ["dask-gateway-server/dask-gateway-proxy/pkg/sni/sni.go: peekedTCPConn.Read, ReadSNI"]}
{"id": "C60", "title": "Job memory requests are not rounded below the need", "statement": "The memory requested from the batch system for a worker is at least the configured amount.", "quantifier": "all byte counts", "why_tests_cant": "All integers.", "anchors": ["dask-gateway-server/dask_gateway_server/backends/jobqueue/slurm.py: slurm_format_memory", "dask-gateway-server/dask_gateway_server/backends/jobqueue/pbs.py: qsub_format_memory"]}
{"id": "C61", "title": "Status checks answer for the right worker", "statement": "A status check on a list of workers returns one answer per worker, each about that worker.", "quantifier": "every list of workers over any number of clusters", "why_tests_cant": "Lists spanning several clusters.", "anchors": ["dask-gateway-server/dask_gateway_server/backends/yarn.py: do_check_workers", "dask-gateway-server/dask_gateway_server/backends/local.py: do_check_workers", "dask-gateway-server/dask_gateway_server/backends/jobqueue/base.py: _do_check"]}
{"id": "C62", "title": "User environment cannot override gateway variables", "statement": "The environment of schedulers and workers always carries the gateway's own API address, token, cluster name and TLS paths, whatever the configured environment contains, and keeps every other configured variable.", "quantifier": "every configured environment", "why_tests_cant": "All environments.", "anchors": ["dask-gateway-server/dask_gateway_server/backends/db_base.py: get_env, get_scheduler_env, get_worker_env", "dask-gateway-server/dask_gateway_server/backends/kubernetes/controller.py: get_env"]}
{"id": "C63", "title": "Gateway addresses parse back", "statement": "A gateway address that the client builds for a cluster parses to the same host, port and cluster name, and yields the SNI name under which the proxy registered the cluster.", "quantifier": "all hosts, ports and cluster names", "why_tests_cant": "All strings.", "anchors": ["dask-gateway/dask_gateway/comm.py: parse_gateway_address", "dask-gateway-server/dask-gateway-proxy/cmd/dask-gateway-proxy/main.go: handleConnection"]}
{"id": "C64", "title": "A lagging proxy catches up", "statement": "A proxy whose watch request the gateway answers makes progress: it processes the events it has missed or refreshes its whole table; it does not repeat the same request for ever.", "quantifier": "every lag, every size of the event batch", "why_tests_cant": "The failure needs a batch of events larger than the scanner's 64 KiB line buffer; no test produces one.", "anchors": ["dask-gateway-server/dask-gateway-proxy/cmd/dask-gateway-proxy/main.go: evIter.Next, watchRoutes", "dask-gateway-server/dask_gateway_server/proxy/core.py: Proxy.routes_handler"]}
{"id": "C65", "title": "A login hands out a cookie that works", "statement": "The cookie a successful login sets is accepted in place of credentials on a request made right after it.", "quantifier": "every history of logins and requests and all clock values", "why_tests_cant": "Needs a history in which an old cookie expires without being presented, between two logins of one user.", "anchors": ["dask-gateway-server/dask_gateway_server/auth.py: UserCache, Authenticator.authenticate_and_handle"]}
{"id": "C66", "title": "JupyterHub tokens without the access scope are refused", "statement": "With a service name configured, a hub token is accepted exactly if the hub knows it and it has the scope for all services or for this service; the user is then the token's principal with its groups and admin flag.", "quantifier": "every hub reply, header and configuration", "why_tests_cant": "The scope strings and hub replies are unbounded; tests try a few tokens.", "anchors": ["dask-gateway-server/dask_gateway_server/auth.py: JupyterHubAuthenticator"]}
{"id": "C67", "title": "Accepted options always become a configuration", "statement": "Options the gateway has accepted always translate into cluster configuration without failure; the result sets exactly the declared targets, each to what its field makes of the accepted value (a selected key becomes the value behind it).", "quantifier": "every declaration with distinct fields and targets, and every accepted request", "why_tests_cant": "Declarations and requests are unbounded; a failure would only show at cluster start.", "anchors": ["dask-gateway-server/dask_gateway_server/options.py: Options.transform_options, Options.get_configuration, Select.transform"]}
{"id": "C68", "title": "A create request starts one cluster with the client's options", "statement": "A create request by a logged-in user starts exactly one cluster, for that user and with the options the client sent; the answer carries its name exactly if the backend accepted it.", "quantifier": "every request body, user and backend outcome", "why_tests_cant": "Request bodies are arbitrary JSON; tests send a few shapes.", "anchors": ["dask-gateway-server/dask_gateway_server/routes.py: create_cluster"]}
{"id": "C69", "title": "The user's options win over the configuration file", "statement": "In every cluster configuration the gateway builds, each resource setting given by the user's options has exactly that value, and each other setting has the configuration file's value or its default. Settings within their ranges that leave room for the scheduler are accepted, values out of range are refused.", "quantifier": "all configuration files and options, and every order in which settings are applied", "why_tests_cant": "The order of assignment is an unordered set's; tests see one order.", "anchors": ["dask-gateway-server/dask_gateway_server/backends/base.py: Backend.get_cluster_options, process_cluster_options, ClusterConfig"]}
{"id": "C70", "title": "A stopped Kubernetes cluster leaves nothing running", "statement": "Whenever a cluster is recorded as stopped or failed, its scheduler pod and its credentials have been deleted.", "quantifier": "every sequence of reconciliations, failures and crashes of the controller", "why_tests_cant": "Crash points between any two API calls.", "anchors": ["dask-gateway-server/dask_gateway_server/backends/kubernetes/controller.py: handle_cluster, cleanup_cluster_resources, handle_pending_cluster"]}
{"id": "C71", "title": "Kubernetes clusters are reconciled when they may need to be", "statement": "When a worker newly fails, when the last expected creation or deletion of a worker is seen or expectations have timed out, and when the scheduler starts, ends or is deleted, the cluster is queued for reconciliation; clusters being stopped and other clusters are not.", "quantifier": "every stream of pod updates and deletions, with any scaling in between", "why_tests_cant": "Unbounded streams in any order, with counters that depend on all of it.", "anchors": ["dask-gateway-server/dask_gateway_server/backends/kubernetes/controller.py: on_pod_update, on_pod_delete, ClusterInfo.should_trigger"]}
{"id": "C72", "title": "A requested number of workers reaches the gateway promptly", "statement": "When a number of workers is requested, the gateway is told at once: whenever the scheduler is merely waiting for its next regular heartbeat, the last heartbeat carried the requested number.", "quantifier": "every history of scale requests, heartbeats, failures and timers", "why_tests_cant": "The interleavings of requests with a heartbeat under way.", "anchors": ["dask-gateway/dask_gateway/scheduler_preload.py: Waiter, heartbeat_loop, _scale"]}
{"id": "C73", "title": "An explicit scale request takes effect", "statement": "A request for a number of workers sets that number, turns adaptive scaling off so that the number stays, and is answered.", "quantifier": "every history of scale and adapt requests and of rounds of adaptive scaling", "why_tests_cant": "Requests arriving at any suspension point of the adaptive loop.", "anchors": ["dask-gateway/dask_gateway/scheduler_preload.py: scale, adapt, adapt_loop, Waiter.interrupt", "dask-gateway/dask_gateway/utils.py: cancel_task"]}
{"id": "C74", "title": "Failed heartbeats are retried with bounded backoff", "statement": "After heartbeats that failed in a row the next one is tried after a time that doubles with each failure and never exceeds the regular period; a success returns to the regular period and resets the backoff.", "quantifier": "every history and every number of failures in a row", "why_tests_cant": "Unbounded numbers of failures.", "anchors": ["dask-gateway/dask_gateway/scheduler_preload.py: heartbeat_loop"]}
{"id": "C75", "title": "Lost and surplus workers are reported within seconds", "statement": "When a worker is lost that was not being retired (and liveness is tracked by heartbeats), or there are more workers than requested, the gateway is told within three seconds of the scheduler being able to.", "quantifier": "every history of worker arrivals, losses, retirements, timers and heartbeats", "why_tests_cant": "Timers that fire at any point of the heartbeat loop.", "anchors": ["dask-gateway/dask_gateway/scheduler_preload.py: worker_added, worker_removed, Waiter.interrupt_soon, heartbeat_loop"]}
{"id": "C76", "title": "Only the gateway can scale a cluster through its scheduler", "statement": "A request to a scheduler's control interface has an effect only if it carries exactly the cluster's token; with it, scale and adapt requests are passed on with their arguments and anything else is refused.", "quantifier": "every request", "why_tests_cant": "All headers and bodies.", "anchors": ["dask-gateway/dask_gateway/scheduler_preload.py: BaseHandler.get_current_user, BaseHandler.prepare, CommHandler.post"]}
{"id": "C77", "title": "Listing clusters from the client", "statement": "Asking the client for clusters in given statuses gives exactly the user's own clusters in these statuses, and by default the pending and running ones.", "quantifier": "every set of statuses and every set of clusters", "why_tests_cant": "Composition of client and server over all inputs.", "anchors": ["dask-gateway/dask_gateway/client.py: Gateway._clusters", "dask-gateway-server/dask_gateway_server/routes.py: list_clusters"]}
{"id": "C78", "title": "Users are told when a scaling request is reduced", "statement": "When the server reduces a scale or adapt request to the limits of the cluster the client warns with the server's message, and when it does not reduce it there is no warning.", "quantifier": "every request and limits", "why_tests_cant": "Composition of client and server over all inputs.", "anchors": ["dask-gateway/dask_gateway/client.py: Gateway._scale_cluster, Gateway._adapt_cluster", "dask-gateway-server/dask_gateway_server/routes.py: scale_cluster, adapt_cluster"]}
{"id": "C79", "title": "Cluster objects shut down what they started", "statement": "A cluster object that is to shut its cluster down requests its stop when closed, when the start fails and at the latest at the end of the process; one that is not never does unless told to, and never for another cluster.", "quantifier": "every history of starts (with any outcome), closes and process ends", "why_tests_cant": "Failures at any point of the start, and any order of calls.", "anchors": ["dask-gateway/dask_gateway/client.py: GatewayCluster._init_internal, _start_async, _stop_internal, _stop_async, close, cleanup_lingering_clusters"]}
{"id": "C80", "title": "The cluster object knows the workers of the scheduler", "statement": "The table of workers of a cluster object has for each worker exactly what the scheduler last said of it.", "quantifier": "every initial table and every sequence of messages", "why_tests_cant": "Unbounded sequences of messages.", "anchors": ["dask-gateway/dask_gateway/client.py: GatewayCluster._watch_worker_status"]}
{"id": "C81", "title": "A TLS connection for a cluster reaches its scheduler", "statement": "A connection whose TLS greeting names a known cluster is connected to that cluster's scheduler; no other connection is; and everything else is handled as HTTP where the two share a port.", "quantifier": "every byte stream, division into pieces, and table of clusters", "why_tests_cant": "All greetings and chunkings.", "anchors": ["dask-gateway-server/dask-gateway-proxy/cmd/dask-gateway-proxy/main.go: handleConnection", "dask-gateway-server/dask-gateway-proxy/pkg/sni/sni.go: ReadSNI"]}
{"id": "C82", "title": "A proxied connection delivers both directions in full", "statement": "On a proxied connection each side gets everything that the other sent, also after one of them has ended its sending.", "quantifier": "every order of sends, ends and copies of the two directions", "why_tests_cant": "All interleavings of two copy loops.", "anchors": ["dask-gateway-server/dask-gateway-proxy/cmd/dask-gateway-proxy/main.go: handleConnection, proxyConnections"]}
{"id": "C83", "title": "Starting a local cluster hands over its files and nothing else", "statement": "When the local backend starts a cluster, the user becomes the owner of the cluster's working directory and of everything in it, and of nothing else.", "quantifier": "every working directory and every content of the file system", "why_tests_cant": "All paths.", "anchors": ["dask-gateway-server/dask_gateway_server/backends/local.py: setup_working_directory"]}
{"id": "C84", "title": "A stopped batch cluster has its job cancelled", "statement": "Every attempt to stop a cluster or worker of a batch system asks to cancel its job, and reports success only if that worked.", "quantifier": "every sequence of attempts, with every failure of the cancel command and of the removal of the staging directory", "why_tests_cant": "All failure histories.", "anchors": ["dask-gateway-server/dask_gateway_server/backends/jobqueue/launcher.py: main, stop", "dask-gateway-server/dask_gateway_server/backends/jobqueue/base.py: stop_job, do_stop_cluster, do_stop_worker"]}
{"id": "C85", "title": "A local process is stopped in order and in bounded time", "statement": "Stopping a local process sends interrupt, terminate and kill in this order, waits at least the configured time between them, stops as soon as the process is seen to be gone, and ends within a bound that depends on the timeouts alone.", "quantifier": "every behaviour of the process and all timeouts", "why_tests_cant": "All schedules.", "anchors": ["dask-gateway-server/dask_gateway_server/backends/local.py: stop_process, wait_is_shutdown"]}
{"id": "C86", "title": "Pods belong to the cluster they were made for", "statement": "Whatever the configuration of common and extra labels, every pod that is made for a cluster carries the labels of its gateway, its cluster and its kind, so that it is counted for this cluster and no other.", "quantifier": "every configuration, namespace and cluster name", "why_tests_cant": "All label dictionaries.", "anchors": ["dask-gateway-server/dask_gateway_server/backends/kubernetes/controller.py: make_pod, get_labels, get_cluster_key"]}
{"id": "C87", "title": "Routes on Kubernetes lead to the right scheduler", "statement": "A web path and a TLS server name belong to the routes of at most one cluster, these lead to the service of that cluster, and the service selects the scheduler pod of that cluster and no other pod.", "quantifier": "all namespaces, names, paths and configurations", "why_tests_cant": "All strings.", "anchors": ["dask-gateway-server/dask_gateway_server/backends/kubernetes/controller.py: make_service, make_ingressroute, make_ingressroutetcp, make_pod"]}
{"id": "C88", "title": "The gateway shows what Kubernetes has", "statement": "Once the changes of a cluster object have been worked off, the gateway shows a cluster for it with the user, options, status, times and addresses the object has, and shows no cluster if there is no object. Two rounds of work are enough to get there.", "quantifier": "every history of changes, deletions, queue rounds and answers of the API server", "why_tests_cant": "All interleavings of object changes with suspended reads of secrets.", "anchors": ["dask-gateway-server/dask_gateway_server/backends/kubernetes/backend.py: sync_cluster, sync_clusters_loop, on_cluster_event"]}
{"id": "C89", "title": "Listings on Kubernetes are complete and per user", "statement": "A listing shows exactly the clusters the gateway knows whose status was asked for, each once; the listing of a user shows exactly those of this user.", "quantifier": "every history, user and set of statuses", "why_tests_cant": "All histories, with two indices to be kept alike.", "anchors": ["dask-gateway-server/dask_gateway_server/backends/kubernetes/backend.py: list_clusters, sync_cluster"]}
{"id": "C90", "title": "Credentials of a cluster on Kubernetes", "statement": "The certificate, key and token the gateway shows for a cluster are those in the secret of this cluster, they do not change while the cluster is shown, and a request is accepted for a cluster on its token alone.", "quantifier": "every history of objects and secrets, every request", "why_tests_cant": "All histories; the read of a secret is interleaved with changes.", "anchors": ["dask-gateway-server/dask_gateway_server/backends/kubernetes/backend.py: sync_cluster", "dask-gateway-server/dask_gateway_server/backends/kubernetes/controller.py: make_secret"]}
{"id": "C91", "title": "Stop and scale requests reach the right object", "statement": "A stop request patches the object of that cluster to be inactive unless the cluster ended, and a heartbeat patches the object of that cluster to the number of workers asked for, but no more than its maximum; no other object is patched.", "quantifier": "every state, namespace, name and count", "why_tests_cant": "All names and states.", "anchors": ["dask-gateway-server/dask_gateway_server/backends/kubernetes/backend.py: stop_cluster, on_cluster_heartbeat"]}
{"id": "C92", "title": "Requests that wait for a cluster are released", "statement": "A request that waits for a cluster is released as soon as the cluster is shown as anything but pending, or its object is gone, and not before.", "quantifier": "every history with any number of waiting requests", "why_tests_cant": "All interleavings of waiting requests with changes.", "anchors": ["dask-gateway-server/dask_gateway_server/backends/kubernetes/backend.py: get_cluster, sync_cluster"]}
{"id": "C93", "title": "Records of ended clusters are removed in time", "statement": "The cleanup removes the record of a cluster only if the cluster ended at least the configured time before, and it removes every such record.", "quantifier": "every history of objects, every configured age and time", "why_tests_cant": "All histories and names.", "anchors": ["dask-gateway-server/dask_gateway_server/backends/kubernetes/controller.py: cleanup_expired_cluster_records_loop, reconcile_cluster, on_cluster_delete"]}
{"id": "C94", "title": "Requests that wait for a cluster of the database backends are released", "statement": "A request that waits for a cluster goes on waiting while the cluster is pending, and is answered once it is running, stopped or failed. If the cluster is stopped before it runs, the wait ends at the next reconciliation, for which the cluster is queued.", "quantifier": "every history of API calls, heartbeats, reconciliations, checks and crashes", "why_tests_cant": "All interleavings with the waiting request.", "anchors": ["dask-gateway-server/dask_gateway_server/backends/db_base.py: get_cluster, Cluster.ready"]}
{"id": "C95", "title": "A graceful shutdown stops everything and ends", "statement": "When the gateway shuts down with the option to stop clusters, it waits until every cluster is stopped or failed, with all workers finished, schedulers stopped and routes removed, and no started worker left running. The wait ends: the work left is bounded, and when none is left the wait is over.", "quantifier": "every history before the shutdown and every order of the remaining work", "why_tests_cant": "All schedules of the remaining work, for any number of clusters and workers.", "anchors": ["dask-gateway-server/dask_gateway_server/backends/db_base.py: cleanup"]}
{"id": "C96", "title": "The identity of a cluster never changes", "statement": "The owner, the worker limit and the start time of a cluster never change, no worker of a known cluster is forgotten, and a finished worker stays finished.", "quantifier": "every history, with crashes", "why_tests_cant": "All later states of all histories.", "anchors": ["dask-gateway-server/dask_gateway_server/backends/db_base.py: Cluster, DataManager"]}
{"id": "C97", "title": "A cluster ends as it was asked to", "statement": "A cluster that its user stopped ends as stopped, and one that was given up ends as failed; the first request decides.", "quantifier": "every history with a stop of an active cluster, and every later history", "why_tests_cant": "All interleavings of the stop with reports from the backend.", "anchors": ["dask-gateway-server/dask_gateway_server/backends/db_base.py: stop_cluster, _cluster_to_submitted, _check_clusters, _cluster_to_stopped"]}
{"id": "C98", "title": "A running worker is not given up as never started", "statement": "Once the scheduler reported a worker as running, no timeout check gives the worker up because its start took too long.", "quantifier": "every history with such a report, and every later history", "why_tests_cant": "All interleavings of heartbeats with the calls that start workers.", "anchors": ["dask-gateway-server/dask_gateway_server/backends/db_base.py: on_cluster_heartbeat, _worker_to_submitted, _check_timeouts"]}
{"id": "C99", "title": "The same encryption key is accepted in every form it can be written in", "statement": "A database encryption key is accepted exactly if it is a 32-byte value, either raw or base64-encoded (URL-safe or standard alphabet); the raw and the encoded forms of a value are the same key, different values stay different keys, and normalising an accepted key again changes nothing.", "quantifier": "every key given as text or bytes", "why_tests_cant": "The set of byte strings is unbounded and the base64 decoder used is lenient (it skips foreign characters), so that the accepted set is only visible from an argument over all inputs.", "anchors": ["dask-gateway-server/dask_gateway_server/backends/db_base.py:_normalize_encrypt_key"]}
{"id": "C100", "title": "Keys in the environment variable are read back exactly", "statement": "If base64-encoded keys are written into DASK_GATEWAY_ENCRYPT_KEYS with a semicolon between them and any white space around them, the gateway uses exactly these keys in this order.", "quantifier": "every non-empty list of 32-byte keys, both base64 alphabets, any white space", "why_tests_cant": "Depends on no key containing a separator or white space in any encoding; tests use one or two fixed keys.", "anchors": ["dask-gateway-server/dask_gateway_server/backends/db_base.py:DBBackendBase._db_encrypt_keys_default", "dask-gateway-server/dask_gateway_server/backends/db_base.py:DBBackendBase._db_encrypt_keys_validate"]}
{"id": "C101", "title": "Cluster credentials are never stored in the clear", "statement": "Every record in a database that is not in memory holds the token and the TLS credentials encrypted with the first key configured for the gateway that wrote it, and a gateway with such a database and no keys does not start.", "quantifier": "every sequence of gateway runs with any configurations and created clusters", "why_tests_cant": "Quantifies over all histories of configurations; a test inspects one record.", "anchors": ["dask-gateway-server/dask_gateway_server/backends/db_base.py:DataManager.__init__", "dask-gateway-server/dask_gateway_server/backends/db_base.py:DataManager.encrypt", "dask-gateway-server/dask_gateway_server/backends/db_base.py:DataManager.create_cluster", "dask-gateway-server/dask_gateway_server/backends/db_base.py:DBBackendBase._db_encrypt_keys_validate"]}
{"id": "C102", "title": "Credentials survive restarts and key rotation", "statement": "After any sequence of gateway runs, each with its own list of keys, a gateway whose keys include every key used so far starts and knows exactly the clusters created so far with their original tokens and TLS credentials (none of which contains a semicolon); if a key that was used is missing, it does not start at all.", "quantifier": "every sequence of gateway runs with any key lists, created clusters and randomness", "why_tests_cant": "Rotation histories are unbounded and the stored form joins two credentials with a separator.", "anchors": ["dask-gateway-server/dask_gateway_server/backends/db_base.py:DataManager.__init__", "dask-gateway-server/dask_gateway_server/backends/db_base.py:DataManager.decrypt", "dask-gateway-server/dask_gateway_server/backends/db_base.py:DataManager.decode_tls_credentials", "dask-gateway-server/dask_gateway_server/backends/db_base.py:DataManager.encode_tls_credentials"]}
{"id": "C103", "title": "Clusters left running on shutdown are on record", "statement": "A gateway configured to leave its clusters running when it exits has a database that outlives it, in which there is a record of each of its clusters and of all the earlier ones; with an in-memory database this configuration is rejected.", "quantifier": "every history of gateway runs and every configuration", "why_tests_cant": "Relates configuration checks to the fate of the records in all histories.", "anchors": ["dask-gateway-server/dask_gateway_server/backends/db_base.py:DBBackendBase._stop_clusters_on_shutdown_validate", "dask-gateway-server/dask_gateway_server/backends/db_base.py:_is_in_memory_db"]}
{"id": "C104", "title": "Every call of a client with valid credentials is handled exactly once, as its user", "statement": "Whatever the order of calls, other clients, expiring cookies and gateway restarts: each call made with valid credentials is executed by the gateway exactly once and for the right user, and (with basic or JupyterHub authentication) the caller gets exactly the answer of the gateway, success or error, whether it was recognised by cookie or logged in anew.", "quantifier": "every history of calls, interleaved uses of the cookie cache by other clients, cookie expiry on both sides, and gateway restarts", "why_tests_cant": "The retry after a 401 and the cookie cache interact over time and with other clients; tests run single requests.", "anchors": ["dask-gateway-server/dask_gateway_server/auth.py:Authenticator.authenticate_and_handle", "dask-gateway/dask_gateway/client.py:Gateway._request"]}
{"id": "C105", "title": "With Kerberos, too, callers get the answer of the gateway", "statement": "With Kerberos authentication and a valid ticket, the result of every call is the answer of the gateway, success or error.", "quantifier": "every history of calls, other clients, cookie expiry and gateway restarts", "why_tests_cant": "Needs the interplay of error handling on the server with the mutual authentication on the client.", "anchors": ["dask-gateway-server/dask_gateway_server/auth.py:KerberosAuthenticator", "dask-gateway-server/dask_gateway_server/auth.py:Authenticator.authenticate_and_handle", "dask-gateway-server/dask_gateway_server/routes.py:_wrap_error_handler", "dask-gateway/dask_gateway/auth.py:KerberosAuth"]}
{"id": "C106", "title": "Different Kerberos principals are different users", "statement": "Only a request with a ticket that the Kerberos library accepts is let in, as the ticket's principal, and no two principals are the same user of the gateway.", "quantifier": "every header, ticket and pair of principals", "why_tests_cant": "Quantifies over all pairs of principals, including those of other realms.", "anchors": ["dask-gateway-server/dask_gateway_server/auth.py:KerberosAuthenticator.authenticate"]}
{"id": "C107", "title": "A proxied request arrives as it was sent", "statement": "A request to the HTTP proxy is answered with 404 exactly if no route is a prefix of its path; otherwise it goes to the target of the longest such route, and the URL there is the target's path followed by the rest of the request's path as it was written, with the same query. For the gateway's own API the URL arrives byte for byte.", "quantifier": "every table of routes and every request URL, including all ways to percent-encode a path", "why_tests_cant": "Quantifies over all byte strings and encodings; tests try a few plain paths.", "anchors": ["dask-gateway-server/dask-gateway-proxy/cmd/dask-gateway-proxy/main.go:ServeHTTP"]}
{"id": "C108", "title": "The proxy process is kept running, and none is left behind", "statement": "At most one proxy process runs. A proxy that ends is started again within the status period, or within the backoff (0.5 s doubling up to 15 s) if starting fails; a running one is left alone. After the gateway has begun to shut down, or has ended in any way, no further proxy is started and the last one ends.", "quantifier": "every history of crashes of the proxy, failed starts, shutdown steps and end of the gateway, at any times", "why_tests_cant": "Needs crashes at every point of time, including during shutdown.", "anchors": ["dask-gateway-server/dask_gateway_server/proxy/core.py:Proxy.monitor_proxy_process", "dask-gateway-server/dask_gateway_server/proxy/core.py:Proxy.start_proxy_process", "dask-gateway-server/dask_gateway_server/proxy/core.py:Proxy.cleanup", "dask-gateway-server/dask-gateway-proxy/cmd/dask-gateway-proxy/main.go:awaitShutdown"]}
{"id": "C109", "title": "A failed or interrupted start stops everything it had started", "statement": "If the start of the gateway server or of the Kubernetes controller fails at any point, or a signal comes at any point, everything that had been started by then is stopped, and the exit code tells a failure from an interruption.", "quantifier": "every point at which a start may fail or be interrupted, every combination of authenticator and backend", "why_tests_cant": "Failure at each of the points of a start is not exercised by tests.", "anchors": ["dask-gateway-server/dask_gateway_server/app.py:DaskGateway.main", "dask-gateway-server/dask_gateway_server/app.py:DaskGateway.cleanup", "dask-gateway-server/dask_gateway_server/utils.py:run_main", "dask-gateway-server/dask_gateway_server/backends/db_base.py:DBBackendBase.cleanup", "dask-gateway-server/dask_gateway_server/backends/kubernetes/controller.py:KubeController.cleanup"]}
{"id": "C110", "title": "Only the proxy learns the routes", "statement": "A request to the routes endpoint learns anything about the routes only if it presents exactly the API token of the proxy, and one that does is always let in. Every other request is refused without effect.", "quantifier": "every header and every state of the gateway", "why_tests_cant": "Quantifies over all header values.", "anchors": ["dask-gateway-server/dask_gateway_server/proxy/core.py:Proxy.routes_handler", "dask-gateway-server/dask_gateway_server/proxy/core.py:Proxy.get_start_env", "dask-gateway-server/dask-gateway-proxy/cmd/dask-gateway-proxy/main.go:routesWatcher"]}
{"id": "C111", "title": "Every watching proxy is told every change once and in order", "statement": "However many proxies watch the routes at the same time and whenever each of them connects, is written to or breaks off: what each is sent is the sequence of route changes after the one it asked to start from, without gap, repetition or reordering, and what was not sent yet is waiting for it. A proxy that fetched the table and watches from its number misses nothing in between.", "quantifier": "every history of route changes, watch requests, writes, broken connections and shutdown, for any number of watchers", "why_tests_cant": "Interleavings of several watchers with changes are not exercised by tests.", "anchors": ["dask-gateway-server/dask_gateway_server/proxy/core.py:Proxy.routes_handler", "dask-gateway-server/dask_gateway_server/proxy/core.py:Proxy._append_event", "dask-gateway-server/dask_gateway_server/proxy/core.py:Proxy._events_after"]}
{"id": "C112", "title": "Watching proxies do not hold up a shutdown", "statement": "When the gateway shuts down, every request that is being told of route changes ends; a request that is only being set up, or comes later, ends as soon as its headers are sent; and nothing more is written to any of them.", "quantifier": "every history before and after the shutdown", "why_tests_cant": "The race of a new watcher with the shutdown is a matter of schedules.", "anchors": ["dask-gateway-server/dask_gateway_server/proxy/core.py:Proxy._on_shutdown", "dask-gateway-server/dask_gateway_server/utils.py:CancelGroup", "dask-gateway-server/dask_gateway_server/proxy/core.py:Proxy.routes_handler"]}
{"id": "C113", "title": "Traffic for a cluster reaches that cluster", "statement": "When the proxy has read all route changes: TLS connections for the name of a running cluster go to the address its scheduler reported, HTTP requests for its path or anything below it go to the dashboard its scheduler reported, the gateway's own pages are served by the gateway, and a finished or unknown cluster gets no traffic.", "quantifier": "every history of operations of the gateway, heartbeats, crashes and restarts, and steps of the proxy and its connection, for any number of clusters", "why_tests_cant": "Crosses three components (backend, routing table, proxy) and ranges over all interleavings and crash points.", "anchors": ["dask-gateway-server/dask_gateway_server/backends/db_base.py:DBBackendBase._check_cluster_proxied", "dask-gateway-server/dask_gateway_server/backends/db_base.py:DBBackendBase._cluster_to_stopped", "dask-gateway-server/dask_gateway_server/proxy/core.py:Proxy.add_route", "dask-gateway-server/dask-gateway-proxy/cmd/dask-gateway-proxy/main.go:routesWatcher", "dask-gateway-server/dask-gateway-proxy/cmd/dask-gateway-proxy/main.go:ServeHTTP"]}
{"id": "C114", "title": "The proxy can always catch up", "statement": "From every state of gateway and proxy the proxy reaches, by its own steps and without any change in the gateway, a state in which it has read all route changes.", "quantifier": "every history as in C113", "why_tests_cant": "Needs a continuation from every reachable state.", "anchors": ["dask-gateway-server/dask-gateway-proxy/cmd/dask-gateway-proxy/main.go:routesWatcher", "dask-gateway-server/dask_gateway_server/proxy/core.py:Proxy.routes_handler"]}
{"id": "C115", "title": "Traffic never reaches another cluster", "statement": "At any time, also while the proxy is behind and after restarts of the gateway that it did not notice, a TLS connection goes only to an address that the scheduler of the named cluster itself reported, and a request below a cluster's path only to the gateway or to a dashboard that this cluster's own scheduler reported.", "quantifier": "every history as in C113, at every point of it", "why_tests_cant": "Isolation has to hold in all intermediate states.", "anchors": ["dask-gateway-server/dask_gateway_server/backends/db_base.py:DBBackendBase.on_cluster_heartbeat", "dask-gateway-server/dask_gateway_server/backends/db_base.py:DBBackendBase._check_cluster_proxied", "dask-gateway-server/dask_gateway_server/proxy/core.py:Proxy.add_route", "dask-gateway-server/dask-gateway-proxy/cmd/dask-gateway-proxy/main.go:routesWatcher"]}
{"id": "C116", "title": "A scheduler's heartbeats are handled", "statement": "The gateway handles the heartbeat a scheduler is waiting for without an internal error, stores the number of workers it requests (up to the cluster's limit) and that the workers it names run, as long as the scheduler's process was not replaced.", "quantifier": "every history of the gateway with crashes and restarts, of workers that connect and leave, and of heartbeats that are lost, time out, are answered in vain or arrive late, for any number of clusters", "why_tests_cant": "Depends on how the scheduler's and the gateway's knowledge of workers evolve together over any history and any loss of messages.", "anchors": ["dask-gateway/dask_gateway/scheduler_preload.py:GatewaySchedulerService.heartbeat", "dask-gateway/dask_gateway/scheduler_preload.py:GatewaySchedulerService.worker_added", "dask-gateway/dask_gateway/scheduler_preload.py:GatewaySchedulerService.worker_removed", "dask-gateway-server/dask_gateway_server/backends/db_base.py:DBBackendBase.on_cluster_heartbeat"]}
{"id": "C117", "title": "A worker that fails is replaced", "statement": "When a running cluster has no queued or in-flight work, it has at least the number of workers its scheduler last requested, also after workers failed.", "quantifier": "every history of gateway and schedulers as in C116", "why_tests_cant": "Needs every history of heartbeats and failures, and the states of two processes.", "anchors": ["dask-gateway/dask_gateway/scheduler_preload.py:GatewaySchedulerService.heartbeat", "dask-gateway-server/dask_gateway_server/backends/db_base.py:DBBackendBase.on_cluster_heartbeat", "dask-gateway-server/dask_gateway_server/backends/db_base.py:DBBackendBase.reconcile_worker", "dask-gateway-server/dask_gateway_server/backends/db_base.py:DBBackendBase._check_cluster_scale"]}
{"id": "C118", "title": "The requested number of workers runs", "statement": "When gateway and scheduler have settled (an answered heartbeat left nothing to do, no surplus of workers is connected, none is still starting and none that was announced as closing is gone), exactly the requested number of workers runs, up to the cluster's limit, and each of them is connected.", "quantifier": "every history of gateway and schedulers as in C116", "why_tests_cant": "A statement about all settled states of two communicating processes.", "anchors": ["dask-gateway/dask_gateway/scheduler_preload.py:GatewaySchedulerService.heartbeat", "dask-gateway-server/dask_gateway_server/backends/db_base.py:DBBackendBase.on_cluster_heartbeat", "dask-gateway-server/dask_gateway_server/backends/db_base.py:DBBackendBase._check_cluster_scale"]}
{"id": "C119", "title": "Jobs run the configured command", "statement": "The script given to Slurm, PBS or YARN runs the configured setup and then, as its last line, a command with exactly the words that are configured followed by the options of the scheduler (protocol, addresses, preload module, periods) or of the worker (address of its scheduler, its own name, threads and memory).", "quantifier": "all configurations of commands, setup scripts, names, addresses and periods, on Slurm, PBS and YARN", "why_tests_cant": "What the shell makes of a text depends on every character of every setting; tests use the default command.", "anchors": ["dask-gateway-server/dask_gateway_server/backends/jobqueue/slurm.py:SlurmBackend.get_submit_cmd_env_stdin", "dask-gateway-server/dask_gateway_server/backends/jobqueue/pbs.py:PBSBackend.get_submit_cmd_env_stdin", "dask-gateway-server/dask_gateway_server/backends/yarn.py:YarnBackend._build_specification", "dask-gateway-server/dask_gateway_server/backends/db_base.py:DBBackendBase.get_scheduler_command", "dask-gateway-server/dask_gateway_server/backends/db_base.py:DBBackendBase.get_worker_command"]}
{"id": "C120", "title": "Each cluster has its own staging directory", "statement": "On a batch system no two clusters share a staging directory, none of a user's directories lies within another, the paths given to jobs are those of the files there, and whenever a job is taken by the batch system the directory holds exactly the cluster's own certificate and key.", "quantifier": "all pairs of clusters, templates of directories, users, and histories of starts, stops, failures and restarts", "why_tests_cant": "Needs all pairs of names and templates, and every point at which a start can fail.", "anchors": ["dask-gateway-server/dask_gateway_server/backends/jobqueue/base.py:JobQueueBackend.get_staging_directory", "dask-gateway-server/dask_gateway_server/backends/jobqueue/base.py:JobQueueBackend.get_tls_paths", "dask-gateway-server/dask_gateway_server/backends/jobqueue/base.py:JobQueueBackend.do_start_cluster", "dask-gateway-server/dask_gateway_server/backends/jobqueue/launcher.py:start"]}
{"id": "C121", "title": "Nothing is left of a cluster that has ended", "statement": "When a cluster on a batch system or with the local backend has ended, its directory with the private key and its jobs or processes are gone.", "quantifier": "every history of starts, stops, refused submissions, lost answers and ends of the gateway's process", "why_tests_cant": "What is left depends on the exact point at which a start fails or the process ends.", "anchors": ["dask-gateway-server/dask_gateway_server/backends/jobqueue/base.py:JobQueueBackend.do_start_cluster", "dask-gateway-server/dask_gateway_server/backends/jobqueue/base.py:JobQueueBackend.do_stop_cluster", "dask-gateway-server/dask_gateway_server/backends/jobqueue/launcher.py:start", "dask-gateway-server/dask_gateway_server/backends/jobqueue/launcher.py:stop", "dask-gateway-server/dask_gateway_server/backends/local.py:LocalBackend.do_start_cluster", "dask-gateway-server/dask_gateway_server/backends/local.py:LocalBackend.do_stop_cluster"]}
{"id": "C122", "title": "Jobs are known to the batch system by the id the gateway uses", "statement": "A job that the batch system reports as running, queued or held counts as alive, one that it reports otherwise or not at all counts as gone, and it is cancelled under the id that the batch system gave it.", "quantifier": "all tables that squeue or qstat can print, with any widths, and all sets of jobs", "why_tests_cant": "Quantifies over all texts that another program can print.", "anchors": ["dask-gateway-server/dask_gateway_server/backends/jobqueue/slurm.py:SlurmBackend.parse_job_states", "dask-gateway-server/dask_gateway_server/backends/jobqueue/slurm.py:SlurmBackend.parse_job_id", "dask-gateway-server/dask_gateway_server/backends/jobqueue/pbs.py:PBSBackend.parse_job_states", "dask-gateway-server/dask_gateway_server/backends/jobqueue/pbs.py:PBSBackend.parse_job_id", "dask-gateway-server/dask_gateway_server/backends/jobqueue/base.py:JobQueueBackend._do_check"]}
{"id": "C123", "title": "Jobs get the configured resources and options", "statement": "A submission asks for exactly the configured partition, queue, account, project and quality of service (none that is not configured), for the cores and memory of its kind (scheduler or worker), and with the staging directory.", "quantifier": "all configurations and both kinds of jobs, on Slurm and PBS", "why_tests_cant": "Holds for all texts of the settings, also those that look like options.", "anchors": ["dask-gateway-server/dask_gateway_server/backends/jobqueue/slurm.py:SlurmBackend.get_submit_cmd_env_stdin", "dask-gateway-server/dask_gateway_server/backends/jobqueue/pbs.py:PBSBackend.get_submit_cmd_env_stdin", "dask-gateway-server/dask_gateway_server/backends/jobqueue/pbs.py:format_resource_list"]}
{"id": "C124", "title": "Jobs run as the user of their cluster", "statement": "Whatever is submitted for a cluster is submitted by a process that runs as the account of the cluster's user.", "quantifier": "all users, accounts and clusters", "why_tests_cant": "Depends on how names are resolved by two programs.", "anchors": ["dask-gateway-server/dask_gateway_server/backends/jobqueue/base.py:JobQueueBackend.do_as_user"]}
{"id": "C125", "title": "The proxy process runs with exactly the settings of the gateway", "statement": "Every configuration of the proxy that the gateway accepts is handed to the proxy process unchanged: addresses keep their host and port, a port of zero becomes a concrete one, the level of messages, the certificate and key and the URL to ask for routes arrive as they are, even if a value looks like an option. The process serves HTTP at the one address and schedulers at the other. What is refused is refused by the gateway: a certificate without a key, a prefix without a slash.", "quantifier": "all configurations, all values of settings, all states of the operating system", "why_tests_cant": "Tests use a few addresses and never values that look like options, empty tokens or two spellings of one address.", "anchors": ["dask-gateway-server/dask_gateway_server/proxy/core.py: Proxy.get_start_command, get_start_env, validators", "dask-gateway-server/dask_gateway_server/utils.py: normalize_address", "dask-gateway-server/dask-gateway-proxy/cmd/dask-gateway-proxy/main.go: main, run"]}
{"id": "C126", "title": "A proxy that is started on its own finds the gateway and is let in", "statement": "If the proxy is started separately from the same configuration, it asks for its routes at the address at which the gateway listens, with the token that the gateway demands.", "quantifier": "all configurations, all machines and random draws of the two processes", "why_tests_cant": "It depends on what two processes draw at random and read from their environments.", "anchors": ["dask-gateway-server/dask_gateway_server/proxy/core.py: ProxyApp.start, Proxy.api_token, Proxy.gateway_url", "dask-gateway-server/dask_gateway_server/app.py: DaskGateway.address"]}
{"id": "C127", "title": "Heartbeats and shutdown requests of a scheduler reach the gateway as those of its cluster", "statement": "A scheduler that is started with the environment of its cluster sends its heartbeats to a URL which the proxy passes on to the gateway, where they are let in and counted for exactly that cluster, with the content that was sent; and its request to be stopped stops exactly that cluster. This holds for any prefix, any configured environment, any other routes, and a token given directly or in a file. A scheduler without the variables it needs does not start.", "quantifier": "all prefixes, names, tokens, tables of routes, environments and messages", "why_tests_cant": "It composes the environment, the URL, the proxy, the table of routes and the authentication, each of which tests look at alone.", "anchors": ["dask-gateway/dask_gateway/scheduler_preload.py: make_gateway_client, GatewayClient", "dask-gateway-server/dask_gateway_server/backends/db_base.py: api_url, get_env", "dask-gateway-server/dask_gateway_server/routes.py: handle_heartbeat, delete_cluster", "dask-gateway-server/dask-gateway-proxy/cmd/dask-gateway-proxy/main.go: ServeHTTP"]}
{"id": "C128", "title": "A stopped cluster on Kubernetes ends", "statement": "If a user has stopped a cluster and the controller has nothing left to do for it, the cluster is recorded as stopped or failed, whatever changed, failed, was lost or crashed before, and in whichever order.", "quantifier": "all interleavings of requests, calls one by one, failures and lost answers of calls, deliveries of changes, changes of pods and endpoints, deletions by others and restarts of the controller", "why_tests_cant": "A reconciliation works on an old version of the object while users, pods and other watches go on; the orders are unbounded.", "anchors": ["dask-gateway-server/dask_gateway_server/backends/kubernetes/controller.py: reconciler_loop, reconcile_cluster, handle_cluster, handle_pending_cluster, handle_running_cluster, on_pod_event, on_endpoints_event", "dask-gateway-server/dask_gateway_server/backends/kubernetes/utils.py: Informer", "dask-gateway-server/dask_gateway_server/backends/kubernetes/backend.py: do_stop_cluster"]}
{"id": "C129", "title": "A cluster on Kubernetes that has ended has left nothing behind", "statement": "When the controller has nothing left to do for a cluster that is recorded as stopped or failed, neither its scheduler pod nor its credentials exist.", "quantifier": "all interleavings as in C128", "why_tests_cant": "Whether something leaks depends on where between two calls a request arrives.", "anchors": ["dask-gateway-server/dask_gateway_server/backends/kubernetes/controller.py: cleanup_cluster_resources, handle_pending_cluster, create_scheduler_pod_if_not_exists, create_secret_if_not_exists, patch_cluster_status", "dask-gateway-server/dask_gateway_server/backends/kubernetes/backend.py: do_stop_cluster"]}
{"id": "C130", "title": "The recorded phase of a cluster on Kubernetes follows its scheduler", "statement": "When the controller has nothing left to do for a cluster that no user stopped, it is recorded as running if its scheduler runs and is ready, as failed if its scheduler ended or is gone, and as running or failed only then. A cluster is never recorded as failed unless its scheduler ended or somebody deleted it.", "quantifier": "all interleavings as in C128", "why_tests_cant": "A wake-up that is lost between two watches shows only in rare orders of events.", "anchors": ["dask-gateway-server/dask_gateway_server/backends/kubernetes/controller.py: handle_pending_cluster, handle_running_cluster, on_pod_event, on_endpoints_event, handle_cluster", "dask-gateway-server/dask_gateway_server/backends/kubernetes/utils.py: Informer"]}
{"id": "C131", "title": "The controller's work for a cluster on Kubernetes comes to an end", "statement": "From any situation, if nothing more happens from outside and calls succeed, the controller gets to where nothing is left to do for the cluster, in whichever order it takes its steps: it never stalls with work left, and it never works for ever.", "quantifier": "all situations that can arise as in C128, and all orders of the controller's further steps", "why_tests_cant": "Each change the controller makes comes back to it as an event; that this dies out for every order cannot be tried.", "anchors": ["dask-gateway-server/dask_gateway_server/backends/kubernetes/controller.py: reconciler_loop, reconcile_cluster, handle_cluster", "dask-gateway-server/dask_gateway_server/backends/kubernetes/utils.py: Informer", "dask-gateway-server/dask_gateway_server/workqueue.py: WorkQueue"]}
{"id": "C132", "title": "A running cluster on Kubernetes gets the workers it asked for", "statement": "Once the controller has nothing left to do for a running cluster, there are at least as many pending and running workers as were asked for last, no worker that has ended is left, and there are more workers than asked for only if enough run already.", "quantifier": "all interleavings of scale requests, creations and deletions of pods one by one, their failures and lost answers, changes of pods, deletions by others, deliveries of changes, and restarts of the controller", "why_tests_cant": "The controller counts creations and deletions it expects to see; whether the counts can get stuck depends on the order of every event.", "anchors": ["dask-gateway-server/dask_gateway_server/backends/kubernetes/controller.py: ClusterInfo, on_pod_update, on_pod_delete, handle_running_cluster, batch_create_pods, create_pod, delete_pod, handle_scale_up, handle_scale_down", "dask-gateway-server/dask_gateway_server/backends/kubernetes/backend.py: on_cluster_heartbeat"]}
{"id": "C133", "title": "Options of clusters: keywords win over the options object or the local configuration, and these over the defaults of the server", "statement": "The options of a new cluster are those given as keywords, else those of the options object if one is given and else those of the local configuration, else the defaults of the server. An options object that was made with the local defaults and not changed is worth the same as none, and one made without them is worth the defaults of the server. Options in the configuration that the client refuses to show, the server refuses, too.", "quantifier": "all declarations of options with distinct names, local configurations, environments, and keywords", "why_tests_cant": "The rule involves two programs and every combination of sources and of values that are changed on the way (bounds, conversions).", "anchors": ["dask-gateway/dask_gateway/client.py: Gateway._config_cluster_options, _cluster_options, _submit", "dask-gateway/dask_gateway/options.py: Options", "dask-gateway/dask_gateway/utils.py: format_template"]}
{"id": "C134", "title": "Settings may name environment variables", "statement": "A setting stands for its text with the environment variables put in that it names in braces, where doubled braces stand for braces; their values are not expanded again. A variable that is missing is an error. Text without braces, and settings that are no text, stand for themselves.", "quantifier": "all texts, environments and values, where names of variables have none of the characters . [ : !", "why_tests_cant": "Values of variables may themselves look like templates, and texts are arbitrary.", "anchors": ["dask-gateway/dask_gateway/utils.py: format_template"]}
{"id": "C135", "title": "Arguments win over the configuration, and the clusters of a client use the same gateway", "statement": "The addresses of a client are those given as arguments, else those of the local configuration. Clusters that are made or connected to through a client use the same addresses as the client, whatever has become of the configuration and the environment.", "quantifier": "all addresses, configurations and environments", "why_tests_cant": "The addresses are parsed and written anew for each cluster; that this is stable must hold for every form of address.", "anchors": ["dask-gateway/dask_gateway/client.py: Gateway.__init__, GatewayCluster._init_internal", "dask-gateway/dask_gateway/utils.py: format_template"]}
{"id": "C136", "title": "Messages arrive as they were sent, or not at all", "statement": "A value that one of the programs writes into a message, the database or a file is read by another as the same value: all texts, including quotes, line breaks and characters beyond ASCII, all integers, floats, lists and objects. The text is one line of ASCII. Of an object whose text is cut anywhere nothing is read. A text with a malformed escape is refused.", "quantifier": "all values (floats by assumption on how they are printed; no infinities between Python and Go), and all points where a text may be cut", "why_tests_cant": "Names, options and environment variables are arbitrary texts; a test tries a few.", "anchors": ["dask-gateway/dask_gateway/client.py: Gateway._request, _submit", "dask-gateway-server/dask_gateway_server/routes.py", "dask-gateway-server/dask_gateway_server/backends/db_base.py: JSON columns", "dask-gateway-server/dask_gateway_server/backends/jobqueue/base.py: do_as_user", "dask-gateway-server/dask_gateway_server/backends/jobqueue/launcher.py", "dask-gateway-server/dask_gateway_server/proxy/core.py: routes_handler", "dask-gateway-server/dask-gateway-proxy/cmd/dask-gateway-proxy/main.go: getRoutingTable, evIter.Next"]}
{"id": "C137", "title": "The proxy takes over the changes of routes as the gateway wrote them, wherever the connection breaks", "statement": "When the stream of changes breaks after any number of characters, the proxy has taken over exactly the batches that have arrived whole, in their order and each once, and nothing of a batch that has arrived in part. If something has arrived in part it fetches the whole table again. Of a table that has arrived in part it takes over nothing.", "quantifier": "all batches of changes, all tables, and all points where a connection may break", "why_tests_cant": "The breaks that matter are within a message, at every character of it.", "anchors": ["dask-gateway-server/dask_gateway_server/proxy/core.py: Proxy.routes_handler, _append_event", "dask-gateway-server/dask-gateway-proxy/cmd/dask-gateway-proxy/main.go: evIter.Next, getRoutingTable, watchRoutes"]}
{"id": "C138", "title": "Clients, schedulers and workers of a cluster only talk to holders of its key", "statement": "Whoever a client, scheduler or worker with the credentials of a cluster is connected to holds the key of this very cluster, wherever the proxy or anyone on the way has led the connection, unless a holder of the key has signed a certificate for somebody else. The key is held only by those to whom the gateway handed it, and those who got it from them. Ends of different clusters refuse each other. Nobody is accepted outside of the period of the certificate of the cluster.", "quantifier": "all histories of creating clusters, handing out credentials, making keys, passing them on and signing certificates, all parties, all certificates they may show, all times", "why_tests_cant": "The property is about what anybody on the network might try.", "anchors": ["dask-gateway-server/dask_gateway_server/tls.py: new_keypair", "dask-gateway/dask_gateway/client.py: GatewaySecurity.get_connection_args, ClusterReport.security", "dask-gateway/dask_gateway/comm.py: GatewayConnector.connect", "dask-gateway-server/dask_gateway_server/backends/db_base.py: create_cluster, get_scheduler_env, get_worker_env"]}
{"id": "C139", "title": "Those who hold the credentials of a cluster can connect to each other", "statement": "Schedulers and workers use the credentials that the gateway put into their files, whatever else is in their environment, and these are those of the clients. With them, clients and workers can connect to the scheduler for as long as the cluster runs. Without credentials no connection is opened.", "quantifier": "all environments, files, names and histories, all times", "why_tests_cant": "Needs every time after the creation of the cluster and every environment.", "anchors": ["dask-gateway-server/dask_gateway_server/tls.py: new_keypair", "dask-gateway/dask_gateway/client.py: GatewaySecurity.get_connection_args", "dask-gateway/dask_gateway/comm.py: GatewayConnector.connect", "dask-gateway-server/dask_gateway_server/backends/db_base.py: get_scheduler_env, get_worker_env, get_tls_paths", "dask-gateway-server/dask_gateway_server/backends/local.py: _get_tls_paths", "dask-gateway-server/dask_gateway_server/backends/jobqueue/base.py: get_tls_paths", "dask-gateway-server/dask_gateway_server/backends/yarn.py: get_tls_paths"]}
{"id": "C140", "title": "The credentials of a client do not stay on disk", "statement": "When a client has prepared a connection, or has failed to at any step, its disk is as before. In between its key is only in a directory that nobody but the user may enter, and both files are complete when they are read.", "quantifier": "all contents of the disk, all credentials and every step that may fail or at which the client may be killed", "why_tests_cant": "Needs a failure at every step.", "anchors": ["dask-gateway/dask_gateway/client.py: GatewaySecurity.get_connection_args"]}
{"id": "C141", "title": "On YARN, requests for workers go to the application of their own cluster", "statement": "Whatever clusters were started, stopped or forgotten by the caches in between, and however often the gateway was restarted, a request to start or stop a worker goes to the application of its own cluster, with its credentials; a worker runs in the application of its own cluster, and ends only with that application or because it was itself to be stopped. While the application runs, such requests succeed.", "quantifier": "all histories of starts, stops, checks, timeouts, failures, restarts of the gateway and events of YARN, in any order, all sizes of the cache", "why_tests_cant": "Clients and addresses are cached; that no stale entry is ever used is a claim about all interleavings.", "anchors": ["dask-gateway-server/dask_gateway_server/backends/yarn.py: _get_app_client, do_start_worker, do_stop_worker, do_check_workers", "dask-gateway-server/dask_gateway_server/utils.py: LRUCache", "dask-gateway-server/dask_gateway_server/backends/db_base.py: start_worker, stop_worker"]}
{"id": "C142", "title": "On YARN, nothing of a cluster goes on running after it was stopped", "statement": "When the gateway says that a cluster has stopped, YARN has been told to end every application that was submitted for it; with an application all its containers end. Applications are told to end only when their own cluster is to be stopped.", "quantifier": "all histories as in C141", "why_tests_cant": "Depends on calls in threads that go on after a timeout or a restart.", "anchors": ["dask-gateway-server/dask_gateway_server/backends/yarn.py: do_start_cluster, do_stop_cluster", "dask-gateway-server/dask_gateway_server/backends/db_base.py: start_cluster, stop_cluster"]}
{"id": "C143", "title": "On YARN, nothing is kept for clusters that have ended", "statement": "The gateway never keeps more clients than configured, and for a cluster that has stopped it keeps neither a client nor an address.", "quantifier": "all histories as in C141", "why_tests_cant": "A leak shows only after many clusters, and depends on what runs concurrently with a stop.", "anchors": ["dask-gateway-server/dask_gateway_server/backends/yarn.py: _get_app_client, do_stop_cluster, do_check_workers", "dask-gateway-server/dask_gateway_server/utils.py: LRUCache"]}
{"id": "C144", "title": "On YARN, applications are what is configured", "statement": "The application of a cluster runs as its user in the configured queue, with the configured memory and cores for scheduler and workers. Both get the credentials of the cluster under the names to which their environment refers, whatever files are configured to be localized, and all other files as configured. It is refused exactly if the options of a file are not those of one.", "quantifier": "all configurations, users, files and environments", "why_tests_cant": "All combinations of configured files and variables.", "anchors": ["dask-gateway-server/dask_gateway_server/backends/yarn.py: _build_specification, get_tls_paths", "dask-gateway-server/dask_gateway_server/backends/db_base.py: get_scheduler_env, get_worker_env"]}
{"id": "C145", "title": "An idle cluster is shut down", "statement": "With an idle timeout, the scheduler of a cluster asks for its shutdown once there has been no work on it for the timeout, and no later than a quarter of the timeout after that, up to the delays of the machine. It goes on asking until a request comes through. Without an idle timeout, or if there was work within the timeout, it does not ask.", "quantifier": "all activities of a cluster, all delays of checks and requests, all results of requests", "why_tests_cant": "The loop runs forever; that it never misses an idle cluster is a claim about all histories and delays.", "anchors": ["dask-gateway/dask_gateway/scheduler_preload.py: GatewaySchedulerService.check_idle, listen, stop"]}
{"id": "C146", "title": "A scheduler runs with the settings of the gateway, or not at all", "statement": "The scheduler of a cluster serves the API of the gateway at the address of its command line, with the periods and the idle timeout that are configured, and on Kubernetes with heartbeats on changes only; or it exits with an error, namely if it lacks the credentials of its cluster or cannot listen.", "quantifier": "all configurations, environments and results of listening", "why_tests_cant": "All combinations of settings, and all ways in which the start may fail.", "anchors": ["dask-gateway/dask_gateway/scheduler_preload.py: dask_setup, GatewaySchedulerService.__init__, listen", "dask-gateway-server/dask_gateway_server/backends/db_base.py: get_scheduler_command", "dask-gateway-server/dask_gateway_server/backends/kubernetes/controller.py: get_scheduler_command"]}
{"id": "C147", "title": "The addresses that a scheduler reports lead to it", "statement": "The addresses of the API and the dashboard that a scheduler reports are URLs that lead to its machine and the port it listens at, and the URL the gateway calls to scale the cluster leads to the API.", "quantifier": "all hosts and ports", "why_tests_cant": "All texts of hosts.", "anchors": ["dask-gateway/dask_gateway/scheduler_preload.py: dashboard_address, listen", "dask-gateway-server/dask_gateway_server/backends/base.py: forward_message_to_scheduler"]}
{"id": "C148", "title": "The gateway signals only the processes that it started", "statement": "When a cluster or worker of the local backend is stopped, the signals of the gateway reach only the process that was started for it, never another process of the machine.", "quantifier": "all histories of starts, stops, ends of processes, other processes of the machine and restarts of the gateway", "why_tests_cant": "The ids of processes are used again by the system; the claim is about all histories in which they are.", "anchors": ["dask-gateway-server/dask_gateway_server/backends/local.py: stop_process, do_stop_cluster, do_stop_worker, is_running", "dask-gateway-server/dask_gateway_server/backends/db_base.py: _cluster_to_stopped, _worker_to_closed"]}
{"id": "C149", "title": "A stopped cluster or worker of the local backend leaves no process", "statement": "When the gateway counts a cluster or worker as stopped, every process that it started for it has ended or got a SIGKILL, whichever starts failed or were cancelled and whenever the gateway was restarted.", "quantifier": "all histories of starts, stops, ends of processes and crashes of the gateway at any point", "why_tests_cant": "The claim is about a crash at any of the points between the start of a process and the last write to the database.", "anchors": ["dask-gateway-server/dask_gateway_server/backends/local.py: start_process, stop_process", "dask-gateway-server/dask_gateway_server/backends/db_base.py: _cluster_to_starting, _worker_to_starting, _cluster_to_stopped, load_database_state"]}
{"id": "C150", "title": "The checks of the local backend tell whether the process runs", "statement": "While the process of a cluster or worker runs, the checks of the gateway say so, and they do not say so of one whose process has ended.", "quantifier": "all histories as before", "why_tests_cant": "The ids of processes are used again by the system; the claim is about all histories.", "anchors": ["dask-gateway-server/dask_gateway_server/backends/local.py: do_check_clusters, do_check_workers, is_running"]}
{"id": "C151", "title": "The processes of a cluster have only the rights of its user", "statement": "A scheduler or worker of the local backend runs with the user id, the group id and the further groups of the user of the cluster, in the directory of the cluster; if these cannot be had, it is not run.", "quantifier": "all databases of users and groups, all refusals of the operating system", "why_tests_cant": "Tests run without the rights to change users and use a backend that leaves this out.", "anchors": ["dask-gateway-server/dask_gateway_server/backends/local.py: make_preexec_fn, start_process"]}
{"id": "C152", "title": "An object starts at most one cluster, and belongs to it", "statement": "However many tasks of a program await the same cluster object, at most one cluster is requested for it, and a task that gets the object back gets it connected to that cluster.", "quantifier": "all schedules of any number of tasks that start, await, cancel and close one cluster object", "why_tests_cant": "The claim is about all interleavings of the tasks of an event loop; a test runs a few of them.", "anchors": ["dask-gateway/dask_gateway/client.py: GatewayCluster._start_internal, _start_async, _stop_internal, _stop_async, close", "dask-gateway/dask_gateway/utils.py: cancel_task"]}
{"id": "C153", "title": "Closing with shutdown asks for the stop of the cluster, whatever other tasks do", "statement": "Once a close with shutdown of a cluster object has returned, the gateway was asked to stop its cluster.", "quantifier": "all schedules as before", "why_tests_cant": "The close may come at any point of the start, and other tasks may be waiting or cancelled.", "anchors": ["dask-gateway/dask_gateway/client.py: GatewayCluster._start_internal, _start_async, _stop_internal, _stop_async, close", "dask-gateway/dask_gateway/utils.py: cancel_task"]}
{"id": "C154", "title": "An object told not to shut down keeps its cluster", "statement": "If a cluster object was only closed without shutdown, the gateway is not asked to stop the cluster.", "quantifier": "all schedules as before", "why_tests_cant": "A failed start cleans up on its own account; the claim is about every point at which the close may come.", "anchors": ["dask-gateway/dask_gateway/client.py: GatewayCluster._start_internal, _start_async, _stop_internal, _stop_async, close", "dask-gateway/dask_gateway/utils.py: cancel_task"]}
{"id": "C155", "title": "A close ends, and can be repeated after being cancelled", "statement": "Every close of a cluster object ends, and a close that was cancelled can be called again with effect.", "quantifier": "all schedules as before, with cancellations at any point", "why_tests_cant": "The claim is about cancellations at every point of every schedule.", "anchors": ["dask-gateway/dask_gateway/client.py: GatewayCluster._start_internal, _start_async, _stop_internal, _stop_async, close", "dask-gateway/dask_gateway/utils.py: cancel_task", "dask-gateway/dask_gateway/client.py: Gateway.sync"]}
{"id": "C156", "title": "Checks of the in-process backend fail only clusters and workers that do not run", "statement": "A cluster or worker that has been submitted and runs is not counted as failed by a check of the gateway; one that has closed is.", "quantifier": "all sets of submitted clusters and workers, and all states of their schedulers and workers", "why_tests_cant": "The claim is about all states at the time of a check; the tests use long periods between checks.", "anchors": ["dask-gateway-server/dask_gateway_server/backends/inprocess.py: InProcessBackend._check_status, do_check_clusters, do_check_workers", "dask-gateway-server/dask_gateway_server/backends/db_base.py: check_clusters_loop, check_workers_loop"]}
{"id": "C157", "title": "A stopped cluster of the in-process backend leaves nothing", "statement": "When a cluster of the in-process backend has been stopped, its scheduler is gone and its working directory, with its credentials, is removed; other clusters are not affected.", "quantifier": "all histories of starts that fail at any point, stops, closes and restarts of the gateway", "why_tests_cant": "The claim is about a failure at every point of the start.", "anchors": ["dask-gateway-server/dask_gateway_server/backends/inprocess.py: InProcessBackend.do_start_cluster, do_stop_cluster, do_start_worker, do_stop_worker", "dask-gateway-server/dask_gateway_server/backends/db_base.py: _cluster_to_stopped"]}
{"id": "C158", "title": "Values of a Helm release arrive in the gateway's configuration as given", "statement": "Every setting of clusters in the values of a release has in the configuration of the gateway the value that was given, whatever characters are in it, and settings that are not given, or are null, are left alone.", "quantifier": "all values (nested maps, lists, texts with any characters)", "why_tests_cant": "The values pass through a template, JSON, a quoted literal and a lookup by path; tests of charts render a few sets of values and do not run the file.", "anchors": ["resources/helm/dask-gateway/templates/gateway/configmap.yaml: _PROPERTIES, get_property, fields of KubeClusterConfig", "resources/helm/dask-gateway/values.yaml: gateway.backend"]}
{"id": "C159", "title": "Extra configuration of a Helm release has the last word", "statement": "Extra configuration is run as Python just as it was given, after the settings from the values; blocks of a map are run in the order of their keys.", "quantifier": "all texts and all maps of texts, in any order", "why_tests_cant": "The text is indented by the template and read back by YAML; the claim is for all texts, and maps have no order of their own.", "anchors": ["resources/helm/dask-gateway/templates/gateway/configmap.yaml: extraConfig"]}
{"id": "C160", "title": "Secrets in the values of a Helm release are kept in Secrets", "statement": "Tokens and passwords in the values are in no ConfigMap, and the gateway still gets them.", "quantifier": "all values and all tokens", "why_tests_cant": "That something does not occur, and that the file does not depend on it, are claims about all values.", "anchors": ["resources/helm/dask-gateway/templates/gateway/configmap.yaml: _PROPERTIES", "resources/helm/dask-gateway/templates/gateway/secret.yaml", "resources/helm/dask-gateway/templates/gateway/deployment.yaml: JUPYTERHUB_API_TOKEN"]}
{"id": "C161", "title": "The authenticator of a Helm release is the one in its values", "statement": "The gateway uses the authenticator of the type in the values, with the settings there, and does not start with an unknown type or without the address of JupyterHub.", "quantifier": "all values and all environments", "why_tests_cant": "A gateway that falls back to another authenticator lets everybody in; the claim is about all values, also malformed ones.", "anchors": ["resources/helm/dask-gateway/templates/gateway/configmap.yaml: auth", "resources/helm/dask-gateway/values.yaml: gateway.auth"]}
{"id": "C162", "title": "The parts of one Helm release belong together, those of different releases do not", "statement": "The gateway and the controller of a release handle the same clusters and give them the address of the release's own API; those of different releases handle different clusters.", "quantifier": "all releases: names, namespaces and overrides", "why_tests_cant": "Names are built from names, cut to a length and trimmed; whether two are ever the same is a question about all pairs of names.", "anchors": ["resources/helm/dask-gateway/templates/_helpers.tpl: dask-gateway.fullname, apiName, controllerName", "resources/helm/dask-gateway/templates/gateway/configmap.yaml", "resources/helm/dask-gateway/templates/controller/configmap.yaml", "resources/helm/dask-gateway/templates/gateway/middleware.yaml", "dask-gateway-server/dask_gateway_server/backends/kubernetes/backend.py: label_selector"]}
{"id": "C163", "title": "Requests below the prefix of a Helm release reach the API or the right cluster", "statement": "A request below the prefix reaches the API with the prefix removed, or, if it is below the path of a cluster, the service of that cluster, with the path of the cluster removed.", "quantifier": "all prefixes, sets of clusters and paths", "why_tests_cant": "The route depends on which of many rules is the longest that matches, and the path on regular expressions; the claim is for all paths and all clusters at the same time.", "anchors": ["resources/helm/dask-gateway/templates/gateway/ingressroute.yaml", "resources/helm/dask-gateway/templates/gateway/middleware.yaml", "dask-gateway-server/dask_gateway_server/backends/kubernetes/controller.py: make_ingressroute, proxy_prefix"]}
{"id": "C164", "title": "Pods ask Kubernetes for what was configured or chosen", "statement": "The pods of workers and schedulers ask for the configured or chosen cores and memory and never for more than their limits; workers get matching threads, the memory limit of their pod, and the address of their own scheduler.", "quantifier": "all amounts (rational cores, any memory), limits, names, and extra configuration of pods", "why_tests_cant": "Amounts are written as text and rounded, limits fall back to other settings, extra configuration is merged over it; tests try a few round numbers.", "anchors": ["dask-gateway-server/dask_gateway_server/backends/kubernetes/controller.py: make_pod, get_worker_command", "dask-gateway-server/dask_gateway_server/backends/kubernetes/backend.py: KubeClusterConfig", "dask-gateway-server/dask_gateway_server/backends/base.py: ClusterConfig"]}
{"id": "C165", "title": "On Kubernetes nothing of a cluster outlives it", "statement": "When the object of a cluster is gone, however that came about, Kubernetes removes everything that was created for it; when its scheduler is gone, everything but the credentials; and nothing that is still in use.", "quantifier": "all histories of creations, deletions, re-creations and collections, with arbitrarily old views of the cluster", "why_tests_cant": "The controller works from old views, so it may create objects for clusters and schedulers that are gone already; the claim is about all such races.", "anchors": ["dask-gateway-server/dask_gateway_server/backends/kubernetes/controller.py: make_secret, make_pod, make_service, make_ingressroute, make_ingressroutetcp, set_owner"]}
{"id": "C166", "title": "A new cluster on Kubernetes is watched by its own gateway, under the name its user gets", "statement": "A new cluster and its pods and endpoints are shown to the gateway and the controller with the same instance name and to no other, whatever common labels are configured; the name returned to the user is the one under which the gateway then knows the cluster, pending, with this user and these options.", "quantifier": "all instance names, namespaces, users, options and common labels", "why_tests_cant": "The link between creation and watching is a text that Kubernetes parses; that no other gateway sees the cluster is a claim about all pairs of gateways.", "anchors": ["dask-gateway-server/dask_gateway_server/backends/kubernetes/backend.py: start_cluster, make_cluster_object, get_labels, label_selector, get_cluster_name", "dask-gateway-server/dask_gateway_server/backends/kubernetes/controller.py: label_selector, setup"]}
{"id": "C167", "title": "A scheduler or worker that dies while it is started is given up at the next status check", "statement": "A status check asks the backend about every scheduler and worker that was submitted and has not reported yet, and about no others. Those of which the answer says that they do not run are failed, whatever happened while the answer was awaited; everything else is left alone. A cluster given up in this way is from then on seen stopping and then failed.", "quantifier": "all histories with crashes, all events between a question and its answer, all answers (also of wrong length)", "why_tests_cant": "Question and answer are matched by position while clusters come and go in between; the claim is about all interleavings.", "anchors": ["dask-gateway-server/dask_gateway_server/backends/db_base.py: check_clusters_loop, check_workers_loop"]}
{"id": "C168", "title": "The parts of a Helm release may do in Kubernetes what they need, and little else", "statement": "Where the chart sets up accounts, the gateway and the controller are allowed every request to Kubernetes that they make, in every namespace, whatever else is installed. The gateway is allowed nothing besides but work on the objects of clusters and the reading of the credentials of its clusters; the controller cannot read secrets, nor change services, routes and secrets that are there.", "quantifier": "all releases, values and namespaces, all sets of installed releases, all requests", "why_tests_cant": "Permissions are in the chart, requests in the code; a missing permission shows only in a cluster with authorization, on the path that needs it. That nothing besides is allowed is a claim about all requests.", "anchors": ["resources/helm/dask-gateway/templates/gateway/rbac.yaml", "resources/helm/dask-gateway/templates/controller/rbac.yaml", "resources/helm/dask-gateway/templates/gateway/deployment.yaml", "resources/helm/dask-gateway/templates/controller/deployment.yaml", "dask-gateway-server/dask_gateway_server/backends/kubernetes/backend.py: start_cluster, stop_cluster, on_cluster_heartbeat, sync_cluster", "dask-gateway-server/dask_gateway_server/backends/kubernetes/controller.py: setup, delete_cluster, patch_cluster_status, cleanup_cluster_resources, create_*_if_not_exists"]}
{"id": "C169", "title": "The packaged schema of the Helm chart accepts what the documented one accepts", "statement": "Helm checks the values of a release against the schema that is packaged with the chart. That schema is made from the documented one and accepts exactly the same values; options that are called like a keyword of schemas stay, and no description of an option is left.", "quantifier": "all schemas, all values, all meanings of the keywords other than properties and description", "why_tests_cant": "A schema is recursive and its options may be called anything; that both accept the same values is a claim about all values.", "anchors": ["resources/helm/tools/generate-json-schema.py: clean_jsonschema"]}
{"id": "C170", "title": "Nobody waits for ever for a cluster to start", "statement": "A cluster that is shown as pending is on its way: it was handed to the concrete backend, or this is queued. If it does not come up within the configured start timeout, it is given up at the next timeout check, so a client that waits for it gets a decision: it runs, or it has ended.", "quantifier": "all histories of the gateway with crashes and restarts, all times of the check, all orders in which the work is carried on", "why_tests_cant": "It is about every interleaving of requests, heartbeats, crashes and background checks before the timeout.", "anchors": ["dask-gateway-server/dask_gateway_server/backends/db_base.py: _check_timeouts, reconcile_cluster, _cluster_to_submitted"]}
{"id": "C171", "title": "A client keeps one connection pool and closes it", "statement": "All requests of a client go over one session, with the cookie of its login, until the client is closed. At any time at most that session is open, closing the client leaves none open, and a closed client can be used again.", "quantifier": "all courses of requests, answers, closes and cancellations of any number of tasks of one client", "why_tests_cant": "It depends on how requests and closes of concurrent tasks interleave at their awaits.", "anchors": ["dask-gateway/dask_gateway/client.py: Gateway._request, Gateway._cleanup, Gateway.close"]}
{"id": "C172", "title": "The gateway can be scaled to several replicas", "statement": "Whichever replicas of the API server the requests of a client with valid credentials go to, and whenever replicas are replaced: every call is carried out exactly once, for the user the credentials belong to, and its result is what the gateway answered.", "quantifier": "all histories of calls of one client, all assignments of requests to replicas, all uses of the replicas by others, all replacements of replicas, all times", "why_tests_cant": "It depends on which replica each single request is routed to, and on the cookies each replica has given out before.", "anchors": ["docs/source/install-kube.rst", "resources/helm/dask-gateway/templates/gateway/deployment.yaml", "dask-gateway-server/dask_gateway_server/auth.py: Authenticator.authenticate_and_handle, UserCache", "dask-gateway/dask_gateway/client.py: Gateway._request", "dask-gateway/dask_gateway/auth.py: KerberosAuth.post_response"]}
{"id": "C173", "title": "Users get the options they asked for", "statement": "If the gateway accepts the options of a request, every option in it keeps the value that was asked for. Only an integer or boolean for a field of floats becomes a float: exactly if it has at most 53 bits, otherwise with a relative error of at most 2^-53. Integers beyond the range of floats are refused.", "quantifier": "every option declaration with distinct fields, every request, every integer", "why_tests_cant": "Values are unbounded, and rounding shows only for integers of more than 53 bits.", "anchors": ["dask-gateway-server/dask_gateway_server/options.py: Options.parse_options, Float.validate, Number.validate"]}
{"id": "C174", "title": "A request to stop a cluster that is answered with success takes effect", "statement": "If a user asks to stop a cluster of theirs and the gateway answers with success, the cluster has ended or is going to be stopped, however soon after its creation they ask and whichever replica of the gateway answers.", "quantifier": "every history of users, replicas (with restarts), the Kubernetes API and its watches; every history of a database backend with crashes and restarts", "why_tests_cant": "The request falls between the creation of the cluster and the moment a replica learns of it; tests wait for the cluster to start first.", "anchors": ["dask-gateway-server/dask_gateway_server/routes.py: delete_cluster", "dask-gateway-server/dask_gateway_server/backends/kubernetes/backend.py: KubeBackend.get_cluster, stop_cluster, start_cluster, sync_clusters_loop", "dask-gateway-server/dask_gateway_server/backends/db_base.py: DBBackendBase.stop_cluster"]}
{"id": "C175", "title": "What the gateway knows is what is in its database", "statement": "Whenever the gateway is killed and started again, it finds in the tables of its database exactly the clusters and workers it knew, with the statuses and targets they had; no update that is written for one cluster changes another one.", "quantifier": "every history of requests, reports of schedulers, reconciliation, checks and cleanups, with crashes between any two writes, with tasks that go on writing about clusters that were removed; databases that use numbers of rows again (SQLite) and databases that do not", "why_tests_cant": "Rows are addressed by a number that the database gives out. Whether a number is used again depends on which clusters were removed before, and a wrong row only shows after a restart.", "anchors": ["dask-gateway-server/dask_gateway_server/backends/db_base.py: DataManager (load_database_state, cleanup_expired, create_cluster, create_worker, update_cluster, update_clusters, update_worker, update_workers), _IntEnum, DBBackendBase.check_clusters_loop"]}
{"id": "C176", "title": "The executable in a wheel of the server is for the platform of the wheel", "statement": "A wheel of the server that contains the executable of the proxy carries the tag under which pip installs it on the platforms it names, and the executable is one for those platforms; a wheel is for every platform only if it contains no executable, and that only if it was asked for.", "quantifier": "every platform that Python reports (every version of macOS), every setting of the environment variables, every machine on which the wheel is built", "why_tests_cant": "Wheels are built on the machines of the project; what they contain for other platforms and settings shows only when someone installs and starts them there.", "anchors": ["dask-gateway-server/hatch_build.py: CustomBuildHook._prepare_wheel, _get_platform_tag, _target_platform, _get_env_bool, _to_goarch, _go_env"]}
{"id": "C177", "title": "Background work goes on whatever fails, and ends when told to", "statement": "The tasks that check, reconcile, clean up, watch, send heartbeats and scale go on whatever fails and however often, and never run without waiting; after each pause they check again; an item whose work failed is put back to be tried again, and each item taken from a queue is given back exactly once, also when the task is cancelled; a task that is cancelled, or whose queue is closed, ends, so that closing a pool leaves no task behind.", "quantifier": "every sequence of outcomes of everything the tasks wait for or call, every outcome of the conditions they test, every moment of a cancellation", "why_tests_cant": "A test makes one call fail once; a background task that dies of one error that nobody thought of, or does not die when told to, shows after days.", "anchors": ["dask-gateway-server/dask_gateway_server/backends/db_base.py: check_timeouts_loop, check_clusters_loop, check_workers_loop, cleanup_db_loop, reconciler_loop", "dask-gateway-server/dask_gateway_server/backends/kubernetes/controller.py: reconciler_loop, cleanup_expired_cluster_records_loop", "dask-gateway-server/dask_gateway_server/backends/kubernetes/backend.py: sync_clusters_loop", "dask-gateway-server/dask_gateway_server/backends/kubernetes/utils.py: Informer.run, watch", "dask-gateway-server/dask_gateway_server/proxy/core.py: monitor_proxy_process", "dask-gateway/dask_gateway/scheduler_preload.py: check_idle, heartbeat_loop, adapt_loop, Waiter", "dask-gateway-server/dask_gateway_server/utils.py: TaskPool"]}
{"id": "C178", "title": "No client can stop the proxy for the others", "statement": "Whatever clients and schedulers do, send or fail to send, the proxy goes on running until the gateway ends; what happens on one connection changes nothing for the others, and a client who greets for a known cluster is connected with its scheduler even if all others are silent; a connection that is over, names no known cluster, or whose scheduler cannot be reached is closed on both sides and leaves nothing open.", "quantifier": "every history of connections, greetings, dials, ends and failures, every limit of open descriptors, one port or two", "why_tests_cant": "Tests use a handful of well-behaved connections; exhaustion and silent clients come with many users over days.", "anchors": ["dask-gateway-server/dask-gateway-proxy/cmd/dask-gateway-proxy/main.go: runTCP, handleConnection, proxyConnections, runHTTP, awaitShutdown, Forwarder"]}
{"id": "C179", "title": "A client contacts the gateway through the HTTP proxy it was told to use", "statement": "A client sends each of its requests, also the repeated one that carries credentials, through the HTTP proxy named in its settings, with the user and the password written there, whatever characters these have; with the setting true through the one that the environment names for the scheme of the address of the gateway, with the credentials written there or in .netrc, and directly if there is none; with neither directly. Hosts that the environment excludes are contacted directly. The URL that is kept of the HTTP proxy has no credentials in it.", "quantifier": "every setting, template, environment, scheme, user, password, host and path", "why_tests_cant": "Tests fix one proxy with one simple password; which characters are reserved where, and which part of the environment counts, shows for others only.", "anchors": ["dask-gateway/dask_gateway/client.py: _get_default_request_kwargs, Gateway.__init__, Gateway._request", "dask-gateway/dask_gateway/gateway.yaml"]}
{"id": "C180", "title": "A client authenticates in the way it was told to", "statement": "An authentication given to a client as such is used as it is. Given by name, or named in the settings, it is the one of this name: basic authentication with the user and the password of the settings, templates in which are filled in from the environment, or else with the user the process runs as and an empty password; a JupyterHub token from the settings or else from the environment; Kerberos; or the class of this path, called with the arguments of the settings. The gateway then takes the client for this user. With anything else - an unknown name, a missing class, an argument that is not known, a template with a variable that is not set, no token - no client is made. Arguments meant for another authentication do no harm, and every password that can be written in the settings works.", "quantifier": "every argument, setting, template, environment, class path and constructor", "why_tests_cant": "Tests try each authentication with one setting; which of the argument, the settings and the environment counts, and what a wrong one leads to, ranges over all combinations.", "anchors": ["dask-gateway/dask_gateway/auth.py: get_auth, _import_object, BasicAuth, KerberosAuth, JupyterHubAuth", "dask-gateway/dask_gateway/gateway.yaml"]}
{"id": "C181", "title": "A handler of cluster options is called with what it takes and sees every option", "statement": "The handler that an administrator gives for cluster options is called with the options and the user who asks if it can take both, with the options alone if it can take only these, and makes requests fail otherwise. It sees each option that was accepted, under its target, by item and by attribute, and no others. What it returns is the configuration; without a handler it is the options themselves. Options may depend on the user. A request that is not accepted does not reach the handler.", "quantifier": "every signature a Python function can have, every list of fields, request, user and handler", "why_tests_cant": "Tests call handlers with one or two plain parameters; which signatures are called how, and which names of options are shadowed, ranges over all of them.", "anchors": ["dask-gateway-server/dask_gateway_server/options.py: Options.handler, Options.get_configuration", "dask-gateway-server/dask_gateway_server/utils.py: FrozenAttrDict", "dask-gateway-server/dask_gateway_server/backends/base.py: Backend.get_cluster_options, Backend.process_cluster_options"]}
{"id": "C182", "title": "Times of clusters on Kubernetes are the instants they record", "statement": "The time at which a cluster was created or ended is written in the cluster object as a date and a time in UTC. Whatever instant it is, the text is the right date of the calendar, leap years included, and reading it gives the instant back to the second. Later times are not read as earlier, different times not as the same, and a date or a time that does not exist is refused. The record of a cluster that ended is removed at most one second before its age from the settings is over, and it is due at the first look a millisecond after. A client shows the date and the time of the instant on its own clock.", "quantifier": "every instant up to the year 9999, every text of this form, every age, every offset of a client", "why_tests_cant": "Tests look at a few instants; the calendar has to be right for every day of every year and the age for every fraction of a second.", "anchors": ["dask-gateway-server/dask_gateway_server/backends/kubernetes/utils.py: parse_k8s_timestamp, k8s_timestamp", "dask-gateway-server/dask_gateway_server/backends/kubernetes/controller.py: KubeController.cleanup_expired_cluster_records_loop, KubeController.handle_cluster", "dask-gateway-server/dask_gateway_server/backends/kubernetes/backend.py: KubeBackend.sync_cluster", "dask-gateway/dask_gateway/client.py: ClusterReport"]}
{"id": "C183", "title": "The options object of a client stays valid, and its form shows what is sent", "statement": "Whatever a user does with an options object, by item, by attribute, by the methods of a mapping or in its form in a notebook, in any order and with any failures, the gateway takes what the object holds, and unchanged; no option is lost, added or moved. An option that was assigned is read back as the value its field makes of it, and others stay as they were; an assignment that is refused raises and changes nothing; an update stops at the first option that is refused. Every input of the form that has no cross beside it shows the option as it will be sent. Options can be read as attributes.", "quantifier": "every declaration of options, every history of operations and entries in the form, every failure among them", "why_tests_cant": "Tests set single options and look at one widget; the handlers of inputs set options that set inputs again, and what remains has to be right after every sequence.", "anchors": ["dask-gateway/dask_gateway/options.py: Options, Field.set, Field.widget, Integer._widget, Float._widget, Mapping.set, Mapping.transform, Mapping.widget"]}
{"id": "C184", "title": "The controller keeps to its limits on calls of Kubernetes, and no call is lost or changed by that", "statement": "Over both of its clients together the controller has sent at most burst + rate * t calls to Kubernetes t seconds after its start, whatever it asks for, whichever tasks are cancelled and however late they wake up. Every call that goes out was asked for: same client, method and arguments, once, not before it was asked for; every call asked for goes out when its turn comes unless its task is cancelled, and then it never does. Calls that keep to the limits by themselves are not delayed, nor is a call after a time in which nothing was asked for that is long enough to fill the bucket. No more than burst calls go out in any second.", "quantifier": "every rate and burst, every course of calls, cancellations and late wake-ups, over both clients", "why_tests_cant": "Tests look at the delays of a few acquisitions; the limits are about all interleavings of tasks and all histories, and the credit for idle time is only wrong after a long queue.", "anchors": ["dask-gateway-server/dask_gateway_server/backends/kubernetes/utils.py: RateLimitedClient", "dask-gateway-server/dask_gateway_server/utils.py: RateLimiter", "dask-gateway-server/dask_gateway_server/backends/kubernetes/controller.py: KubeController.setup, k8s_api_rate_limit, k8s_api_rate_limit_burst"]}
{"id": "C185", "title": "One that stops waiting does not disturb the others", "statement": "Requests that wait for the same cluster, and whatever else waits for the same event of the gateway, return only once the event has happened, and then all of them do; who waits later does not wait. One that times out or is cancelled, at whatever moment, neither releases nor cancels another, and the event can be announced any number of times without an error.", "quantifier": "every history of waits, time-outs, cancellations and announcements, in every order in which the event loop may run callbacks and tasks", "why_tests_cant": "The order of callbacks, of cancellations and of tasks that run again is up to the event loop; a test sees one order, and sharing a future between tasks only goes wrong when one of them is cancelled.", "anchors": ["dask-gateway-server/dask_gateway_server/utils.py: Flag", "dask-gateway-server/dask_gateway_server/backends/db_base.py: Cluster.ready, Cluster.shutdown, DBBackendBase.get_cluster", "dask-gateway-server/dask_gateway_server/backends/kubernetes/backend.py: KubeBackend.get_cluster", "dask-gateway-server/dask_gateway_server/proxy/core.py: Proxy"]}
{"id": "C186", "title": "No task is left in the middle of its work when a process of the gateway ends", "statement": "When the gateway or the Kubernetes controller ends, by itself, by an error or by a signal, the main task ends first; then all other tasks are cancelled and waited for before the event loop is closed, each failure among them is reported once, and the process ends as its main task did or by the signal.", "quantifier": "every number of tasks, every order in which they are created and end, whatever they do when they are cancelled, every moment of the signal", "why_tests_cant": "A test has a few well-behaved tasks; what matters is the order of ends, tasks that are created during the shutdown and failures in it.", "anchors": ["dask-gateway-server/dask_gateway_server/utils.py: run_main, _cancel_all_tasks, cancel_task", "dask-gateway-server/dask_gateway_server/app.py: DaskGateway.start", "dask-gateway-server/dask_gateway_server/backends/kubernetes/controller.py: KubeController.start"]}
{"id": "C187", "title": "The listing of the proxy's routes shows exactly its routes", "statement": "The JSON form of the routing table of the proxy has exactly one entry for each route that is registered, under the path of the route and with the string of its target, and no other; no route hides another one; and the entries, added to an empty table in any order, give the same routing.", "quantifier": "every history of added and removed routes, every path with any number of slashes, every order in which Go visits maps", "why_tests_cant": "A test lists a few routes; names that collide, routes of which prefixes were removed and paths with doubled slashes are not among them.", "anchors": ["dask-gateway-server/dask-gateway-proxy/pkg/router/router.go: traverse, MarshalJSON, Put"]}
{"id": "C188", "title": "A configured command means the same on every backend", "statement": "The commands of schedulers and workers, given as a list of words or as a shell command in one text, are run with exactly these words, followed by the options of the gateway, on every backend; a worker on Kubernetes is told the name of its own pod, whatever the configured environment is; a command without words is refused.", "quantifier": "all commands, as lists or texts with any characters, all configured environments, on the local backend, Kubernetes, Slurm, PBS and YARN", "why_tests_cant": "What becomes of a text depends on its characters, on shells and on how each system passes arguments on; tests use the default commands.", "anchors": ["dask-gateway-server/dask_gateway_server/traitlets.py: Command", "dask-gateway-server/dask_gateway_server/backends/base.py: ClusterConfig.scheduler_cmd, worker_cmd", "dask-gateway-server/dask_gateway_server/backends/local.py: start_process", "dask-gateway-server/dask_gateway_server/backends/kubernetes/controller.py: get_scheduler_command, get_worker_command, make_pod", "dask-gateway-server/dask_gateway_server/backends/jobqueue/slurm.py: get_submit_cmd_env_stdin", "dask-gateway-server/dask_gateway_server/backends/jobqueue/pbs.py: get_submit_cmd_env_stdin"]}
{"id": "C189", "title": "A cluster object shows the workers it has", "statement": "In a notebook with ipywidgets a cluster object shows, from its first display on, the number, the threads and the memory of exactly the workers that its scheduler has, each counted once; it shows no numbers if the scheduler could not be reached.", "quantifier": "every initial table of the scheduler, every sequence of batches of messages, losses of the connection and displays", "why_tests_cant": "Unbounded sequences of messages in batches, with displays between any two of them and losses of the connection at any point.", "anchors": ["dask-gateway/dask_gateway/client.py: GatewayCluster._init_internals, _watch_worker_status, _widget_status, _widget, _ipython_display_"]}
{"id": "C190", "title": "A gateway runs with the authenticator and the backend of its configuration, or not at all", "statement": "A gateway that starts uses the authenticator and the backend that its command line or its configuration file names, and the defaults only for what neither names. If a class cannot be imported or is no authenticator or backend, or the file cannot be read or raises, it does not start.", "quantifier": "all command lines, configuration files, values of options and installed modules", "why_tests_cant": "What is used depends on names of files, extensions, the order of sources and on what can be imported; tests load one good file.", "anchors": ["dask-gateway-server/dask_gateway_server/app.py: DaskGateway.initialize, config_file, authenticator_class, backend_class", "dask-gateway-server/dask_gateway_server/traitlets.py: Type.validate"]}
{"id": "C191", "title": "A gateway with JupyterHub authentication believes only the hub it was told to ask", "statement": "A request is taken for one of a user exactly if the hub at the configured address, or else that of the environment, says so of the token in the request; over TLS only if the certificate of the hub was signed by the configured authority, or by one of the system if none is configured. A gateway whose settings cannot work does not start.", "quantifier": "all settings, environments, loadable files, servers with any certificates and answers, and requests", "why_tests_cant": "What is believed depends on combinations of settings for TLS, on who signed what, and on what a server answers; tests have a hub without TLS.", "anchors": ["dask-gateway-server/dask_gateway_server/auth.py: JupyterHubAuthenticator.setup, authenticate, _default_jupyterhub_api_url, tls_key, tls_cert, tls_ca"]}
{"id": "C192", "title": "The command that writes a default configuration destroys no file it was not told to overwrite", "statement": "Without --force, generate-config leaves every file that has the name unchanged and says so; with it, or if there is none, the file holds the whole default configuration afterwards. No other path changes. At every moment, also after a kill, the file is the old one or the new one.", "quantifier": "all disks, paths, texts, interleavings with the steps of other programs, and moments at which the command is killed", "why_tests_cant": "Whether a file survives depends on what other programs do between the check and the write, and on where a kill falls; tests run the command alone and to its end.", "anchors": ["dask-gateway-server/dask_gateway_server/app.py: GenerateConfig.start"]}
{"id": "C193", "title": "An object that keeps failing is tried again for ever and stops nothing else", "statement": "Whatever fails and however often: an object whose handling failed is tried again after a wait, and the gateway and the controller go on handling all other objects with as many tasks as were started.", "quantifier": "all numbers of tasks, delays, objects and histories of attempts, timers and events", "why_tests_cant": "The defect shows after more than a thousand failures of one object in succession, at the default delays after three and a half days.", "anchors": ["dask-gateway-server/dask_gateway_server/workqueue.py: Backoff.backoff, WorkQueue.put_backoff", "dask-gateway-server/dask_gateway_server/backends/db_base.py: reconciler_loop", "dask-gateway-server/dask_gateway_server/backends/kubernetes/controller.py: reconciler_loop", "dask-gateway-server/dask_gateway_server/backends/kubernetes/backend.py: sync_clusters_loop"]}
{"id": "C194", "title": "Users are told why their request was refused", "statement": "If the gateway refuses a request of the client because of the statuses, options or count in it, because there is no such cluster, because it belongs to somebody else or because its scheduler cannot be told, the call raises an exception of the documented kind with the message of the gateway.", "quantifier": "all messages, names of clusters and users, and counts, with releases of aiohttp that accept line feeds in reasons and with those that do not", "why_tests_cant": "Messages come from the options and handlers of administrators and quote what users sent; tests use short messages of one line.", "anchors": ["dask-gateway-server/dask_gateway_server/routes.py: _wrap_error_handler, list_clusters, create_cluster, get_cluster, scale_cluster, adapt_cluster", "dask-gateway/dask_gateway/client.py: Gateway._request"]}

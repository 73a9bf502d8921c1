{
 "claims": [
  {
   "property": "C01",
   "status": "proved",
   "theorems": [
    "Verif.WorkQueue.mutual_exclusion",
    "Verif.WorkQueue.deliveries_separated",
    "Verif.WorkQueue.mutual_exclusion_needs_discipline"
   ],
   "note": "Holds for consumers that mark done only what they hold; the third theorem shows the discipline is needed."
  },
  {
   "property": "C02",
   "status": "proved",
   "theorems": [
    "Verif.WorkQueue.no_put_lost",
    "Verif.WorkQueue.ready_iff",
    "Verif.WorkQueue.get_returns_first_ready"
   ],
   "note": ""
  },
  {
   "property": "C03",
   "status": "proved",
   "theorems": [
    "Verif.WorkQueue.fifo_without_duplicates",
    "Verif.WorkQueue.delivered_only_if_put"
   ],
   "note": ""
  },
  {
   "property": "C04",
   "status": "proved",
   "theorems": [
    "Verif.WorkQueue.no_delivery_after_close",
    "Verif.WorkQueue.closed_get_fails",
    "Verif.WorkQueue.get_never_crashes"
   ],
   "note": ""
  },
  {
   "property": "C05",
   "status": "proved",
   "theorems": [
    "Verif.WorkQueue.earliest_deadline_armed",
    "Verif.WorkQueue.put_after_never_postpones"
   ],
   "note": ""
  },
  {
   "property": "C06",
   "status": "partial",
   "theorems": [
    "Verif.WorkQueue.backoff_formula",
    "Verif.WorkQueue.backoff_capped_monotone",
    "Verif.WorkQueue.C06_floats_partial",
    "Verif.WorkQueue.C06_overflow_violated"
   ],
   "note": "The formula is proved over exact rationals, and for the floats of the program up to 1024 failures in succession; after that the wait raises OverflowError (C06_overflow_violated)."
  },
  {
   "property": "C07",
   "status": "partial",
   "theorems": [
    "Verif.WorkQueue.no_lost_wakeup_partial",
    "Verif.WorkQueue.no_lost_wakeup_violated"
   ],
   "note": "The code loses a wake-up when a getter is cancelled after it was woken; proved for histories without such cancellations, and the violation is proved on a concrete history."
  },
  {
   "property": "C08",
   "status": "proved",
   "theorems": [
    "Verif.Router.match_longest_prefix",
    "Verif.Router.longest_unique",
    "Verif.Router.hasMatch_iff_match"
   ],
   "note": ""
  },
  {
   "property": "C09",
   "status": "proved",
   "theorems": [
    "Verif.Router.routing_depends_on_table_only",
    "Verif.Router.update_is_map_update",
    "Verif.Router.stored_target",
    "Verif.Router.node_iff_route_below",
    "Verif.Router.empty_table_empty_router"
   ],
   "note": ""
  },
  {
   "property": "C10",
   "status": "proved",
   "theorems": [
    "Verif.Router.forwarded_rest",
    "Verif.Router.joined_back",
    "Verif.Router.single_slash_join"
   ],
   "note": ""
  },
  {
   "property": "C100",
   "status": "proved",
   "theorems": [
    "Verif.Secrets.C100_environment"
   ],
   "note": "Full for base64-encoded keys (the documented form)."
  },
  {
   "property": "C101",
   "status": "proved",
   "theorems": [
    "Verif.Secrets.C101_encrypted",
    "Verif.Secrets.C101_no_keys"
   ],
   "note": "Full over histories of gateway runs; Fernet is an arbitrary pair of functions here."
  },
  {
   "property": "C102",
   "status": "proved",
   "theorems": [
    "Verif.Secrets.C102_restart",
    "Verif.Secrets.C102_no_restart"
   ],
   "note": "Full, under an idealisation of Fernet (a message can be decrypted with its own key and no other), given as hypotheses; the removal of rows is not part of this model."
  },
  {
   "property": "C103",
   "status": "proved",
   "theorems": [
    "Verif.Secrets.C103_left_running",
    "Verif.Secrets.C103_in_memory"
   ],
   "note": "Full for the records."
  },
  {
   "property": "C104",
   "status": "proved",
   "theorems": [
    "Verif.Session.C104_handled_once",
    "Verif.Session.C104_result",
    "Verif.Session.C104_basic",
    "Verif.Session.C104_hub"
   ],
   "note": "Full. The network delivers every request and response (losses are C57); handlers never answer 401 themselves, as is the case."
  },
  {
   "property": "C105",
   "status": "partial",
   "theorems": [
    "Verif.Session.C105_violated",
    "Verif.Session.C105_partial"
   ],
   "note": "Refuted: an error raised by a handler skips pre_response, so the response lacks the server's ticket and the client reports a failed negotiation instead of the error, on every call for which it has to log in. Proved for all other calls."
  },
  {
   "property": "C106",
   "status": "partial",
   "theorems": [
    "Verif.Session.C106_violated",
    "Verif.Session.C106_partial",
    "Verif.Session.C106_ticket"
   ],
   "note": "Refuted across realms: the realm is cut off. Proved within a realm, and that a ticket is needed."
  },
  {
   "property": "C107",
   "status": "partial",
   "theorems": [
    "Verif.Forward.C107_not_found",
    "Verif.Forward.C107_decoded",
    "Verif.Forward.C107_api",
    "Verif.Forward.C107_violated",
    "Verif.Forward.C107_partial"
   ],
   "note": "Refuted as stated: behind a route with a prefix an escaped slash arrives as a slash (RawPath is not adjusted, so Go encodes the path anew), and a leading double slash collapses. Proved: 404 exactly without a route, the decoded path and the query always arrive, the gateway's own requests arrive byte for byte, and canonically written paths arrive as written. Go's net/url is modelled after its documentation; headers and bodies are not modelled."
  },
  {
   "property": "C108",
   "status": "proved",
   "theorems": [
    "Verif.Supervise.C108_one",
    "Verif.Supervise.C108_schedule",
    "Verif.Supervise.C108_restart",
    "Verif.Supervise.C108_left_alone",
    "Verif.Supervise.C108_no_start_after",
    "Verif.Supervise.C108_no_orphan"
   ],
   "note": "Full for a proxy that the gateway manages. That the process reads its standard input and that SIGTERM ends it are events of the model."
  },
  {
   "property": "C109",
   "status": "partial",
   "theorems": [
    "Verif.Startup.C109_controller",
    "Verif.Startup.C109_partial",
    "Verif.Startup.C109_complete",
    "Verif.Startup.C109_violated",
    "Verif.Startup.C109_second_signal"
   ],
   "note": "Proved for the controller at every point. Refuted for the gateway: if the backend has not opened its session yet, the cleanup stops at the missing attribute and the authenticator's session stays open; with YARN, if the skein client fails, the proxy process, tasks and sessions are not stopped. Proved for the gateway from the last such point on."
  },
  {
   "property": "C11",
   "status": "proved",
   "theorems": [
    "Verif.ProxyEvents.caught_up_holds_routes",
    "Verif.ProxyEvents.gateway_paths_noAlias",
    "Verif.ProxyEvents.caught_up_request",
    "Verif.ProxyEvents.can_catch_up",
    "Verif.ProxyEvents.targets_meaning"
   ],
   "note": "For targets the proxy accepts and paths that do not differ in a leading or trailing slash only; gateway_paths_noAlias shows that the gateway's own paths meet the second condition."
  },
  {
   "property": "C110",
   "status": "proved",
   "theorems": [
    "Verif.Watch.C110_token_needed",
    "Verif.Watch.C110_proxy_let_in"
   ],
   "note": "Full. A header without a blank gets 500 instead of 401 and is refused all the same."
  },
  {
   "property": "C111",
   "status": "proved",
   "theorems": [
    "Verif.Watch.C111_each_watcher",
    "Verif.Watch.C111_from_table"
   ],
   "note": "Full, for requests whose number is one that the gateway has issued."
  },
  {
   "property": "C112",
   "status": "proved",
   "theorems": [
    "Verif.Watch.C112_shutdown",
    "Verif.Watch.C112_late_ends"
   ],
   "note": "Full. That cancelled handlers are waited for is asyncio's gather."
  },
  {
   "property": "C113",
   "status": "partial",
   "theorems": [
    "Verif.EndToEnd.C113_scheduler_reached",
    "Verif.EndToEnd.C113_tls_only",
    "Verif.EndToEnd.C113_dashboard_reached",
    "Verif.EndToEnd.C113_http_only",
    "Verif.EndToEnd.C113_finished_gets_nothing",
    "Verif.EndToEnd.C113_gateway_reached",
    "Verif.EndToEnd.C113_connection",
    "Verif.EndToEnd.C113_finished_gets_nothing_violated"
   ],
   "note": "Proved for histories in which every restart of the gateway is noticed by the proxy (otherwise C14 is refuted, and here C113_finished_gets_nothing_violated) and every reported dashboard address is a URL that Go accepts. Composes Verif.Backend with Verif.ProxyEvents and Verif.Tcp."
  },
  {
   "property": "C114",
   "status": "proved",
   "theorems": [
    "Verif.EndToEnd.C114_can_catch_up"
   ],
   "note": "Under the same conditions on the history as C113."
  },
  {
   "property": "C115",
   "status": "proved",
   "theorems": [
    "Verif.EndToEnd.C115_tls_isolated",
    "Verif.EndToEnd.C115_http_isolated",
    "Verif.EndToEnd.C115_http_cluster"
   ],
   "note": "Full: without any condition on the history."
  },
  {
   "property": "C116",
   "status": "proved",
   "theorems": [
    "Verif.Fleet.C116_heartbeats_handled",
    "Verif.Fleet.C116_replaced_violated"
   ],
   "note": "Composes Verif.Sched with Verif.Backend: heartbeats are those that a scheduler made. If the scheduler's process is replaced the statement fails (C116_replaced_violated), which is why the property excludes it."
  },
  {
   "property": "C117",
   "status": "partial",
   "theorems": [
    "Verif.Fleet.C117_failed_replaced_partial",
    "Verif.Fleet.C117_no_surplus_partial",
    "Verif.Fleet.C117_failed_replaced_violated"
   ],
   "note": "The code violates the property: if the answer to a heartbeat that announced a worker as closing is lost, or its retirement fails, the worker stays marked; when it fails later it is not replaced, through any number of further heartbeats. Proved up to workers that were announced, and in full for schedulers that never had more workers than they requested."
  },
  {
   "property": "C118",
   "status": "proved",
   "theorems": [
    "Verif.Fleet.C118_requested_number_runs"
   ],
   "note": ""
  },
  {
   "property": "C119",
   "status": "partial",
   "theorems": [
    "Verif.Batch.C119_scheduler_partial",
    "Verif.Batch.C119_worker_partial",
    "Verif.Batch.C119_yarn_worker_partial",
    "Verif.Batch.C119_violated",
    "Verif.Batch.shell_parameter",
    "Verif.Batch.shell_braces",
    "Verif.Batch.shell_reserved"
   ],
   "note": "The code violates the property: words are joined by blanks without quotes, so a word with a blank becomes two (C119_violated). Proved for words without characters that have a meaning to the shell. The shell is modelled after POSIX."
  },
  {
   "property": "C12",
   "status": "proved",
   "theorems": [
    "Verif.ProxyEvents.event_ids_consecutive",
    "Verif.ProxyEvents.events_after_no_gap",
    "Verif.ProxyEvents.snapshot_id_is_last_event"
   ],
   "note": ""
  },
  {
   "property": "C120",
   "status": "proved",
   "theorems": [
    "Verif.Batch.C120_own_directory",
    "Verif.Batch.C120_not_nested",
    "Verif.Batch.C120_paths",
    "Verif.Batch.C120_credentials_there"
   ],
   "note": ""
  },
  {
   "property": "C121",
   "status": "partial",
   "theorems": [
    "Verif.Batch.C121_nothing_left_partial",
    "Verif.Batch.C121_nothing_left_violated",
    "Verif.Batch.C121_orphan_violated",
    "Verif.Batch.C121_local_partial",
    "Verif.Batch.C121_local_violated"
   ],
   "note": "The code violates the property: after a refused submission the key stays for good; if the answer is lost or the gateway ends before it is stored, job and key stay; the local backend leaves the key if an exception comes before the directory is recorded. Proved for histories without these."
  },
  {
   "property": "C122",
   "status": "partial",
   "theorems": [
    "Verif.Batch.C122_slurm_partial",
    "Verif.Batch.C122_pbs",
    "Verif.Batch.C122_violated"
   ],
   "note": "Proved for PBS and for Slurm with one cluster. On Slurm with several clusters `sbatch --parsable` prints the cluster's name after the id and the code takes both for the id (C122_violated): every running job is then taken for gone and cannot be cancelled."
  },
  {
   "property": "C123",
   "status": "proved",
   "theorems": [
    "Verif.Batch.C123_slurm",
    "Verif.Batch.C123_pbs"
   ],
   "note": ""
  },
  {
   "property": "C124",
   "status": "proved",
   "theorems": [
    "Verif.Batch.C124_own_account"
   ],
   "note": "Assumes that names of accounts do not start with `#`. sudo is modelled after its manual."
  },
  {
   "property": "C125",
   "status": "partial",
   "theorems": [
    "Verif.Boot.C125_partial",
    "Verif.Boot.C125_settings",
    "Verif.Boot.C125_refused",
    "Verif.Boot.C125_listens",
    "Verif.Boot.C125_address",
    "Verif.Boot.C125_address_refused",
    "Verif.Boot.C125_prefix",
    "Verif.Boot.C125_prefix_refused",
    "Verif.Boot.C125_configured",
    "Verif.Boot.C125_token_violated",
    "Verif.Boot.C125_wildcard_violated",
    "Verif.Boot.C125_port_violated",
    "Verif.Boot.C125_written",
    "Verif.Boot.C125_bad_flags"
   ],
   "note": "Accepted settings reach the process exactly, for all values. Not true as stated: an empty token is accepted although each process then ends at once (C125_token_violated); two spellings of the same address make the process end (C125_wildcard_violated); numbers that are no ports are accepted (C125_port_violated). Go's flag package is modelled after its source; which URLs url.Parse accepts and where the system allows to listen are parameters."
  },
  {
   "property": "C126",
   "status": "partial",
   "theorems": [
    "Verif.Boot.C126_partial",
    "Verif.Boot.C126_token",
    "Verif.Boot.C126_url",
    "Verif.Boot.C126_port_violated",
    "Verif.Boot.C126_default_violated"
   ],
   "note": "Holds if the token is configured or set in both environments and the gateway has a fixed port or its URL is configured. Not true by default: both processes draw their own token and port (C126_default_violated, C126_port_violated)."
  },
  {
   "property": "C127",
   "status": "proved",
   "theorems": [
    "Verif.Boot.C127_heartbeat",
    "Verif.Boot.C127_shutdown",
    "Verif.Boot.C127_missing",
    "Verif.Boot.C127_default",
    "Verif.Boot.C127_environment",
    "Verif.Boot.C127_environment_local"
   ],
   "note": "For prefixes and names of characters that need no escape in a path. The HTTP client of tornado is trusted to send the path of the URL as the target."
  },
  {
   "property": "C128",
   "status": "proved",
   "theorems": [
    "Verif.KubeLoop.C128_stop"
   ],
   "note": "For every interleaving. Removal of the cluster object is left out; workers enter as one call."
  },
  {
   "property": "C129",
   "status": "partial",
   "theorems": [
    "Verif.KubeLoop.C129_nothing_left_partial",
    "Verif.KubeLoop.C129_violated"
   ],
   "note": "Proved for clusters that are stopped after their pod and credentials are recorded. Not true as stated: a stop during the first reconciliation leaves pod and credentials, although no call fails (C129_violated)."
  },
  {
   "property": "C13",
   "status": "partial",
   "theorems": [
    "Verif.ProxyEvents.retained_bounded_partial",
    "Verif.ProxyEvents.retained_bounded_violated"
   ],
   "note": "Proved for max_events >= 2; for 0 and 1 the code never drops an event and the violation is proved."
  },
  {
   "property": "C130",
   "status": "partial",
   "theorems": [
    "Verif.KubeLoop.C130_follows_partial",
    "Verif.KubeLoop.C130_failed",
    "Verif.KubeLoop.C130_violated"
   ],
   "note": "That a cluster fails only if its scheduler ended or was deleted holds for every interleaving (C130_failed). The phase follows the scheduler if others delete the pod only after the controller has seen that it is recorded (C130_follows_partial). Not true as stated: if the pod of a pending cluster is deleted, the cluster stays pending for ever (C130_violated)."
  },
  {
   "property": "C131",
   "status": "proved",
   "theorems": [
    "Verif.KubeLoop.C131_settles",
    "Verif.KubeLoop.C131_reaches"
   ],
   "note": "By a measure that every step of the controller lowers, over an invariant of all interleavings. The work for workers, which may ask to be repeated, is one call here."
  },
  {
   "property": "C132",
   "status": "partial",
   "theorems": [
    "Verif.KubeLoop.C132_asked_workers_partial",
    "Verif.KubeLoop.C132_settles_partial",
    "Verif.KubeLoop.C132_stuck_violated",
    "Verif.KubeLoop.C132_unseen_violated",
    "Verif.KubeLoop.C132_failure_noticed",
    "Verif.KubeLoop.C132_start_quiet"
   ],
   "note": "For every interleaving, if every existing worker pod has a container status that fits a set, and others delete only pods the controller has seen. Without either the code violates the property: a pod without container status (no node has room for it) is never counted, so the expected creation stays open and later scale requests are ignored, witness C132_stuck_violated; a pod that others delete before it was seen is not replaced, witness C132_unseen_violated. Both last until the expectations expire after 600 seconds and another event wakes the controller. That the controller can always get to where nothing is left to do is C132_settles_partial: a course of its own steps leads there from every reachable state; that every course does is not proved."
  },
  {
   "property": "C133",
   "status": "proved",
   "theorems": [
    "Verif.Settings.C133_sent",
    "Verif.Settings.C133_same",
    "Verif.Settings.C133_server_defaults",
    "Verif.Settings.C133_refused",
    "Verif.Settings.C133_effective",
    "Verif.Settings.C133_templates"
   ],
   "note": "For all declarations with distinct names. Options whose names are those of parameters of new_cluster (cluster_options, shutdown_on_close, ...) cannot be given as keywords; this is not part of the model."
  },
  {
   "property": "C134",
   "status": "proved",
   "theorems": [
    "Verif.Settings.C134_template",
    "Verif.Settings.C134_settings",
    "Verif.Settings.C134_accepted",
    "Verif.Settings.C134_as_is"
   ],
   "note": "Fields with an attribute, an index, a conversion or a format are not modelled (one error stands for all that happens with them)."
  },
  {
   "property": "C135",
   "status": "partial",
   "theorems": [
    "Verif.Settings.C135_arguments",
    "Verif.Settings.C135_configuration",
    "Verif.Settings.C135_missing",
    "Verif.Settings.C135_same_gateway_partial",
    "Verif.Settings.C135_proxy",
    "Verif.Settings.C135_path_violated",
    "Verif.Settings.C135_port_violated"
   ],
   "note": "The second part holds if the address of the proxy is given as a URL, as host and port, or not at all and the gateway is not given by an IPv6 address. An address with a path but no scheme is cut differently the second time, witness C135_path_violated. A port that is given by a template, as the documentation allows, is taken for a host, witness C135_port_violated."
  },
  {
   "property": "C136",
   "status": "proved",
   "theorems": [
    "Verif.Wire.C136_python",
    "Verif.Wire.C136_go",
    "Verif.Wire.C136_one_line",
    "Verif.Wire.C136_cut",
    "Verif.Wire.C136_infinity",
    "Verif.Wire.C136_escape"
   ],
   "note": "The JSON libraries of Python and Go are modelled from their grammar. How a float is printed and read back is an assumption (Floats.Ok). Infinities are read by Python only (C136_infinity); none is sent to the proxy."
  },
  {
   "property": "C137",
   "status": "partial",
   "theorems": [
    "Verif.Wire.C137_stream",
    "Verif.Wire.C137_whole",
    "Verif.Wire.C137_steps",
    "Verif.Wire.C137_table",
    "Verif.Wire.C137_refused",
    "Verif.Wire.C137_sent",
    "Verif.Wire.C137_long_violated",
    "Verif.Wire.C137_stuck",
    "Verif.Wire.C137_no_number",
    "Verif.Wire.C137_no_number_table"
   ],
   "note": "Holds for batches whose text is shorter than 64 KiB. The proxy takes a longer one for the end of the stream and asks for it again for ever, witnesses C137_long_violated and C137_stuck (C64)."
  },
  {
   "property": "C138",
   "status": "proved",
   "theorems": [
    "Verif.Handshake.C138_peer",
    "Verif.Handshake.C138_holders",
    "Verif.Handshake.C138_strangers",
    "Verif.Handshake.C138_apart",
    "Verif.Handshake.C138_period"
   ],
   "note": "Symbolic cryptography: keys are not guessed and signatures not forged. OpenSSL and distributed are modelled from what the contexts ask for; chains of certificates are accepted more generously than by OpenSSL."
  },
  {
   "property": "C139",
   "status": "partial",
   "theorems": [
    "Verif.Handshake.C139_processes",
    "Verif.Handshake.C139_paths",
    "Verif.Handshake.C139_connect_partial",
    "Verif.Handshake.C139_year_violated",
    "Verif.Handshake.C139_none"
   ],
   "note": "Holds for 365 days after the creation of a cluster. Certificates are never renewed, so that later no client and no worker can connect to a cluster that still runs: witness C139_year_violated."
  },
  {
   "property": "C14",
   "status": "partial",
   "theorems": [
    "Verif.ProxyEvents.restart_not_stale_partial",
    "Verif.ProxyEvents.restart_not_stale_violated"
   ],
   "note": "The code violates the property when no request of the proxy fails during the restart: ids start again at 1 and the stale last_id is accepted. Proved for restarts that the proxy notices."
  },
  {
   "property": "C140",
   "status": "proved",
   "theorems": [
    "Verif.Handshake.C140_nothing_left",
    "Verif.Handshake.C140_private",
    "Verif.Handshake.C140_complete"
   ],
   "note": "A client that is killed in between leaves the files in the private directory."
  },
  {
   "property": "C141",
   "status": "proved",
   "theorems": [
    "Verif.Yarn.C141_own",
    "Verif.Yarn.C141_containers",
    "Verif.Yarn.C141_ended_by",
    "Verif.Yarn.C141_reaches",
    "Verif.Yarn.C141_kills"
   ],
   "note": "Calls of skein are modelled as taking effect, or failing, at any time; an application has one address for its life."
  },
  {
   "property": "C142",
   "status": "partial",
   "theorems": [
    "Verif.Yarn.C142_told_partial",
    "Verif.Yarn.C142_containers",
    "Verif.Yarn.C142_only_own",
    "Verif.Yarn.C142_late_violated",
    "Verif.Yarn.C142_crash_violated",
    "Verif.Yarn.C142_recorded_violated",
    "Verif.Yarn.C142_failed_violated"
   ],
   "note": "Violated when the submission takes longer than the gateway waits, when the gateway is killed while a cluster is being started (it submits a second application and forgets the first), and when YARN cannot be told to end the application, of which only a warning is left. Proved for all other histories."
  },
  {
   "property": "C143",
   "status": "partial",
   "theorems": [
    "Verif.Yarn.C143_bounded",
    "Verif.Yarn.C143_freed_partial",
    "Verif.Yarn.C143_check_violated",
    "Verif.Yarn.C143_failed_violated"
   ],
   "note": "Violated when the check of workers goes on with a cluster that has been stopped since it began, and when the request to end the application fails: then the address stays until the gateway is restarted. Proved for all other histories."
  },
  {
   "property": "C144",
   "status": "proved",
   "theorems": [
    "Verif.Yarn.C144_resources",
    "Verif.Yarn.C144_files",
    "Verif.Yarn.C144_scheduler_env",
    "Verif.Yarn.C144_worker_env",
    "Verif.Yarn.C144_refused"
   ],
   "note": "skein.File.from_dict is a parameter. The scripts are those of C119."
  },
  {
   "property": "C145",
   "status": "partial",
   "theorems": [
    "Verif.Idle.C145_only",
    "Verif.Idle.C145_off",
    "Verif.Idle.C145_prompt_partial",
    "Verif.Idle.C145_once",
    "Verif.Idle.C145_violated"
   ],
   "note": "Violated after a request that fails, for instance while the gateway restarts: the exception ends the loop, and the cluster is never shut down. Proved as long as no request fails."
  },
  {
   "property": "C146",
   "status": "proved",
   "theorems": [
    "Verif.Idle.C146_service",
    "Verif.Idle.C146_colon_refused",
    "Verif.Idle.C146_kubernetes"
   ],
   "note": "Python's float, the options that distributed itself knows and the result of listening are parameters."
  },
  {
   "property": "C147",
   "status": "partial",
   "theorems": [
    "Verif.Idle.C147_addresses_partial",
    "Verif.Idle.C147_no_dashboard",
    "Verif.Idle.C147_ipv6_violated"
   ],
   "note": "Violated for schedulers at IPv6 addresses, whose brackets are lost. Proved for names and IPv4 addresses."
  },
  {
   "property": "C148",
   "status": "partial",
   "theorems": [
    "Verif.Local.C148_signals_partial",
    "Verif.Local.C148_reuse_violated"
   ],
   "note": "Violated when the system gives the id of an ended process to another one: only the id is kept, so the stop sends SIGINT, SIGTERM and SIGKILL to a stranger. Proved for all histories in which no new process gets the id of a job that has not been stopped."
  },
  {
   "property": "C149",
   "status": "partial",
   "theorems": [
    "Verif.Local.C149_ended_partial",
    "Verif.Local.C149_crash_violated",
    "Verif.Local.C149_again_violated",
    "Verif.Local.C149_created_violated"
   ],
   "note": "Violated by a crash of the gateway between the start of a process and the write of the status: the process is left running. Proved for jobs that are not hit by a crash in that interval, with any other crashes and any use of process ids."
  },
  {
   "property": "C15",
   "status": "proved",
   "theorems": [
    "Verif.ProxyEvents.malformed_ignored",
    "Verif.ProxyEvents.event_affects_own_key"
   ],
   "note": ""
  },
  {
   "property": "C150",
   "status": "partial",
   "theorems": [
    "Verif.Local.C150_alive_partial",
    "Verif.Local.C150_gone_partial",
    "Verif.Local.C150_reuse_violated"
   ],
   "note": "Violated when the id of the process is used again. Proved that a running process is said to run (unless the gateway crashed during its start) and, without such use, the converse."
  },
  {
   "property": "C151",
   "status": "partial",
   "theorems": [
    "Verif.Local.C151_rights_partial",
    "Verif.Local.C151_account",
    "Verif.Local.C151_refused",
    "Verif.Local.C151_groups_violated"
   ],
   "note": "Violated where the further groups cannot be set: the failure is printed only, and the process keeps the groups of the gateway. User, group and directory are always right, or the process is not run."
  },
  {
   "property": "C152",
   "status": "proved",
   "theorems": [
    "Verif.Concurrent.C152_one",
    "Verif.Concurrent.C152_own",
    "Verif.Concurrent.C152_returned"
   ],
   "note": ""
  },
  {
   "property": "C153",
   "status": "partial",
   "theorems": [
    "Verif.Concurrent.C153_close",
    "Verif.Concurrent.C153_failed",
    "Verif.Concurrent.C153_own",
    "Verif.Concurrent.C153_submission_violated"
   ],
   "note": "Violated when the close comes during the submission: the name is not known yet, so the cluster is left running. Proved for all other schedules."
  },
  {
   "property": "C154",
   "status": "partial",
   "theorems": [
    "Verif.Concurrent.C154_keep_partial",
    "Verif.Concurrent.C154_keep_violated"
   ],
   "note": "Violated by close(shutdown=False) during the start of an object with shutdown_on_close: a waiting task cleans up and stops the cluster."
  },
  {
   "property": "C155",
   "status": "partial",
   "theorems": [
    "Verif.Concurrent.C155_returns_partial",
    "Verif.Concurrent.C155_cancelled_violated",
    "Verif.Concurrent.C155_forever",
    "Verif.Concurrent.C155_ends"
   ],
   "note": "Violated by a close that is cancelled: the shared stop task stays cancelled, and later closes raise CancelledError without a request. Every call of close ends."
  },
  {
   "property": "C156",
   "status": "partial",
   "theorems": [
    "Verif.Inproc.C156_absent_partial",
    "Verif.Inproc.C156_restart",
    "Verif.Inproc.C156_failed_violated",
    "Verif.Inproc.C156_inverted_violated"
   ],
   "note": "Violated throughout: the test of the status is inverted, so the clusters and workers that run are counted as failed and the closed ones are not. Only those that are not there at all are treated as they should be."
  },
  {
   "property": "C157",
   "status": "partial",
   "theorems": [
    "Verif.Inproc.C157_gone",
    "Verif.Inproc.C157_directory_partial",
    "Verif.Inproc.C157_directory_violated",
    "Verif.Inproc.C157_stays_violated"
   ],
   "note": "Violated when the start failed before the scheduler object, or the gateway was restarted: the stop raises KeyError and the directory stays. Proved for all clusters with a scheduler object."
  },
  {
   "property": "C158",
   "status": "partial",
   "theorems": [
    "Verif.Helm.C158_settings",
    "Verif.Helm.C158_only",
    "Verif.Helm.C158_image_partial",
    "Verif.Helm.C158_tag",
    "Verif.Helm.C158_secrets_violated"
   ],
   "note": "Holds for the sixteen settings of clusters and for the image. It does not hold for the secrets to pull images: they are dropped if the values name no image, and are set to null if they are null, which no cluster can be started with. Reading back JSON is an assumption on Go and Python, the quoting between them is proved."
  },
  {
   "property": "C159",
   "status": "proved",
   "theorems": [
    "Verif.Helm.C159_text",
    "Verif.Helm.C159_map"
   ],
   "note": "For all texts, and for maps in any order."
  },
  {
   "property": "C16",
   "status": "proved",
   "theorems": [
    "Verif.Backend.C16_status_forward"
   ],
   "note": ""
  },
  {
   "property": "C160",
   "status": "partial",
   "theorems": [
    "Verif.Helm.C160_token",
    "Verif.Helm.C160_absent",
    "Verif.Helm.C160_gateway",
    "Verif.Helm.C160_password_violated"
   ],
   "note": "Holds for the token of JupyterHub. The password of the simple authenticator is written to the ConfigMap."
  },
  {
   "property": "C161",
   "status": "proved",
   "theorems": [
    "Verif.Helm.C161_class",
    "Verif.Helm.C161_unknown",
    "Verif.Helm.C161_settings",
    "Verif.Helm.C161_hub",
    "Verif.Helm.C161_custom",
    "Verif.Helm.C161_values",
    "Verif.Helm.C161_type"
   ],
   "note": "For all values."
  },
  {
   "property": "C162",
   "status": "partial",
   "theorems": [
    "Verif.Helm.C162_together",
    "Verif.Helm.C162_selector_partial",
    "Verif.Helm.C162_names_partial",
    "Verif.Helm.C162_url",
    "Verif.Helm.C162_namespace_violated",
    "Verif.Helm.C162_contains_violated",
    "Verif.Helm.Rbac.C162_installed_partial",
    "Verif.Helm.Rbac.C162_installed_violated"
   ],
   "note": "The parts of a release belong together. Different releases are apart if their names are different and not too long, and both or neither contain the name of the chart. Releases of one name in several namespaces are not apart: each takes the clusters of the others for its own. Helm refuses to install them together where the chart sets up the accounts (C162_installed_partial), but not where accounts are given."
  },
  {
   "property": "C163",
   "status": "partial",
   "theorems": [
    "Verif.Helm.C163_api_partial",
    "Verif.Helm.C163_cluster_partial",
    "Verif.Helm.C163_slash_violated",
    "Verif.Helm.C163_paths_violated"
   ],
   "note": "Holds for prefixes that begin with a slash and do not end with one, and for names of the allowed characters. Without a slash at the beginning nothing reaches the API; with two at the end the pages of clusters get wrong paths; paths that only begin with the characters of the prefix also reach the API."
  },
  {
   "property": "C164",
   "status": "partial",
   "theorems": [
    "Verif.Kube.C164_cores_text",
    "Verif.Kube.C164_amounts_partial",
    "Verif.Kube.C164_chosen_partial",
    "Verif.Kube.C164_acceptable_partial",
    "Verif.Kube.C164_acceptable_violated",
    "Verif.Kube.C164_worker_partial"
   ],
   "note": "Holds unless the extra configuration of pods names resources or arguments itself. Refuted for acceptability: if the configuration sets a limit and the options let users choose more, the pods ask for more than their limit, which Kubernetes refuses. Cores are written to within half a thousandth."
  },
  {
   "property": "C165",
   "status": "proved",
   "theorems": [
    "Verif.Kube.Owned.C165_no_leak",
    "Verif.Kube.Owned.C165_without_scheduler",
    "Verif.Kube.Owned.C165_deleted",
    "Verif.Kube.Owned.C165_collector_ends",
    "Verif.Kube.Owned.C165_kept",
    "Verif.Kube.Owned.C165_made",
    "Verif.Kube.Owned.C165_one",
    "Verif.Kube.Owned.C165_apart",
    "Verif.Kube.Owned.C165_collector_spares",
    "Verif.Kube.Owned.C165_collector_one"
   ],
   "note": "The collector of Kubernetes is modelled by its contract: it removes an object all of whose owners are gone."
  },
  {
   "property": "C166",
   "status": "partial",
   "theorems": [
    "Verif.Kube.C166_watched_partial",
    "Verif.Kube.C166_endpoints",
    "Verif.Kube.C166_name",
    "Verif.Kube.C166_violated"
   ],
   "note": "Refuted: extra pod labels replace that of the instance, so that a pod is hidden from the controller that made it and shown to another. Holds for instance names without commas and equality signs (no others are values of labels) and unless the extra configuration of pods sets the labels of the gateway itself."
  },
  {
   "property": "C167",
   "status": "proved",
   "theorems": [
    "Verif.Backend.C167_asked",
    "Verif.Backend.C167_asked_workers",
    "Verif.Backend.C167_kept",
    "Verif.Backend.C167_kept_workers",
    "Verif.Backend.C167_answer",
    "Verif.Backend.C167_answer_workers",
    "Verif.Backend.C167_dead"
   ],
   "note": "For all histories, with crashes."
  },
  {
   "property": "C168",
   "status": "partial",
   "theorems": [
    "Verif.Helm.Rbac.C168_allowed",
    "Verif.Helm.Rbac.C168_gateway_only",
    "Verif.Helm.Rbac.C168_controller_only",
    "Verif.Helm.Rbac.C168_secrets_violated",
    "Verif.Helm.Rbac.C168_traefik",
    "Verif.Helm.Rbac.C168_traefik_only",
    "Verif.Helm.Rbac.C168_least"
   ],
   "note": "Holds except that the gateway may read all secrets of all namespaces (refuted). Kubernetes' authorization by roles is modelled by its contract; accounts that are given in the values are not covered."
  },
  {
   "property": "C169",
   "status": "proved",
   "theorems": [
    "Verif.Helm.Schema.C169_same",
    "Verif.Helm.Schema.C169_undescribed"
   ],
   "note": "For every meaning of all other keywords."
  },
  {
   "property": "C17",
   "status": "partial",
   "theorems": [
    "Verif.Backend.C17_queryable_partial",
    "Verif.Backend.C17_queryable_violated"
   ],
   "note": "The code violates the property: a status check of clusters that returns after the cluster stopped leaves it without a status. Proved for histories in which no such check returns, and for all clusters that are not finished in every history."
  },
  {
   "property": "C170",
   "status": "partial",
   "theorems": [
    "Verif.Backend.C170_submitted",
    "Verif.Backend.C170_given_up_partial",
    "Verif.Backend.C170_waits_violated"
   ],
   "note": "Proved unless a running cluster was not heard of since the gateway started: then every timeout check raises, and a pending cluster of another user is never given up (C170_waits_violated). That the work caused by the check ends is C20_stop_bounded."
  },
  {
   "property": "C171",
   "status": "partial",
   "theorems": [
    "Verif.Client.Conn.C171_one_open_partial",
    "Verif.Client.Conn.C171_close_partial",
    "Verif.Client.Conn.C171_same_session",
    "Verif.Client.Conn.C171_reuse",
    "Verif.Client.Conn.C171_leak_violated"
   ],
   "note": "Proved if closes do not overlap; if two closes overlap and a request is made in between, its session is forgotten and stays open (C171_leak_violated). Sessions and connectors of aiohttp are assumed to behave as stated at the head of Client/Conn.lean."
  },
  {
   "property": "C172",
   "status": "partial",
   "theorems": [
    "Verif.Session.Replicas.C172_handled_once",
    "Verif.Session.Replicas.C172_result",
    "Verif.Session.Replicas.C172_kerberos_partial",
    "Verif.Session.Replicas.C172_kerberos_violated"
   ],
   "note": "That each call is carried out once and for the right user is proved for all authenticators, and the result for basic and JupyterHub authentication. With Kerberos the result is proved only for calls whose requests all go to one replica: otherwise a call that was carried out can be reported as a failed negotiation (C172_kerberos_violated). The default name of the cookie is assumed, which differs between replicas."
  },
  {
   "property": "C173",
   "status": "proved",
   "theorems": [
    "Verif.Options.C173_kept",
    "Verif.Options.C173_range"
   ],
   "note": "Integers between 2^1023 and 2^1024 are covered by C173_kept only: if accepted, they are kept."
  },
  {
   "property": "C174",
   "status": "partial",
   "theorems": [
    "Verif.Kube.C174_kube_partial",
    "Verif.Kube.C174_stays",
    "Verif.Kube.C174_violated",
    "Verif.Kube.C174_restart_violated",
    "Verif.Backend.C174_database"
   ],
   "note": "Holds for the database backends (C174_database). On Kubernetes it holds for clusters the replica knows; a request for one it has not heard of yet is answered with 204 and ignored (C174_violated, C174_restart_violated)."
  },
  {
   "property": "C175",
   "status": "partial",
   "theorems": [
    "Verif.Backend.C175_sequence",
    "Verif.Backend.C175_refines",
    "Verif.Backend.C175_sqlite_partial",
    "Verif.Backend.C175_status",
    "Verif.Backend.C175_sqlite_violated"
   ],
   "note": "Holds for databases that never use the number of a row twice (C175_sequence, C175_refines). SQLite does: there it holds as long as nothing is written about removed clusters (C175_sqlite_partial), but a check that is answered late changes the row of another cluster (C175_sqlite_violated)."
  },
  {
   "property": "C176",
   "status": "partial",
   "theorems": [
    "Verif.Build.C176_partial",
    "Verif.Build.C176_built",
    "Verif.Build.C176_any",
    "Verif.Build.C176_left_out",
    "Verif.Build.C176_unclear",
    "Verif.Build.C176_other",
    "Verif.Build.C176_cross_violated",
    "Verif.Build.C176_universal_violated"
   ],
   "note": "Holds where Python names one processor and the variables of the Go compiler are not both set. If both are set the tag is that of the machine and not of the executable (C176_cross_violated); the Python of macOS for both processors gives a wheel for both with an executable for one (C176_universal_violated)."
  },
  {
   "property": "C177",
   "status": "partial",
   "theorems": [
    "Verif.Tasks.C177_goes_on",
    "Verif.Tasks.C177_informer_partial",
    "Verif.Tasks.C177_informer_violated",
    "Verif.Tasks.C177_idle_partial",
    "Verif.Tasks.C177_idle_violated",
    "Verif.Tasks.C177_stops",
    "Verif.Tasks.C177_heartbeat_partial",
    "Verif.Tasks.C177_heartbeat_violated",
    "Verif.Tasks.C177_adapt_partial",
    "Verif.Tasks.C177_adapt_violated",
    "Verif.Tasks.C177_close",
    "Verif.Tasks.C177_given_back",
    "Verif.Tasks.C177_retried",
    "Verif.Tasks.C177_queue_closed",
    "Verif.Tasks.C177_checked",
    "Verif.Tasks.C177_first",
    "Verif.Tasks.C177_restart",
    "Verif.Tasks.C177_watch",
    "Verif.Tasks.C177_more",
    "Verif.Tasks.C177_backoff_partial",
    "Verif.Tasks.C177_backoff_violated"
   ],
   "note": "Proved for the tasks of the gateway and the controller and for heartbeats and adaptive scaling. The tasks that take items from a queue end when the wait after a failure cannot be computed, which is so after 1024 failures of one item in succession (C177_backoff_violated; C177_goes_on and C177_retried take it to be computable). One failed request to stop ends the task that stops idle clusters (C177_idle_violated); a list of objects that cannot be taken in ends the watch (C177_informer_violated); a cancellation of heartbeats during an interruption, or of adaptive scaling while it asks for workers, is swallowed (C177_heartbeat_violated, C177_adapt_violated). What is awaited is one step that ends when it is cancelled, whatever it awaits inside."
  },
  {
   "property": "C178",
   "status": "partial",
   "theorems": [
    "Verif.Serving.C178_ends",
    "Verif.Serving.C178_runs_partial",
    "Verif.Serving.C178_violated",
    "Verif.Serving.C178_limit",
    "Verif.Serving.C178_separate",
    "Verif.Serving.C178_silent_violated",
    "Verif.Serving.C178_served",
    "Verif.Serving.C178_released",
    "Verif.Serving.C178_web",
    "Verif.Serving.C178_both",
    "Verif.Serving.C178_kept",
    "Verif.Serving.C178_to_web",
    "Verif.Serving.C178_waiting",
    "Verif.Serving.C178_out"
   ],
   "note": "The proxy runs as long as descriptors are left, and then serves each client whatever the others do. Refuted without this: nothing limits the time in which a client has to send its greeting (C178_silent_violated), and when the descriptors are used up the error of Accept is logged and then ignored, so that the type assertion on the missing connection ends the process with all connections of all clusters (C178_violated: from every state, by opening connections only). The HTTP port, if it has its own, waits instead (C178_web)."
  },
  {
   "property": "C179",
   "status": "partial",
   "theorems": [
    "Verif.Settings.C179_off",
    "Verif.Settings.C179_explicit",
    "Verif.Settings.C179_bare",
    "Verif.Settings.C179_colon",
    "Verif.Settings.C179_environment",
    "Verif.Settings.C179_secure",
    "Verif.Settings.C179_no_secret",
    "Verif.Settings.C179_every",
    "Verif.Settings.C179_scheme",
    "Verif.Settings.C179_bypass_violated"
   ],
   "note": "Proved apart from excluded hosts: the client asks for the proxies of the environment without looking at NO_PROXY, so that hosts excluded there are contacted through the HTTP proxy (C179_bypass_violated)."
  },
  {
   "property": "C18",
   "status": "proved",
   "theorems": [
    "Verif.Backend.C18_stop_never_undone"
   ],
   "note": ""
  },
  {
   "property": "C180",
   "status": "partial",
   "theorems": [
    "Verif.Session.C180_given",
    "Verif.Session.C180_named",
    "Verif.Session.C180_default",
    "Verif.Session.C180_basic",
    "Verif.Session.C180_left_out",
    "Verif.Session.C180_keyword",
    "Verif.Session.C180_hub",
    "Verif.Session.C180_kerberos",
    "Verif.Session.C180_class",
    "Verif.Session.C180_callable",
    "Verif.Session.C180_refused",
    "Verif.Session.C180_other_arguments_violated",
    "Verif.Session.C180_number_violated",
    "Verif.Session.C180_arguments"
   ],
   "note": "Proved apart from two things that the code does not do: an authentication given by name gets the arguments that the settings have for another and is refused (C180_other_arguments_violated), and a password of digits only, which YAML reads as a number, is accepted but raises when it is to be sent (C180_number_violated)."
  },
  {
   "property": "C181",
   "status": "partial",
   "theorems": [
    "Verif.Options.C181_none",
    "Verif.Options.C181_user",
    "Verif.Options.C181_alone_partial",
    "Verif.Options.C181_neither",
    "Verif.Options.C181_alone_violated",
    "Verif.Options.C181_read_partial",
    "Verif.Options.C181_read_violated",
    "Verif.Options.C181_whole",
    "Verif.Options.C181_refused"
   ],
   "note": "Proved apart from two things that the code does not do: a handler with keyword-only parameters or **kwargs besides the options is called with two arguments, so that every request fails (C181_alone_violated); an option called get, items, keys or values cannot be read as an attribute (C181_read_violated)."
  },
  {
   "property": "C182",
   "status": "proved",
   "theorems": [
    "Verif.Kube.Clock.C182_calendar",
    "Verif.Kube.Clock.C182_written",
    "Verif.Kube.Clock.C182_creation",
    "Verif.Kube.Clock.C182_round_trip",
    "Verif.Kube.Clock.C182_order",
    "Verif.Kube.Clock.C182_unique",
    "Verif.Kube.Clock.C182_refused",
    "Verif.Kube.Clock.C182_expiry",
    "Verif.Kube.Clock.C182_client",
    "Verif.Kube.Clock.C182_local",
    "Verif.Kube.Clock.C182_garbled"
   ],
   "note": "Python's datetime is modelled as far as it is used: proleptic Gregorian calendar, texts to the second. The last character of a text is dropped unread (zone_ignored), which is harmless for the texts of the API server, that end with Z."
  },
  {
   "property": "C183",
   "status": "partial",
   "theorems": [
    "Verif.Options.C183_accepted",
    "Verif.Options.C183_names",
    "Verif.Options.C183_set_partial",
    "Verif.Options.C183_refused",
    "Verif.Options.C183_update",
    "Verif.Options.C183_form_partial",
    "Verif.Options.C183_attribute_partial",
    "Verif.Options.C183_form_violated",
    "Verif.Options.C183_set_violated",
    "Verif.Options.C183_attribute_violated",
    "Verif.Options.C183_unknown"
   ],
   "note": "Proved apart from three things that the code does not do: the form of a float ignores a bound that is zero, so that it shows what is not sent (C183_form_violated); with a form displayed, an integer beyond 64 bits is changed if the field has one bound only (C183_set_violated); an option called like a method of mappings cannot be read as an attribute (C183_attribute_violated). C183_accepted needs distinct names of fields, as C43 does."
  },
  {
   "property": "C184",
   "status": "partial",
   "theorems": [
    "Verif.Kube.Limited.C184_as_asked",
    "Verif.Kube.Limited.C184_not_lost",
    "Verif.Kube.Limited.C184_cancelled",
    "Verif.Kube.Limited.C184_wakes",
    "Verif.Kube.Limited.C184_no_method",
    "Verif.Kube.Limited.C184_rate",
    "Verif.Kube.Limited.C184_window_partial",
    "Verif.Kube.Limited.C184_undelayed",
    "Verif.Kube.Limited.C184_idle_partial",
    "Verif.Kube.Limited.C184_idle_violated",
    "Verif.Kube.Limited.C184_second_violated"
   ],
   "note": "Proved apart from two things that the code does not do. RateLimiter credits at most burst / rate seconds of idle time even when its tokens are far below zero, so that after a long queue calls are delayed although nothing has been sent for any length of time (C184_idle_violated; C184_idle_partial holds if no call slept longer than (burst - 1) / rate). The help of k8s_api_rate_limit_burst speaks of the maximum number of calls per second, but burst + rate can go out in a second (C184_second_violated, C184_window_partial). Times are exact rationals."
  },
  {
   "property": "C185",
   "status": "proved",
   "theorems": [
    "Verif.Flag.C185_set",
    "Verif.Flag.C185_undisturbed",
    "Verif.Flag.C185_released",
    "Verif.Flag.C185_late",
    "Verif.Flag.C185_gives_up"
   ],
   "note": "Futures, shield and Task.cancel of asyncio are modelled as far as they matter; that wait_for turns the cancellation into TimeoutError is not."
  },
  {
   "property": "C186",
   "status": "partial",
   "theorems": [
    "Verif.Stop.C186_result",
    "Verif.Stop.C186_ended_partial",
    "Verif.Stop.C186_reports",
    "Verif.Stop.C186_ended_violated",
    "Verif.Stop.C186_signal_violated",
    "Verif.Stop.C186_first"
   ],
   "note": "Proved for all tasks that exist when the main task ends. A task that is created while others are cancelled is neither cancelled nor awaited (C186_ended_violated); a main task that fails while it is cancelled keeps the others from being cancelled (C186_signal_violated), which the main tasks of the two programs do not do as they catch what their cleanup raises."
  },
  {
   "property": "C187",
   "status": "partial",
   "theorems": [
    "Verif.Router.C187_exact",
    "Verif.Router.C187_once",
    "Verif.Router.C187_order",
    "Verif.Router.C187_reload_partial",
    "Verif.Router.C187_reload_violated"
   ],
   "note": "The listing is exact for all histories. That its entries give the same routing is proved for tables without a route that ends in an empty segment; such a route (added as /a//) is listed as /a/, which is read back as /a (C187_reload_violated). The proxy itself does not read listings; the function is there for debugging."
  },
  {
   "property": "C188",
   "status": "partial",
   "theorems": [
    "Verif.Command.C188_refused",
    "Verif.Command.C188_local_partial",
    "Verif.Command.C188_kube_scheduler_partial",
    "Verif.Command.C188_kube_worker_partial",
    "Verif.Command.C188_batch_scheduler_partial",
    "Verif.Command.C188_batch_worker_partial",
    "Verif.Command.C188_text_violated",
    "Verif.Command.C188_reference_violated",
    "Verif.Command.C188_empty_violated",
    "Verif.Command.C188_yarn_worker_partial"
   ],
   "note": "Lists are run exactly by the local backend and, without dollar signs, on Kubernetes; texts are run as the shell reads them on batch systems (lists there: C119). Not true as stated: a text of several words is taken for the name of one program by the local backend and on Kubernetes (C188_text_violated); Kubernetes changes words with dollar signs (C188_reference_violated); the empty text is accepted (C188_empty_violated). That Kubernetes replaces references in arguments is modelled from memory and not checked against it."
  },
  {
   "property": "C189",
   "status": "partial",
   "theorems": [
    "Verif.Client.C189_numbers_partial",
    "Verif.Client.C189_displayed",
    "Verif.Client.C189_unreached",
    "Verif.Client.C189_lost_violated",
    "Verif.Client.C189_stuck"
   ],
   "note": "For schedulers that remove only workers they had added, as for C80, the numbers are those of the workers at the time the scheduler was last heard. Not true as stated: after the connection was lost, or the object closed, the former numbers stay (C189_lost_violated). The text that dask makes of the bytes is not modelled."
  },
  {
   "property": "C19",
   "status": "proved",
   "theorems": [
    "Verif.Backend.C19_stopping_has_work"
   ],
   "note": ""
  },
  {
   "property": "C190",
   "status": "partial",
   "theorems": [
    "Verif.Chosen.C190_exact_partial",
    "Verif.Chosen.C190_raises",
    "Verif.Chosen.C190_no_fallback",
    "Verif.Chosen.C190_missing_violated",
    "Verif.Chosen.C190_extension_violated",
    "Verif.Chosen.C190_misspelled_violated"
   ],
   "note": "For files whose names end in .py the two classes are characterised exactly. Not true as stated: a configuration file that is missing is ignored and the gateway starts with the defaults, which let in anybody without a password (C190_missing_violated); a file with another extension is not read (C190_extension_violated); a misspelled option is ignored but for a warning (C190_misspelled_violated). The reading of configuration is that of traitlets, modelled from memory and not checked against it."
  },
  {
   "property": "C191",
   "status": "partial",
   "theorems": [
    "Verif.Auth.C191_exact_partial",
    "Verif.Auth.C191_files",
    "Verif.Auth.C191_authority_violated",
    "Verif.Auth.C191_certificate_violated",
    "Verif.Auth.C191_late_violated",
    "Verif.Auth.C191_anonymous"
   ],
   "note": "Who is believed is characterised exactly for all settings. Not true as stated: an authority that is configured without a certificate for the gateway is ignored (C191_authority_violated); with a certificate and no authority no hub is believed over TLS (C191_certificate_violated); a gateway without an address of its hub starts and answers requests with 500 (C191_late_violated). The TLS of Python and aiohttp is modelled from memory and not checked against it; names in certificates, redirects and cookies of the hub are not modelled."
  },
  {
   "property": "C192",
   "status": "partial",
   "theorems": [
    "Verif.Generate.C192_exact",
    "Verif.Generate.C192_elsewhere",
    "Verif.Generate.C192_kept_partial",
    "Verif.Generate.C192_killed_partial",
    "Verif.Generate.C192_race_violated",
    "Verif.Generate.C192_killed_violated"
   ],
   "note": "How the command ends when left alone, and that it touches no other path, is proved for all disks and histories. Not true as stated: a file made between the check and the write is overwritten without --force (C192_race_violated), and a kill may leave a part of the new text and nothing of the old one (C192_killed_violated). Links and permissions are not modelled."
  },
  {
   "property": "C193",
   "status": "partial",
   "theorems": [
    "Verif.WorkQueue.C193_exact",
    "Verif.WorkQueue.C193_again_partial",
    "Verif.WorkQueue.C193_stops_violated"
   ],
   "note": "How many tasks are left is proved exactly for all histories. Not true as stated: the 1025th failure of an object in succession raises OverflowError where the wait is computed, inside the handler of the failure, so the object is not put again and the task ends; later events for the object end one task each, until none is left (C193_stops_violated). The conversion of integers to floats in Python is modelled from memory and not checked."
  },
  {
   "property": "C194",
   "status": "partial",
   "theorems": [
    "Verif.Client.C194_exact_partial",
    "Verif.Client.C194_lines_violated",
    "Verif.Client.C194_forbidden_violated"
   ],
   "note": "Which messages arrive is characterised exactly. Not true as stated: with an aiohttp that refuses line feeds in reasons, a message of several lines becomes an error 500 without it (C194_lines_violated); the message for a cluster of somebody else is dropped by the client (C194_forbidden_violated). What aiohttp does with line feeds is modelled from memory and not checked."
  },
  {
   "property": "C20",
   "status": "proved",
   "theorems": [
    "Verif.Backend.C20_stop_bounded",
    "Verif.Backend.C20_stop_completes",
    "Verif.Backend.C20_stop_reachable"
   ],
   "note": "The bound is 6 + 13 k pieces of work for k workers."
  },
  {
   "property": "C21",
   "status": "proved",
   "theorems": [
    "Verif.Backend.C21_worker_limit"
   ],
   "note": ""
  },
  {
   "property": "C22",
   "status": "partial",
   "theorems": [
    "Verif.Backend.C22_workers_provided_partial",
    "Verif.Backend.C22_workers_provided_violated",
    "Verif.Backend.C22_each_look_partial",
    "Verif.Backend.C22_missing_since_partial"
   ],
   "note": "The code violates the property when a worker that was announced as closing closes while the requested count stays; proved up to those workers. Each look at a running cluster provides the requested number, and whatever is missing later was announced as closing and finished since that look."
  },
  {
   "property": "C23",
   "status": "proved",
   "theorems": [
    "Verif.Backend.C23_finished_after_workers"
   ],
   "note": ""
  },
  {
   "property": "C24",
   "status": "partial",
   "theorems": [
    "Verif.Backend.C24_no_leak_partial",
    "Verif.Backend.C24_no_leak_violated",
    "Verif.Backend.C24_started_are_known"
   ],
   "note": "The code violates the property when the gateway dies during a start call; proved for all other histories."
  },
  {
   "property": "C25",
   "status": "proved",
   "theorems": [
    "Verif.Backend.C25_routes",
    "Verif.Backend.C25_routes_removed"
   ],
   "note": ""
  },
  {
   "property": "C26",
   "status": "proved",
   "theorems": [
    "Verif.Backend.C26_restart_reloads"
   ],
   "note": ""
  },
  {
   "property": "C27",
   "status": "proved",
   "theorems": [
    "Verif.Backend.C27_purge_exact",
    "Verif.Backend.C27_only_finished",
    "Verif.Backend.C27_lookups"
   ],
   "note": ""
  },
  {
   "property": "C28",
   "status": "partial",
   "theorems": [
    "Verif.Backend.C28_timeouts_partial",
    "Verif.Backend.C28_timeouts_violated"
   ],
   "note": "The code violates the property after a restart in which a submitted cluster that had already reported its address becomes running without a heartbeat: the check fails before it does anything. Proved in all other states."
  },
  {
   "property": "C29",
   "status": "partial",
   "theorems": [
    "Verif.Backend.C29_only_closed_or_waiting",
    "Verif.Backend.C29_never_over_stops_partial",
    "Verif.Backend.C29_never_over_stops_violated"
   ],
   "note": "That no running worker is stopped is proved in full. The code violates the bound on pending workers when a pending worker was already asked to stop; proved in all other states."
  },
  {
   "property": "C30",
   "status": "partial",
   "theorems": [
    "Verif.Backend.C30_heartbeat_handled_partial",
    "Verif.Backend.C30_heartbeat_handled_violated"
   ],
   "note": "The code violates the property: an assertion fails for exactly the heartbeats that do not mention a running or closing worker."
  },
  {
   "property": "C31",
   "status": "proved",
   "theorems": [
    "Verif.Backend.C31_failures_counted",
    "Verif.Backend.C31_restart_forgets",
    "Verif.Backend.C31_limit"
   ],
   "note": ""
  },
  {
   "property": "C32",
   "status": "proved",
   "theorems": [
    "Verif.Backend.C32_one_start",
    "Verif.Backend.C32_crash_restarts"
   ],
   "note": ""
  },
  {
   "property": "C33",
   "status": "proved",
   "theorems": [
    "Verif.Api.C33_effects_authorised",
    "Verif.Api.C33_disclosure",
    "Verif.Api.C33_no_credentials",
    "Verif.Api.C33_foreign",
    "Verif.Api.C33_unknown",
    "Verif.Api.C33_owner_served",
    "Verif.Api.C33_heartbeat_served",
    "Verif.Api.C33_heartbeat_garbled"
   ],
   "note": ""
  },
  {
   "property": "C34",
   "status": "proved",
   "theorems": [
    "Verif.Api.C34_list_default",
    "Verif.Api.C34_list_filtered",
    "Verif.Api.C34_unknown_status",
    "Verif.Backend.C34_active_clusters"
   ],
   "note": ""
  },
  {
   "property": "C35",
   "status": "proved",
   "theorems": [
    "Verif.Api.C35_secrets",
    "Verif.Api.C35_running_served"
   ],
   "note": ""
  },
  {
   "property": "C36",
   "status": "partial",
   "theorems": [
    "Verif.Api.C36_scale",
    "Verif.Api.C36_adapt_partial",
    "Verif.Api.C36_adapt_rejects",
    "Verif.Api.C36_adapt_violated"
   ],
   "note": "Proved in full for scale. The code violates the property for adapt: with a limit it does not reject negative bounds or a minimum above the maximum, and without a limit it forwards any value."
  },
  {
   "property": "C37",
   "status": "proved",
   "theorems": [
    "Verif.Api.C37_not_running",
    "Verif.Api.C37_success",
    "Verif.Api.C37_failure",
    "Verif.Api.C37_waits",
    "Verif.Api.C37_bounded"
   ],
   "note": ""
  },
  {
   "property": "C38",
   "status": "proved",
   "theorems": [
    "Verif.Auth.C38_cookie_resolves",
    "Verif.Auth.C38_cookie_accepted",
    "Verif.Auth.C38_cookie_not_shared",
    "Verif.Auth.C38_no_failure"
   ],
   "note": "Cookies are modelled as values that never repeat; that they cannot be guessed is not modelled."
  },
  {
   "property": "C39",
   "status": "proved",
   "theorems": [
    "Verif.Auth.C39_principals_distinct",
    "Verif.Auth.C39_users_keep_name"
   ],
   "note": ""
  },
  {
   "property": "C40",
   "status": "partial",
   "theorems": [
    "Verif.Auth.C40_basic_partial",
    "Verif.Auth.C40_basic_violated",
    "Verif.Auth.C40_colon_confuses"
   ],
   "note": "The code violates the property for latin-1 characters outside ASCII: the client sends them and the server answers 500. Proved for ASCII credentials."
  },
  {
   "property": "C41",
   "status": "partial",
   "theorems": [
    "Verif.Options.C41_accepted_partial",
    "Verif.Options.C41_exact_fields",
    "Verif.Options.C41_unknown_rejected",
    "Verif.Options.C41_defaults",
    "Verif.Options.C41_accepts",
    "Verif.Options.C41_mapping_default",
    "Verif.Options.C41_types_violated",
    "Verif.Options.C41_bounds_violated"
   ],
   "note": "The code violates the property: true is accepted for an integer field, and NaN is accepted for any bounded float field. Everything else is proved."
  },
  {
   "property": "C42",
   "status": "partial",
   "theorems": [
    "Verif.Options.C42_idempotent_partial",
    "Verif.Options.C42_duplicates_violated"
   ],
   "note": "Proved for declarations with distinct field names; false of the code if two fields share a name."
  },
  {
   "property": "C43",
   "status": "partial",
   "theorems": [
    "Verif.Options.C43_values_agree",
    "Verif.Options.C43_submitted_partial",
    "Verif.Options.C43_assignment_partial",
    "Verif.Options.C43_duplicates_violated",
    "Verif.Options.C43_format"
   ],
   "note": "Proved for declarations with distinct field names; false of the code if two fields share a name."
  },
  {
   "property": "C44",
   "status": "partial",
   "theorems": [
    "Verif.Config.C44_computed_limit",
    "Verif.Config.C44_scheduler_fits",
    "Verif.Config.C44_limits_partial",
    "Verif.Config.C44_override_violated",
    "Verif.Config.C44_stale_violated"
   ],
   "note": "The code violates the property: a number of workers is validated against the limits known when it is assigned, and is not validated again when the configuration file or the overrides change those limits. Proved for the computed limit and for the configurations named in the theorem."
  },
  {
   "property": "C45",
   "status": "proved",
   "theorems": [
    "Verif.Utils.C45_window",
    "Verif.Utils.C45_since_start",
    "Verif.Utils.C45_no_needless_delay"
   ],
   "note": "Floats are modelled as exact rationals; positive rate and burst of at least 1."
  },
  {
   "property": "C46",
   "status": "partial",
   "theorems": [
    "Verif.Utils.C46_bounded",
    "Verif.Utils.C46_latest",
    "Verif.Utils.C46_hit",
    "Verif.Utils.C46_stored",
    "Verif.Utils.C46_kept",
    "Verif.Utils.C46_lru_partial",
    "Verif.Utils.C46_lru_violated"
   ],
   "note": "The code violates the eviction order: putting a key that is present does not count as a use. Proved for histories that put only absent keys (the gateway's); everything but the order is proved for all."
  },
  {
   "property": "C47",
   "status": "proved",
   "theorems": [
    "Verif.Utils.C47_round_trip",
    "Verif.Utils.C47_pem"
   ],
   "note": "The cipher (outside the repository) is assumed to decrypt what it encrypts."
  },
  {
   "property": "C48",
   "status": "proved",
   "theorems": [
    "Verif.Kube.C48_inputs_unchanged",
    "Verif.Kube.C48_empty",
    "Verif.Kube.C48_override",
    "Verif.Kube.C48_base",
    "Verif.Kube.C48_keys",
    "Verif.Kube.C48_separate"
   ],
   "note": ""
  },
  {
   "property": "C49",
   "status": "proved",
   "theorems": [
    "Verif.Kube.C49_cache",
    "Verif.Kube.C49_event_callback",
    "Verif.Kube.C49_listing_callbacks"
   ],
   "note": "The API server is a log of changes with the usual list/watch contract; namespaces have no dots."
  },
  {
   "property": "C50",
   "status": "partial",
   "theorems": [
    "Verif.Kube.C50_sets",
    "Verif.Kube.C50_partition",
    "Verif.Kube.C50_only_live",
    "Verif.Kube.C50_live_partial",
    "Verif.Kube.C50_violated"
   ],
   "note": "At most one set per pod, no other pod counted, and the right set whenever the latest report shows one. Refuted in full: a running pod whose container waits is in no set if not seen before."
  },
  {
   "property": "C51",
   "status": "partial",
   "theorems": [
    "Verif.Kube.C51_up",
    "Verif.Kube.C51_up_only",
    "Verif.Kube.C51_batches",
    "Verif.Kube.C51_down_only_pending",
    "Verif.Kube.C51_running_kept",
    "Verif.Kube.C51_down_partial",
    "Verif.Kube.C51_undershoot_partial",
    "Verif.Kube.C51_violated",
    "Verif.Kube.C51_no_overshoot"
   ],
   "note": "Scale-up exact, no overshoot over executions, running workers never deleted. Refuted in full: a scale-down can delete too many pending workers; exactly when is proved."
  },
  {
   "property": "C52",
   "status": "partial",
   "theorems": [
    "Verif.Kube.C52_failed_creates",
    "Verif.Kube.C52_waits_partial",
    "Verif.Kube.C52_not_stuck_partial",
    "Verif.Kube.C52_stamp",
    "Verif.Kube.C52_timeout",
    "Verif.Kube.C52_violated"
   ],
   "note": "Holds if only the controller creates and deletes workers and failed requests have no effect. Refuted when others delete workers."
  },
  {
   "property": "C53",
   "status": "partial",
   "theorems": [
    "Verif.Kube.C53_forward_partial",
    "Verif.Kube.C53_stop",
    "Verif.Kube.C53_stopped_final",
    "Verif.Kube.C53_violated",
    "Verif.Kube.C53_final_violated"
   ],
   "note": "Holds if the controller acts on the latest version of the cluster object; stopped is final in any case. Refuted for stale views."
  },
  {
   "property": "C54",
   "status": "partial",
   "theorems": [
    "Verif.Sched.C54_grows",
    "Verif.Sched.C54_shrinks",
    "Verif.Sched.C54_minimum",
    "Verif.Sched.C54_maximum_partial",
    "Verif.Sched.C54_violated"
   ],
   "note": "The maximum is refuted after it is lowered while scaling adaptively: the window keeps demands made under the old bounds."
  },
  {
   "property": "C55",
   "status": "proved",
   "theorems": [
    "Verif.Sched.C55_categories",
    "Verif.Sched.C55_reported",
    "Verif.Sched.C55_closing_only_surplus"
   ],
   "note": "For every history in which the scheduler has no two workers of the same name or address at once. A closed worker is reported in every heartbeat until one of its name connects again, which is more than until delivery."
  },
  {
   "property": "C56",
   "status": "proved",
   "theorems": [
    "Verif.Sched.C56_idle",
    "Verif.Sched.C56_prompt",
    "Verif.Sched.C56_no_log_violated"
   ],
   "note": "For a scheduler whose transition log keeps at least one entry and in which work changes only with a logged transition; refuted for a log that keeps none."
  },
  {
   "property": "C57",
   "status": "proved",
   "theorems": [
    "Verif.Client.C57_classified",
    "Verif.Client.C57_success",
    "Verif.Client.C57_sent",
    "Verif.Client.C57_message"
   ],
   "note": "For every answer, authentication and message. The HTTP client and the authentication hooks are parameters."
  },
  {
   "property": "C58",
   "status": "partial",
   "theorems": [
    "Verif.Client.C58_waits",
    "Verif.Client.C58_returns",
    "Verif.Client.C58_raises",
    "Verif.Client.C58_report",
    "Verif.Client.C58_violated"
   ],
   "note": "Refuted for Python before 3.11, where a timeout of the HTTP client is not the built-in TimeoutError and ends the wait with an error; with it the wait ends exactly at the first report that settles it."
  },
  {
   "property": "C59",
   "status": "proved",
   "theorems": [
    "Verif.Tcp.C59_bytes",
    "Verif.Tcp.C59_complete",
    "Verif.Tcp.C59_ends",
    "Verif.Tcp.C59_error"
   ],
   "note": "For every stream, division into pieces and sizes of reads. Loss of the connection itself is outside; see C82 for the end of one direction."
  },
  {
   "property": "C60",
   "status": "partial",
   "theorems": [
    "Verif.Backends.C60_slurm_partial",
    "Verif.Backends.C60_pbs_partial",
    "Verif.Backends.C60_small_violated",
    "Verif.Backends.C60_large_violated"
   ],
   "note": "Proved with the surplus bounded by a tenth, for amounts below 2^53 bytes (and for Slurm from 10 KiB on). Refuted for Slurm between 1 KiB and 10 KiB, where always 1K is requested, and beyond 2^53, where the division rounds."
  },
  {
   "property": "C61",
   "status": "partial",
   "theorems": [
    "Verif.Backends.C61_jobs",
    "Verif.Backends.C61_local",
    "Verif.Backends.C61_yarn_partial",
    "Verif.Backends.C61_yarn_clusters_partial",
    "Verif.Backends.C61_yarn_violated",
    "Verif.Backends.C61_yarn_clusters_violated",
    "Verif.Backends.C61_inprocess_violated"
   ],
   "note": "Proved in full for batch systems and the local backend. Refuted on YARN for workers of several clusters (a variable is reused, so that answers for the last cluster's workers are taken for the first workers of the list) and where one cluster has no application; refuted for the in-process backend, whose answers are inverted."
  },
  {
   "property": "C62",
   "status": "partial",
   "theorems": [
    "Verif.Env.C62_scheduler",
    "Verif.Env.C62_worker",
    "Verif.Env.C62_exported",
    "Verif.Env.C62_exported_scheduler",
    "Verif.Env.C62_exported_worker",
    "Verif.Env.C62_local_scheduler_partial",
    "Verif.Env.C62_local_worker_partial",
    "Verif.Env.C62_local_violated",
    "Verif.Kube.C62_kube_partial",
    "Verif.Kube.C62_kube_worker_partial",
    "Verif.Kube.C62_kube_violated"
   ],
   "note": "Proved in full for batch systems and YARN (for batch systems also that the variables are exported). Refuted for the local backend, where inherited variables such as PATH replace configured ones, and on Kubernetes, where variables of the extra container configuration replace the gateway's; proved there for all variables on which those settings are silent."
  },
  {
   "property": "C63",
   "status": "partial",
   "theorems": [
    "Verif.Addr.C63_parse",
    "Verif.Addr.C63_parse_location",
    "Verif.Addr.C63_client_partial",
    "Verif.Addr.C63_port_partial",
    "Verif.Addr.C63_proxy_url",
    "Verif.Addr.C63_proxy_plain",
    "Verif.Addr.C63_resolve_partial",
    "Verif.Addr.C63_sni",
    "Verif.Addr.C63_ipv6_violated",
    "Verif.Addr.C63_no_url_violated"
   ],
   "note": "Proved for every URL of a gateway whose host is a name or an IPv4 address, with or without port and prefix, and for every kind of proxy argument. Refuted for gateways at IPv6 addresses, whose brackets are lost, and for addresses without a scheme, whose host is lost. Python's urlparse is modelled here, with lower case for ASCII only."
  },
  {
   "property": "C64",
   "status": "partial",
   "theorems": [
    "Verif.ProxyEvents.catch_up_progress_partial",
    "Verif.ProxyEvents.catch_up_progress_violated"
   ],
   "note": "The code violates the property for batches longer than the scanner's buffer; proved when batches fit."
  },
  {
   "property": "C65",
   "status": "partial",
   "theorems": [
    "Verif.Auth.C65_fresh_cookie_partial",
    "Verif.Auth.C65_fresh_cookie_violated"
   ],
   "note": "The code violates the property: an expired cookie that was not presented since is handed out again. Proved for all other logins."
  },
  {
   "property": "C66",
   "status": "proved",
   "theorems": [
    "Verif.Auth.C66_scopes",
    "Verif.Auth.C66_default"
   ],
   "note": ""
  },
  {
   "property": "C67",
   "status": "proved",
   "theorems": [
    "Verif.Options.C67_configuration"
   ],
   "note": ""
  },
  {
   "property": "C68",
   "status": "proved",
   "theorems": [
    "Verif.Api.C68_create"
   ],
   "note": ""
  },
  {
   "property": "C69",
   "status": "proved",
   "theorems": [
    "Verif.Config.C69_overrides_win",
    "Verif.Config.C69_accepted",
    "Verif.Config.C69_refused"
   ],
   "note": "The number of workers is covered by C44."
  },
  {
   "property": "C70",
   "status": "partial",
   "theorems": [
    "Verif.Kube.C70_cleanup_partial",
    "Verif.Kube.C70_failed_start",
    "Verif.Kube.C70_violated"
   ],
   "note": "Holds without crashes between creation and recording. Refuted for such a crash followed by a stop."
  },
  {
   "property": "C71",
   "status": "proved",
   "theorems": [
    "Verif.Kube.C71_only_own",
    "Verif.Kube.C71_failed",
    "Verif.Kube.C71_worker",
    "Verif.Kube.C71_worker_deleted",
    "Verif.Kube.C71_scheduler",
    "Verif.Kube.C71_scheduler_deleted"
   ],
   "note": "For every stream of reports, with arbitrary expectations set in between."
  },
  {
   "property": "C72",
   "status": "partial",
   "theorems": [
    "Verif.Sched.C72_told_partial",
    "Verif.Sched.C72_interrupts",
    "Verif.Sched.C72_violated"
   ],
   "note": "Refuted for a request that comes while a heartbeat is under way: it is told only with the next regular heartbeat."
  },
  {
   "property": "C73",
   "status": "partial",
   "theorems": [
    "Verif.Sched.C73_scale_partial",
    "Verif.Sched.C73_scale_stays_partial",
    "Verif.Sched.C73_scale_plain",
    "Verif.Sched.C73_violated"
   ],
   "note": "Refuted for a request that comes while the adaptive loop is itself changing the count: the cancellation is swallowed and the request never answered."
  },
  {
   "property": "C74",
   "status": "proved",
   "theorems": [
    "Verif.Sched.C74_backoff",
    "Verif.Sched.C74_success"
   ],
   "note": "For every history and number of failures in a row."
  },
  {
   "property": "C75",
   "status": "partial",
   "theorems": [
    "Verif.Sched.C75_soon_partial",
    "Verif.Sched.C75_fires",
    "Verif.Sched.C75_lost",
    "Verif.Sched.C75_retired",
    "Verif.Sched.C75_surplus",
    "Verif.Sched.C75_violated"
   ],
   "note": "Refuted when the timer fires while a heartbeat is under way: it has no effect and blocks further timers until the next regular heartbeat."
  },
  {
   "property": "C76",
   "status": "proved",
   "theorems": [
    "Verif.Sched.C76_only_token",
    "Verif.Sched.C76_refused",
    "Verif.Sched.C76_scale",
    "Verif.Sched.C76_adapt",
    "Verif.Sched.C76_other"
   ],
   "note": "For every token and request. Tornado's answer of 403 to a request without user is taken as given."
  },
  {
   "property": "C77",
   "status": "partial",
   "theorems": [
    "Verif.Client.C77_list_partial",
    "Verif.Client.C77_default",
    "Verif.Client.C77_violated"
   ],
   "note": "Refuted for an empty set of statuses, which the server answers with an error; holds for every other."
  },
  {
   "property": "C78",
   "status": "proved",
   "theorems": [
    "Verif.Client.C78_scale",
    "Verif.Client.C78_adapt"
   ],
   "note": "For every request, limit and cluster."
  },
  {
   "property": "C79",
   "status": "partial",
   "theorems": [
    "Verif.Client.C79_close_partial",
    "Verif.Client.C79_failed_start",
    "Verif.Client.C79_own",
    "Verif.Client.C79_only_asked",
    "Verif.Client.C79_exit_partial",
    "Verif.Client.C79_lost_violated",
    "Verif.Client.C79_closed_violated"
   ],
   "note": "Refuted where the answer to the submission is lost (the cluster stays), and where an object in synchronous mode was closed before without shutdown (the later shutdown does nothing). The start is one step; requests to stop count when sent."
  },
  {
   "property": "C80",
   "status": "proved",
   "theorems": [
    "Verif.Client.C80_table"
   ],
   "note": "For every initial table and messages in which only known workers are removed, as the scheduler's are; the removal of an unknown one would end the watching."
  },
  {
   "property": "C81",
   "status": "partial",
   "theorems": [
    "Verif.Tcp.C81_reaches_partial",
    "Verif.Tcp.C81_only",
    "Verif.Tcp.C81_web",
    "Verif.Tcp.C81_violated"
   ],
   "note": "Refuted for greetings of more than 4096 bytes, which exceed the buffer and are not routed; proved for all others. The parse of the greeting by crypto/tls is a parameter."
  },
  {
   "property": "C82",
   "status": "partial",
   "theorems": [
    "Verif.Tcp.C82_prefix",
    "Verif.Tcp.C82_nothing_lost_partial",
    "Verif.Tcp.C82_first_partial",
    "Verif.Tcp.C82_violated"
   ],
   "note": "Refuted: the end of one direction closes the other one (the arguments of the two close calls are reversed), so that an answer after the end of the request is lost. Proved: no reordering or corruption ever, nothing lost before the opposite direction ended, and the direction that ends first arrives in full."
  },
  {
   "property": "C83",
   "status": "partial",
   "theorems": [
    "Verif.Backends.C83_directories_partial",
    "Verif.Backends.C83_files_violated",
    "Verif.Backends.C83_root_violated"
   ],
   "note": "Refuted: the paths of the credentials are added letter by letter, so that the root directory is handed over, the key is not, and the start fails unless one-letter files exist. Proved for the three directories."
  },
  {
   "property": "C84",
   "status": "partial",
   "theorems": [
    "Verif.Backends.C84_cancels_partial",
    "Verif.Backends.C84_success",
    "Verif.Backends.C84_violated"
   ],
   "note": "Success is only reported if the job was cancelled. Refuted: after an attempt whose cancel command failed no further attempt cancels, since the staging directory is gone."
  },
  {
   "property": "C85",
   "status": "proved",
   "theorems": [
    "Verif.Backends.C85_order",
    "Verif.Backends.C85_bounded",
    "Verif.Backends.C85_patient",
    "Verif.Backends.C85_kill"
   ],
   "note": "For every behaviour of the process and all timeouts; time is in tenths of seconds, and the time that the calls themselves take is left out."
  },
  {
   "property": "C86",
   "status": "partial",
   "theorems": [
    "Verif.Kube.C86_labels_partial",
    "Verif.Kube.C86_violated"
   ],
   "note": "Refuted: extra pod labels replace the gateway's, so that a pod can be made that of another cluster. Proved for extra labels without these three names, whatever the common labels."
  },
  {
   "property": "C87",
   "status": "partial",
   "theorems": [
    "Verif.Kube.C87_service_partial",
    "Verif.Kube.C87_web_unique",
    "Verif.Kube.C87_tcp_unique",
    "Verif.Kube.C87_target",
    "Verif.Kube.C87_covers",
    "Verif.Kube.C87_violated"
   ],
   "note": "Refuted: with extra pod labels (see C86) the service of a cluster selects the schedulers of other clusters, or the workers of its own. Proved otherwise."
  },
  {
   "property": "C88",
   "status": "proved",
   "theorems": [
    "Verif.Kube.C88_agrees",
    "Verif.Kube.C88_catches_up"
   ],
   "note": "For every history and key that is not in the queue. The informer (C49) and the work queue (C01-C07) are modelled separately."
  },
  {
   "property": "C89",
   "status": "partial",
   "theorems": [
    "Verif.Kube.C89_all",
    "Verif.Kube.C89_user_partial",
    "Verif.Kube.C89_violated",
    "Verif.Kube.C89_http"
   ],
   "note": "Listings over all users are proved for every history. Listings of a user are proved if the user of an object name never changes, and refuted otherwise: a changed user leaves the cluster listed for the old one, also after its deletion."
  },
  {
   "property": "C90",
   "status": "proved",
   "theorems": [
    "Verif.Kube.C90_origin",
    "Verif.Kube.C90_kept",
    "Verif.Kube.C90_issued",
    "Verif.Kube.C90_accepted",
    "Verif.Kube.C90_accepts"
   ],
   "note": "For every history; tokens with a final space, which the gateway does not make, are excluded in C90_accepted."
  },
  {
   "property": "C91",
   "status": "partial",
   "theorems": [
    "Verif.Kube.C91_heartbeat_partial",
    "Verif.Kube.C91_limit_partial",
    "Verif.Kube.C91_stop_partial",
    "Verif.Kube.C91_ended",
    "Verif.Kube.C91_violated",
    "Verif.Kube.C91_stoppable",
    "Verif.Kube.C91_answer"
   ],
   "note": "Proved for namespaces and names without a dot. Refuted for object names with a dot, which Kubernetes allows: such clusters are shown but can be neither stopped nor scaled (ValueError)."
  },
  {
   "property": "C92",
   "status": "proved",
   "theorems": [
    "Verif.Kube.C92_released",
    "Verif.Kube.C92_gone",
    "Verif.Kube.C92_not_early",
    "Verif.Kube.C92_immediate",
    "Verif.Kube.C92_leak"
   ],
   "note": "Also proved: requests for unknown names leave one flag each for ever (C92_leak)."
  },
  {
   "property": "C93",
   "status": "partial",
   "theorems": [
    "Verif.Kube.C93_only_expired_partial",
    "Verif.Kube.C93_removed_partial",
    "Verif.Kube.C93_removed_violated",
    "Verif.Kube.C93_only_ended_violated"
   ],
   "note": "Safety is proved if an ended object stays ended until it is seen deleted, completeness if no name has a dot. Both are refuted in general: an object made again under the same name within a gap of the watch is removed although it runs, and one expired name with a dot stops all removals."
  },
  {
   "property": "C94",
   "status": "proved",
   "theorems": [
    "Verif.Backend.C94_wait",
    "Verif.Backend.C94_wait_stopping"
   ],
   "note": "For every reachable state. The 20 second limit of the wait is not modelled: it only ends waits earlier."
  },
  {
   "property": "C95",
   "status": "proved",
   "theorems": [
    "Verif.Backend.C95_shutdown_complete",
    "Verif.Backend.C95_shutdown_ends"
   ],
   "note": "Assumes that during the wait no requests and background checks run (the server stopped and the tasks are cancelled first). Leaks are excluded for histories without earlier crashes (C24)."
  },
  {
   "property": "C96",
   "status": "proved",
   "theorems": [
    "Verif.Backend.C96_identity"
   ],
   "note": "For every history, with crashes."
  },
  {
   "property": "C97",
   "status": "partial",
   "theorems": [
    "Verif.Backend.C97_outcome_violated",
    "Verif.Backend.C97_check_violated",
    "Verif.Backend.C97_outcome_partial",
    "Verif.Backend.C97_failed_stays"
   ],
   "note": "Refuted: a failed start of the scheduler that is reported after the user's stop, or a status check that was under way at the stop, turns the outcome into failed. Proved in all other cases; and proved without conditions that failed clusters never end as stopped."
  },
  {
   "property": "C98",
   "status": "partial",
   "theorems": [
    "Verif.Backend.C98_running_worker_violated",
    "Verif.Backend.C98_running_worker_partial"
   ],
   "note": "Refuted: if the worker connects before the call that starts it returns, the return marks it as submitted again and the next timeout check can stop it. Proved for workers seen running while no such call is in flight."
  },
  {
   "property": "C99",
   "status": "proved",
   "theorems": [
    "Verif.Secrets.C99_accepted",
    "Verif.Secrets.C99_same_key",
    "Verif.Secrets.C99_distinct",
    "Verif.Secrets.C99_idempotent"
   ],
   "note": "Full: acceptance is characterised by an iff over all keys; base64 decoding is modelled with its leniency."
  }
 ]
}

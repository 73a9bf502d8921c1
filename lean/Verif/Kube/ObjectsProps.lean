import Verif.Kube.Objects
import Verif.Kube.MergeProps
/-! Properties C62 (on Kubernetes), C86 and C87: environment and labels of pods, and the routes to them. -/
set_option linter.unusedSimpArgs false
set_option linter.unusedVariables false
namespace Verif.Kube

/-! ### C62 -/

/-- Specification: whether an entry of a list of variables sets this one. -/
def nameIs (k : Str) (e : Obj) : Bool :=
  match e.get ["name".toList] with
  | some (.str n) => decide (n = k)
  | _ => false

/-- Specification: the first container of a pod. -/
def firstContainer (pod : Obj) : Option Obj :=
  match pod.get ["spec".toList, "containers".toList] with
  | some (.list _ (c :: _)) => some c
  | _ => none

/-- Specification: the entry that sets a variable in the first container of a pod: for Kubernetes, the last
one with its name. -/
def effective (pod : Obj) (k : Str) : Option Obj :=
  match (firstContainer pod).bind (fun c => c.get ["env".toList]) with
  | some (.list _ l) => l.reverse.find? (nameIs k)
  | _ => none

/-- Specification: what the gateway itself sets. -/
def ownEnv (c : Ctl) (ns name : Str) : List (Str × Str) :=
  [("DASK_GATEWAY_API_URL".toList, c.apiUrl),
   ("DASK_GATEWAY_CLUSTER_NAME".toList, ns ++ ".".toList ++ name),
   ("DASK_GATEWAY_API_TOKEN".toList, "/etc/dask-credentials/api-token".toList),
   ("DASK_DISTRIBUTED__COMM__TLS__CA_FILE".toList, "/etc/dask-credentials/dask.crt".toList),
   ("DASK_DISTRIBUTED__COMM__TLS__SCHEDULER__CERT".toList, "/etc/dask-credentials/dask.crt".toList),
   ("DASK_DISTRIBUTED__COMM__TLS__SCHEDULER__KEY".toList, "/etc/dask-credentials/dask.pem".toList),
   ("DASK_DISTRIBUTED__COMM__TLS__WORKER__CERT".toList, "/etc/dask-credentials/dask.crt".toList),
   ("DASK_DISTRIBUTED__COMM__TLS__WORKER__KEY".toList, "/etc/dask-credentials/dask.pem".toList)]

/-- The extra configuration says nothing on this variable: it adds no containers in place of the pod's, and
if it has a list of variables then this one is not on it. -/
structure Silent (p : PodConfig) (k : Str) : Prop where
  properPod : (Obj.dict 0 p.extraPod).Proper
  properContainer : (Obj.dict 0 p.extraContainer).Proper
  containers : (Obj.dict 0 p.extraPod).get ["containers".toList] = none ∨
    ∃ i l, (Obj.dict 0 p.extraPod).get ["containers".toList] = some (.list i l)
  env : (Obj.dict 0 p.extraContainer).get ["env".toList] = none ∨
    ∃ i l, (Obj.dict 0 p.extraContainer).get ["env".toList] = some (.list i l) ∧ ∀ e ∈ l, nameIs k e = false

theorem extra_none {base extra : List (Str × Obj)} {k : Str} (hp : (Obj.dict 0 extra).Proper)
    (h : (Obj.dict 0 extra).get [k] = none) : (withExtra base extra).get [k] = (Obj.dict 0 base).get [k] := by
  unfold withExtra
  split
  · rfl
  · refine C48_base 0 0 base extra 1 hp [k] ?_
    rintro ⟨v, hv, _⟩
    have : (Obj.dict 0 extra).get [k] = (lookup extra k).bind (fun v => v.get []) := rfl
    rw [this, hv] at h
    cases v <;> cases h

private theorem extra_list {base extra : List (Str × Obj)} {k : Str} {i j : Nat} {l m : List Obj}
    (hp : (Obj.dict 0 extra).Proper) (h : (Obj.dict 0 extra).get [k] = some (.list i l))
    (hb : (Obj.dict 0 base).get [k] = some (.list j m)) :
    ∃ n, (withExtra base extra).get [k] = some (.list n (m ++ l)) := by
  unfold withExtra
  split
  · rename_i he
    rw [he] at h
    cases h
  · exact ((C48_override 0 0 base extra 1 hp [k] _ h).2.1 i l rfl).1 j m hb

private theorem base_container (c : Ctl) (ns name : Str) (p : PodConfig) (worker : Bool) :
    (Obj.dict 0 (container c ns name p worker)).get ["env".toList] = some (.list 0 (envList c ns name p worker)) := rfl

private theorem base_spec (c : Ctl) (ns name : Str) (p : PodConfig) (worker : Bool) :
    (Obj.dict 0 (podSpec c ns name p worker)).get ["containers".toList] =
      some (.list 0 [withExtra (container c ns name p worker) p.extraContainer]) := rfl

theorem pod_get (c : Ctl) (ns name : Str) (p : PodConfig) (worker : Bool) (k : Str) :
    (makePod c ns name p worker).get ["spec".toList, k] = (withExtra (podSpec c ns name p worker) p.extraPod).get [k] := by
  rfl

theorem first_spec {c : Ctl} {ns name : Str} {p : PodConfig} {worker : Bool}
    (hp : (Obj.dict 0 p.extraPod).Proper)
    (h : (Obj.dict 0 p.extraPod).get ["containers".toList] = none ∨
      ∃ i l, (Obj.dict 0 p.extraPod).get ["containers".toList] = some (.list i l)) :
    firstContainer (makePod c ns name p worker) = some (withExtra (container c ns name p worker) p.extraContainer) := by
  unfold firstContainer
  rw [pod_get]
  rcases h with h | ⟨i, l, h⟩
  · rw [extra_none hp h, base_spec]
  · obtain ⟨n, hn⟩ := extra_list hp h (base_spec c ns name p worker)
    rw [hn]
    rfl

private theorem effective_spec (c : Ctl) (ns name : Str) (p : PodConfig) (worker : Bool) (k : Str) (hs : Silent p k) :
    effective (makePod c ns name p worker) k = (envList c ns name p worker).reverse.find? (nameIs k) := by
  unfold effective
  rw [first_spec hs.properPod hs.containers]
  rw [show (some (withExtra (container c ns name p worker) p.extraContainer)).bind (fun c => c.get ["env".toList]) =
    (withExtra (container c ns name p worker) p.extraContainer).get ["env".toList] from rfl]
  rcases hs.env with h | ⟨i, l, h, hl⟩
  · rw [extra_none hs.properContainer h, base_container]
  · obtain ⟨n, hn⟩ := extra_list hs.properContainer h (base_container c ns name p worker)
    rw [hn]
    dsimp only
    rw [List.reverse_append, List.find?_append, List.find?_eq_none.2, Option.none_or]
    intro e he
    rw [hl e (List.mem_reverse.1 he)]
    simp

private theorem nameIs_entry (k : Str) (e : Str × Str) : nameIs k (envEntry e) = decide (e.1 = k) := rfl

private theorem find_map (l : List (Str × Str)) (k : Str) :
    (l.map envEntry).find? (nameIs k) = (lookup l k).map (fun v => envEntry (k, v)) := by
  induction l with
  | nil => rfl
  | cons e l ih =>
    rw [List.map_cons, List.find?_cons, nameIs_entry, lookup_cons, ih]
    by_cases h : e.1 = k
    · simp only [h, decide_true, if_true, Option.map_some]
      rw [← h]
    · simp only [h, decide_false, if_false]

private theorem ownNodup (c : Ctl) (ns name : Str) : (Dict.keys (ownEnv c ns name)).Nodup := by
  change List.Nodup ["DASK_GATEWAY_API_URL".toList, "DASK_GATEWAY_CLUSTER_NAME".toList,
    "DASK_GATEWAY_API_TOKEN".toList, "DASK_DISTRIBUTED__COMM__TLS__CA_FILE".toList,
    "DASK_DISTRIBUTED__COMM__TLS__SCHEDULER__CERT".toList, "DASK_DISTRIBUTED__COMM__TLS__SCHEDULER__KEY".toList,
    "DASK_DISTRIBUTED__COMM__TLS__WORKER__CERT".toList, "DASK_DISTRIBUTED__COMM__TLS__WORKER__KEY".toList]
  decide +kernel

private theorem full_eq (ns name : Str) : fullName ns name = ns ++ ".".toList ++ name := by
  unfold fullName
  rw [List.append_assoc]
  rfl

private theorem envDict_eq (c : Ctl) (ns name : Str) (l : List (Str × Str)) :
    envDict c ns name l = Dict.update l (ownEnv c ns name) := by
  unfold envDict ownEnv
  rw [full_eq]

private theorem envDict_lookup (c : Ctl) (ns name : Str) (l : List (Str × Str)) (k : Str) :
    lookup (envDict c ns name l) k = (lookup (ownEnv c ns name) k).or (lookup l k) := by
  rw [envDict_eq, lookup_update, lookup_reverse (ownNodup c ns name)]

private theorem env_find (c : Ctl) (ns name : Str) (p : PodConfig) (worker : Bool) (k : Str)
    (hn : (Dict.keys p.environment).Nodup) (hw : worker = true → k ≠ "DASK_GATEWAY_WORKER_NAME".toList) :
    (envList c ns name p worker).reverse.find? (nameIs k) =
      ((lookup (ownEnv c ns name) k).or (lookup p.environment k)).map (fun v => envEntry (k, v)) := by
  have hd : (Dict.keys (envDict c ns name p.environment)).Nodup := by
    rw [envDict_eq]; exact nodup_update _ hn
  have hm : ((envDict c ns name p.environment).map envEntry).reverse.find? (nameIs k) =
      ((lookup (ownEnv c ns name) k).or (lookup p.environment k)).map (fun v => envEntry (k, v)) := by
    rw [← List.map_reverse, find_map, lookup_reverse hd, envDict_lookup]
  unfold envList
  rw [List.reverse_append, List.find?_append, hm]
  cases worker with
  | false => rfl
  | true =>
    have hnm : nameIs k workerNameEntry = decide ("DASK_GATEWAY_WORKER_NAME".toList = k) := rfl
    have : List.find? (nameIs k) (List.reverse [workerNameEntry]) = none := by
      rw [List.find?_eq_none]
      intro e he
      rw [List.mem_reverse, List.mem_singleton] at he
      rw [he, hnm]
      exact fun h => hw rfl (of_decide_eq_true h).symm
    rw [if_pos rfl, this, Option.none_or]

/-- C62 on Kubernetes, in part: where the extra configuration is silent on them, the gateway's variables have
its values, and every other one its configured value. Missing: extra configuration that sets the gateway's
variables; see `C62_kube_violated`. -/
theorem C62_kube_partial (c : Ctl) (ns name : Str) (p : PodConfig) (worker : Bool) (k : Str)
    (hn : (Dict.keys p.environment).Nodup) (hs : Silent p k)
    (hw : worker = true → k ≠ "DASK_GATEWAY_WORKER_NAME".toList) :
    effective (makePod c ns name p worker) k =
      ((lookup (ownEnv c ns name) k).or (lookup p.environment k)).map
        (fun v => .dict 0 [("name".toList, .str k), ("value".toList, .str v)]) := by
  rw [effective_spec c ns name p worker k hs, env_find c ns name p worker k hn hw]
  rfl

/-- C62 on Kubernetes, in part: a worker gets its name from Kubernetes, even if the configured environment
has a variable of this name. -/
theorem C62_kube_worker_partial (c : Ctl) (ns name : Str) (p : PodConfig)
    (hs : Silent p "DASK_GATEWAY_WORKER_NAME".toList) :
    effective (makePod c ns name p true) "DASK_GATEWAY_WORKER_NAME".toList = some workerNameEntry := by
  rw [effective_spec c ns name p true _ hs]
  unfold envList
  rw [if_pos rfl, List.reverse_append]
  rfl

/-- A configuration for the examples. -/
def somePod : PodConfig :=
  { environment := [("DASK_GATEWAY_API_URL".toList, "http://evil".toList), ("A".toList, "1".toList)],
    image := "i".toList, pullPolicy := [], pullSecrets := [], args := [], cpuRequest := "1.000".toList,
    cpuLimit := "1.000".toList, memRequest := "1".toList, memLimit := "1".toList, extraPod := [],
    extraContainer := [], annotations := [], labels := [] }

/-- A controller for the examples. -/
def someCtl : Ctl :=
  { apiUrl := "http://g/api".toList, instanceName := "g".toList, commonLabels := [], commonAnnotations := [],
    proxyPrefix := [] }

/-- C62 does not hold on Kubernetes: variables in the extra configuration of containers come after the
gateway's, and so take their place. -/
theorem C62_kube_violated : ∃ (c : Ctl) (ns name : Str) (p : PodConfig) (worker : Bool),
    effective (makePod c ns name p worker) "DASK_GATEWAY_API_URL".toList ≠ some (envEntry ("DASK_GATEWAY_API_URL".toList, c.apiUrl)) ∧
    effective (makePod c ns name p worker) "DASK_GATEWAY_API_URL".toList =
      some (envEntry ("DASK_GATEWAY_API_URL".toList, "http://evil".toList)) := by
  have h : effective (makePod someCtl "n".toList "c".toList
      { somePod with extraContainer := [("env".toList, .list 5 [envEntry ("DASK_GATEWAY_API_URL".toList, "http://evil".toList)])] }
      false) "DASK_GATEWAY_API_URL".toList = some (envEntry ("DASK_GATEWAY_API_URL".toList, "http://evil".toList)) := rfl
  refine ⟨someCtl, "n".toList, "c".toList, _, false, ?_, h⟩
  rw [h]
  intro e
  injection e with e
  unfold envEntry obj at e
  injection e with _ e
  injection e with _ e
  injection e with e _
  injection e with _ e
  injection e with e
  exact absurd e (by decide +kernel)

/-- A configured environment that tries to set the address. -/
example : Silent somePod "DASK_GATEWAY_API_URL".toList ∧
    effective (makePod someCtl "n".toList "c".toList somePod false) "DASK_GATEWAY_API_URL".toList =
      some (envEntry ("DASK_GATEWAY_API_URL".toList, "http://g/api".toList)) ∧
    effective (makePod someCtl "n".toList "c".toList somePod true) "A".toList =
      some (envEntry ("A".toList, "1".toList)) := by
  refine ⟨⟨?_, ?_, Or.inl rfl, Or.inl rfl⟩, rfl, rfl⟩ <;>
  · intro p i d h
    cases p with
    | nil => cases h; exact List.nodup_nil
    | cons k p => cases h

/-! ### C86 -/

/-- Specification: the labels of a pod. -/
def labelOf (pod : Obj) (k : Str) : Option Obj := pod.get ["metadata".toList, "labels".toList, k]

private theorem strs_get (l : List (Str × Str)) (k : Str) : (strs l).get [k] = (lookup l k).map .str := by
  induction l with
  | nil => rfl
  | cons e l ih =>
    have h1 : (strs (e :: l)).get [k] = (lookup ((e.1, Obj.str e.2) :: l.map (fun e => (e.1, Obj.str e.2))) k).bind (fun v => v.get []) := rfl
    have h2 : (strs l).get [k] = (lookup (l.map (fun e => (e.1, Obj.str e.2))) k).bind (fun v => v.get []) := rfl
    rw [h1, lookup_cons, lookup_cons]
    split
    · rfl
    · rw [← h2, ih]

private theorem label_eq (c : Ctl) (ns name : Str) (p : PodConfig) (worker : Bool) (k : Str) :
    labelOf (makePod c ns name p worker) k = (lookup (podLabels c name p worker) k).map .str := by
  rw [← strs_get]
  rfl

private theorem set_update (d : List (Str × Str)) (a b c x y z k : Str) :
    lookup (Dict.set (Dict.update d [(b, y), (c, z)]) a x) k =
      if a = k then some x else if c = k then some z else if b = k then some y else lookup d k := by
  rw [lookup_set, lookup_update]
  split
  · rfl
  · rw [show [(b, y), (c, z)].reverse = [(c, z), (b, y)] from rfl, lookup_cons, lookup_cons, lookup_nil]
    dsimp only
    split
    · rfl
    · split <;> rfl

/-- The three labels that the controller and the services go by. -/
def Needed (k : Str) : Prop :=
  k = "app.kubernetes.io/component".toList ∨ k = "gateway.dask.org/cluster".toList ∨
    k = "gateway.dask.org/instance".toList

private theorem ne1 : ¬ "app.kubernetes.io/component".toList = "gateway.dask.org/cluster".toList := by decide +kernel
private theorem ne2 : ¬ "app.kubernetes.io/component".toList = "gateway.dask.org/instance".toList := by decide +kernel
theorem ne3 : ¬ "gateway.dask.org/cluster".toList = "gateway.dask.org/instance".toList := by decide +kernel

private theorem three (d : List (Str × Str)) {a b c : Str} (x y z : Str) (h1 : ¬a = c) (h2 : ¬a = b) (h3 : ¬c = b) :
    lookup (Dict.set (Dict.update d [(b, y), (c, z)]) a x) a = some x ∧
    lookup (Dict.set (Dict.update d [(b, y), (c, z)]) a x) c = some z ∧
    lookup (Dict.set (Dict.update d [(b, y), (c, z)]) a x) b = some y := by
  refine ⟨?_, ?_, ?_⟩
  · rw [set_update, if_pos rfl]
  · rw [set_update, if_neg h1, if_pos rfl]
  · rw [set_update, if_neg h2, if_neg h3, if_pos rfl]

theorem get_labels (c : Ctl) (name comp : Str) :
    lookup (getLabels c name comp) "app.kubernetes.io/component".toList = some comp ∧
    lookup (getLabels c name comp) "gateway.dask.org/cluster".toList = some name ∧
    lookup (getLabels c name comp) "gateway.dask.org/instance".toList = some c.instanceName :=
  three c.commonLabels comp c.instanceName name ne1 ne2 ne3

theorem pod_labels (c : Ctl) (name : Str) (p : PodConfig) (worker : Bool)
    (h : ∀ k, Needed k → k ∉ Dict.keys p.labels) :
    lookup (podLabels c name p worker) "app.kubernetes.io/component".toList = some (component worker) ∧
    lookup (podLabels c name p worker) "gateway.dask.org/cluster".toList = some name ∧
    lookup (podLabels c name p worker) "gateway.dask.org/instance".toList = some c.instanceName := by
  have hl : ∀ k, Needed k → lookup (podLabels c name p worker) k = lookup (getLabels c name (component worker)) k := by
    intro k hk
    unfold podLabels
    rw [lookup_update, lookup_eq_none.2, Option.none_or]
    intro hm
    refine h k hk ?_
    rw [Dict.keys, List.map_reverse] at hm
    exact List.mem_reverse.1 hm
  obtain ⟨h1, h2, h3⟩ := get_labels c name (component worker)
  exact ⟨(hl _ (Or.inl rfl)).trans h1, (hl _ (Or.inr (Or.inl rfl))).trans h2, (hl _ (Or.inr (Or.inr rfl))).trans h3⟩

/-- C86, in part: unless the extra labels set them, the labels of a pod say of which gateway and cluster and
of which kind it is, whatever the common labels; so the controller takes it for a pod of its cluster.
Missing: extra labels of these names; see `C86_violated`. -/
theorem C86_labels_partial (c : Ctl) (ns name : Str) (p : PodConfig) (worker : Bool)
    (h : ∀ k, Needed k → k ∉ Dict.keys p.labels) :
    labelOf (makePod c ns name p worker) "gateway.dask.org/instance".toList = some (.str c.instanceName) ∧
    labelOf (makePod c ns name p worker) "gateway.dask.org/cluster".toList = some (.str name) ∧
    labelOf (makePod c ns name p worker) "app.kubernetes.io/component".toList =
      some (.str (if worker then "dask-worker".toList else "dask-scheduler".toList)) ∧
    clusterKey ns (podLabels c name p worker) = some (ns ++ ".".toList ++ name) := by
  obtain ⟨h1, h2, h3⟩ := pod_labels c name p worker h
  refine ⟨?_, ?_, ?_, ?_⟩
  · rw [label_eq, h3, Option.map_some]
  · rw [label_eq, h2, Option.map_some]
  · rw [label_eq, h1, Option.map_some]
    rfl
  · unfold clusterKey
    rw [h2, Option.map_some, full_eq]

private theorem one_lookup (k v : Str) : lookup (List.reverse [(k, v)]) k = some v := by
  rw [List.reverse_singleton, lookup_cons, if_pos rfl]

/-- C86 does not hold: extra labels can make a pod that of another cluster. -/
theorem C86_violated (c : Ctl) (ns name other : Str) (p : PodConfig) (worker : Bool)
    (h : p.labels = [("gateway.dask.org/cluster".toList, other)]) :
    clusterKey ns (podLabels c name p worker) = some (ns ++ ".".toList ++ other) := by
  unfold clusterKey podLabels
  rw [lookup_update, h]
  rw [one_lookup]
  rw [Option.some_or, Option.map_some, full_eq]

/-- Common labels that try to set the cluster. -/
example : clusterKey "n".toList (podLabels { someCtl with commonLabels := [("gateway.dask.org/cluster".toList, "x".toList)] }
    "c".toList somePod true) = some "n.c".toList := by decide +kernel

/-! ### C87 -/

/-- Specification: whether a selector of Kubernetes matches these labels. -/
def Matches (sel labels : List (Str × Str)) : Prop := ∀ e ∈ sel, lookup labels e.1 = some e.2

/-- C87, in part: the service of a cluster selects, among the pods made by this gateway, those of its
scheduler and no other. Missing: extra labels; see `C87_violated`. -/
theorem C87_service_partial (c : Ctl) (name other : Str) (p : PodConfig) (worker : Bool)
    (h : ∀ k, Needed k → k ∉ Dict.keys p.labels) :
    Matches (selector c name) (podLabels c other p worker) ↔ other = name ∧ worker = false := by
  obtain ⟨hk, hc, hi⟩ := pod_labels c other p worker h
  constructor
  · intro hm
    refine ⟨?_, ?_⟩
    · have := hm ("gateway.dask.org/cluster".toList, name) List.mem_cons_self
      injection hc.symm.trans this
    · have := hm ("app.kubernetes.io/component".toList, "dask-scheduler".toList)
        (List.mem_cons_of_mem _ (List.mem_cons_of_mem _ List.mem_cons_self))
      replace this := hk.symm.trans this
      cases worker with
      | false => rfl
      | true =>
        injection this with e
        exact absurd e (by decide +kernel)
  · rintro ⟨rfl, rfl⟩ e he
    unfold selector at he
    rcases List.mem_cons.1 he with rfl | he
    · exact hc
    · rcases List.mem_cons.1 he with rfl | he
      · exact hi
      · rw [List.mem_singleton.1 he]
        exact hk

/-- What extra labels say wins. -/
theorem pod_extra (c : Ctl) (name : Str) (p : PodConfig) (worker : Bool) (k v : Str) (h : p.labels = [(k, v)]) :
    lookup (podLabels c name p worker) k = some v ∧
    ∀ k', k' ≠ k → lookup (podLabels c name p worker) k' = lookup (getLabels c name (component worker)) k' := by
  unfold podLabels
  refine ⟨?_, fun k' hk => ?_⟩
  · rw [lookup_update, h, one_lookup, Option.some_or]
  · rw [lookup_update, h, List.reverse_singleton, lookup_cons, if_neg (Ne.symm hk), lookup_nil, Option.none_or]

/-- C87 does not hold: with an extra label, which is the same for all clusters, the service of a cluster selects the
schedulers of the other clusters too, and with another the workers of the cluster. -/
theorem C87_violated (c : Ctl) (name other : Str) (p q : PodConfig)
    (hp : p.labels = [("gateway.dask.org/cluster".toList, name)])
    (hq : q.labels = [("app.kubernetes.io/component".toList, "dask-scheduler".toList)]) :
    Matches (selector c name) (podLabels c other p false) ∧ Matches (selector c name) (podLabels c name q true) := by
  obtain ⟨p1, p2⟩ := pod_extra c other p false _ _ hp
  obtain ⟨q1, q2⟩ := pod_extra c name q true _ _ hq
  obtain ⟨g1, g2, g3⟩ := get_labels c other (component false)
  obtain ⟨k1, k2, k3⟩ := get_labels c name (component true)
  refine ⟨fun e he => ?_, fun e he => ?_⟩
  · unfold selector at he
    rcases List.mem_cons.1 he with rfl | he
    · exact p1
    · rcases List.mem_cons.1 he with rfl | he
      · exact (p2 _ (Ne.symm ne3)).trans g3
      · rw [List.mem_singleton.1 he]
        exact (p2 _ ne1).trans g1
  · unfold selector at he
    rcases List.mem_cons.1 he with rfl | he
    · exact (q2 _ (Ne.symm ne1)).trans k2
    · rcases List.mem_cons.1 he with rfl | he
      · exact (q2 _ (Ne.symm ne2)).trans k3
      · rw [List.mem_singleton.1 he]
        exact q1

example : "gateway.dask.org/cluster".toList ∉ Dict.keys { somePod with
      labels := [("app.kubernetes.io/component".toList, "dask-scheduler".toList)] }.labels ∧
    lookup (podLabels someCtl "c".toList { somePod with labels := [("gateway.dask.org/cluster".toList, "d".toList)] } false)
      "gateway.dask.org/cluster".toList = some "d".toList := by decide +kernel

private theorem split_at {c : Char} {a a' : Str} {b b' : Str} (h : a ++ c :: b = a' ++ c :: b')
    (ha : c ∉ a) (ha' : c ∉ a') : a = a' ∧ b = b' := by
  induction a generalizing a' with
  | nil =>
    cases a' with
    | nil => injection h with _ h; exact ⟨rfl, h⟩
    | cons x a' =>
      injection h with h1 _
      exact absurd (List.mem_cons.2 (Or.inl h1)) ha'
  | cons x a ih =>
    cases a' with
    | nil =>
      injection h with h1 _
      exact absurd (List.mem_cons.2 (Or.inl h1.symm)) ha
    | cons y a' =>
      injection h with h1 h2
      obtain ⟨e1, e2⟩ := ih h2 (fun m => ha (List.mem_cons_of_mem _ m)) (fun m => ha' (List.mem_cons_of_mem _ m))
      exact ⟨by rw [h1, e1], e2⟩

/-- C87: a path belongs to the route of at most one cluster, where namespaces have no dots and neither these
nor names have slashes, as in Kubernetes. -/
theorem C87_web_unique (c : Ctl) (ns ns' name name' path : Str)
    (h : (webRoute c ns name).1 <+: path) (h' : (webRoute c ns' name').1 <+: path)
    (hd : '.' ∉ ns ∧ '.' ∉ ns') (hs : '/' ∉ ns ++ name ∧ '/' ∉ ns' ++ name') : ns = ns' ∧ name = name' := by
  obtain ⟨r, hr⟩ := h
  obtain ⟨r', hr'⟩ := h'
  have e := hr.trans hr'.symm
  unfold webRoute at e
  dsimp only at e
  simp only [List.append_assoc] at e
  have e := List.append_cancel_left (List.append_cancel_left e)
  have hf : ∀ a b : Str, '/' ∉ a ++ b → '/' ∉ fullName a b := by
    intro a b hm hx
    unfold fullName at hx
    rcases List.mem_append.1 hx with hx | hx
    · exact hm (List.mem_append.2 (Or.inl hx))
    · rcases List.mem_cons.1 hx with hx | hx
      · exact absurd hx (by decide)
      · exact hm (List.mem_append.2 (Or.inr hx))
  have := (split_at (c := '/') (a := fullName ns name) (a' := fullName ns' name') (b := r) (b' := r') e
    (hf _ _ hs.1) (hf _ _ hs.2)).1
  exact split_at this hd.1 hd.2

/-- C87: a name in a TLS greeting belongs to the route of at most one cluster. -/
theorem C87_tcp_unique (ns ns' name name' : Str) (h : (tcpRoute ns name).1 = (tcpRoute ns' name').1)
    (hd : '.' ∉ ns ∧ '.' ∉ ns') : ns = ns' ∧ name = name' := by
  unfold tcpRoute at h
  dsimp only at h
  exact split_at (List.append_cancel_left h) hd.1 hd.2

/-- C87: the routes of a cluster lead to the service of this cluster, in its namespace, and the services of
different clusters of a namespace have different names. -/
theorem C87_target (c : Ctl) (ns name name' : Str) :
    (webRoute c ns name).2 = (serviceName name, ns) ∧ (tcpRoute ns name).2 = (serviceName name, ns) ∧
    (serviceName name = serviceName name' → name = name') :=
  ⟨rfl, rfl, fun h => List.append_cancel_left h⟩

/-- C87: every path under the address of a cluster, and the name that clients give in the greeting, are
those of its route. -/
theorem C87_covers (c : Ctl) (ns name rest : Str) :
    (webRoute c ns name).1 <+: c.proxyPrefix ++ "/clusters/".toList ++ (ns ++ ".".toList ++ name) ++ "/".toList ++ rest ∧
    (tcpRoute ns name).1 = "daskgateway-".toList ++ (ns ++ ".".toList ++ name) := by
  refine ⟨⟨rest, ?_⟩, ?_⟩
  · unfold webRoute
    rw [full_eq]
  · unfold tcpRoute
    rw [full_eq]

/-- Clusters one of whose names is a prefix of the other's. -/
example : ¬ (webRoute someCtl "n".toList "c".toList).1 <+: "/clusters/n.cc/status".toList ∧
    (webRoute someCtl "n".toList "cc".toList).1 <+: "/clusters/n.cc/status".toList := by decide +kernel

end Verif.Kube

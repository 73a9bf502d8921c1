import Verif.Kube.Start
import Verif.Kube.ObjectsProps
import Verif.Kube.ViewProps
/-! Property C166: a new cluster is seen by its own gateway and controller, and by no other. -/
set_option linter.unusedSimpArgs false
set_option linter.unusedVariables false
namespace Verif.Kube

/-! ### Specification -/

/-- Specification: Kubernetes' reading of a selector: requirements separated by commas, each a label and its value. -/
def readSelector (s : Str) : Option (List (Str × Str)) :=
  (Api.splitAll ',' s).mapM (fun t => match Api.splitAll '=' t with
    | [k, v] => some (k, v)
    | _ => none)

/-- Specification: Kubernetes shows an object with these labels to whoever watches with this selector. -/
def ShownTo (selector : Str) (labels : List (Str × Str)) : Prop :=
  ∃ sel, readSelector selector = some sel ∧ ∀ e ∈ sel, lookup labels e.1 = some e.2

/-- What Kubernetes allows in the value of a label, as far as it matters: neither commas nor equality signs. -/
def LabelValue (v : Str) : Prop := ',' ∉ v ∧ '=' ∉ v

/-! ### Selectors -/

private theorem one_requirement (k v : Str) (hk : ',' ∉ k ∧ '=' ∉ k) (hv : LabelValue v) :
    Api.splitAll ',' (k ++ '=' :: v) = [k ++ '=' :: v] ∧ Api.splitAll '=' (k ++ '=' :: v) = [k, v] := by
  constructor
  · apply Api.splitAll_piece
    intro h
    rcases List.mem_append.1 h with h | h
    · exact hk.1 h
    · rcases List.mem_cons.1 h with h | h
      · exact absurd h (by decide)
      · exact hv.1 h
  · rw [Api.splitAll_append _ _ _ hk.2, Api.splitAll_piece _ _ hv.2]

private theorem selector_eq (c : Ctl) : labelSelector c = "gateway.dask.org/instance".toList ++ '=' :: c.instanceName := by
  unfold labelSelector
  rw [show "gateway.dask.org/instance=".toList = "gateway.dask.org/instance".toList ++ ['='] from rfl, List.append_assoc]
  rfl

private theorem plainKey : ',' ∉ "gateway.dask.org/instance".toList ∧ '=' ∉ "gateway.dask.org/instance".toList := by
  decide +kernel

private theorem plainComp : ',' ∉ "app.kubernetes.io/component".toList ∧ '=' ∉ "app.kubernetes.io/component".toList := by
  decide +kernel

private theorem plainSched : LabelValue "dask-scheduler".toList := by
  unfold LabelValue
  decide +kernel

theorem read_label (c : Ctl) (h : LabelValue c.instanceName) :
    readSelector (labelSelector c) = some [("gateway.dask.org/instance".toList, c.instanceName)] := by
  obtain ⟨h1, h2⟩ := one_requirement _ _ plainKey h
  unfold readSelector
  rw [selector_eq, h1, List.mapM_cons, h2, List.mapM_nil]
  rfl

theorem read_endpoints (c : Ctl) (h : LabelValue c.instanceName) :
    readSelector (endpointsSelector c) = some [("gateway.dask.org/instance".toList, c.instanceName),
      ("app.kubernetes.io/component".toList, "dask-scheduler".toList)] := by
  obtain ⟨h1, h2⟩ := one_requirement _ _ plainKey h
  obtain ⟨g1, g2⟩ := one_requirement _ _ plainComp plainSched
  have e : endpointsSelector c = ("gateway.dask.org/instance".toList ++ '=' :: c.instanceName) ++
      ',' :: ("app.kubernetes.io/component".toList ++ '=' :: "dask-scheduler".toList) := by
    unfold endpointsSelector
    rw [selector_eq]
    rfl
  have hno : ',' ∉ "gateway.dask.org/instance".toList ++ '=' :: c.instanceName := by
    intro hm
    rcases List.mem_append.1 hm with hm | hm
    · exact plainKey.1 hm
    · rcases List.mem_cons.1 hm with hm | hm
      · exact absurd hm (by decide)
      · exact h.1 hm
  unfold readSelector
  rw [e, Api.splitAll_append _ _ _ hno, g1, List.mapM_cons, h2, List.mapM_cons, g2, List.mapM_nil]
  rfl

/-! ### Labels -/

private theorem two (d : List (Str × Str)) {a b : Str} (x y : Str) (h : ¬b = a) :
    lookup (Dict.update d [(a, x), (b, y)]) a = some x ∧ lookup (Dict.update d [(a, x), (b, y)]) b = some y := by
  rw [lookup_update, lookup_update]
  simp [lookup_cons, h]

theorem cluster_labels (c : Ctl) (name : Str) :
    lookup (clusterLabels c name) "gateway.dask.org/instance".toList = some c.instanceName ∧
    lookup (clusterLabels c name) "gateway.dask.org/cluster".toList = some name := two _ _ _ ne3

private theorem shown_iff (c : Ctl) (h : LabelValue c.instanceName) (labels : List (Str × Str)) (v : Str)
    (hl : lookup labels "gateway.dask.org/instance".toList = some v) : ShownTo (labelSelector c) labels ↔ c.instanceName = v := by
  unfold ShownTo
  rw [read_label c h]
  constructor
  · rintro ⟨sel, e, hs⟩
    cases e
    have := hs _ List.mem_cons_self
    rw [hl] at this
    exact (Option.some.inj this).symm
  · intro e
    refine ⟨_, rfl, fun x hx => ?_⟩
    rw [List.mem_singleton] at hx
    subst hx
    rw [hl, e]

/-! ### Theorems -/

/-- C166, in part: the informers of a gateway and of its controller, as they are configured by default, are shown exactly
those new clusters, and those pods, whose gateway has the same instance name, whatever common labels are configured.
Missing: extra labels of pods that set the gateway's own (they win, see `C166_violated`). -/
theorem C166_watched_partial (c d : Ctl) (h : LabelValue c.instanceName) (hex ns username : Str) (options : Json) (mx : Option Nat)
    (p : PodConfig) (worker : Bool) (hp : ∀ k, Needed k → k ∉ Dict.keys p.labels) :
    (ShownTo (labelSelector c) (startCluster d hex ns username options mx).2.1.labels ↔ c.instanceName = d.instanceName) ∧
    (ShownTo (labelSelector c) (podLabels d hex p worker) ↔ c.instanceName = d.instanceName) :=
  ⟨shown_iff c h _ _ (cluster_labels d hex).1, shown_iff c h _ _ (pod_labels d hex p worker hp).2.2⟩

/-- C166 does not hold: an extra label hides the pods of a cluster from the controller that made them, which will thus
never see them start or end, and shows them to the controller of another gateway. -/
theorem C166_violated (c d : Ctl) (h : LabelValue c.instanceName) (h' : LabelValue d.instanceName)
    (hne : c.instanceName ≠ d.instanceName) (name : Str) (p : PodConfig) (worker : Bool)
    (hp : p.labels = [("gateway.dask.org/instance".toList, d.instanceName)]) :
    ¬ ShownTo (labelSelector c) (podLabels c name p worker) ∧ ShownTo (labelSelector d) (podLabels c name p worker) := by
  obtain ⟨p1, -⟩ := pod_extra c name p worker _ _ hp
  exact ⟨fun hs => hne ((shown_iff c h _ _ p1).1 hs), (shown_iff d h' _ _ p1).2 rfl⟩

/-- Two gateways, and pods of the first with the name of the second. -/
example : LabelValue "h".toList ∧ someCtl.instanceName ≠ { someCtl with instanceName := "h".toList }.instanceName ∧
    { somePod with labels := [("gateway.dask.org/instance".toList, "h".toList)] }.labels =
      [("gateway.dask.org/instance".toList, ({ someCtl with instanceName := "h".toList } : Ctl).instanceName)] := by
  refine ⟨?_, ?_, rfl⟩
  · unfold LabelValue
    decide +kernel
  · decide +kernel

/-- C166: of the endpoints, which have the labels of their services, the controller is shown those of its own
schedulers. -/
theorem C166_endpoints (c d : Ctl) (h : LabelValue c.instanceName) (name comp : Str) :
    ShownTo (endpointsSelector c) (getLabels d name comp) ↔ c.instanceName = d.instanceName ∧ comp = "dask-scheduler".toList := by
  obtain ⟨g1, g2, g3⟩ := get_labels d name comp
  unfold ShownTo
  rw [read_endpoints c h]
  constructor
  · rintro ⟨sel, e, hs⟩
    cases e
    have h1 := hs _ List.mem_cons_self
    have h2 := hs _ (List.mem_cons_of_mem _ List.mem_cons_self)
    rw [g3] at h1
    rw [g1] at h2
    exact ⟨(Option.some.inj h1).symm, Option.some.inj h2⟩
  · rintro ⟨e1, e2⟩
    refine ⟨_, rfl, fun x hx => ?_⟩
    rcases List.mem_cons.1 hx with rfl | hx
    · rw [g3, e1]
    · rw [List.mem_singleton] at hx
      subst hx
      rw [g1, e2]

/-- C166: the name that the user gets is the one under which the gateway will know the cluster, as pending, with this
user and these options; and a request to stop the cluster under this name goes to the object that was created. -/
theorem C166_name (upper : Str → Str) (hu : upper "Pending".toList = "PENDING".toList) (c : Ctl) (hex ns username : Str)
    (options : Json) (mx : Option Nat) (now : Int) (h1 : '.' ∉ ns) (h2 : '.' ∉ hex) :
    ∃ r, record upper ((startCluster c hex ns username options mx).2.1.stored ns now).key
          ((startCluster c hex ns username options mx).2.1.stored ns now) = some r ∧
      r.name = (startCluster c hex ns username options mx).2.2 ∧ r.username = username ∧ r.options = options ∧
      r.maxWorkers = mx ∧ r.status = .pending ∧ r.startTime = now ∧
      (KubeView.init).stop (startCluster c hex ns username options mx).2.2 =
        some (some (.active (startCluster c hex ns username options mx).1 (startCluster c hex ns username options mx).2.1.name false)) := by
  have hs : Api.Status.fromName upper "Pending".toList = some .pending := by
    unfold Api.Status.fromName
    rw [hu]
    decide +kernel
  have hr : record upper ((startCluster c hex ns username options mx).2.1.stored ns now).key
      ((startCluster c hex ns username options mx).2.1.stored ns now) =
      some { name := ns ++ '.' :: hex, username, options, maxWorkers := mx, status := .pending,
             schedulerAddress := address ((startCluster c hex ns username options mx).2.1.stored ns now) .pending "tls".toList "8786".toList,
             dashboardAddress := address ((startCluster c hex ns username options mx).2.1.stored ns now) .pending "http".toList "8787".toList,
             apiAddress := address ((startCluster c hex ns username options mx).2.1.stored ns now) .pending "http".toList "8788".toList,
             startTime := now, stopTime := none, tlsCert := [], tlsKey := [], token := [] } := by
    unfold record
    rw [show ((startCluster c hex ns username options mx).2.1.stored ns now).phase.getD "Pending".toList = "Pending".toList from rfl, hs]
    rfl
  refine ⟨_, hr, rfl, rfl, rfl, rfl, rfl, rfl, ?_⟩
  unfold KubeView.stop
  rw [show (KubeView.init).get (startCluster c hex ns username options mx).2.2 = none from rfl]
  dsimp only
  rw [show (startCluster c hex ns username options mx).2.2 = ns ++ '.' :: hex from rfl, splitName_full h1 h2]
  rfl

/-- The namespace is that of the service account, without the white space around it. -/
example : defaultNamespace (some "dask\n".toList) = "dask".toList ∧ defaultNamespace none = "default".toList := by decide

/-- Common labels do not replace those of the gateway. -/
example : lookup (clusterLabels { someCtl with commonLabels := [("gateway.dask.org/instance".toList, "other".toList), ("a".toList, "b".toList)] }
    "x".toList) "gateway.dask.org/instance".toList = some "g".toList := by decide +kernel

example : LabelValue someCtl.instanceName ∧
    readSelector (endpointsSelector someCtl) = some [("gateway.dask.org/instance".toList, "g".toList),
      ("app.kubernetes.io/component".toList, "dask-scheduler".toList)] := by
  have h : LabelValue someCtl.instanceName := by unfold LabelValue; decide +kernel
  exact ⟨h, read_endpoints someCtl h⟩

end Verif.Kube

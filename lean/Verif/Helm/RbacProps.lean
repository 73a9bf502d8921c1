import Verif.Helm.Rbac
import Verif.Helm.Props2
/-! Property C168: what the parts of a release may do in Kubernetes; and C162 again: which releases can be installed together. -/
set_option linter.unusedSimpArgs false
set_option linter.unusedVariables false
namespace Verif.Helm.Rbac

/-! ### Specification: Kubernetes' authorization by roles -/

/-- A list of a rule covers a text: it has it, or a star. -/
def Has (l : List Str) (x : Str) : Prop := x ∈ l ∨ ['*'] ∈ l

/-- A rule covers a request, in whatever namespace. -/
def Covers (rule : Rule) (c : Call) : Prop := Has rule.groups c.group ∧ Has rule.resources c.resource ∧ Has rule.verbs c.verb

/-- Kubernetes allows an account a request: a role that is bound to the account has a rule that covers the request. -/
def Allowed (roles : List Role) (bindings : List Binding) (account : Str × Str) (c : Call) : Prop :=
  ∃ b ∈ bindings, b.account = account ∧ ∃ role ∈ roles, role.name = b.role ∧ ∃ rule ∈ role.rules, Covers rule c

/-- ... where these releases are installed, and nobody else binds roles. -/
def AllowedIn (s : Cluster) (account : Str × Str) (c : Call) : Prop := Allowed (allRoles s) (allBindings s) account c

/-! ### Names -/

private theorem head63 (c : Char) (d : Char) (l : Str) : (name63 (c :: d :: l)).head? = some c := by
  unfold name63
  rw [show (c :: d :: l).take 63 = c :: d :: l.take 61 from rfl]
  dsimp only
  split
  · rw [List.dropLast_cons_of_ne_nil (by simp)]
    rfl
  · rfl

theorem head_api (r : Release) : r.apiName.head? = some 'a' := head63 _ 'p' _
theorem head_controller (r : Release) : r.controllerName.head? = some 'c' := head63 _ 'o' _
theorem head_traefik (r : Release) : (traefikName r).head? = some 't' := head63 _ 'r' _

private theorem apart {x y : Str} {a b : Char} (hx : x.head? = some a) (hy : y.head? = some b) (h : a ≠ b) : x ≠ y := by
  rintro rfl
  exact h (Option.some.inj (hx.symm.trans hy))

/-! ### What roles there are -/

theorem mem_roles {s : Cluster} {x : Role} (h : x ∈ allRoles s) :
    ∃ e ∈ s, (e.2.makesGateway = true ∧ x = ⟨e.1.apiName, gatewayRules⟩) ∨
      (e.2.makesController = true ∧ x = ⟨e.1.controllerName, controllerRules⟩) ∨
      (e.2.makesTraefik = true ∧ x = ⟨traefikName e.1, traefikRules⟩) := by
  unfold allRoles at h
  obtain ⟨e, he, hx⟩ := List.mem_flatMap.1 h
  refine ⟨e, he, ?_⟩
  unfold roles at hx
  rcases List.mem_append.1 hx with hx | hx
  · rcases List.mem_append.1 hx with hx | hx
    · split at hx
      · exact Or.inl ⟨by assumption, List.mem_singleton.1 hx⟩
      · cases hx
    · split at hx
      · exact Or.inr (Or.inl ⟨by assumption, List.mem_singleton.1 hx⟩)
      · cases hx
  · split at hx
    · exact Or.inr (Or.inr ⟨by assumption, List.mem_singleton.1 hx⟩)
    · cases hx

theorem mem_bindings {s : Cluster} {x : Binding} (h : x ∈ allBindings s) :
    ∃ e ∈ s, x = ⟨e.1.apiName, (e.1.ns, e.1.apiName), e.1.apiName⟩ ∨
      x = ⟨e.1.controllerName, (e.1.ns, e.1.controllerName), e.1.controllerName⟩ ∨
      x = ⟨traefikName e.1, (e.1.ns, traefikName e.1), traefikName e.1⟩ := by
  unfold allBindings at h
  obtain ⟨e, he, hx⟩ := List.mem_flatMap.1 h
  refine ⟨e, he, ?_⟩
  unfold bindings at hx
  rcases List.mem_append.1 hx with hx | hx
  · rcases List.mem_append.1 hx with hx | hx
    · split at hx
      · exact Or.inl (List.mem_singleton.1 hx)
      · cases hx
    · split at hx
      · exact Or.inr (Or.inl (List.mem_singleton.1 hx))
      · cases hx
  · split at hx
    · exact Or.inr (Or.inr (List.mem_singleton.1 hx))
    · cases hx

private theorem gateway_role {s : Cluster} {e : Release × Values} (he : e ∈ s) (h : e.2.makesGateway = true) :
    (⟨e.1.apiName, gatewayRules⟩ : Role) ∈ allRoles s ∧
    (⟨e.1.apiName, (e.1.ns, e.1.apiName), e.1.apiName⟩ : Binding) ∈ allBindings s := by
  constructor
  · refine List.mem_flatMap.2 ⟨e, he, ?_⟩
    unfold roles
    rw [if_pos h]
    exact List.mem_append_left _ (List.mem_append_left _ List.mem_cons_self)
  · refine List.mem_flatMap.2 ⟨e, he, ?_⟩
    unfold bindings
    rw [if_pos h]
    exact List.mem_append_left _ (List.mem_append_left _ List.mem_cons_self)

private theorem controller_role {s : Cluster} {e : Release × Values} (he : e ∈ s) (h : e.2.makesController = true) :
    (⟨e.1.controllerName, controllerRules⟩ : Role) ∈ allRoles s ∧
    (⟨e.1.controllerName, (e.1.ns, e.1.controllerName), e.1.controllerName⟩ : Binding) ∈ allBindings s := by
  constructor
  · refine List.mem_flatMap.2 ⟨e, he, ?_⟩
    unfold roles
    rw [if_pos h]
    exact List.mem_append_left _ (List.mem_append_right _ List.mem_cons_self)
  · refine List.mem_flatMap.2 ⟨e, he, ?_⟩
    unfold bindings
    rw [if_pos h]
    exact List.mem_append_left _ (List.mem_append_right _ List.mem_cons_self)

/-! ### C168 -/

private theorem gateway_covered (op : GatewayOp) : ∃ rule ∈ gatewayRules, Covers rule op.call := by
  cases op with
  | credentials ns =>
    exact ⟨_, List.mem_cons_self, Or.inl List.mem_cons_self, Or.inl List.mem_cons_self, Or.inl List.mem_cons_self⟩
  | _ =>
    exact ⟨_, List.mem_cons_of_mem _ List.mem_cons_self, Or.inl List.mem_cons_self, Or.inl List.mem_cons_self,
      Or.inr List.mem_cons_self⟩

private theorem hasD (l : List Str) (x : Str) (h : decide (x ∈ l) = true) : Has l x := Or.inl (of_decide_eq_true h)

private theorem cov (rules : List Rule) (i : Nat) (rule : Rule) (hi : rules[i]? = some rule) (c : Call)
    (h : Covers rule c) : ∃ rule ∈ rules, Covers rule c := ⟨rule, List.mem_of_getElem? hi, h⟩

private theorem controller_covered (op : ControllerOp) : ∃ rule ∈ controllerRules, Covers rule op.call := by
  cases op with
  | list w =>
    cases w with
    | clusters => exact cov _ 0 _ rfl _ ⟨Or.inl List.mem_cons_self, Or.inl List.mem_cons_self, Or.inr List.mem_cons_self⟩
    | pods => exact cov _ 2 _ rfl _ ⟨Or.inl List.mem_cons_self, Or.inl List.mem_cons_self, hasD _ _ rfl⟩
    | endpoints => exact cov _ 3 _ rfl _ ⟨Or.inl List.mem_cons_self, Or.inl List.mem_cons_self, hasD _ _ rfl⟩
  | watch w =>
    cases w with
    | clusters => exact cov _ 0 _ rfl _ ⟨Or.inl List.mem_cons_self, Or.inl List.mem_cons_self, Or.inr List.mem_cons_self⟩
    | pods => exact cov _ 2 _ rfl _ ⟨Or.inl List.mem_cons_self, Or.inl List.mem_cons_self, hasD _ _ rfl⟩
    | endpoints => exact cov _ 3 _ rfl _ ⟨Or.inl List.mem_cons_self, Or.inl List.mem_cons_self, hasD _ _ rfl⟩
  | expire ns => exact cov _ 0 _ rfl _ ⟨Or.inl List.mem_cons_self, Or.inl List.mem_cons_self, Or.inr List.mem_cons_self⟩
  | status ns => exact cov _ 0 _ rfl _ ⟨Or.inl List.mem_cons_self, hasD _ _ rfl, Or.inr List.mem_cons_self⟩
  | createPod ns => exact cov _ 2 _ rfl _ ⟨Or.inl List.mem_cons_self, Or.inl List.mem_cons_self, hasD _ _ rfl⟩
  | deletePod ns => exact cov _ 2 _ rfl _ ⟨Or.inl List.mem_cons_self, Or.inl List.mem_cons_self, hasD _ _ rfl⟩
  | createSecret ns => exact cov _ 4 _ rfl _ ⟨Or.inl List.mem_cons_self, hasD _ _ rfl, hasD _ _ rfl⟩
  | deleteSecret ns => exact cov _ 4 _ rfl _ ⟨Or.inl List.mem_cons_self, hasD _ _ rfl, hasD _ _ rfl⟩
  | createService ns => exact cov _ 4 _ rfl _ ⟨Or.inl List.mem_cons_self, hasD _ _ rfl, hasD _ _ rfl⟩
  | createRoute ns => exact cov _ 1 _ rfl _ ⟨Or.inl List.mem_cons_self, hasD _ _ rfl, hasD _ _ rfl⟩
  | createRouteTcp ns => exact cov _ 1 _ rfl _ ⟨Or.inl List.mem_cons_self, hasD _ _ rfl, hasD _ _ rfl⟩

/-- C168: whatever else is installed, a release that sets up the account of its gateway allows the gateway every request that it
makes, in every namespace; likewise the controller. -/
theorem C168_allowed (s : Cluster) (r : Release) (v : Values) (h : (r, v) ∈ s) (he : v.enabled = true) :
    (v.gatewayAccount = [] → ∀ op : GatewayOp, AllowedIn s (gatewayPod r v) op.call) ∧
    (v.controllerAccount = [] → v.controllerEnabled = true → ∀ op : ControllerOp, AllowedIn s (controllerPod r v) op.call) := by
  refine ⟨fun hg op => ?_, fun hg hc op => ?_⟩
  · obtain ⟨h1, h2⟩ := gateway_role h (show v.makesGateway = true by simp [Values.makesGateway, he, hg])
    refine ⟨_, h2, ?_, _, h1, rfl, gateway_covered op⟩
    simp [gatewayPod, podAccount, he, hg]
  · obtain ⟨h1, h2⟩ := controller_role h (show v.makesController = true by simp [Values.makesController, he, hg, hc])
    refine ⟨_, h2, ?_, _, h1, rfl, controller_covered op⟩
    simp [controllerPod, podAccount, he, hg, hc]

private theorem gateway_only {c : Call} (h : ∃ rule ∈ gatewayRules, Covers rule c) :
    (c.group = "".toList ∧ c.resource = "secrets".toList ∧ c.verb = "get".toList) ∨
    (c.group = "gateway.dask.org".toList ∧ c.resource = "daskclusters".toList) := by
  have one : ∀ {x y : Str}, Has [y] x → y ≠ ['*'] → x = y := by
    intro x y h hn
    rcases h with h | h
    · exact List.mem_singleton.1 h
    · exact absurd (List.mem_singleton.1 h).symm hn
  obtain ⟨rule, hr, h1, h2, h3⟩ := h
  unfold gatewayRules at hr
  rcases List.mem_cons.1 hr with rfl | hr
  · exact Or.inl ⟨one h1 (by decide), one h2 (by decide), one h3 (by decide)⟩
  · rw [List.mem_singleton] at hr
    subst hr
    exact Or.inr ⟨one h1 (by decide), one h2 (by decide)⟩

/-- C168: and nothing else but what concerns the objects of clusters and the reading of secrets. So the gateway, which users talk
to, can make and remove no pods, services, routes or secrets, whatever is installed. -/
theorem C168_gateway_only (s : Cluster) (r : Release) (c : Call) (h : AllowedIn s (r.ns, r.apiName) c) :
    (c.group = "".toList ∧ c.resource = "secrets".toList ∧ c.verb = "get".toList) ∨
    (c.group = "gateway.dask.org".toList ∧ c.resource = "daskclusters".toList) := by
  obtain ⟨b, hb, ha, role, hrole, hname, hrule⟩ := h
  obtain ⟨e, he, rfl | rfl | rfl⟩ := mem_bindings hb
  · obtain ⟨d, hd, ⟨_, rfl⟩ | ⟨_, rfl⟩ | ⟨_, rfl⟩⟩ := mem_roles hrole
    · exact gateway_only hrule
    · exact absurd hname (apart (head_controller d.1) (head_api e.1) (by decide))
    · exact absurd hname (apart (head_traefik d.1) (head_api e.1) (by decide))
  · exact absurd (Prod.mk.inj ha).2 (apart (head_controller e.1) (head_api r) (by decide))
  · exact absurd (Prod.mk.inj ha).2 (apart (head_traefik e.1) (head_api r) (by decide))

private theorem controller_only {c : Call} (h : ∃ rule ∈ controllerRules, Covers rule c) :
    (c.group = "gateway.dask.org".toList ∧ (c.resource = "daskclusters".toList ∨ c.resource = "daskclusters/status".toList)) ∨
    (c.group = "traefik.io".toList ∧ (c.resource = "ingressroutes".toList ∨ c.resource = "ingressroutetcps".toList) ∧
      (c.verb = "get".toList ∨ c.verb = "create".toList ∨ c.verb = "delete".toList)) ∨
    (c.group = "".toList ∧ (c.resource = "pods".toList ∨ c.resource = "endpoints".toList)) ∨
    (c.group = "".toList ∧ (c.resource = "secrets".toList ∨ c.resource = "services".toList) ∧
      (c.verb = "create".toList ∨ c.verb = "delete".toList)) := by
  have star : ∀ {l : List Str} {x : Str}, Has l x → ['*'] ∉ l → x ∈ l := by
    intro l x h hn
    rcases h with h | h
    · exact h
    · exact absurd h hn
  have two : ∀ {x a b : Str}, x ∈ [a, b] → x = a ∨ x = b := by
    intro x a b h
    simpa using h
  have three : ∀ {x a b d : Str}, x ∈ [a, b, d] → x = a ∨ x = b ∨ x = d := by
    intro x a b d h
    simpa using h
  have one : ∀ {x a : Str}, x ∈ [a] → x = a := fun h => List.mem_singleton.1 h
  obtain ⟨rule, hr, h1, h2, h3⟩ := h
  unfold controllerRules at hr
  rcases List.mem_cons.1 hr with rfl | hr
  · exact Or.inl ⟨one (star h1 (by decide)), two (star h2 (by decide))⟩
  rcases List.mem_cons.1 hr with rfl | hr
  · exact Or.inr (Or.inl ⟨one (star h1 (by decide)), two (star h2 (by decide)), three (star h3 (by decide))⟩)
  rcases List.mem_cons.1 hr with rfl | hr
  · exact Or.inr (Or.inr (Or.inl ⟨one (star h1 (by decide)), Or.inl (one (star h2 (by decide)))⟩))
  rcases List.mem_cons.1 hr with rfl | hr
  · exact Or.inr (Or.inr (Or.inl ⟨one (star h1 (by decide)), Or.inr (one (star h2 (by decide)))⟩))
  · rw [List.mem_singleton] at hr
    subst hr
    exact Or.inr (Or.inr (Or.inr ⟨one (star h1 (by decide)), two (star h2 (by decide)), two (star h3 (by decide))⟩))

/-- C168: the controller has no more than its own kinds of objects either; it cannot read secrets, nor change routes, services or
secrets that are there. -/
theorem C168_controller_only (s : Cluster) (r : Release) (c : Call) (h : AllowedIn s (r.ns, r.controllerName) c) :
    (c.group = "gateway.dask.org".toList ∧ (c.resource = "daskclusters".toList ∨ c.resource = "daskclusters/status".toList)) ∨
    (c.group = "traefik.io".toList ∧ (c.resource = "ingressroutes".toList ∨ c.resource = "ingressroutetcps".toList) ∧
      (c.verb = "get".toList ∨ c.verb = "create".toList ∨ c.verb = "delete".toList)) ∨
    (c.group = "".toList ∧ (c.resource = "pods".toList ∨ c.resource = "endpoints".toList)) ∨
    (c.group = "".toList ∧ (c.resource = "secrets".toList ∨ c.resource = "services".toList) ∧
      (c.verb = "create".toList ∨ c.verb = "delete".toList)) := by
  obtain ⟨b, hb, ha, role, hrole, hname, hrule⟩ := h
  obtain ⟨e, he, rfl | rfl | rfl⟩ := mem_bindings hb
  · exact absurd (Prod.mk.inj ha).2 (apart (head_api e.1) (head_controller r) (by decide))
  · obtain ⟨d, hd, ⟨_, rfl⟩ | ⟨_, rfl⟩ | ⟨_, rfl⟩⟩ := mem_roles hrole
    · exact absurd hname (apart (head_api d.1) (head_controller e.1) (by decide))
    · exact controller_only hrule
    · exact absurd hname (apart (head_traefik d.1) (head_controller e.1) (by decide))
  · exact absurd (Prod.mk.inj ha).2 (apart (head_traefik e.1) (head_controller r) (by decide))

/-- C168 does not hold of secrets: the gateway may read all secrets of all namespaces, not only the credentials of its clusters. -/
theorem C168_secrets_violated (s : Cluster) (r : Release) (v : Values) (h : (r, v) ∈ s) (he : v.enabled = true)
    (hg : v.gatewayAccount = []) (ns : Str) :
    AllowedIn s (gatewayPod r v) { verb := "get".toList, group := [], resource := "secrets".toList, ns := some ns } :=
  (C168_allowed s r v h he).1 hg (.credentials ns)

/-! ### Traefik, and fewer permissions -/

/-- What the routes of clusters need: Traefik has to follow the routes, the services and endpoints they lead to, and
certificates. -/
def traefikNeeds : List (Str × Str) :=
  [("traefik.io".toList, "ingressroutes".toList), ("traefik.io".toList, "ingressroutetcps".toList),
   ("traefik.io".toList, "middlewares".toList), ([], "services".toList), ([], "secrets".toList),
   ("discovery.k8s.io".toList, "endpointslices".toList)]

/-- What Traefik asks for. -/
def follow : List Str := ["list".toList, "watch".toList]

/-- C168: Traefik, if the chart installs it, may follow the routes of the clusters in all namespaces. -/
theorem C168_traefik (s : Cluster) (r : Release) (v : Values) (h : (r, v) ∈ s) (he : v.enabled = true)
    (ht : v.installTraefik = true) (ha : v.traefikAccount = []) (need : Str × Str) (hn : need ∈ traefikNeeds) (verb : Str)
    (hv : verb ∈ follow) (ns : Option Str) :
    AllowedIn s (r.ns, traefikName r) { verb := verb, group := need.1, resource := need.2, ns := ns } := by
  have hm : v.makesTraefik = true := by simp [Values.makesTraefik, he, ht, ha]
  have h1 : (⟨traefikName r, traefikRules⟩ : Role) ∈ allRoles s := by
    refine List.mem_flatMap.2 ⟨(r, v), h, ?_⟩
    unfold roles
    rw [if_pos hm]
    exact List.mem_append_right _ List.mem_cons_self
  have h2 : (⟨traefikName r, (r.ns, traefikName r), traefikName r⟩ : Binding) ∈ allBindings s := by
    refine List.mem_flatMap.2 ⟨(r, v), h, ?_⟩
    unfold bindings
    rw [if_pos hm]
    exact List.mem_append_right _ List.mem_cons_self
  refine ⟨_, h2, rfl, _, h1, rfl, ?_⟩
  have all : ∀ need ∈ traefikNeeds, ∀ verb ∈ follow, ∃ i : Fin 4, ∃ rule, traefikRules[i.val]? = some rule ∧
      need.1 ∈ rule.groups ∧ need.2 ∈ rule.resources ∧ verb ∈ rule.verbs := by
    have each : ∀ need ∈ traefikNeeds, ∀ verb ∈ follow, ∃ i : Fin 4,
        (match traefikRules[i.val]? with
          | some rule => rule.groups.contains need.1 && rule.resources.contains need.2 && rule.verbs.contains verb
          | none => false) = true := by decide +kernel
    intro need hn verb hv
    obtain ⟨i, hi⟩ := each need hn verb hv
    refine ⟨i, ?_⟩
    cases hr : traefikRules[i.val]? with
    | none => rw [hr] at hi; cases hi
    | some rule =>
      rw [hr] at hi
      simp only [Bool.and_eq_true, List.contains_iff_mem] at hi
      exact ⟨rule, rfl, hi.1.1, hi.1.2, hi.2⟩
  obtain ⟨i, rule, hr, a, b, c⟩ := all need hn verb hv
  exact ⟨rule, List.mem_of_getElem? hr, Or.inl a, Or.inl b, Or.inl c⟩

/-- C168: Traefik changes nothing: it may only read. -/
theorem C168_traefik_only (s : Cluster) (r : Release) (c : Call) (h : AllowedIn s (r.ns, traefikName r) c) :
    c.verb = "get".toList ∨ c.verb = "list".toList ∨ c.verb = "watch".toList := by
  obtain ⟨b, hb, ha, role, hrole, hname, rule, hrule, _, _, hv⟩ := h
  have fin : rule ∈ traefikRules → c.verb = "get".toList ∨ c.verb = "list".toList ∨ c.verb = "watch".toList := by
    intro hm
    have all : ∀ rule ∈ traefikRules, ['*'] ∉ rule.verbs ∧ ∀ v ∈ rule.verbs, v = "get".toList ∨ v = "list".toList ∨ v = "watch".toList := by
      unfold traefikRules
      intro rule h
      simp only [List.mem_cons, List.not_mem_nil, or_false] at h
      rcases h with rfl | rfl | rfl | rfl <;> decide
    obtain ⟨n, m⟩ := all rule hm
    rcases hv with hv | hv
    · exact m _ hv
    · exact absurd hv n
  have hacc : b.account.2 = traefikName r := by rw [ha]
  obtain ⟨e, he, rfl | rfl | rfl⟩ := mem_bindings hb
  · exact absurd hacc (apart (head_api e.1) (head_traefik r) (by decide))
  · exact absurd hacc (apart (head_controller e.1) (head_traefik r) (by decide))
  · obtain ⟨d, hd, ⟨_, rfl⟩ | ⟨_, rfl⟩ | ⟨_, rfl⟩⟩ := mem_roles hrole
    · exact absurd hname (apart (head_api d.1) (head_traefik e.1) (by decide))
    · exact absurd hname (apart (head_controller d.1) (head_traefik e.1) (by decide))
    · exact fin hrule

/-- Fewer permissions than the chart gives to the gateway. -/
def leastGateway : List Rule :=
  [{ groups := ["".toList], resources := ["secrets".toList], verbs := ["get".toList] },
   { groups := ["gateway.dask.org".toList], resources := ["daskclusters".toList],
     verbs := ["list".toList, "watch".toList, "create".toList, "patch".toList] }]

/-- C168: the gateway needs no more than these: it never deletes clusters, for example. -/
theorem C168_least (op : GatewayOp) : ∃ rule ∈ leastGateway, Covers rule op.call := by
  cases op with
  | credentials ns =>
    exact ⟨_, List.mem_cons_self, Or.inl List.mem_cons_self, Or.inl List.mem_cons_self, Or.inl List.mem_cons_self⟩
  | _ =>
    exact ⟨_, List.mem_cons_of_mem _ List.mem_cons_self, Or.inl List.mem_cons_self, Or.inl List.mem_cons_self, hasD _ _ rfl⟩

/-! ### C162 -/

private theorem clash {s : Cluster} {r : Release} {v : Values} {t : Cluster} (h : install s r v = some t) :
    t = (r, v) :: s ∧ ∀ x ∈ roles r v, ∀ y ∈ allRoles s, x.name ≠ y.name := by
  unfold install at h
  split at h
  · cases h
  · rename_i hn
    refine ⟨(Option.some.inj h).symm, fun x hx y hy e => hn ?_⟩
    exact List.any_eq_true.2 ⟨x, hx, List.any_eq_true.2 ⟨y, hy, decide_eq_true e⟩⟩

private theorem own {r : Release} {v : Values} (h : v.makesGateway = true) : (⟨r.apiName, gatewayRules⟩ : Role) ∈ roles r v := by
  unfold roles
  rw [if_pos h]
  exact List.mem_append_left _ (List.mem_append_left _ List.mem_cons_self)

/-- C162, in part: releases that are installed together and set up the accounts of their gateways, as is the default, look at
different clusters, whatever their names and namespaces: Helm refuses to install two of one full name. Missing: releases for which
accounts are given or permissions are turned off (`C162_installed_violated`). -/
theorem C162_installed_partial {s : Cluster} (h : Reach s) : s.Pairwise (fun x y => x.2.makesGateway = true →
    y.2.makesGateway = true → x.1.gatewayWiring.selector ≠ y.1.gatewayWiring.selector) := by
  induction h with
  | start => exact List.Pairwise.nil
  | @install s t h r v e ih =>
    obtain ⟨rfl, hc⟩ := clash e
    refine List.pairwise_cons.2 ⟨fun y hy hx hg heq => ?_, ih⟩
    have hf : r.fullname = y.1.fullname := List.append_cancel_left heq
    refine hc _ (own hx) _ (gateway_role hy hg).1 ?_
    change r.apiName = y.1.apiName
    unfold Release.apiName
    rw [hf]
  | uninstall h x ih => exact ih.filter _

/-- C162 fails for installed releases too, where the accounts are given: two releases in different namespaces that take each
other's clusters for their own. -/
theorem C162_installed_violated : ∃ (s : Cluster) (x y : Release × Values), Reach s ∧ x ∈ s ∧ y ∈ s ∧ x.1.ns ≠ y.1.ns ∧
    x.2.enabled = true ∧ y.2.enabled = true ∧ x.1.gatewayWiring.selector = y.1.gatewayWiring.selector ∧
    x.1.controllerWiring.selector = y.1.controllerWiring.selector := by
  let v : Values := { gatewayAccount := "g".toList, controllerAccount := "c".toList, traefikAccount := "t".toList }
  let r : Release := ⟨"prod".toList, "x".toList, [], []⟩
  let r' : Release := ⟨"prod".toList, "y".toList, [], []⟩
  have h1 : install [] r v = some [(r, v)] := rfl
  have h2 : install [(r, v)] r' v = some [(r', v), (r, v)] := rfl
  exact ⟨_, (r, v), (r', v), .install (.install .start r v h1) r' v h2, by simp, by simp, by decide, rfl, rfl, rfl, rfl⟩

/-- Two releases with accounts of their own. -/
example : ∃ s, Reach s ∧ s.length = 2 ∧ ∀ x ∈ s, x.2.makesGateway = true ∧ x.2.makesController = true := by
  let r : Release := ⟨"prod".toList, "x".toList, [], []⟩
  let r' : Release := ⟨"dev".toList, "x".toList, [], []⟩
  have h1 : install [] r {} = some [(r, {})] := by rfl
  have h2 : install [(r, {})] r' {} = some [(r', {}), (r, {})] := by
    unfold install
    rw [if_neg]
    decide +kernel
  exact ⟨_, .install (.install .start r {} h1) r' {} h2, rfl, by decide⟩

/-- A release of the same name is refused, in whatever namespace. -/
example : install [(⟨"prod".toList, "x".toList, [], []⟩, {})] ⟨"prod".toList, "y".toList, [], []⟩ {} = none := by
  unfold install
  rw [if_pos]
  decide +kernel

end Verif.Helm.Rbac

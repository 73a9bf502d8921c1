import Verif.Helm.Props
import Verif.Kube.ObjectsProps
/-! Properties C162 and C163: the names of a release, and the way of a request through its proxy. -/
set_option linter.unusedSimpArgs false
set_option linter.unusedVariables false
namespace Verif.Helm

/-! ### C162 -/

/-- C162: the gateway and the controller of a release look at the same clusters and tell them the same address of the API, which is
that of the release's own service, and the controller uses the release's own middleware. -/
theorem C162_together (r : Release) :
    r.gatewayWiring.selector = r.controllerWiring.selector ∧ r.gatewayWiring.apiUrl = r.controllerWiring.apiUrl ∧
    r.gatewayWiring.apiUrl = "http://".toList ++ r.apiName ++ ".".toList ++ r.ns ++ ":8000/api".toList ∧
    r.controllerWiring.middlewares = [(r.clustersPrefixName, r.ns)] := by
  refine ⟨by unfold Release.gatewayWiring Release.controllerWiring Wiring.selector; rfl, by unfold Release.gatewayWiring Release.controllerWiring; rfl, ?_, ?_⟩
  · unfold Release.gatewayWiring
    have : ".".toList = ['.'] := by decide
    simp only [this, List.append_assoc, List.cons_append, List.nil_append]
  · unfold Release.controllerWiring
    rfl

/-- A plain release: no other names are set, the name is at most `n` characters and ends with none of those that are cut. -/
def Plain (n : Nat) (r : Release) : Prop :=
  r.nameOverride = [] ∧ r.fullnameOverride = [] ∧ r.name.length ≤ n ∧ r.name.getLast? ≠ some '-'

/-- The full name of a plain release. -/
private theorem full_plain (n : Nat) (hn : n ≤ 50) (r : Release) (h : Plain n r) :
    r.fullname = (if contains "dask-gateway".toList r.name then r.name else r.name ++ "-dask-gateway".toList) ∧
    r.fullname.length ≤ n + 13 ∧ r.fullname.getLast? ≠ some '-' := by
  obtain ⟨h1, h2, h3, h4⟩ := h
  have hl : ("-dask-gateway".toList).length = 13 := by decide
  have hlast : (r.name ++ "-dask-gateway".toList).getLast? ≠ some '-' := by
    rw [List.getLast?_append]
    have : "-dask-gateway".toList.getLast? = some 'y' := by decide
    rw [this]
    simp
  have e : r.fullname = (if contains "dask-gateway".toList r.name then r.name else r.name ++ "-dask-gateway".toList) := by
    have hb : r.base = "dask-gateway".toList := by simp only [Release.base, h1, if_true]; rfl
    unfold Release.fullname
    rw [if_neg (by simp [h2]), hb]
    split
    · exact name63_id (by omega) h4
    · have : r.name ++ '-' :: "dask-gateway".toList = r.name ++ "-dask-gateway".toList := by congr 1
      rw [this]
      exact name63_id (by rw [List.length_append, hl]; omega) hlast
  refine ⟨e, ?_, ?_⟩
  · rw [e]
    split
    · omega
    · rw [List.length_append, hl]; omega
  · rw [e]
    split
    · exact h4
    · exact hlast

/-- C162: two plain releases with different names, both with or both without the name of the chart in theirs, look at different
clusters. -/
theorem C162_selector_partial (r r' : Release) (h : Plain 50 r) (h' : Plain 50 r') (hn : r.name ≠ r'.name)
    (hc : contains "dask-gateway".toList r.name = contains "dask-gateway".toList r'.name) :
    r.gatewayWiring.selector ≠ r'.gatewayWiring.selector := by
  intro e
  have e' := List.append_cancel_left e
  change r.fullname = r'.fullname at e'
  rw [(full_plain 50 (by omega) r h).1, (full_plain 50 (by omega) r' h').1, ← hc] at e'
  split at e'
  · exact hn e'
  · exact hn (List.append_cancel_right e')

/-- The objects of a release have names that are no others' either. -/
theorem C162_names_partial (r r' : Release) (h : Plain 34 r) (h' : Plain 34 r') (hn : r.name ≠ r'.name)
    (hc : contains "dask-gateway".toList r.name = contains "dask-gateway".toList r'.name) :
    r.apiName ≠ r'.apiName ∧ r.controllerName ≠ r'.controllerName ∧ r.clustersPrefixName ≠ r'.clustersPrefixName ∧
    r.apiPrefixName ≠ r'.apiPrefixName := by
  have hf : r.fullname ≠ r'.fullname := by
    intro e
    rw [(full_plain 34 (by omega) r h).1, (full_plain 34 (by omega) r' h').1, ← hc] at e
    split at e
    · exact hn e
    · exact hn (List.append_cancel_right e)
  have key : ∀ p : Str, p.length ≤ 16 → p.getLast? = some '-' → name63 (p ++ r.fullname) ≠ name63 (p ++ r'.fullname) := by
    intro p hp hpl e
    have one : ∀ r : Release, Plain 34 r → r.fullname ≠ [] → name63 (p ++ r.fullname) = p ++ r.fullname := by
      intro r h hne
      obtain ⟨_, h2, h3⟩ := full_plain 34 (by omega) r h
      refine name63_id (by rw [List.length_append]; omega) ?_
      rw [List.getLast?_append]
      cases hx : r.fullname.getLast? with
      | none => exact absurd (List.getLast?_eq_none_iff.1 hx) hne
      | some c => rw [hx] at h3; simpa using h3
    have ne : ∀ r : Release, Plain 34 r → r.fullname ≠ [] := by
      intro r h e
      have := (full_plain 34 (by omega) r h).1
      rw [e] at this
      split at this
      · rename_i hcon
        rw [← this] at hcon
        exact absurd hcon (by decide)
      · have := congrArg List.length this
        rw [List.length_append] at this
        have hl : ("-dask-gateway".toList).length = 13 := by decide
        simp only [List.length_nil, hl] at this
        omega
    rw [one r h (ne r h), one r' h' (ne r' h')] at e
    exact hf (List.append_cancel_left e)
  exact ⟨key _ (by decide) (by decide), key _ (by decide) (by decide), key _ (by decide) (by decide), key _ (by decide) (by decide)⟩

private theorem split_at {c : Char} {a a' : Str} {b b' : Str} (h : a ++ c :: b = a' ++ c :: b')
    (ha : c ∉ a) (ha' : c ∉ a') : a = a' ∧ b = b' := by
  induction a generalizing a' with
  | nil =>
    cases a' with
    | nil => exact ⟨rfl, (List.cons.inj h).2⟩
    | cons x a' => exact absurd (by rw [(List.cons.inj h).1]; exact .head _) ha'
  | cons x a ih =>
    cases a' with
    | nil => exact absurd (by rw [← (List.cons.inj h).1]; exact .head _) ha
    | cons y a' =>
      obtain ⟨h1, h2⟩ := List.cons.inj h
      obtain ⟨e1, e2⟩ := ih h2 (fun hm => ha (.tail _ hm)) (fun hm => ha' (.tail _ hm))
      exact ⟨by rw [h1, e1], e2⟩

/-- C162: clusters of releases with different services, by name or by namespace, report to different addresses. -/
theorem C162_url (r r' : Release) (hd : '.' ∉ r.apiName) (hd' : '.' ∉ r'.apiName)
    (h : r.apiName ≠ r'.apiName ∨ r.ns ≠ r'.ns) : r.controllerWiring.apiUrl ≠ r'.controllerWiring.apiUrl := by
  intro e
  unfold Release.controllerWiring at e
  simp only [List.append_assoc, List.cons_append] at e
  have e1 := List.append_cancel_left e
  obtain ⟨h1, h2⟩ := split_at e1 hd hd'
  rcases h with h | h
  · exact h h1
  · exact h (List.append_cancel_right h2)

/-- C162 fails for releases of one name in several namespaces: the gateway and the controller of each take the clusters of the others for
theirs. -/
theorem C162_namespace_violated (r : Release) (ns : Str) :
    ({ r with ns := ns } : Release).gatewayWiring.selector = r.gatewayWiring.selector ∧
    ({ r with ns := ns } : Release).controllerWiring.selector = r.controllerWiring.selector := ⟨rfl, rfl⟩

/-- And for some different names. -/
theorem C162_contains_violated :
    (⟨"a".toList, "x".toList, [], []⟩ : Release).gatewayWiring.selector =
      (⟨"a-dask-gateway".toList, "y".toList, [], []⟩ : Release).gatewayWiring.selector := by decide +kernel

example : Plain 34 ⟨"prod".toList, "x".toList, [], []⟩ ∧ Plain 34 ⟨"dev".toList, "x".toList, [], []⟩ ∧
    '.' ∉ (⟨"prod".toList, "x".toList, [], []⟩ : Release).apiName ∧
    (⟨"prod".toList, "x".toList, [], []⟩ : Release).gatewayWiring.apiUrl = "http://api-prod-dask-gateway.x:8000/api".toList := by
  unfold Plain
  decide +kernel

/-! ### C163 -/

/-- A prefix as it should be: `/`, or something that begins with a slash and does not end with one; and what it is without a slash at the
end. -/
inductive Prefix : Str → Str → Prop
  | root : Prefix ['/'] []
  | sub (p : Str) : p ≠ [] → p.head? ≠ some '/' → p.getLast? ≠ some '/' → Prefix ('/' :: p) ('/' :: p)

/-- A name of a namespace or a cluster. -/
def NameOk (s : Str) : Prop := ∀ c ∈ s, nameChar c = true

private theorem trim_prefix {pre root : Str} (h : Prefix pre root) : trimSlash pre = root := by
  cases h with
  | root => rfl
  | sub p h1 h2 h3 =>
    unfold trimSlash
    rw [if_neg]
    cases p with
    | nil => exact absurd rfl h1
    | cons a p => simpa [List.getLast?_cons_cons] using h3

private theorem dropWhile_head (p : Str) (h : p.head? ≠ some '/') : p.dropWhile (· = '/') = p := by
  cases p with
  | nil => rfl
  | cons a p =>
    have : a ≠ '/' := by simpa using h
    simp [List.dropWhile_cons, this]

private theorem valid_prefix {pre root : Str} (h : Prefix pre root) : validPrefix pre = root := by
  cases h with
  | root => rfl
  | sub p h1 h2 h3 =>
    have e : stripSlashes ('/' :: p) = p := by
      unfold stripSlashes
      rw [List.dropWhile_cons_of_pos (by simp), dropWhile_head p h2, dropWhile_head _ (by rw [List.head?_reverse]; exact h3),
        List.reverse_reverse]
    unfold validPrefix
    rw [e, if_neg h1]

private theorem choose_some (path : Str) (rs : List Route) (r : Route) (h : choose path rs = some r) :
    r ∈ rs ∧ r.rule <+: path ∧ ∀ r' ∈ rs, r'.rule <+: path → r'.rule.length ≤ r.rule.length := by
  induction rs generalizing r with
  | nil => cases h
  | cons a rs ih =>
    unfold choose at h
    split at h
    · rename_i hp
      have hp' := List.isPrefixOf_iff_prefix.1 hp
      split at h
      · rename_i r' hr'
        obtain ⟨h1, h2, h3⟩ := ih r' hr'
        split at h
        · rename_i hl
          cases h
          refine ⟨.tail _ h1, h2, fun x hx hxp => ?_⟩
          rcases List.mem_cons.1 hx with rfl | hx
          · omega
          · exact h3 x hx hxp
        · rename_i hl
          cases h
          refine ⟨.head _, hp', fun x hx hxp => ?_⟩
          rcases List.mem_cons.1 hx with rfl | hx
          · omega
          · have := h3 x hx hxp
            omega
      · rename_i hn
        cases h
        refine ⟨.head _, hp', fun x hx hxp => ?_⟩
        rcases List.mem_cons.1 hx with rfl | hx
        · omega
        · exfalso
          have : ∀ rs : List Route, x ∈ rs → choose path rs ≠ none := by
            intro rs hx
            induction rs with
            | nil => cases hx
            | cons b rs ih =>
              unfold choose
              split
              · split
                · split <;> simp
                · simp
              · rename_i hb
                rcases List.mem_cons.1 hx with rfl | hx
                · exact absurd (List.isPrefixOf_iff_prefix.2 hxp) hb
                · exact ih hx
          exact this rs hx hn
    · rename_i hp
      obtain ⟨h1, h2, h3⟩ := ih r h
      refine ⟨.tail _ h1, h2, fun x hx hxp => ?_⟩
      rcases List.mem_cons.1 hx with rfl | hx
      · exact absurd (List.isPrefixOf_iff_prefix.2 hxp) hp
      · exact h3 x hx hxp

private theorem choose_ne (path : Str) (rs : List Route) (x : Route) (hx : x ∈ rs) (hxp : x.rule <+: path) : ∃ r, choose path rs = some r := by
  cases h : choose path rs with
  | some r => exact ⟨r, rfl⟩
  | none =>
    exfalso
    induction rs with
    | nil => cases hx
    | cons b rs ih =>
      unfold choose at h
      split at h
      · split at h
        · split at h <;> cases h
        · cases h
      · rename_i hb
        rcases List.mem_cons.1 hx with rfl | hx
        · exact absurd (List.isPrefixOf_iff_prefix.2 hxp) hb
        · exact ih hx h

/-- Where the pages of a cluster are found. -/
def under (root ns name : Str) : Str := root ++ "/clusters/".toList ++ ns ++ ".".toList ++ name ++ "/".toList

private theorem rule_eq (c : Kube.Ctl) {pre root : Str} (h : Prefix pre root) (ns name : Str) :
    (clusterRoute c pre ns name).rule = under root ns name := by
  simp [clusterRoute, Kube.webRoute, valid_prefix h, under, Kube.fullName]

private theorem root_prefix {pre root : Str} (h : Prefix pre root) (rest : Str) : pre <+: root ++ '/' :: rest := by
  cases h with
  | root => exact ⟨rest, rfl⟩
  | sub p _ _ _ => exact ⟨'/' :: rest, rfl⟩

private theorem api_strip {pre root : Str} (h : Prefix pre root) (rest : Str) :
    (apiRoute pre).middlewares.foldl Middleware.apply (root ++ '/' :: rest) = '/' :: rest := by
  cases h with
  | root => rfl
  | sub p h1 h2 h3 =>
    have hp : Prefix ('/' :: p) ('/' :: p) := .sub p h1 h2 h3
    have hne : ('/' :: p) ≠ ['/'] := by simpa using h1
    unfold apiRoute
    simp only [ne_eq, hne, not_false_eq_true, if_true, List.foldl_cons, List.foldl_nil, trim_prefix hp, Middleware.apply]
    rw [if_pos (List.isPrefixOf_iff_prefix.2 (List.prefix_append _ _)), List.drop_left]
    rfl

/-- C163: every path below the prefix that is not one of a cluster reaches the API, without the prefix. -/
theorem C163_api_partial (c : Kube.Ctl) (pre root : Str) (clusters : List (Str × Str)) (rest : Str) (hp : Prefix pre root)
    (hc : ∀ k ∈ clusters, ¬ under root k.1 k.2 <+: root ++ '/' :: rest) :
    forward (routes c pre clusters) (root ++ '/' :: rest) = some (.api, '/' :: rest) := by
  obtain ⟨r, hr⟩ := choose_ne (root ++ '/' :: rest) (routes c pre clusters) (apiRoute pre) (.head _) (root_prefix hp rest)
  obtain ⟨h1, h2, h3⟩ := choose_some _ _ _ hr
  unfold forward
  rw [hr]
  rcases List.mem_cons.1 h1 with rfl | h1
  · simp only [Option.map_some, api_strip hp]
    rfl
  · obtain ⟨k, hk, rfl⟩ := List.mem_map.1 h1
    rw [rule_eq c hp] at h2
    exact absurd h2 (hc k hk)

private theorem nameOk_slash {s : Str} (h : NameOk s) : '/' ∉ s := fun hm => absurd (h _ hm) (by decide)

private theorem under_unique (c : Kube.Ctl) (root path ns ns' name name' : Str) (h : under root ns name <+: path)
    (h' : under root ns' name' <+: path) (hd : '.' ∉ ns ∧ '.' ∉ ns') (hs : '/' ∉ ns ++ name ∧ '/' ∉ ns' ++ name') :
    ns = ns' ∧ name = name' := by
  refine Kube.C87_web_unique { c with proxyPrefix := root } ns ns' name name' path ?_ ?_ hd hs
  · simpa [Kube.webRoute, Kube.fullName, under] using h
  · simpa [Kube.webRoute, Kube.fullName, under] using h'

private theorem cluster_strip (c : Kube.Ctl) {pre root : Str} (h : Prefix pre root) (ns name rest : Str) (h1 : NameOk ns) (h2 : NameOk name) :
    (clusterRoute c pre ns name).middlewares.foldl Middleware.apply (under root ns name ++ rest) = '/' :: rest := by
  have e : under root ns name ++ rest = (root ++ "/clusters/".toList) ++ ((ns ++ ['.'] ++ name) ++ '/' :: rest) := by
    simp [under]
  have hn : ∀ x ∈ ns ++ ['.'] ++ name, nameChar x = true := by
    intro x hx
    simp only [List.mem_append, List.mem_singleton] at hx
    rcases hx with (hx | hx) | hx
    · exact h1 x hx
    · subst hx; rfl
    · exact h2 x hx
  have hh : (((ns ++ ['.'] ++ name) ++ '/' :: rest).head?.map nameChar) = some true := by
    cases hx : ns ++ ['.'] ++ name with
    | nil => simp at hx
    | cons a l =>
      rw [hx] at hn
      simp [hn a (.head _)]
  have hw : ((ns ++ ['.'] ++ name) ++ '/' :: rest).dropWhile nameChar = '/' :: rest := by
    rw [List.dropWhile_append_of_pos hn, List.dropWhile_cons_of_neg (by decide)]
  unfold clusterRoute
  simp only [List.foldl_cons, List.foldl_nil, Middleware.apply, trim_prefix h]
  rw [e, List.drop_left, if_pos ⟨List.isPrefixOf_iff_prefix.2 (List.prefix_append _ _), hh⟩, hw]
  rfl

/-- C163: every path below that of a cluster reaches the service of that cluster and no other, without what stands for the cluster. -/
theorem C163_cluster_partial (c : Kube.Ctl) (pre root : Str) (clusters : List (Str × Str)) (ns name rest : Str) (hp : Prefix pre root)
    (hk : (ns, name) ∈ clusters) (hok : ∀ k ∈ clusters, NameOk k.1 ∧ NameOk k.2 ∧ '.' ∉ k.1) :
    forward (routes c pre clusters) (under root ns name ++ rest) = some (.cluster ns ("dask-".toList ++ name), '/' :: rest) := by
  have hm : clusterRoute c pre ns name ∈ routes c pre clusters := .tail _ (List.mem_map.2 ⟨(ns, name), hk, rfl⟩)
  have hmp : (clusterRoute c pre ns name).rule <+: under root ns name ++ rest := by
    rw [rule_eq c hp]; exact List.prefix_append _ _
  obtain ⟨r, hr⟩ := choose_ne _ _ _ hm hmp
  obtain ⟨h1, h2, h3⟩ := choose_some _ _ _ hr
  have h3 := h3 _ hm hmp
  unfold forward
  rw [hr]
  rcases List.mem_cons.1 h1 with rfl | h1
  · exfalso
    rw [rule_eq c hp] at h3
    change (under root ns name).length ≤ pre.length at h3
    have hl : pre.length ≤ root.length + 1 := by cases hp <;> simp
    simp only [under, List.length_append] at h3
    have hcl : ("/clusters/".toList).length = 10 := by decide
    omega
  · obtain ⟨k, hk', rfl⟩ := List.mem_map.1 h1
    rw [rule_eq c hp] at h2
    obtain ⟨a1, a2, a3⟩ := hok _ hk
    obtain ⟨b1, b2, b3⟩ := hok _ hk'
    obtain ⟨e1, e2⟩ := under_unique c root _ ns k.1 name k.2 (List.prefix_append _ rest) h2 ⟨a3, b3⟩
      ⟨fun hx => (List.mem_append.1 hx).elim (nameOk_slash a1) (nameOk_slash a2),
       fun hx => (List.mem_append.1 hx).elim (nameOk_slash b1) (nameOk_slash b2)⟩
    rw [← e1, ← e2]
    simp only [Option.map_some, cluster_strip c hp ns name rest a1 a2]
    rfl

/-- C163 fails for a prefix without a slash at its beginning: nothing reaches the API. -/
theorem C163_slash_violated (c : Kube.Ctl) (p rest : Str) (hp : p.head? ≠ some '/') (hne : p ≠ []) :
    forward (routes c p []) ('/' :: rest) = none := by
  cases p with
  | nil => exact absurd rfl hne
  | cons a p =>
    have : a ≠ '/' := by simpa using hp
    simp [forward, routes, choose, apiRoute, List.isPrefixOf, this]

/-- And for one with two at its end: the pages of clusters are asked for with the prefix. And paths that only begin with the characters
of the prefix reach the API. -/
theorem C163_paths_violated :
    forward (routes Kube.someCtl "/gw//".toList [("n".toList, "a".toList)]) "/gw/clusters/n.a/status".toList =
      some (.cluster "n".toList "dask-a".toList, "/gw/clusters/n.a/status".toList) ∧
    forward (routes Kube.someCtl "/gw".toList []) "/gwen/home".toList = some (.api, "/en/home".toList) := by decide +kernel

example : Prefix "/services/gw".toList "/services/gw".toList := .sub _ (by decide) (by decide) (by decide)

example : forward (routes Kube.someCtl "/services/gw".toList [("n".toList, "a".toList), ("n".toList, "b".toList)])
      "/services/gw/clusters/n.b/status".toList = some (.cluster "n".toList "dask-b".toList, "/status".toList) ∧
    forward (routes Kube.someCtl "/services/gw".toList [("n".toList, "a".toList)]) "/services/gw/clusters/n.b/status".toList =
      some (.api, "/clusters/n.b/status".toList) ∧
    forward (routes Kube.someCtl "/".toList [("n".toList, "a".toList)]) "/api/v1/clusters/".toList =
      some (.api, "/api/v1/clusters/".toList) := by decide +kernel

end Verif.Helm

import Verif.Helm.Lemmas
/-! Properties C158 to C161: what the Helm chart makes of the values of a release. -/
set_option linter.unusedSimpArgs false
set_option linter.unusedVariables false
namespace Verif.Helm

/-! ### Specification -/

/-- A value is found in the values under a path of keys. -/
inductive Has : Json → List Str → Json → Prop
  | here (v : Json) : Has v [] v
  | key (l : List (Str × Json)) (k : Str) (ks : List Str) (v x : Json) : lookup l k = some v → Has v ks x → Has (.obj l) (k :: ks) x

/-- The settings of clusters, by the names that the values have for them. -/
def table : List (String × String) :=
  [("worker_cores", "worker.cores.request"), ("worker_cores_limit", "worker.cores.limit"),
   ("worker_memory", "worker.memory.request"), ("worker_memory_limit", "worker.memory.limit"),
   ("worker_threads", "worker.threads"), ("worker_extra_pod_config", "worker.extraPodConfig"),
   ("worker_extra_container_config", "worker.extraContainerConfig"),
   ("scheduler_cores", "scheduler.cores.request"), ("scheduler_cores_limit", "scheduler.cores.limit"),
   ("scheduler_memory", "scheduler.memory.request"), ("scheduler_memory_limit", "scheduler.memory.limit"),
   ("scheduler_extra_pod_config", "scheduler.extraPodConfig"),
   ("scheduler_extra_container_config", "scheduler.extraContainerConfig"),
   ("image_pull_policy", "image.pullPolicy"), ("environment", "environment"), ("namespace", "namespace")]

/-- The keys of a path with dots. -/
def keysOf (s : Str) : List Str :=
  match s with
  | [] => [[]]
  | c :: s =>
    if c = '.' then [] :: keysOf s
    else
      match keysOf s with
      | [] => [[c]]
      | k :: ks => (c :: k) :: ks

/-- What the writer and the reader of JSON have to do for one value. -/
def JsonOk (toJson : Json → Str) (loads : Str → Option Json) (v : Json) : Prop := loads (toJson v) = some v

/-- Line ends are not printable. -/
def PrintOk (print : Char → Bool) : Prop := print '\n' = false ∧ print '\r' = false

/-! ### C158 -/

theorem has_iff (v : Json) (p : List Str) (x : Json) : getProperty v p = some x ↔ Has v p x := by
  constructor
  · induction p generalizing v with
    | nil => intro h; cases v <;> (simp only [getProperty, Option.some.injEq] at h; subst h; exact .here _)
    | cons k ks ih =>
      intro h
      cases v with
      | obj l =>
        simp only [getProperty] at h
        cases hl : lookup l k with
        | none => rw [hl] at h; cases h
        | some w => rw [hl] at h; exact .key l k ks w x hl (ih w h)
      | _ => simp [getProperty] at h
  · intro h
    induction h with
    | here v => cases v <;> rfl
    | key l k ks v x hl _ ih => simp only [getProperty, hl, Option.bind_some]; exact ih

theorem given_iff (v : Json) (p : List Str) (x : Json) : given v p = some x ↔ Has v p x ∧ x ≠ .null := by
  rw [← has_iff]
  unfold given
  split
  · rename_i h; simp [h]
  · rename_i h
    rw [h]
    constructor
    · intro e; cases e
    · rintro ⟨e, e'⟩
      cases e
      exact absurd rfl e'
  · rename_i y h1 h2
    rw [h2]
    constructor
    · intro e
      cases e
      exact ⟨rfl, fun e => h1 e⟩
    · exact fun e => e.1

/-- The loop over some fields with distinct names. -/
private theorem fold_fields (v : Json) (l : List (String × List String)) (s : Settings) (k : Str) :
    (k ∉ l.map (fun f => f.1.toList) → lookup (l.foldl (setField v) s) k = lookup s k) ∧
    ((l.map (fun f => f.1.toList)).Nodup → ∀ f ∈ l, f.1.toList = k → lookup s k = none → lookup (l.foldl (setField v) s) k = given v ("gateway".toList :: "backend".toList :: f.2.map String.toList)) := by
  induction l generalizing s with
  | nil => exact ⟨fun _ => rfl, fun _ f h => by cases h⟩
  | cons g l ih =>
    simp only [List.foldl_cons, List.map_cons, List.mem_cons, not_or, List.nodup_cons]
    generalize hs : setField v s g = s'
    unfold setField at hs
    have hne : k ≠ g.1.toList → lookup s' k = lookup s k := by
      intro h
      rw [← hs]
      split
      · rw [lookup_set, if_neg (Ne.symm h)]
      · rfl
    constructor
    · rintro ⟨h1, h2⟩
      rw [(ih s').1 h2, hne h1]
    · rintro ⟨h1, h2⟩ f (hf | hf) hk hl
      · subst hf
        rw [(ih s').1 (by rw [← hk]; exact h1), ← hs]
        split
        · rename_i x hx; rw [lookup_set, if_pos hk, hx]
        · rename_i hx; rw [hl, hx]
      · have : k ≠ g.1.toList := by
          intro e
          rw [← e, ← hk] at h1
          exact h1 (List.mem_map.2 ⟨f, hf, rfl⟩)
        exact (ih s').2 h2 f hf hk (by rw [hne this, hl])

private theorem fields_nodup : (fields.map (fun f => f.1.toList)).Nodup := by decide +kernel

private theorem image_lookup (v : Json) (k : Str) (h1 : k ≠ "image".toList) (h2 : k ≠ "image_pull_secrets".toList) :
    lookup (setImage v []) k = none := by
  unfold setImage
  dsimp only
  split
  · rw [lookup_set, if_neg (Ne.symm h2), lookup_set, if_neg (Ne.symm h1)]
    rfl
  · rfl

private theorem table_fields : ∀ e ∈ table, ∃ f ∈ fields, f.1 = e.1 ∧ f.2.map String.toList = keysOf e.2.toList ∧
    f.1.toList ≠ "image".toList ∧ f.1.toList ≠ "image_pull_secrets".toList := by decide +kernel

/-- A setting of clusters from the properties in the file. -/
private theorem settings_iff (p : Json) (e : String × String) (he : e ∈ table) (x : Json) :
    lookup (clusterSettings p) e.1.toList = some x ↔
      Has p ("gateway".toList :: "backend".toList :: keysOf e.2.toList) x ∧ x ≠ .null := by
  obtain ⟨f, hf, h1, h2, h3, h4⟩ := table_fields e he
  rw [← given_iff, ← h2, ← h1]
  unfold clusterSettings setFields
  rw [(fold_fields p fields (setImage p []) f.1.toList).2 fields_nodup f hf rfl (image_lookup p _ h3 h4)]

/-- The properties in the file are those of the values, but for extra configuration and the credentials of JupyterHub. -/
private theorem forwarded_get (values : Json) (k : Str) (ks : List Str) (h1 : k ≠ "extraConfig".toList) (h2 : k ≠ "auth".toList) :
    getProperty (forwarded values) ("gateway".toList :: k :: ks) = getProperty values ("gateway".toList :: k :: ks) := by
  have hl : ∀ g : Json, lookup [("gateway".toList, g)] "gateway".toList = some g := fun g => by rw [lookup_cons, if_pos rfl]
  have hset : ∀ (g x : Json), getProperty (setIn g "auth".toList x) (k :: ks) = getProperty g (k :: ks) := by
    intro g x
    cases g with
    | obj l => simp only [setIn, getProperty]; rw [lookup_set, if_neg (Ne.symm h2)]
    | _ => rfl
  have homit : ∀ g : Json, getProperty (omitIn g "extraConfig".toList) (k :: ks) = getProperty g (k :: ks) := by
    intro g
    cases g with
    | obj l => simp only [omitIn, getProperty]; rw [lookup_without _ _ _ h1]
    | _ => rfl
  have hv : getProperty values ("gateway".toList :: k :: ks) = getProperty (field values "gateway".toList) (k :: ks) := by
    cases values with
    | obj l =>
      simp only [getProperty, field]
      cases lookup l "gateway".toList <;> rfl
    | _ => rfl
  rw [hv]
  unfold forwarded
  dsimp only
  simp only [getProperty, hl, Option.bind_some]
  split
  · rw [hset, homit]
  · rw [homit]

/-- C158: every setting of clusters that is given in the values of a release, whatever characters are in it, is in the configuration of the
gateway as it was given, and one that is not given, or is null, is not set. -/
theorem C158_settings (toJson : Json → Str) (loads : Str → Option Json) (print : Char → Bool) (values : Json)
    (hj : JsonOk toJson loads (forwarded values)) (hp : PrintOk print) :
    ∃ p, properties toJson loads print (forwarded values) = some p ∧
      ∀ e ∈ table, ∀ x, lookup (clusterSettings p) e.1.toList = some x ↔
        Has values ("gateway".toList :: "backend".toList :: keysOf e.2.toList) x ∧ x ≠ .null := by
  refine ⟨forwarded values, ?_, fun e he x => ?_⟩
  · unfold properties
    rw [readLiteral_quote print hp.1 hp.2 _ _ (by decide)]
    exact hj
  · rw [settings_iff _ e he, ← has_iff, ← has_iff, forwarded_get _ _ _ (by decide) (by decide)]

/-- C158: no other settings of clusters are made, but for the image and the secrets to pull it. -/
theorem C158_only (p : Json) (k : Str) (h : (lookup (clusterSettings p) k).isSome) :
    k = "image".toList ∨ k = "image_pull_secrets".toList ∨ ∃ e ∈ table, e.1.toList = k := by
  by_cases h1 : k = "image".toList
  · exact .inl h1
  by_cases h2 : k = "image_pull_secrets".toList
  · exact .inr (.inl h2)
  refine .inr (.inr ?_)
  have hb : ∀ f ∈ fields, ∃ e ∈ table, e.1.toList = f.1.toList := by decide +kernel
  by_cases hk : k ∈ fields.map (fun f => f.1.toList)
  · obtain ⟨f, hf, e⟩ := List.mem_map.1 hk
    obtain ⟨e', he', e2⟩ := hb f hf
    exact ⟨e', he', e2.trans e⟩
  · unfold clusterSettings setFields at h
    rw [(fold_fields p fields (setImage p []) k).1 hk, image_lookup p k h1 h2] at h
    cases h

private theorem image_kept (p : Json) (k : Str) (hk : k = "image".toList ∨ k = "image_pull_secrets".toList) :
    lookup (clusterSettings p) k = lookup (setImage p []) k := by
  unfold clusterSettings setFields
  refine (fold_fields p fields (setImage p []) k).1 ?_
  rcases hk with e | e <;> subst e <;> decide +kernel

/-- C158: with a name and a tag of the image, clusters use that image, and the secrets that are given to pull it. -/
theorem C158_image_partial (p : Json) (name tag : Str) (secrets : Json) (h1 : name ≠ []) (h2 : tag ≠ [])
    (hn : Has p ["gateway".toList, "backend".toList, "image".toList, "name".toList] (.str name))
    (ht : Has p ["gateway".toList, "backend".toList, "image".toList, "tag".toList] (.str tag))
    (hs : Has p ["gateway".toList, "backend".toList, "imagePullSecrets".toList] secrets) :
    lookup (clusterSettings p) "image".toList = some (.str (name ++ ':' :: tag)) ∧
    lookup (clusterSettings p) "image_pull_secrets".toList = some secrets := by
  rw [← has_iff] at hn ht hs
  rw [image_kept p _ (.inl rfl), image_kept p _ (.inr rfl)]
  have e : setImage p [] = Dict.set (Dict.set [] "image".toList (.str (name ++ ':' :: tag))) "image_pull_secrets".toList secrets := by
    unfold setImage
    simp only [hn, ht, hs, pyTruthy, truthy, h1, h2, ne_eq, not_false_eq_true, decide_true, if_true, text, Option.getD_some]
  rw [e]
  constructor
  · rw [lookup_set, if_neg (by decide), lookup_set, if_pos rfl]
  · rw [lookup_set, if_pos rfl]

/-- C158: without a tag, the image is the name alone. -/
theorem C158_tag (p : Json) (name : Str) (h1 : name ≠ [])
    (hn : Has p ["gateway".toList, "backend".toList, "image".toList, "name".toList] (.str name))
    (ht : ∀ x, Has p ["gateway".toList, "backend".toList, "image".toList, "tag".toList] x → x = .null ∨ x = .str []) :
    lookup (clusterSettings p) "image".toList = some (.str name) := by
  rw [← has_iff] at hn
  have h0 : pyTruthy (getProperty p ["gateway".toList, "backend".toList, "image".toList, "tag".toList]) = false := by
    cases h : getProperty p ["gateway".toList, "backend".toList, "image".toList, "tag".toList] with
    | none => rfl
    | some x =>
      rcases ht x ((has_iff _ _ _).1 h) with e | e <;> subst e <;> simp [pyTruthy, truthy]
  rw [image_kept p _ (.inl rfl)]
  unfold setImage
  have h2 : pyTruthy (some (.str name)) = true := by simp [pyTruthy, truthy, h1]
  simp only [hn, h0, h2, if_true, Option.getD_some, Bool.false_eq_true, if_false]
  rw [lookup_set, if_neg (by decide), lookup_set, if_pos rfl]

/-- Values with secrets for pulling images, but no name of an image. -/
def secretsOnly : Json := .obj [("gateway".toList, .obj [("backend".toList, .obj [("image".toList, .obj [("name".toList, .str [])]),
  ("imagePullSecrets".toList, .arr [.obj [("name".toList, .str ['s'])]])])])]

/-- Values with an image and without secrets for pulling it. -/
def imageOnly : Json := .obj [("gateway".toList, .obj [("backend".toList, .obj [("image".toList, .obj [("name".toList, .str ['i'])])])])]

/-- C158 fails for the secrets: without a name of the image they are dropped, and if they are null or not
there the setting is `None`, which is no list, so that no cluster can be started. -/
theorem C158_secrets_violated :
    lookup (clusterSettings secretsOnly) "image_pull_secrets".toList = none ∧
    lookup (clusterSettings imageOnly) "image_pull_secrets".toList = some .null := by decide +kernel

/-- Some values, with characters that have a meaning in Python, JSON and YAML. -/
def someValues : Json := .obj [("gateway".toList, .obj [("extraConfig".toList, .str "x = 1".toList),
  ("auth".toList, .obj [("type".toList, .str "jupyterhub".toList), ("jupyterhub".toList, .obj [("apiToken".toList, .str "t".toList)]),
    ("simple".toList, .obj [("password".toList, .str "pw".toList)])]),
  ("backend".toList, .obj [("environment".toList, .obj [("A".toList, .str "\"'\\\n#{{é".toList)]), ("namespace".toList, .null),
    ("worker".toList, .obj [("cores".toList, .obj [("request".toList, .num (.int 0))])])])])]

/-- The settings from these values: an amount of zero is set, a namespace of null is not. -/
example : (clusterSettings (forwarded someValues)) =
    [("worker_cores".toList, .num (.int 0)), ("environment".toList, .obj [("A".toList, .str "\"'\\\n#{{é".toList)])] := by decide +kernel

/-- Quotes, a backslash, a line end, a letter and a character beyond the first 65536, in the file and read again. -/
example : quote (fun c => 32 ≤ c.toNat ∧ c.toNat < 127) "a\"\\\n\x01é😀".toList = "\"a\\\"\\\\\\n\\x01\\u00e9\\U0001f600\"".toList ∧
    readLiteral "\"a\\\"\\\\\\n\\x01\\u00e9\\U0001f600\")".toList = some ("a\"\\\n\x01é😀".toList, ")".toList) := by decide +kernel

/-! ### C159 -/

/-- C159: a text of extra configuration is run after everything that comes from the values, just as it was given. -/
theorem C159_text {C : Type} (exec : Str → C → Option C) (base : C) (s : Str) (h : s ≠ []) :
    runExtra exec base (.text s) = exec s base := by
  unfold runExtra Extra.blocks
  simp only [h, if_false, List.foldl_cons, List.foldl_nil, Option.bind_some, block_indent]

/-- C159: the blocks of a map are all run, each just as it was given, in the order of their keys; in whatever order the
map comes, the result is the same. -/
theorem C159_map {C : Type} (exec : Str → C → Option C) (base : C) (l : List (Str × Str)) (sorted : List (Str × Str))
    (hp : sorted.Perm l) (hs : sorted.Pairwise (fun a b => leStr a.1 b.1 = true)) (hd : (l.map (fun e => e.1)).Nodup) :
    runExtra exec base (.map l) = sorted.foldl (fun c e => c.bind (exec e.2)) (some base) := by
  have e : sortKeys l = sorted := by
    have h1 : (sortKeys l).Perm sorted := (List.mergeSort_perm l _).trans hp.symm
    have h2 : (sortKeys l).Pairwise (fun a b => leStr a.1 b.1 = true) :=
      List.pairwise_mergeSort (le := fun a b : Str × Str => leStr a.1 b.1)
        (fun a b c x y => leStr_trans _ _ _ x y) (fun a b => leStr_total a.1 b.1) l
    refine List.Perm.eq_of_pairwise (le := fun a b => leStr a.1 b.1 = true) ?_ h2 hs h1
    intro a b ha hb x y
    have hk := leStr_antisymm _ _ x y
    have ha' : a ∈ l := (List.mergeSort_perm l _).mem_iff.1 ha
    have hb' : b ∈ l := hp.mem_iff.1 hb
    clear h1 h2 hs hp ha hb x y
    induction l with
    | nil => cases ha'
    | cons c l ih =>
      simp only [List.map_cons, List.nodup_cons] at hd
      rcases List.mem_cons.1 ha' with rfl | ha''
      · rcases List.mem_cons.1 hb' with rfl | hb''
        · rfl
        · exact absurd (List.mem_map.2 ⟨b, hb'', hk.symm⟩) hd.1
      · rcases List.mem_cons.1 hb' with rfl | hb''
        · exact absurd (List.mem_map.2 ⟨a, ha'', hk⟩) hd.1
        · exact ih hd.2 ha'' hb''
  unfold runExtra Extra.blocks
  dsimp only
  rw [e, List.foldl_map]
  congr 1
  funext c x
  rw [block_indent]

/-- Blocks given as `b`, `a` and `B` are run as `B`, `a`, `b`, and a line of a block stays a line. -/
example : runExtra (fun b (c : List Str) => some (c ++ [b])) [] (.map [("b".toList, "2".toList), ("a".toList, "if x:\n  y".toList), ("B".toList, "1".toList)]) =
    some ["1".toList, "if x:\n  y".toList, "2".toList] := by
  rw [C159_map _ _ _ [("B".toList, "1".toList), ("a".toList, "if x:\n  y".toList), ("b".toList, "2".toList)]
    (List.isPerm_iff.1 (by decide +kernel)) (by decide +kernel) (by decide +kernel)]
  rfl

/-! ### C160 -/

/-- Values with a token for JupyterHub. -/
def withToken (vl g a h : List (Str × Json)) (t : Json) : Json :=
  .obj (Dict.set vl "gateway".toList (.obj (Dict.set g "auth".toList (.obj (Dict.set a "jupyterhub".toList (.obj
    (Dict.set h "apiToken".toList t)))))))

/-- What counts as not given in a template: nothing, false, zero and what is empty. -/
def blanks : List Json := [.null, .bool false, .num (.int 0), .num (.fin 0), .str [], .arr [], .obj []]

private theorem truthy_iff (t : Json) : truthy t = true ↔ t ∉ blanks := by
  cases t with
  | null => simp [blanks, truthy]
  | bool b => cases b <;> simp [blanks, truthy]
  | num n =>
    cases n with
    | int i => simp [blanks, truthy]
    | fin q => simp [blanks, truthy]
    | _ => simp [blanks, truthy]
  | str t => simp [blanks, truthy]
  | arr l => simp [blanks, truthy]
  | obj l => simp [blanks, truthy]

/-- C160: the configuration file is the same whatever the token for JupyterHub is. -/
theorem C160_token (vl g a h : List (Str × Json)) (t u : Json) (ht : t ∉ blanks) (hu : u ∉ blanks) :
    forwarded (withToken vl g a h t) = forwarded (withToken vl g a h u) := by
  have key : ∀ t, truthy t = true → forwarded (withToken vl g a h t) =
      .obj [("gateway".toList, .obj (Dict.set (without g "extraConfig".toList) "auth".toList
        (.obj (Dict.set a "jupyterhub".toList (.obj (without h "apiToken".toList))))))] := by
    intro t ht
    unfold forwarded withToken
    simp only [field_obj, lookup_set, if_true, Option.getD_some, omitIn]
    rw [without_set_ne _ _ _ _ (by decide)]
    simp only [field_obj, lookup_set, if_true, Option.getD_some, omitIn, ht, setIn, without_set, set_set]
  rw [key t ((truthy_iff t).2 ht), key u ((truthy_iff u).2 hu)]

/-- C160: and it is not in it. -/
theorem C160_absent (values t : Json)
    (h : Has (forwarded values) ["gateway".toList, "auth".toList, "jupyterhub".toList, "apiToken".toList] t) : t ∈ blanks := by
  suffices hf : truthy t = false by
    apply Classical.byContradiction
    intro hb
    rw [(truthy_iff t).2 hb] at hf
    cases hf
  rw [← has_iff] at h
  have hl : ∀ g : Json, lookup [("gateway".toList, g)] "gateway".toList = some g := fun g => by rw [lookup_cons, if_pos rfl]
  unfold forwarded at h
  dsimp only at h
  generalize omitIn (field values "gateway".toList) "extraConfig".toList = g at h
  simp only [getProperty, hl, Option.bind_some] at h
  have path : ∀ (g : Json) (k : Str) (ks : List Str) (x : Json), getProperty g (k :: ks) = some x → getProperty (field g k) ks = some x := by
    intro g k ks x h
    cases g with
    | obj l =>
      simp only [getProperty] at h
      cases hk : lookup l k with
      | none => rw [hk] at h; cases h
      | some w => rw [hk] at h; simp only [field, hk]; exact h
    | _ => simp [getProperty] at h
  have last : ∀ (v x : Json), getProperty v [] = some x → v = x := by
    intro v x h
    cases v <;> (simp only [getProperty, Option.some.injEq] at h; exact h)
  split at h
  · rename_i ht
    have h1 := path _ _ _ _ h
    cases g with
    | obj gl =>
      simp only [setIn, field_obj, lookup_set, if_true, Option.getD_some] at h1 ht
      generalize (lookup gl "auth".toList).getD Json.null = au at h1 ht
      have h2 := path _ _ _ _ h1
      cases au with
      | obj al =>
        simp only [setIn, field_obj, lookup_set, if_true, Option.getD_some] at h2 ht
        generalize (lookup al "jupyterhub".toList).getD Json.null = hu at h2 ht
        have h3 := path _ _ _ _ h2
        cases hu with
        | obj hl => simp only [omitIn, field_obj, lookup_without_same, Option.getD_none] at h3; rw [← last _ _ h3]; rfl
        | _ => simp [omitIn, field] at h3; rw [← last _ _ h3]; rfl
      | _ => simp [field, truthy] at ht
    | _ => simp [field, truthy] at ht
  · rename_i ht
    have h1 := last _ _ (path _ _ _ _ (path _ _ _ _ (path _ _ _ _ h)))
    rw [h1] at ht
    cases hx : truthy t with
    | false => rfl
    | true => exact absurd hx ht

/-- C160: the gateway gets the token that is given, or that of the secret that is named. -/
theorem C160_gateway (h : Hub) (r : Release) (others : Str → Str → Option Str) (ht : h.authType = "jupyterhub".toList) :
    h.tokenEnv r others = if h.apiToken = [] then others h.fromName h.fromKey else some h.apiToken := by
  by_cases e : h.apiToken = []
  · simp [Hub.tokenEnv, Hub.secrets, ht, e]
  · simp [Hub.tokenEnv, Hub.secrets, ht, e]

/-- C160 fails for the password of all users, which is in the configuration file. -/
theorem C160_password_violated :
    Has (forwarded someValues) ["gateway".toList, "auth".toList, "simple".toList, "password".toList] (.str "pw".toList) := by
  rw [← has_iff]
  decide +kernel

example : ¬ Has (forwarded someValues) ["gateway".toList, "auth".toList, "jupyterhub".toList, "apiToken".toList] (.str "t".toList) :=
  fun h => absurd (C160_absent _ _ h) (by simp [blanks])

example : forwarded someValues ≠ someValues ∧ truthy (.str "t".toList) = true := by decide +kernel

example : Json.str "t".toList ∉ blanks := by simp [blanks]

/-! ### C161 -/

/-- The class of the authenticator of each type. -/
def classOf : List (String × String) :=
  [("simple", "dask_gateway_server.auth.SimpleAuthenticator"), ("kerberos", "dask_gateway_server.auth.KerberosAuthenticator"),
   ("jupyterhub", "dask_gateway_server.auth.JupyterHubAuthenticator")]

private theorem get_field (g : Json) (k : Str) (k2 : Str) (ks : List Str) :
    getProperty g (k :: k2 :: ks) = getProperty (field g k) (k2 :: ks) := by
  cases g with
  | obj l =>
    simp only [getProperty, field]
    cases lookup l k <;> rfl
  | _ => rfl

private theorem get_setIn_same (g x : Json) (k : Str) (ks : List Str) (h : ∃ l, g = .obj l) :
    getProperty (setIn g k x) (k :: ks) = getProperty x ks := by
  obtain ⟨l, rfl⟩ := h
  simp only [setIn, getProperty]
  rw [lookup_set, if_pos rfl]
  rfl

private theorem get_setIn_ne (g x : Json) (k k' : Str) (ks : List Str) (h : k ≠ k') :
    getProperty (setIn g k x) (k' :: ks) = getProperty g (k' :: ks) := by
  cases g with
  | obj l => simp only [setIn, getProperty]; rw [lookup_set, if_neg h]
  | _ => rfl

private theorem get_omitIn_ne (g : Json) (k k' : Str) (ks : List Str) (h : k' ≠ k) :
    getProperty (omitIn g k) (k' :: ks) = getProperty g (k' :: ks) := by
  cases g with
  | obj l => simp only [omitIn, getProperty]; rw [lookup_without _ _ _ h]
  | _ => rfl

private theorem truthy_field (g : Json) (k : Str) (k2 : Str) (h : truthy (field (field g k) k2) = true) : ∃ l, g = .obj l := by
  cases g with
  | obj l => exact ⟨l, rfl⟩
  | _ => simp [field, truthy] at h

/-- C161: the file sees the values for authentication as they were given, but for the token of JupyterHub. -/
theorem C161_values (values : Json) (k k2 : Str) (ks : List Str) (x : Json)
    (h : k ≠ "jupyterhub".toList ∨ k2 ≠ "apiToken".toList) :
    Has (forwarded values) ("gateway".toList :: "auth".toList :: k :: k2 :: ks) x ↔
    Has values ("gateway".toList :: "auth".toList :: k :: k2 :: ks) x := by
  rw [← has_iff, ← has_iff]
  have hl : ∀ g : Json, lookup [("gateway".toList, g)] "gateway".toList = some g := fun g => by rw [lookup_cons, if_pos rfl]
  have e : getProperty (forwarded values) ("gateway".toList :: "auth".toList :: k :: k2 :: ks) =
      getProperty values ("gateway".toList :: "auth".toList :: k :: k2 :: ks) := by
    rw [get_field values, ← get_omitIn_ne (field values "gateway".toList) "extraConfig".toList _ _ (by decide)]
    unfold forwarded
    dsimp only
    generalize omitIn (field values "gateway".toList) "extraConfig".toList = g
    simp only [getProperty, hl, Option.bind_some]
    split
    · rename_i ht
      have hau := truthy_field _ _ _ ht
      have hg : ∃ l, g = .obj l := by
        cases g with
        | obj l => exact ⟨l, rfl⟩
        | _ => simp [field, truthy] at ht
      rw [get_setIn_same _ _ _ _ hg, get_field g]
      by_cases hk : k = "jupyterhub".toList
      · subst hk
        have hk2 : k2 ≠ "apiToken".toList := h.resolve_left (fun h => h rfl)
        rw [get_setIn_same _ _ _ _ hau, get_omitIn_ne _ _ _ _ hk2, get_field (field g "auth".toList)]
      · rw [get_setIn_ne _ _ _ _ _ (Ne.symm hk)]
    · rfl
  rw [e]

/-- C161: and the type. -/
theorem C161_type (values x : Json) : Has (forwarded values) ["gateway".toList, "auth".toList, "type".toList] x ↔
    Has values ["gateway".toList, "auth".toList, "type".toList] x := by
  rw [← has_iff, ← has_iff]
  have hl : ∀ g : Json, lookup [("gateway".toList, g)] "gateway".toList = some g := fun g => by rw [lookup_cons, if_pos rfl]
  have e : getProperty (forwarded values) ["gateway".toList, "auth".toList, "type".toList] =
      getProperty values ["gateway".toList, "auth".toList, "type".toList] := by
    rw [get_field values, ← get_omitIn_ne (field values "gateway".toList) "extraConfig".toList _ _ (by decide)]
    unfold forwarded
    dsimp only
    generalize omitIn (field values "gateway".toList) "extraConfig".toList = g
    simp only [getProperty, hl, Option.bind_some]
    split
    · rename_i ht
      have hg : ∃ l, g = .obj l := by
        cases g with
        | obj l => exact ⟨l, rfl⟩
        | _ => simp [field, truthy] at ht
      rw [get_setIn_same _ _ _ _ hg, get_field g, get_setIn_ne _ _ _ _ _ (by decide)]
    · rfl
  rw [e]

/-- C161: if the file can be run, the authenticator is that of the type in the values, or for the type `custom` the class in the
values. -/
theorem C161_class (env : Str → Option Str) (v : Json) (a : Authn) (h : authn env v = some a) :
    ∃ t, Has v ["gateway".toList, "auth".toList, "type".toList] (.str t) ∧
      ((∃ e ∈ classOf, e.1.toList = t ∧ e.2.toList = a.cls) ∨
        (t = "custom".toList ∧ Has v ["gateway".toList, "auth".toList, "custom".toList, "class".toList] (.str a.cls))) := by
  unfold authn at h
  split at h
  · rename_i t ht
    refine ⟨t, (has_iff _ _ _).1 ht, ?_⟩
    split at h
    · rename_i e
      subst e
      cases h
      exact .inl ⟨_, .head _, rfl, rfl⟩
    · split at h
      · rename_i e
        subst e
        cases h
        exact .inl ⟨_, .tail _ (.head _), rfl, rfl⟩
      · split at h
        · rename_i e
          subst e
          cases hu : hubUrl env v with
          | none => rw [hu] at h; cases h
          | some u =>
            rw [hu] at h
            cases h
            exact .inl ⟨_, .tail _ (.tail _ (.head _)), rfl, rfl⟩
        · split at h
          · rename_i e
            subst e
            refine .inr ⟨rfl, ?_⟩
            rw [← has_iff]
            unfold customAuthn at h
            split at h
            · rename_i cls hc
              rw [hc]
              split at h
              · cases h; rfl
              · split at h
                · cases h
                · cases h; rfl
              · cases h; rfl
            · cases h
          · cases h
  · cases h

/-- C161: with any other type, or none, the gateway does not start. -/
theorem C161_unknown (env : Str → Option Str) (v : Json)
    (h : ∀ t, t = "simple".toList ∨ t = "kerberos".toList ∨ t = "jupyterhub".toList ∨ t = "custom".toList →
      ¬ Has v ["gateway".toList, "auth".toList, "type".toList] (.str t)) : authn env v = none := by
  cases ha : authn env v with
  | none => rfl
  | some a =>
    exfalso
    obtain ⟨t, ht, h1⟩ := C161_class env v a ha
    refine h t ?_ ht
    rcases h1 with ⟨e, he, h2, _⟩ | ⟨h2, _⟩
    · simp only [classOf, List.mem_cons, List.not_mem_nil, or_false] at he
      rcases he with rfl | rfl | rfl
      · exact .inl h2.symm
      · exact .inr (.inl h2.symm)
      · exact .inr (.inr (.inl h2.symm))
    · exact .inr (.inr (.inr h2))

private theorem opt_iff (k k' : String) (v : Json) (p : List Str) (x : Json) :
    lookup (optSetting k (given v p)) k'.toList = some x ↔ k.toList = k'.toList ∧ Has v p x ∧ x ≠ .null := by
  rw [← given_iff]
  unfold optSetting
  cases given v p with
  | none => simp
  | some y =>
    simp only [lookup_cons]
    by_cases e : k.toList = k'.toList <;> simp [e]

private theorem cons_ne (l : List (Str × Json)) (k k' : Str) (x : Json) (h : k ≠ k') : lookup ((k, x) :: l) k' = lookup l k' := by
  rw [lookup_cons, if_neg h]

private theorem cons_eq (l : List (Str × Json)) (k : Str) (x : Json) : lookup ((k, x) :: l) k = some x := by
  rw [lookup_cons, if_pos rfl]

/-- C161: the password, the keytab, and the name of the service at JupyterHub are those in the values, and not set if they are not. -/
theorem C161_settings (env : Str → Option Str) (v : Json) (a : Authn) (h : authn env v = some a) (x : Json) :
    (Has v ["gateway".toList, "auth".toList, "type".toList] (.str "simple".toList) →
      a.name = "SimpleAuthenticator".toList ∧ (lookup a.settings "password".toList = some x ↔
        Has v ["gateway".toList, "auth".toList, "simple".toList, "password".toList] x ∧ x ≠ .null)) ∧
    (Has v ["gateway".toList, "auth".toList, "type".toList] (.str "kerberos".toList) →
      a.name = "KerberosAuthenticator".toList ∧ (lookup a.settings "keytab".toList = some x ↔
        Has v ["gateway".toList, "auth".toList, "kerberos".toList, "keytab".toList] x ∧ x ≠ .null)) ∧
    (Has v ["gateway".toList, "auth".toList, "type".toList] (.str "jupyterhub".toList) →
      a.name = "JupyterHubAuthenticator".toList ∧ (lookup a.settings "jupyterhub_service_name".toList = some x ↔
        Has v ["gateway".toList, "auth".toList, "jupyterhub".toList, "jupyterhubServiceName".toList] x ∧ x ≠ .null) ∧
      (Has v ["gateway".toList, "auth".toList, "jupyterhub".toList, "apiUrl".toList] x ∧ x ≠ .null →
        lookup a.settings "jupyterhub_api_url".toList = some x)) := by
  refine ⟨fun ht => ?_, fun ht => ?_, fun ht => ?_⟩
  all_goals
    rw [← has_iff] at ht
    unfold authn at h
    rw [ht] at h
    dsimp only at h
  · rw [if_pos rfl] at h
    cases h
    refine ⟨rfl, ?_⟩
    rw [opt_iff]
    simp
  · rw [if_neg (by decide), if_pos rfl] at h
    cases h
    refine ⟨rfl, ?_⟩
    rw [opt_iff]
    simp
  · rw [if_neg (by decide), if_neg (by decide), if_pos rfl] at h
    cases hu : hubUrl env v with
    | none => rw [hu] at h; cases h
    | some u =>
      rw [hu] at h
      cases h
      refine ⟨rfl, ?_, fun hx => ?_⟩
      · rw [cons_ne _ _ _ _ (by decide), opt_iff]
        simp
      · rw [← given_iff] at hx
        unfold hubUrl at hu
        rw [hx] at hu
        cases hu
        exact cons_eq _ _ _

/-- C161: without an address of JupyterHub in the values, it is that of the service `hub` in the namespace, and without that either the
gateway does not start. -/
theorem C161_hub (env : Str → Option Str) (v : Json) (ht : Has v ["gateway".toList, "auth".toList, "type".toList] (.str "jupyterhub".toList))
    (hu : ∀ x, Has v ["gateway".toList, "auth".toList, "jupyterhub".toList, "apiUrl".toList] x → x = .null) :
    (∀ h p, env "HUB_SERVICE_HOST".toList = some h → env "HUB_SERVICE_PORT".toList = some p → ∃ a, authn env v = some a ∧
      lookup a.settings "jupyterhub_api_url".toList = some (.str ("http://".toList ++ h ++ ":".toList ++ p ++ "/hub/api".toList))) ∧
    (env "HUB_SERVICE_HOST".toList = none ∨ env "HUB_SERVICE_PORT".toList = none → authn env v = none) := by
  have hg : given v ["gateway".toList, "auth".toList, "jupyterhub".toList, "apiUrl".toList] = none := by
    cases h : given v ["gateway".toList, "auth".toList, "jupyterhub".toList, "apiUrl".toList] with
    | none => rfl
    | some x =>
      obtain ⟨h1, h2⟩ := (given_iff _ _ _).1 h
      exact absurd (hu x h1) h2
  rw [← has_iff] at ht
  have e : authn env v = (hubUrl env v).map fun u => ⟨"dask_gateway_server.auth.JupyterHubAuthenticator".toList,
      "JupyterHubAuthenticator".toList, ("jupyterhub_api_url".toList, u) :: optSetting "jupyterhub_service_name"
        (given v ["gateway".toList, "auth".toList, "jupyterhub".toList, "jupyterhubServiceName".toList])⟩ := by
    unfold authn
    rw [ht]
    dsimp only
    rw [if_neg (by decide), if_neg (by decide), if_pos rfl]
  constructor
  · intro h p h1 h2
    have e2 : hubUrl env v = some (.str ("http://".toList ++ h ++ ":".toList ++ p ++ "/hub/api".toList)) := by
      unfold hubUrl
      rw [hg, h1, h2]
      have : ":".toList = [':'] := by decide
      simp only [this, List.append_assoc, List.cons_append, List.nil_append]
    rw [e, e2]
    exact ⟨_, rfl, cons_eq _ _ _⟩
  · intro h
    have e2 : hubUrl env v = none := by
      unfold hubUrl
      rw [hg]
      dsimp only
      split
      · rename_i h1 h2
        rw [h1, h2] at h
        rcases h with h | h <;> cases h
      · rfl
    rw [e, e2]
    rfl

/-- C161: a class of the administrator, in some module, gets the settings in the values. -/
theorem C161_custom (env : Str → Option Str) (v : Json) (md cls : Str) (l : List (Str × Json)) (hd : '.' ∉ cls)
    (ht : Has v ["gateway".toList, "auth".toList, "type".toList] (.str "custom".toList))
    (hc : Has v ["gateway".toList, "auth".toList, "custom".toList, "class".toList] (.str (md ++ ".".toList ++ cls)))
    (hs : Has v ["gateway".toList, "auth".toList, "custom".toList, "config".toList] (.obj l)) :
    authn env v = some ⟨md ++ ".".toList ++ cls, cls, l⟩ := by
  rw [← has_iff] at ht hc hs
  have hl : lastPart (md ++ ".".toList ++ cls) = cls := by
    have hdot : ".".toList = ['.'] := by decide
    unfold lastPart
    have h1 : ∀ x ∈ cls.reverse, decide (x ≠ '.') = true := by
      intro x hx
      have hx' := List.mem_reverse.1 hx
      simp only [decide_eq_true_eq]
      intro e
      exact hd (e ▸ hx')
    rw [hdot, List.reverse_append, List.takeWhile_append_of_pos h1, List.reverse_append]
    simp
  unfold authn
  rw [ht]
  dsimp only
  rw [if_neg (by decide), if_neg (by decide), if_neg (by decide), if_pos rfl]
  unfold customAuthn
  rw [hc, hs]
  dsimp only
  rw [hl]

/-- An authenticator of the administrator, with its settings. -/
example : authn (fun _ => none) (.obj [("gateway".toList, .obj [("auth".toList, .obj [("type".toList, .str "custom".toList),
      ("custom".toList, .obj [("class".toList, .str "my.auth.Mine".toList), ("config".toList, .obj [("a".toList, .bool true)])])])])]) =
    some ⟨"my.auth.Mine".toList, "Mine".toList, [("a".toList, .bool true)]⟩ := by rfl

end Verif.Helm

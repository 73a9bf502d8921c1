import Verif.Env.Model
/-! Property C62 for the backends with a database: the environment of schedulers and workers. -/
set_option linter.unusedSimpArgs false
set_option linter.unusedVariables false
namespace Verif.Env

/-- Specification: what the gateway itself sets for a scheduler. -/
def ownScheduler (g : Given) (cert key : Str) : List (Str × Str) :=
  [("DASK_GATEWAY_API_URL".toList, g.apiUrl),
   ("DASK_GATEWAY_API_TOKEN".toList, g.token),
   ("DASK_GATEWAY_CLUSTER_NAME".toList, g.name),
   ("DASK_DISTRIBUTED__COMM__REQUIRE_ENCRYPTION".toList, "True".toList),
   ("DASK_DISTRIBUTED__COMM__TLS__CA_FILE".toList, cert),
   ("DASK_DISTRIBUTED__COMM__TLS__SCHEDULER__KEY".toList, key),
   ("DASK_DISTRIBUTED__COMM__TLS__SCHEDULER__CERT".toList, cert)]

/-- Specification: what the gateway itself sets for a worker. -/
def ownWorker (g : Given) (cert key : Str) : List (Str × Str) :=
  [("DASK_GATEWAY_API_URL".toList, g.apiUrl),
   ("DASK_GATEWAY_API_TOKEN".toList, g.token),
   ("DASK_GATEWAY_CLUSTER_NAME".toList, g.name),
   ("DASK_DISTRIBUTED__COMM__REQUIRE_ENCRYPTION".toList, "True".toList),
   ("DASK_DISTRIBUTED__COMM__TLS__CA_FILE".toList, cert),
   ("DASK_DISTRIBUTED__COMM__TLS__WORKER__KEY".toList, key),
   ("DASK_DISTRIBUTED__COMM__TLS__WORKER__CERT".toList, cert)]

private theorem lookup_append {β : Type} (a b : List (Str × β)) (k : Str) :
    lookup (a ++ b) k = (lookup a k).or (lookup b k) := by
  induction a with
  | nil => rw [List.nil_append, lookup_nil]; rfl
  | cons e a ih =>
    rw [List.cons_append, lookup_cons, lookup_cons, ih]
    split <;> rfl

private theorem or_assoc {β : Type} (a b c : Option β) : (a.or b).or c = a.or (b.or c) := by
  cases a <;> rfl

private theorem nodupS (g : Given) (cert key : Str) : (Dict.keys (ownScheduler g cert key)).Nodup := by
  change List.Nodup ["DASK_GATEWAY_API_URL".toList, "DASK_GATEWAY_API_TOKEN".toList,
    "DASK_GATEWAY_CLUSTER_NAME".toList, "DASK_DISTRIBUTED__COMM__REQUIRE_ENCRYPTION".toList,
    "DASK_DISTRIBUTED__COMM__TLS__CA_FILE".toList, "DASK_DISTRIBUTED__COMM__TLS__SCHEDULER__KEY".toList,
    "DASK_DISTRIBUTED__COMM__TLS__SCHEDULER__CERT".toList]
  decide +kernel

private theorem nodupW (g : Given) (cert key : Str) : (Dict.keys (ownWorker g cert key)).Nodup := by
  change List.Nodup ["DASK_GATEWAY_API_URL".toList, "DASK_GATEWAY_API_TOKEN".toList,
    "DASK_GATEWAY_CLUSTER_NAME".toList, "DASK_DISTRIBUTED__COMM__REQUIRE_ENCRYPTION".toList,
    "DASK_DISTRIBUTED__COMM__TLS__CA_FILE".toList, "DASK_DISTRIBUTED__COMM__TLS__WORKER__KEY".toList,
    "DASK_DISTRIBUTED__COMM__TLS__WORKER__CERT".toList]
  decide +kernel

/-- Specification: the gateway's own values, and otherwise the configured ones. (`a.or b` is `a` if that is
a value, and else `b`.) -/
def WithOwn (own environment env : List (Str × Str)) : Prop :=
  ∀ k, lookup env k = (lookup own k).or (lookup environment k)

/-- C62 for schedulers (batch systems and YARN): the gateway's variables have its values, and every other
one its configured value. -/
theorem C62_scheduler (g : Given) (cert key : Str) :
    WithOwn (ownScheduler g cert key) g.environment (schedulerEnv (getEnv g) cert key) := by
  intro k
  unfold schedulerEnv getEnv
  rw [lookup_update, lookup_update, ← or_assoc, ← lookup_append]
  congr 1
  exact lookup_reverse (nodupS g cert key) k

/-- C62 for workers (batch systems and YARN). -/
theorem C62_worker (g : Given) (cert key : Str) :
    WithOwn (ownWorker g cert key) g.environment (workerEnv (getEnv g) cert key) := by
  intro k
  unfold workerEnv getEnv
  rw [lookup_update, lookup_update, ← or_assoc, ← lookup_append]
  congr 1
  exact lookup_reverse (nodupW g cert key) k

/-! ### Batch systems -/

/-- Specification: one of the names in a list separated by commas. -/
def Piece (p s : Str) : Prop :=
  ',' ∉ p ∧ ∃ a b, s = a ++ p ++ b ∧ (a = [] ∨ a.getLast? = some ',') ∧ (b = [] ∨ b.head? = some ',')

private theorem mem_insert (a x : Str) (l : List Str) : x ∈ insert a l ↔ x = a ∨ x ∈ l := by
  induction l with
  | nil => simp [insert]
  | cons b l ih =>
    unfold insert
    split
    · simp
    · rw [List.mem_cons, ih, List.mem_cons]
      constructor
      · rintro (h | h | h)
        · exact Or.inr (Or.inl h)
        · exact Or.inl h
        · exact Or.inr (Or.inr h)
      · rintro (h | h | h)
        · exact Or.inr (Or.inl h)
        · exact Or.inl h
        · exact Or.inr (Or.inr h)

private theorem mem_sorted (x : Str) (l : List Str) : x ∈ sorted l ↔ x ∈ l := by
  induction l with
  | nil => simp [sorted]
  | cons a l ih =>
    change x ∈ insert a (sorted l) ↔ _
    rw [mem_insert, ih, List.mem_cons]

private theorem piece_join (p : Str) (l : List Str) (hc : ',' ∉ p) (h : p ∈ l) : Piece p (joinComma l) := by
  refine ⟨hc, ?_⟩
  induction l using joinComma.induct with
  | case1 => cases h
  | case2 a =>
    rw [List.mem_singleton.1 h]
    exact ⟨[], [], by simp [joinComma], Or.inl rfl, Or.inl rfl⟩
  | case3 a b l ih =>
    rw [joinComma]
    rcases List.mem_cons.1 h with rfl | h
    · exact ⟨[], ',' :: joinComma (b :: l), by simp, Or.inl rfl, Or.inr rfl⟩
    · obtain ⟨x, y, e, hx, hy⟩ := ih h
      refine ⟨a ++ ',' :: x, y, by rw [e]; simp, Or.inr ?_, hy⟩
      rcases hx with rfl | hx
      · rw [List.getLast?_append]; rfl
      · rw [List.getLast?_append, List.getLast?_cons, hx]; rfl

/-- C62 for batch systems: every variable of the environment whose name has no comma, among them all of the
gateway's, is on the list of those that the job gets. -/
theorem C62_exported (env : List (Str × Str)) (k : Str) (hk : k ∈ Dict.keys env) (hc : ',' ∉ k) :
    Piece k (exported env) :=
  piece_join k _ hc ((mem_sorted k _).2 hk)

/-- C62 for batch systems: so the job of a scheduler gets the gateway's variables whatever the
configuration. -/
theorem C62_exported_scheduler (g : Given) (cert key k v : Str) (h : (k, v) ∈ ownScheduler g cert key) :
    Piece k (exported (schedulerEnv (getEnv g) cert key)) ∧
    lookup (schedulerEnv (getEnv g) cert key) k = some v := by
  have hl : lookup (ownScheduler g cert key) k = some v := lookup_of_mem (nodupS g cert key) h
  have he := C62_scheduler g cert key k
  rw [hl] at he
  refine ⟨C62_exported _ _ (lookup_isSome.1 (by rw [he]; rfl)) ?_, he⟩
  have hall : ∀ x ∈ Dict.keys (ownScheduler g cert key), ',' ∉ x := by
    change ∀ x ∈ ["DASK_GATEWAY_API_URL".toList, "DASK_GATEWAY_API_TOKEN".toList,
      "DASK_GATEWAY_CLUSTER_NAME".toList, "DASK_DISTRIBUTED__COMM__REQUIRE_ENCRYPTION".toList,
      "DASK_DISTRIBUTED__COMM__TLS__CA_FILE".toList, "DASK_DISTRIBUTED__COMM__TLS__SCHEDULER__KEY".toList,
      "DASK_DISTRIBUTED__COMM__TLS__SCHEDULER__CERT".toList], ',' ∉ x
    decide +kernel
  exact hall k (List.mem_map.2 ⟨_, h, rfl⟩)

/-- C62 for batch systems: and that of a worker. -/
theorem C62_exported_worker (g : Given) (cert key k v : Str) (h : (k, v) ∈ ownWorker g cert key) :
    Piece k (exported (workerEnv (getEnv g) cert key)) ∧
    lookup (workerEnv (getEnv g) cert key) k = some v := by
  have hl : lookup (ownWorker g cert key) k = some v := lookup_of_mem (nodupW g cert key) h
  have he := C62_worker g cert key k
  rw [hl] at he
  refine ⟨C62_exported _ _ (lookup_isSome.1 (by rw [he]; rfl)) ?_, he⟩
  have hall : ∀ x ∈ Dict.keys (ownWorker g cert key), ',' ∉ x := by
    change ∀ x ∈ ["DASK_GATEWAY_API_URL".toList, "DASK_GATEWAY_API_TOKEN".toList,
      "DASK_GATEWAY_CLUSTER_NAME".toList, "DASK_DISTRIBUTED__COMM__REQUIRE_ENCRYPTION".toList,
      "DASK_DISTRIBUTED__COMM__TLS__CA_FILE".toList, "DASK_DISTRIBUTED__COMM__TLS__WORKER__KEY".toList,
      "DASK_DISTRIBUTED__COMM__TLS__WORKER__CERT".toList], ',' ∉ x
    decide +kernel
  exact hall k (List.mem_map.2 ⟨_, h, rfl⟩)

/-! ### The local backend -/

private theorem inherit_lookup (os : List (Str × Str)) (l : List Str) (e : List (Str × Str)) (k : Str) :
    lookup (inherit os l e) k =
      if k ∈ l then (lookup os k).or (lookup e k) else lookup e k := by
  induction l generalizing e with
  | nil => rw [if_neg (by simp)]; rfl
  | cons a l ih =>
    rw [show inherit os (a :: l) e = inherit os l (match lookup os a with | some v => Dict.set e a v | none => e) from rfl, ih]
    by_cases ha : a = k
    · subst ha
      cases ho : lookup os a with
      | none => simp
      | some v => simp [lookup_set]
    · have hm : k ∈ a :: l ↔ k ∈ l := by simp [Ne.symm ha]
      cases ho : lookup os a with
      | none => simp only [hm]
      | some v => simp only [hm, lookup_set, if_neg ha]

/-- C62 for the local backend, in part: variables that are not among those to be inherited, nor `USER`, are
as they should be; in particular the gateway's own if none of them is configured to be inherited. Missing:
the inherited ones; see `C62_local_violated`. -/
theorem C62_local_scheduler_partial (g : Given) (inherited : List Str) (os : List (Str × Str)) (cert key k : Str)
    (hi : k ∉ inherited) (hu : k ≠ "USER".toList) :
    lookup (schedulerEnv (localEnv g inherited os) cert key) k =
      (lookup (ownScheduler g cert key) k).or (lookup g.environment k) := by
  rw [← C62_scheduler g cert key k]
  unfold schedulerEnv localEnv
  rw [lookup_update, lookup_update, lookup_set, if_neg (Ne.symm hu), inherit_lookup, if_neg hi]

/-- C62 for the local backend, in part, for workers. -/
theorem C62_local_worker_partial (g : Given) (inherited : List Str) (os : List (Str × Str)) (cert key k : Str)
    (hi : k ∉ inherited) (hu : k ≠ "USER".toList) :
    lookup (workerEnv (localEnv g inherited os) cert key) k =
      (lookup (ownWorker g cert key) k).or (lookup g.environment k) := by
  rw [← C62_worker g cert key k]
  unfold workerEnv localEnv
  rw [lookup_update, lookup_update, lookup_set, if_neg (Ne.symm hu), inherit_lookup, if_neg hi]

/-- C62 does not hold for the local backend: a configured variable that is also inherited, such as `PATH`
by default, has the gateway's value and not the configured one. -/
theorem C62_local_violated (g : Given) (inherited : List Str) (os : List (Str × Str)) (cert key v w : Str)
    (hi : "PATH".toList ∈ inherited) (ho : lookup os "PATH".toList = some w)
    (hc : lookup g.environment "PATH".toList = some v) :
    lookup (schedulerEnv (localEnv g inherited os) cert key) "PATH".toList = some w := by
  unfold schedulerEnv localEnv
  have h1 : lookup (List.reverse [("DASK_DISTRIBUTED__COMM__TLS__CA_FILE".toList, cert),
     ("DASK_DISTRIBUTED__COMM__TLS__SCHEDULER__KEY".toList, key),
     ("DASK_DISTRIBUTED__COMM__TLS__SCHEDULER__CERT".toList, cert)]) "PATH".toList = none := by
    refine lookup_eq_none.2 ?_
    change "PATH".toList ∉ ["DASK_DISTRIBUTED__COMM__TLS__SCHEDULER__CERT".toList,
      "DASK_DISTRIBUTED__COMM__TLS__SCHEDULER__KEY".toList, "DASK_DISTRIBUTED__COMM__TLS__CA_FILE".toList]
    decide +kernel
  have h2 : ¬"USER".toList = "PATH".toList := by decide +kernel
  rw [lookup_update, h1, lookup_set, if_neg h2, inherit_lookup, if_pos hi, ho]
  rfl

/-- A configuration that tries to set the token, and sets another variable. -/
def sample : Given :=
  { apiUrl := "http://g/api".toList, environment := [("DASK_GATEWAY_API_TOKEN".toList, "x".toList),
      ("A".toList, "1".toList), ("PATH".toList, "/mine".toList)],
    token := "t".toList, name := "c".toList, user := "u".toList }

example :
    lookup (schedulerEnv (getEnv sample) "crt".toList "pem".toList) "DASK_GATEWAY_API_TOKEN".toList = some "t".toList ∧
    lookup (schedulerEnv (getEnv sample) "crt".toList "pem".toList) "A".toList = some "1".toList ∧
    lookup (workerEnv (localEnv sample ["PATH".toList] [("PATH".toList, "/bin".toList)]) "crt".toList "pem".toList)
      "PATH".toList = some "/bin".toList ∧
    exported [("B".toList, []), ("A".toList, [])] = "A,B".toList := by decide +kernel

end Verif.Env

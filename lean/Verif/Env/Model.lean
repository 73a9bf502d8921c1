import Verif.Dict
/-
Model of the environment of schedulers and workers of the backends with a database:
dask-gateway-server/dask_gateway_server/backends/db_base.py, local.py, jobqueue/slurm.py and
jobqueue/pbs.py.
-/
namespace Verif.Env

/-- What the environment depends on: the address of the API (`self.api_url`, db_base.py:1396), and the
configured environment, the token, the name and the user of the cluster (db_base.py:1392-1398,
local.py:216). -/
structure Given where
  apiUrl : Str
  environment : List (Str × Str)
  token : Str
  name : Str
  user : Str

/-- db_base.py:1390-1402 `get_env` -/
def getEnv (g : Given) : List (Str × Str) :=
  Dict.update g.environment
    [("DASK_GATEWAY_API_URL".toList, g.apiUrl),
     ("DASK_GATEWAY_API_TOKEN".toList, g.token),
     ("DASK_GATEWAY_CLUSTER_NAME".toList, g.name),
     ("DASK_DISTRIBUTED__COMM__REQUIRE_ENCRYPTION".toList, "True".toList)]

/-- local.py:213-215 the loop over the inherited variables -/
def inherit (os : List (Str × Str)) (inherited : List Str) (env : List (Str × Str)) : List (Str × Str) :=
  inherited.foldl (fun e k => match lookup os k with | some v => Dict.set e k v | none => e) env

/-- local.py:211-217 `get_env`; `os` is the environment of the gateway. -/
def localEnv (g : Given) (inherited : List Str) (os : List (Str × Str)) : List (Str × Str) :=
  Dict.set (inherit os inherited (getEnv g)) "USER".toList g.user

/-- db_base.py:1404-1414 `get_scheduler_env`, from the result of `get_env` and `get_tls_paths`. -/
def schedulerEnv (env : List (Str × Str)) (cert key : Str) : List (Str × Str) :=
  Dict.update env
    [("DASK_DISTRIBUTED__COMM__TLS__CA_FILE".toList, cert),
     ("DASK_DISTRIBUTED__COMM__TLS__SCHEDULER__KEY".toList, key),
     ("DASK_DISTRIBUTED__COMM__TLS__SCHEDULER__CERT".toList, cert)]

/-- db_base.py:1416-1426 `get_worker_env` -/
def workerEnv (env : List (Str × Str)) (cert key : Str) : List (Str × Str) :=
  Dict.update env
    [("DASK_DISTRIBUTED__COMM__TLS__CA_FILE".toList, cert),
     ("DASK_DISTRIBUTED__COMM__TLS__WORKER__KEY".toList, key),
     ("DASK_DISTRIBUTED__COMM__TLS__WORKER__CERT".toList, cert)]

/-- `a <= b` of strings, by code points (slurm.py:99). -/
def strLe : Str → Str → Bool
  | [], _ => true
  | _ :: _, [] => false
  | a :: s, b :: t => if a = b then strLe s t else decide (a.toNat < b.toNat)

/-- One string put in its place (the `sorted` of slurm.py:99 and pbs.py:159). -/
def insert (a : Str) : List Str → List Str
  | [] => [a]
  | b :: l => if strLe a b then a :: b :: l else b :: insert a l

/-- `sorted(env)` (slurm.py:99, pbs.py:159) -/
def sorted (l : List Str) : List Str := l.foldr insert []

/-- `",".join(l)` (slurm.py:99, pbs.py:159) -/
def joinComma : List Str → Str
  | [] => []
  | [a] => a
  | a :: b :: l => a ++ ',' :: joinComma (b :: l)

/-- slurm.py:99, pbs.py:159 the names of the variables that the job is to get. -/
def exported (env : List (Str × Str)) : Str := joinComma (sorted (Dict.keys env))

end Verif.Env

import Verif.Client.Model
/-
Model of the messages of errors on their way from the gateway to its users:
dask-gateway-server/dask_gateway_server/routes.py:9-22, 104-130, 156-160, 188-200, 214-215, 228-232, 262-263,
dask-gateway/dask_gateway/client.py:406-422.

`HTTPException` of aiohttp, modelled from memory and not checked: a `reason` with a line feed in it is refused with
`ValueError` where the exception is made. Older releases that the project allows (`aiohttp>=3.9.0`) may not refuse it; this
is the parameter `strict`.
-/
namespace Verif.Client

/-- Why a request of a user is refused (routes.py:104-263). That for the stop of a cluster of somebody else (routes.py:172-175)
says `stop` for `view`. -/
inductive Fault where
  /-- the statuses of a listing are not known: `str(exc)` (routes.py:109-110) -/
  | badStatus (msg : Str)
  /-- a cluster cannot be started with these options: the message of whatever the options or the handler of the
  administrator raised (routes.py:125-130, backends/base.py:101-103) -/
  | refused (msg : Str)
  /-- there is no such cluster (routes.py:156, 188, 228) -/
  | notFound (name : Str)
  /-- it is the cluster of somebody else (routes.py:158-160, 190-192, 230-232) -/
  | forbidden (user name : Str)
  /-- the count of a scale request, as text (routes.py:196-199) -/
  | badCount (count : Str)
  /-- the scheduler cannot be told (routes.py:214-215, 262-263) -/
  | conflict (msg : Str)
  deriving DecidableEq, Repr

/-- The status and the reason of the exception (the lines are with the constructors; routes.py:104-263). -/
def Fault.http : Fault → Nat × Str
  | .badStatus m => (422, m)
  | .refused m => (422, m)
  | .notFound n => (404, "Cluster ".toList ++ n ++ " not found".toList)
  | .forbidden u n => (403, "User ".toList ++ u ++ " lacks permissions to view cluster ".toList ++ n)
  | .badCount c => (422, "Scale expects a non-negative integer, got ".toList ++ c)
  | .conflict m => (409, m)

/-- What aiohttp answers to an exception of a handler that is no `HTTPException`, which `_wrap_error_handler` lets through
(routes.py:9-19); the text does not matter. -/
def trouble : Resp := ⟨500, none, "500 Internal Server Error".toList⟩

/-- routes.py:12-19: the answer to a request that was refused; its text is the JSON, which is not modelled. -/
def refusal (strict : Bool) (f : Fault) : Resp :=
  if strict && f.http.2.contains '\n' then trouble
  else ⟨f.http.1, some (.obj [("error".toList, .str f.http.2)]), []⟩

/-- What the call of the user comes to (client.py:406-422). -/
def told (strict : Bool) (f : Fault) : Except Exn Resp := conclude (refusal strict f)

end Verif.Client

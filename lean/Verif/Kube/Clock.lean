import Verif.Json
/-
Model of the times in cluster objects: dask-gateway-server/dask_gateway_server/backends/kubernetes/utils.py:17-24 with the parts of
Python's `datetime` it uses (its `_ymd2ord`, `_ord2ymd`, `fromisoformat`, `timestamp`), and of what the controller does with them:
controller.py:482-501, 631-635.
-/
namespace Verif.Kube.Clock

/-- A date (utils.py:18, 23). -/
structure Date where
  year : Nat
  month : Nat
  day : Nat
  deriving DecidableEq

/-- A date and a time of the day, UTC (utils.py:18-19, 23). -/
structure DateTime where
  date : Date
  hour : Nat
  minute : Nat
  second : Nat
  deriving DecidableEq

/-- `_is_leap` of `datetime` (utils.py:18, 23). -/
def isLeap (y : Nat) : Bool := decide (y % 4 = 0) && (decide (y % 100 ≠ 0) || decide (y % 400 = 0))

/-- `_DAYS_IN_MONTH` with `_days_in_month` of `datetime` (utils.py:18, 23). -/
def daysIn (leap : Bool) (m : Nat) : Nat :=
  if m = 2 && leap then 29 else [0, 31, 28, 31, 30, 31, 30, 31, 31, 30, 31, 30, 31].getD m 0

/-- `_DAYS_BEFORE_MONTH` with `_days_before_month` of `datetime` (utils.py:18, 23). -/
def daysBefore (leap : Bool) (m : Nat) : Nat :=
  [0, 0, 31, 59, 90, 120, 151, 181, 212, 243, 273, 304, 334].getD m 0 + (if decide (2 < m) && leap then 1 else 0)

/-- `_days_before_year` of `datetime` (utils.py:19). -/
def daysBeforeYear (y : Nat) : Nat := (y - 1) * 365 + (y - 1) / 4 - (y - 1) / 100 + (y - 1) / 400

/-- `_ymd2ord` of `datetime` (utils.py:19): the number of a day, 1 for 1 January of the year 1. -/
def toOrdinal (d : Date) : Nat := daysBeforeYear d.year + daysBefore (isLeap d.year) d.month + d.day

/-- The end of `_ord2ymd` of `datetime` (utils.py:23): month and day of the `n`-th day of a year, from 0. -/
def monthDay (leap : Bool) (n : Nat) : Nat × Nat :=
  let month := (n + 50) / 32
  if daysBefore leap month > n then (month - 1, n - (daysBefore leap month - daysIn leap (month - 1)) + 1)
  else (month, n - daysBefore leap month + 1)

/-- `_ord2ymd` of `datetime` (utils.py:23). -/
def ofOrdinal (ordinal : Nat) : Date :=
  let n := ordinal - 1
  let n400 := n / 146097
  let r400 := n % 146097
  let n100 := r400 / 36524
  let r100 := r400 % 36524
  let n4 := r100 / 1461
  let r4 := r100 % 1461
  let n1 := r4 / 365
  let r1 := r4 % 365
  let year := n400 * 400 + 1 + n100 * 100 + n4 * 4 + n1
  if n1 = 4 ∨ n100 = 4 then ⟨year - 1, 12, 31⟩
  else
    let leap := decide (n1 = 3) && (decide (n4 ≠ 24) || decide (n100 = 3))
    ⟨year, (monthDay leap r1).1, (monthDay leap r1).2⟩

/-- The number of 1 January 1970 (utils.py:19). -/
def epoch : Nat := 719163

/-- `datetime.now(timezone.utc)` for an instant in microseconds after 1970 (utils.py:23); the fraction of the second is not used. -/
def utcNow (us : Nat) : DateTime :=
  let s := us / 1000000
  ⟨ofOrdinal (epoch + s / 86400), s % 86400 / 3600, s % 3600 / 60, s % 60⟩

/-- A digit (utils.py:18, 24). -/
def digit (n : Nat) : Char := Char.ofNat (48 + n)

/-- A number with `k` digits (utils.py:24). -/
def padded : Nat → Nat → Str
  | 0, _ => []
  | k + 1, n => padded k (n / 10) ++ [digit (n % 10)]

/-- `strftime("%Y-%m-%dT%H:%M:%SZ")` (utils.py:24), for years with four digits. -/
def stamp (t : DateTime) : Str :=
  padded 4 t.date.year ++ '-' :: (padded 2 t.date.month ++ '-' :: (padded 2 t.date.day ++ 'T' :: (padded 2 t.hour ++
    ':' :: (padded 2 t.minute ++ ':' :: (padded 2 t.second ++ ['Z'])))))

/-- utils.py:22-24 `k8s_timestamp`. -/
def k8sTimestamp (us : Nat) : Str := stamp (utcNow us)

/-- The value of a digit (utils.py:18). -/
def digitValue (c : Char) : Option Nat := if 48 ≤ c.toNat ∧ c.toNat ≤ 57 then some (c.toNat - 48) else none

/-- A number of digits only (utils.py:18). -/
def number : Str → Nat → Option Nat
  | [], acc => some acc
  | c :: l, acc =>
    match digitValue c with
    | none => none
    | some v => number l (acc * 10 + v)

/-- The checks of `datetime` (utils.py:18): `none` is `ValueError`. -/
def checked (y mo d h mi s : Nat) : Option DateTime :=
  if 1 ≤ y ∧ 1 ≤ mo ∧ mo ≤ 12 ∧ 1 ≤ d ∧ d ≤ daysIn (isLeap y) mo ∧ h < 24 ∧ mi < 60 ∧ s < 60 then some ⟨⟨y, mo, d⟩, h, mi, s⟩
  else none

/-- `datetime.fromisoformat` (utils.py:18) for texts with date and time to the second; all others, some of which Python takes, are
refused here. `none` is `ValueError`. -/
def fromIso : Str → Option DateTime
  | [y1, y2, y3, y4, a, m1, m2, b, d1, d2, _, h1, h2, c, n1, n2, d, s1, s2] =>
    if a = '-' ∧ b = '-' ∧ c = ':' ∧ d = ':' then
      match number [y1, y2, y3, y4] 0, number [m1, m2] 0, number [d1, d2] 0, number [h1, h2] 0, number [n1, n2] 0,
        number [s1, s2] 0 with
      | some y, some mo, some dd, some h, some mi, some s => checked y mo dd h mi s
      | _, _, _, _, _, _ => none
    else none
  | _ => none

/-- `timestamp() * 1000` of a time in UTC (utils.py:19). The numbers are whole and below 2^53, so that floats are exact. -/
def millis (t : DateTime) : Int :=
  (((toOrdinal t.date : Int) - (epoch : Int)) * 86400 + (t.hour * 3600 + t.minute * 60 + t.second : Nat)) * 1000

/-- utils.py:17-19 `parse_k8s_timestamp`: the last character is dropped, whatever it is. -/
def parse (ts : Str) : Option Int := (fromIso ts.dropLast).map millis

/-- dask-gateway-server/dask_gateway_server/utils.py:14-16 `timestamp`: milliseconds. -/
def timestamp (us : Nat) : Int := (us / 1000 : Nat)

/-- controller.py:485-490: whether a record that ended at `stop` is removed, `age` in seconds (a setting). -/
def expired (us : Nat) (age : Rat) (stop : Int) : Bool := decide ((stop : Rat) ≤ (timestamp us : Rat) - age * 1000)

/-- controller.py:631-635: when a cluster ended, for the controller; `none` is an exception. -/
def stopTime (us : Nat) : Option Str → Option Int
  | none => some (timestamp us)
  | some ts => parse ts

/-- `datetime.fromtimestamp(ms / 1000)` (dask-gateway/dask_gateway/client.py:200, 203), to the second, for a client whose clock is
`offset` seconds ahead of UTC at this instant. -/
def clientTime (offset : Int) (ms : Int) : DateTime :=
  let s := ms / 1000 + offset
  ⟨ofOrdinal ((epoch : Int) + s / 86400).toNat, (s % 86400 / 3600).toNat, (s % 3600 / 60).toNat, (s % 60).toNat⟩

end Verif.Kube.Clock

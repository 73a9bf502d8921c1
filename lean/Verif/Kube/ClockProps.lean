import Verif.Kube.Clock
/-! C182: times in cluster objects are the instants they record. -/
set_option linter.unusedSimpArgs false
set_option linter.unusedVariables false
namespace Verif.Kube.Clock

/-! ### The calendar -/

/-- A leap year: every fourth year, but of the full centuries only every fourth. -/
def Leap (y : Nat) : Prop := (4 ∣ y ∧ ¬ 100 ∣ y) ∨ 400 ∣ y

instance (y : Nat) : Decidable (Leap y) := by unfold Leap; infer_instance

/-- Thirty days have September, April, June and November. -/
def monthLength (y m : Nat) : Nat :=
  if m = 9 ∨ m = 4 ∨ m = 6 ∨ m = 11 then 30 else if m = 2 then (if Leap y then 29 else 28) else 31

/-- A date that exists. -/
structure Date.Real (d : Date) : Prop where
  year : 1 ≤ d.year
  month : 1 ≤ d.month
  month' : d.month ≤ 12
  day : 1 ≤ d.day
  day' : d.day ≤ monthLength d.year d.month

/-- The day after. -/
def Date.next (d : Date) : Date :=
  if d.day < monthLength d.year d.month then ⟨d.year, d.month, d.day + 1⟩
  else if d.month < 12 then ⟨d.year, d.month + 1, 1⟩
  else ⟨d.year + 1, 1, 1⟩

/-- The day `n` days after. -/
def Date.after (d : Date) : Nat → Date
  | 0 => d
  | n + 1 => (d.after n).next

theorem isLeap_iff (y : Nat) : isLeap y = true ↔ Leap y := by
  unfold isLeap Leap
  simp only [Bool.and_eq_true, Bool.or_eq_true, decide_eq_true_eq]
  omega

theorem daysIn_eq (y m : Nat) (h1 : 1 ≤ m) (h2 : m ≤ 12) : daysIn (isLeap y) m = monthLength y m := by
  have hf : ∀ l : Bool, ∀ m : Fin 13, 1 ≤ m.val → daysIn l m.val =
      (if m.val = 9 ∨ m.val = 4 ∨ m.val = 6 ∨ m.val = 11 then 30 else if m.val = 2 then (if l = true then 29 else 28) else 31) := by
    decide
  rw [hf (isLeap y) ⟨m, by omega⟩ h1]
  unfold monthLength
  dsimp only
  by_cases hl : Leap y
  · rw [if_pos ((isLeap_iff y).mpr hl), if_pos hl]
  · rw [if_neg (fun h => hl ((isLeap_iff y).mp h)), if_neg hl]

theorem before_succ (l : Bool) (m : Nat) (h1 : 1 ≤ m) (h2 : m < 12) : daysBefore l (m + 1) = daysBefore l m + daysIn l m := by
  have hf : ∀ l : Bool, ∀ m : Fin 12, 1 ≤ m.val → daysBefore l (m.val + 1) = daysBefore l m.val + daysIn l m.val := by decide
  exact hf l ⟨m, h2⟩ h1

theorem before_last (l : Bool) : daysBefore l 12 + daysIn l 12 = if l then 366 else 365 := by cases l <;> rfl

theorem before_first (l : Bool) : daysBefore l 1 = 0 := by cases l <;> rfl

theorem beforeYear_succ (y : Nat) (h : 1 ≤ y) : daysBeforeYear (y + 1) = daysBeforeYear y + if isLeap y then 366 else 365 := by
  unfold daysBeforeYear isLeap
  by_cases h4 : y % 4 = 0 <;> by_cases h100 : y % 100 = 0 <;> by_cases h400 : y % 400 = 0 <;>
    simp [h4, h100, h400] <;> omega

theorem ordinal_next (d : Date) (h : d.Real) : toOrdinal d.next = toOrdinal d + 1 ∧ d.next.Real := by
  have hd := daysIn_eq d.year d.month h.month h.month'
  have hlen : ∀ y m : Nat, 1 ≤ monthLength y m := by
    intro y m; unfold monthLength; split <;> (try split) <;> (try split) <;> omega
  unfold Date.next
  split
  · next hlt =>
    refine ⟨?_, ⟨h.year, h.month, h.month', by dsimp only; omega, by dsimp only; omega⟩⟩
    unfold toOrdinal; dsimp only; omega
  · next hge =>
    have hday := h.day'
    split
    · next hm =>
      refine ⟨?_, ⟨h.year, by dsimp only; omega, by dsimp only; omega, by dsimp only; omega, hlen _ _⟩⟩
      unfold toOrdinal
      dsimp only
      rw [before_succ _ _ h.month hm, hd]
      omega
    · next hm =>
      have hm12 : d.month = 12 := by have := h.month'; omega
      refine ⟨?_, ⟨by dsimp only; omega, by dsimp only; omega, by dsimp only; omega, by dsimp only; omega, hlen _ _⟩⟩
      unfold toOrdinal
      dsimp only
      rw [before_first, beforeYear_succ _ h.year]
      have hl := before_last (isLeap d.year)
      rw [hm12] at hd hday hge ⊢
      rw [← hd] at hday hge
      omega

theorem beforeYear_mono (y k : Nat) (h : 1 ≤ y) : daysBeforeYear y + k * 365 ≤ daysBeforeYear (y + k) := by
  induction k with
  | zero => simp
  | succ k ih =>
    rw [← Nat.add_assoc, beforeYear_succ _ (Nat.le_trans h (Nat.le_add_right y k)), Nat.succ_mul, ← Nat.add_assoc]
    refine Nat.add_le_add ih ?_
    cases isLeap (y + k) <;> decide

theorem in_year (d : Date) (h : d.Real) :
    daysBeforeYear d.year + 1 ≤ toOrdinal d ∧ toOrdinal d ≤ daysBeforeYear (d.year + 1) := by
  have hd := daysIn_eq d.year d.month h.month h.month'
  have hf : ∀ l : Bool, ∀ m : Fin 13, 1 ≤ m.val → daysBefore l m.val + daysIn l m.val ≤ if l then 366 else 365 := by decide
  have hb := hf (isLeap d.year) ⟨d.month, by have := h.month'; omega⟩ h.month
  dsimp only at hb
  have h1 := h.day
  have h2 := h.day'
  rw [beforeYear_succ _ h.year]
  unfold toOrdinal
  rw [hd] at hb
  omega

theorem ordinal_inj (d e : Date) (hd : d.Real) (he : e.Real) (h : toOrdinal d = toOrdinal e) : d = e := by
  have hy : d.year = e.year := by
    have a := in_year d hd
    have b := in_year e he
    rcases Nat.lt_trichotomy d.year e.year with hlt | heq | hgt
    · exfalso
      have := beforeYear_mono (d.year + 1) (e.year - (d.year + 1)) (by omega)
      rw [show d.year + 1 + (e.year - (d.year + 1)) = e.year by omega] at this
      omega
    · exact heq
    · exfalso
      have := beforeYear_mono (e.year + 1) (d.year - (e.year + 1)) (by omega)
      rw [show e.year + 1 + (d.year - (e.year + 1)) = d.year by omega] at this
      omega
  have hf : ∀ l : Bool, ∀ m n : Fin 13, 1 ≤ m.val → m.val < n.val → daysBefore l m.val + daysIn l m.val ≤ daysBefore l n.val := by
    decide
  have h1 := daysIn_eq d.year d.month hd.month hd.month'
  have h2 := daysIn_eq e.year e.month he.month he.month'
  have hm : d.month = e.month := by
    unfold toOrdinal at h
    rw [← hy] at h h2
    have a1 := hd.day
    have a2 := hd.day'
    have b1 := he.day
    have b2 := he.day'
    rw [← h1] at a2
    rw [← hy, ← h2] at b2
    rcases Nat.lt_trichotomy d.month e.month with hlt | heq | hgt
    · exfalso
      have := hf (isLeap d.year) ⟨d.month, by have := hd.month'; omega⟩ ⟨e.month, by have := he.month'; omega⟩ hd.month hlt
      dsimp only at this
      omega
    · exact heq
    · exfalso
      have := hf (isLeap d.year) ⟨e.month, by have := he.month'; omega⟩ ⟨d.month, by have := hd.month'; omega⟩ he.month hgt
      dsimp only at this
      omega
  unfold toOrdinal at h
  rw [hy, hm] at h
  obtain ⟨y, m, x⟩ := d
  obtain ⟨y', m', x'⟩ := e
  dsimp only at hy hm h
  subst hy hm
  congr 1
  omega

theorem monthDay_spec (l : Bool) (n : Nat) (h : n < if l then 366 else 365) :
    1 ≤ (monthDay l n).1 ∧ (monthDay l n).1 ≤ 12 ∧ 1 ≤ (monthDay l n).2 ∧ (monthDay l n).2 ≤ daysIn l (monthDay l n).1 ∧
      daysBefore l (monthDay l n).1 + (monthDay l n).2 = n + 1 := by
  have key : ∀ l : Bool, ∀ n : Fin 366, (n.val < if l then 366 else 365) →
      1 ≤ (monthDay l n.val).1 ∧ (monthDay l n.val).1 ≤ 12 ∧ 1 ≤ (monthDay l n.val).2 ∧
      (monthDay l n.val).2 ≤ daysIn l (monthDay l n.val).1 ∧
      daysBefore l (monthDay l n.val).1 + (monthDay l n.val).2 = n.val + 1 := by
    decide +kernel
  exact key l ⟨n, by split at h <;> omega⟩ h

theorem ordinal_of (n : Nat) (hn : 1 ≤ n) : toOrdinal (ofOrdinal n) = n ∧ (ofOrdinal n).Real := by
  unfold ofOrdinal
  dsimp only
  generalize hm : n - 1 = m
  have hnm : n = m + 1 := by omega
  generalize ha : m / 146097 = a
  generalize hra : m % 146097 = ra
  generalize hb : ra / 36524 = b
  generalize hrb : ra % 36524 = rb
  generalize hc : rb / 1461 = c
  generalize hrc : rb % 1461 = rc
  generalize he : rc / 365 = e
  generalize hre : rc % 365 = re
  have hb4 : b ≤ 4 := by omega
  have hc24 : c ≤ 24 := by omega
  have he4 : e ≤ 4 := by omega
  split
  · next hx =>
    have hreal : (⟨a * 400 + 1 + b * 100 + c * 4 + e - 1, 12, 31⟩ : Date).Real := by
      refine ⟨?_, by dsimp only; omega, by dsimp only; omega, by dsimp only; omega, ?_⟩
      · dsimp only; omega
      · show 31 ≤ monthLength _ 12
        unfold monthLength
        simp
    refine ⟨?_, hreal⟩
    unfold toOrdinal
    dsimp only
    have hleap : isLeap (a * 400 + 1 + b * 100 + c * 4 + e - 1) = true := by
      rw [isLeap_iff]
      unfold Leap
      omega
    rw [hleap]
    have : daysBefore true 12 = 335 := by decide
    rw [this]
    unfold daysBeforeYear
    rcases hx with hx | hx
    · have hc23 : c ≤ 23 := by omega
      have hb3 : b ≤ 3 := by omega
      have hy : a * 400 + 1 + b * 100 + c * 4 + e - 1 - 1 = 400 * a + 100 * b + 4 * c + 3 := by omega
      rw [hy]
      have d1 : (400 * a + 100 * b + 4 * c + 3) / 4 = 100 * a + 25 * b + c := by omega
      have d2 : (400 * a + 100 * b + 4 * c + 3) / 100 = 4 * a + b := by omega
      have d3 : (400 * a + 100 * b + 4 * c + 3) / 400 = a := by omega
      rw [d1, d2, d3]
      omega
    · have hc0 : c = 0 := by omega
      have he0 : e = 0 := by omega
      have hy : a * 400 + 1 + b * 100 + c * 4 + e - 1 - 1 = 400 * a + 399 := by omega
      rw [hy]
      have d1 : (400 * a + 399) / 4 = 100 * a + 99 := by omega
      have d2 : (400 * a + 399) / 100 = 4 * a + 3 := by omega
      have d3 : (400 * a + 399) / 400 = a := by omega
      rw [d1, d2, d3]
      omega
  · next hx =>
    have hb3 : b ≤ 3 := by omega
    have he3 : e ≤ 3 := by omega
    generalize hl : (decide (e = 3) && (decide (c ≠ 24) || decide (b = 3))) = l
    have hleap : isLeap (a * 400 + 1 + b * 100 + c * 4 + e) = l := by
      rw [Bool.eq_iff_iff, isLeap_iff, ← hl]
      unfold Leap
      simp only [Bool.and_eq_true, Bool.or_eq_true, decide_eq_true_eq]
      omega
    have hre' : re < if l then 366 else 365 := by split <;> omega
    obtain ⟨m1, m2, m3, m4, m5⟩ := monthDay_spec l re hre'
    constructor
    · unfold toOrdinal
      dsimp only
      rw [hleap, Nat.add_assoc, m5]
      unfold daysBeforeYear
      have hy : a * 400 + 1 + b * 100 + c * 4 + e - 1 = 400 * a + 100 * b + 4 * c + e := by omega
      rw [hy]
      have d1 : (400 * a + 100 * b + 4 * c + e) / 4 = 100 * a + 25 * b + c := by omega
      have d2 : (400 * a + 100 * b + 4 * c + e) / 100 = 4 * a + b := by omega
      have d3 : (400 * a + 100 * b + 4 * c + e) / 400 = a := by omega
      rw [d1, d2, d3]
      omega
    · refine ⟨?_, m1, m2, m3, ?_⟩
      · dsimp only; omega
      · dsimp only
        rw [← daysIn_eq _ _ m1 m2, hleap]
        exact m4

/-- C182: the calendar is right: the `n`-th day after 1 January of the year 1 is the one that is found by going on day by day. -/
theorem C182_calendar (n : Nat) : ofOrdinal (n + 1) = (⟨1, 1, 1⟩ : Date).after n := by
  have key : ∀ n, toOrdinal ((⟨1, 1, 1⟩ : Date).after n) = n + 1 ∧ ((⟨1, 1, 1⟩ : Date).after n).Real := by
    intro n
    induction n with
    | zero => exact ⟨by decide, ⟨by decide, by decide, by decide, by decide, by decide⟩⟩
    | succ n ih =>
      obtain ⟨h1, h2⟩ := ordinal_next _ ih.2
      refine ⟨?_, h2⟩
      show toOrdinal ((⟨1, 1, 1⟩ : Date).after n).next = _
      rw [h1, ih.1]
  obtain ⟨h1, h2⟩ := ordinal_of (n + 1) (by omega)
  obtain ⟨h3, h4⟩ := key n
  exact ordinal_inj _ _ h2 h4 (h1.trans h3.symm)

/-! ### Texts -/

theorem digit_value (n : Nat) (h : n < 10) : digitValue (digit n) = some n := by
  have key : ∀ n : Fin 10, digitValue (digit n.val) = some n.val := by decide
  exact key ⟨n, h⟩

theorem number_append (l : Str) (c : Char) (a : Nat) :
    number (l ++ [c]) a = (number l a).bind (fun v => (digitValue c).map (fun d => v * 10 + d)) := by
  induction l generalizing a with
  | nil =>
    show number [c] a = _
    unfold number
    cases digitValue c <;> rfl
  | cons x l ih =>
    show number (x :: (l ++ [c])) a = _
    unfold number
    cases digitValue x with
    | none => rfl
    | some v => exact ih _

theorem number_padded (k n : Nat) (h : n < 10 ^ k) : number (padded k n) 0 = some n := by
  induction k generalizing n with
  | zero =>
    have : n = 0 := by simp at h; omega
    subst this; rfl
  | succ k ih =>
    unfold padded
    rw [number_append, ih (n / 10) (by rw [Nat.pow_succ] at h; omega), digit_value _ (by omega)]
    show some (n / 10 * 10 + n % 10) = some n
    congr 1
    omega

/-- A time that exists, in a year of four digits. -/
structure DateTime.Real (t : DateTime) : Prop where
  date : t.date.Real
  year : t.date.year < 10000
  hour : t.hour < 24
  minute : t.minute < 60
  second : t.second < 60

theorem padded2 (n : Nat) : padded 2 n = [digit (n / 10 % 10), digit (n % 10)] := by
  simp [padded]

theorem padded4 (n : Nat) : padded 4 n = [digit (n / 10 / 10 / 10 % 10), digit (n / 10 / 10 % 10), digit (n / 10 % 10), digit (n % 10)] := by
  simp [padded]

theorem from_stamp (t : DateTime) (h : t.Real) : fromIso (stamp t).dropLast = some t := by
  have hml : ∀ y m : Nat, monthLength y m ≤ 31 := by
    intro y m; unfold monthLength; split <;> (try split) <;> (try split) <;> omega
  have hd31 : t.date.day ≤ 31 := Nat.le_trans h.date.day' (hml _ _)
  have hm12 := h.date.month'
  have e : (stamp t).dropLast =
      [digit (t.date.year / 10 / 10 / 10 % 10), digit (t.date.year / 10 / 10 % 10), digit (t.date.year / 10 % 10), digit (t.date.year % 10),
        '-', digit (t.date.month / 10 % 10), digit (t.date.month % 10), '-', digit (t.date.day / 10 % 10), digit (t.date.day % 10), 'T',
        digit (t.hour / 10 % 10), digit (t.hour % 10), ':', digit (t.minute / 10 % 10), digit (t.minute % 10), ':',
        digit (t.second / 10 % 10), digit (t.second % 10)] := by
    unfold stamp
    rw [padded4, padded2, padded2, padded2, padded2, padded2]
    rfl
  rw [e]
  unfold fromIso
  dsimp only
  rw [if_pos ⟨rfl, rfl, rfl, rfl⟩, ← padded4, ← padded2, ← padded2, ← padded2, ← padded2, ← padded2,
    number_padded 4 _ (by have := h.year; omega), number_padded 2 _ (by omega), number_padded 2 _ (by omega),
    number_padded 2 _ (by have := h.hour; omega), number_padded 2 _ (by have := h.minute; omega),
    number_padded 2 _ (by have := h.second; omega)]
  dsimp only
  unfold checked
  have hday : t.date.day ≤ daysIn (isLeap t.date.year) t.date.month := by
    rw [daysIn_eq _ _ h.date.month h.date.month']
    exact h.date.day'
  rw [if_pos ⟨h.date.year, h.date.month, h.date.month', h.date.day, hday, h.hour, h.minute, h.second⟩]

theorem since_epoch (n : Nat) :
    toOrdinal ((⟨1970, 1, 1⟩ : Date).after n) = epoch + n ∧ ((⟨1970, 1, 1⟩ : Date).after n).Real := by
  induction n with
  | zero => exact ⟨by decide, ⟨by decide, by decide, by decide, by decide, by decide⟩⟩
  | succ n ih =>
    obtain ⟨h1, h2⟩ := ordinal_next _ ih.2
    refine ⟨?_, h2⟩
    show toOrdinal ((⟨1970, 1, 1⟩ : Date).after n).next = _
    rw [h1, ih.1]
    omega

theorem of_epoch (n : Nat) : ofOrdinal (epoch + n) = (⟨1970, 1, 1⟩ : Date).after n := by
  obtain ⟨h1, h2⟩ := ordinal_of (epoch + n) (Nat.le_trans (by decide : 1 ≤ epoch) (Nat.le_add_right epoch n))
  obtain ⟨h3, h4⟩ := since_epoch n
  exact ordinal_inj _ _ h2 h4 (h1.trans h3.symm)

/-- C182: what is written is the date and the time of the instant: with `days` days after 1 January 1970, counted one by one, and so
many hours, minutes, seconds and microseconds, the date of that day, and these hours, minutes and seconds. -/
theorem C182_written (days h m s f : Nat) (hh : h < 24) (hm : m < 60) (hs : s < 60) (hf : f < 1000000) :
    k8sTimestamp ((days * 86400 + h * 3600 + m * 60 + s) * 1000000 + f) = stamp ⟨(⟨1970, 1, 1⟩ : Date).after days, h, m, s⟩ := by
  unfold k8sTimestamp utcNow
  dsimp only
  have e0 : ((days * 86400 + h * 3600 + m * 60 + s) * 1000000 + f) / 1000000 = days * 86400 + h * 3600 + m * 60 + s := by omega
  rw [e0]
  clear e0
  generalize hq : days * 86400 + h * 3600 + m * 60 + s = q
  have e1 : q / 86400 = days := by omega
  have e2 : q % 86400 / 3600 = h := by omega
  have e3 : q % 3600 / 60 = m := by omega
  have e4 : q % 60 = s := by omega
  rw [e1, e2, e3, e4, of_epoch]

/-- C182: a time as the API server writes it is read as the instant that it is: so many days after 1 January 1970, counted one by one,
and so many seconds into the day. -/
theorem C182_creation (days h m s : Nat) (hy : ((⟨1970, 1, 1⟩ : Date).after days).year < 10000) (hh : h < 24) (hm : m < 60) (hs : s < 60) :
    parse (stamp ⟨(⟨1970, 1, 1⟩ : Date).after days, h, m, s⟩) =
      some ((days * 86400 + h * 3600 + m * 60 + s : Nat) * 1000 : Int) := by
  obtain ⟨k1, k2⟩ := since_epoch days
  unfold parse
  rw [from_stamp _ ⟨k2, hy, hh, hm, hs⟩]
  show some (millis _) = _
  congr 1
  unfold millis
  dsimp only
  rw [k1]
  omega

/-- The year 10000 is still to come. -/
def BeforeYear10000 (us : Nat) : Prop := us < 253402300800 * 1000000

theorem year_bound (n : Nat) (h1 : 1 ≤ n) (h2 : n ≤ 3652059) : (ofOrdinal n).year < 10000 := by
  obtain ⟨a, b⟩ := ordinal_of n h1
  have c := (in_year _ b).1
  rw [a] at c
  rcases Nat.lt_or_ge (ofOrdinal n).year 10000 with h | h
  · exact h
  · exfalso
    have := beforeYear_mono 10000 ((ofOrdinal n).year - 10000) (by decide)
    rw [show 10000 + ((ofOrdinal n).year - 10000) = (ofOrdinal n).year by omega] at this
    have e : daysBeforeYear 10000 = 3652059 := by decide
    omega

theorem parse_now (us : Nat) (h : BeforeYear10000 us) : parse (k8sTimestamp us) = some ((us / 1000000 : Nat) * 1000 : Int) := by
  have hb : us < 253402300800 * 1000000 := h
  generalize hs : us / 1000000 = s
  have hs' : s < 253402300800 := by omega
  obtain ⟨a, b⟩ := ordinal_of (epoch + s / 86400) (by unfold epoch; omega)
  unfold parse k8sTimestamp utcNow
  dsimp only
  rw [hs]
  rw [from_stamp _ ⟨b, year_bound _ (by unfold epoch; omega) (by unfold epoch; omega), by dsimp only; omega, by dsimp only; omega,
    by dsimp only; omega⟩]
  show some (millis _) = _
  congr 1
  unfold millis
  dsimp only
  rw [a]
  omega

/-- C182: the time at which a cluster ended is read as the instant at which it was written, to the second. -/
theorem C182_round_trip (us : Nat) (h : BeforeYear10000 us) :
    ∃ ms, parse (k8sTimestamp us) = some ms ∧ ms * 1000 ≤ us ∧ (us : Int) < ms * 1000 + 1000000 ∧ ms % 1000 = 0 := by
  refine ⟨_, parse_now us h, ?_, ?_, ?_⟩ <;> omega

/-- C182: times that are written later are not read as earlier. -/
theorem C182_order (us vs : Nat) (h : us ≤ vs) (hv : BeforeYear10000 vs) :
    ∃ a b, parse (k8sTimestamp us) = some a ∧ parse (k8sTimestamp vs) = some b ∧ a ≤ b := by
  refine ⟨_, _, parse_now us (Nat.lt_of_le_of_lt h hv), parse_now vs hv, ?_⟩
  omega

/-- C182: times are read one way only: two times that exist and are read as the same instant are the same. -/
theorem C182_unique (t u : DateTime) (ht : t.Real) (hu : u.Real) (h : parse (stamp t) = parse (stamp u)) : t = u := by
  unfold parse at h
  rw [from_stamp t ht, from_stamp u hu] at h
  have h : millis t = millis u := Option.some.inj h
  unfold millis at h
  have h1 := ht.hour; have h2 := ht.minute; have h3 := ht.second
  have h4 := hu.hour; have h5 := hu.minute; have h6 := hu.second
  obtain ⟨d, a, b, c⟩ := t
  obtain ⟨d', a', b', c'⟩ := u
  dsimp only at h h1 h2 h3 h4 h5 h6
  have hd : d = d' := ordinal_inj d d' ht.date hu.date (by omega)
  subst hd
  have ha : a = a' := by omega
  have hb : b = b' := by omega
  have hc : c = c' := by omega
  subst ha hb hc
  rfl

/-- C182: a day or a time that does not exist is refused, not taken for another: for every text of this form. -/
theorem C182_refused (y mo d h mi s : Nat) (hy : y < 10000) (h1 : mo < 100) (h2 : d < 100) (h3 : h < 100) (h4 : mi < 100) (h5 : s < 100)
    (hn : ¬ (⟨⟨y, mo, d⟩, h, mi, s⟩ : DateTime).Real) : parse (stamp ⟨⟨y, mo, d⟩, h, mi, s⟩) = none := by
  have e : (stamp ⟨⟨y, mo, d⟩, h, mi, s⟩).dropLast =
      [digit (y / 10 / 10 / 10 % 10), digit (y / 10 / 10 % 10), digit (y / 10 % 10), digit (y % 10),
        '-', digit (mo / 10 % 10), digit (mo % 10), '-', digit (d / 10 % 10), digit (d % 10), 'T',
        digit (h / 10 % 10), digit (h % 10), ':', digit (mi / 10 % 10), digit (mi % 10), ':',
        digit (s / 10 % 10), digit (s % 10)] := by
    unfold stamp
    rw [padded4, padded2, padded2, padded2, padded2, padded2]
    rfl
  unfold parse
  rw [e]
  unfold fromIso
  dsimp only
  rw [if_pos ⟨rfl, rfl, rfl, rfl⟩, ← padded4, ← padded2, ← padded2, ← padded2, ← padded2, ← padded2,
    number_padded 4 _ (by omega), number_padded 2 _ (by omega), number_padded 2 _ (by omega),
    number_padded 2 _ (by omega), number_padded 2 _ (by omega), number_padded 2 _ (by omega)]
  dsimp only
  unfold checked
  rw [if_neg]
  · rfl
  · rintro ⟨a1, a2, a3, a4, a5, a6, a7, a8⟩
    rw [daysIn_eq _ _ a2 a3] at a5
    exact hn ⟨⟨a1, a2, a3, a4, a5⟩, hy, a6, a7, a8⟩

/-! ### What is done with them -/

theorem cast_lt (a b k : Nat) (h : a < b * k + k) : (a : Rat) < (b : Rat) * (k : Rat) + (k : Rat) := by exact_mod_cast h

theorem cast_le (a b k : Nat) (h : a * k ≤ b) : (a : Rat) * (k : Rat) ≤ (b : Rat) := by exact_mod_cast h

/-- C182: the record of a cluster that ended is removed once the age from the settings is over, to the second: not more than a second
before, and not more than a millisecond, the grain of the clock, after. -/
theorem C182_expiry (us now : Nat) (age : Rat) (h : BeforeYear10000 us) (at' : Nat) :
    ∃ stop, stopTime at' (some (k8sTimestamp us)) = some stop ∧
      (expired now age stop = true → (age - 1) * 1000000 < (now : Rat) - us) ∧
      ((age + 1 / 1000) * 1000000 ≤ (now : Rat) - us → expired now age stop = true) := by
  have c6 : ((1000000 : Nat) : Rat) = 1000000 := Rat.natCast_ofNat
  have c3 : ((1000 : Nat) : Rat) = 1000 := Rat.natCast_ofNat
  have hcast : (((((us / 1000000 : Nat) : Int) * 1000 : Int)) : Rat) = ((us / 1000000 : Nat) : Rat) * 1000 := by
    rw [Rat.intCast_mul, Rat.intCast_natCast]
    rfl
  refine ⟨_, parse_now us h, ?_, ?_⟩
  · intro hx
    unfold expired timestamp at hx
    rw [decide_eq_true_iff, hcast, Rat.intCast_natCast] at hx
    have h1 := cast_lt us (us / 1000000) 1000000 (by omega)
    have h2 := cast_le (now / 1000) now 1000 (by omega)
    rw [c6] at h1
    rw [c3] at h2
    generalize ((us / 1000000 : Nat) : Rat) = x at h1 hx
    generalize ((now / 1000 : Nat) : Rat) = y at h2 hx
    grind
  · intro hx
    unfold expired timestamp
    rw [decide_eq_true_iff, hcast, Rat.intCast_natCast]
    have h1 := cast_le (us / 1000000) us 1000000 (by omega)
    have h2 := cast_lt now (now / 1000) 1000 (by omega)
    rw [c6] at h1
    rw [c3] at h2
    generalize ((us / 1000000 : Nat) : Rat) = x at h1 ⊢
    generalize ((now / 1000 : Nat) : Rat) = y at h2 ⊢
    grind

/-- C182: a client whose clock runs on UTC shows the date and the time that are in the object. -/
theorem C182_client (t : DateTime) (h : t.Real) (hy : 1970 ≤ t.date.year) :
    ∃ ms, parse (stamp t) = some ms ∧ clientTime 0 ms = t := by
  have hp : parse (stamp t) = some (millis t) := by unfold parse; rw [from_stamp t h]; rfl
  refine ⟨_, hp, ?_⟩
  have ho : epoch ≤ toOrdinal t.date := by
    have a := (in_year _ h.date).1
    have := beforeYear_mono 1970 (t.date.year - 1970) (by decide)
    rw [show 1970 + (t.date.year - 1970) = t.date.year by omega] at this
    have e : daysBeforeYear 1970 = 719162 := by decide
    unfold epoch
    omega
  obtain ⟨a, b⟩ := ordinal_of (toOrdinal t.date) (by unfold epoch at ho; omega)
  have hd := ordinal_inj _ _ b h.date a
  have h1 := h.hour; have h2 := h.minute; have h3 := h.second
  unfold clientTime millis
  dsimp only
  obtain ⟨d, x, y, z⟩ := t
  dsimp only at *
  generalize hq : (((toOrdinal d : Int) - (epoch : Int)) * 86400 + ((x * 3600 + y * 60 + z : Nat) : Int)) = q
  have hq' : q * 1000 / 1000 + 0 = q := by omega
  rw [hq']
  have e1 : ((epoch : Int) + q / 86400).toNat = toOrdinal d := by omega
  have e2 : (q % 86400 / 3600).toNat = x := by omega
  have e3 : (q % 3600 / 60).toNat = y := by omega
  have e4 : (q % 60).toNat = z := by omega
  rw [e1, e2, e3, e4, hd]

/-- C182: a client shows the date and the time of the instant on its own clock, which is `offset` seconds ahead of UTC. -/
theorem C182_local (offset ms : Int) (days h m s : Nat) (hh : h < 24) (hm : m < 60) (hs : s < 60)
    (he : ms / 1000 + offset = (days * 86400 + h * 3600 + m * 60 + s : Nat)) :
    clientTime offset ms = ⟨(⟨1970, 1, 1⟩ : Date).after days, h, m, s⟩ := by
  unfold clientTime
  dsimp only
  rw [he]
  generalize hq : ((days * 86400 + h * 3600 + m * 60 + s : Nat) : Int) = q
  have e1 : ((epoch : Int) + q / 86400).toNat = epoch + days := by omega
  have e2 : (q % 86400 / 3600).toNat = h := by omega
  have e3 : (q % 3600 / 60).toNat = m := by omega
  have e4 : (q % 60).toNat = s := by omega
  rw [e1, e2, e3, e4, of_epoch]

/-- The last character is not looked at: a time that is not in UTC is refused or, with a one-letter zone, taken for UTC. -/
theorem zone_ignored : ¬ ∀ (l : Str) (c : Char), c ≠ 'Z' → parse (l ++ [c]) = none := by
  intro h
  have := h "2024-02-29T12:00:00".toList 'A' (by decide)
  revert this
  decide +kernel

example : clientTime 7200 1709208000000 = ⟨⟨2024, 2, 29⟩, 14, 0, 0⟩ ∧ expired 1709294400000000 86400 1709208000000 = true ∧
    expired 1709294399000000 86400 1709208000000 = false ∧ stopTime 1709208000123456 none = some 1709208000123 := by
  refine ⟨by decide +kernel, by decide +kernel, by decide +kernel, by decide +kernel⟩

example : k8sTimestamp 1709208000123456 = "2024-02-29T12:00:00Z".toList ∧
    parse "2024-02-29T12:00:00Z".toList = some 1709208000000 ∧
    parse "2023-02-29T12:00:00Z".toList = none ∧
    BeforeYear10000 1709208000123456 := by
  refine ⟨by decide +kernel, by decide +kernel, by decide +kernel, by unfold BeforeYear10000; decide⟩

theorem number_digits (l : Str) : ∀ (acc n : Nat), number l acc = some n → ∀ c ∈ l, c.isDigit = true := by
  induction l with
  | nil => intro _ _ _ c hc; cases hc
  | cons a l ih =>
    intro acc n h c hc
    unfold number at h
    cases hv : digitValue a with
    | none => rw [hv] at h; cases h
    | some v =>
      rw [hv] at h
      rcases List.mem_cons.1 hc with rfl | hc
      · unfold digitValue at hv
        split at hv
        · rename_i hd
          simp only [Char.isDigit, Bool.and_eq_true, decide_eq_true_eq]
          exact ⟨UInt32.le_iff_toNat_le.2 hd.1, UInt32.le_iff_toNat_le.2 hd.2⟩
        · cases hv
      · exact ih _ _ h c hc

/-- C182: a text in the form of a time in which something else stands for a digit is refused, and not read as some time. -/
theorem C182_garbled (y1 y2 y3 y4 m1 m2 d1 d2 t h1 h2 n1 n2 s1 s2 z : Char)
    (h : ∃ c ∈ [y1, y2, y3, y4, m1, m2, d1, d2, h1, h2, n1, n2, s1, s2], c.isDigit = false) :
    parse [y1, y2, y3, y4, '-', m1, m2, '-', d1, d2, t, h1, h2, ':', n1, n2, ':', s1, s2, z] = none := by
  show (fromIso [y1, y2, y3, y4, '-', m1, m2, '-', d1, d2, t, h1, h2, ':', n1, n2, ':', s1, s2]).map millis = none
  cases hf : fromIso [y1, y2, y3, y4, '-', m1, m2, '-', d1, d2, t, h1, h2, ':', n1, n2, ':', s1, s2] with
  | none => rfl
  | some v =>
    exfalso
    unfold fromIso at hf
    dsimp only at hf
    rw [if_pos (show ('-' : Char) = '-' ∧ ('-' : Char) = '-' ∧ (':' : Char) = ':' ∧ (':' : Char) = ':' from
      ⟨rfl, rfl, rfl, rfl⟩)] at hf
    split at hf
    · rename_i e1 e2 e3 e4 e5 e6
      obtain ⟨c, hc, hd⟩ := h
      have k1 := number_digits _ _ _ e1 c
      have k2 := number_digits _ _ _ e2 c
      have k3 := number_digits _ _ _ e3 c
      have k4 := number_digits _ _ _ e4 c
      have k5 := number_digits _ _ _ e5 c
      have k6 := number_digits _ _ _ e6 c
      simp only [List.mem_cons, List.not_mem_nil, or_false, hd, Bool.false_eq_true, imp_false, not_or] at hc k1 k2 k3 k4 k5 k6
      rcases hc with e | e | e | e | e | e | e | e | e | e | e | e | e | e <;> simp_all
    · cases hf

example : parse "2024-01-0:T00:00:00Z".toList = none ∧ parse "2024-01-01T00:00:00Z".toList ≠ none := by decide +kernel

end Verif.Kube.Clock

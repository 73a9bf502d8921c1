import Verif.Config.Model
/-! Property C44: resource limits bound the whole cluster. -/
set_option linter.unusedSimpArgs false
set_option linter.unusedVariables false
namespace Verif.Config

/-- A cluster with its scheduler and `k` workers stays within the limits. -/
def Fits (r : Res) (k : Int) : Prop :=
  (∀ m, r.maxMemory = some m → r.schedulerMemory + k * r.workerMemory ≤ m) ∧
  (∀ m, r.maxCores = some m → r.schedulerCores + (k : Rat) * r.workerCores ≤ m)

/-- The scheduler alone stays within the limits. -/
def SchedulerFits (r : Res) : Prop :=
  (∀ m, r.maxMemory = some m → r.schedulerMemory ≤ m) ∧
  (∀ m, r.maxCores = some m → r.schedulerCores ≤ m)

/-! ### The computed limit -/

private theorem fdiv_le {a b : Int} (hb : 0 < b) : a.fdiv b * b ≤ a := by
  rw [Int.fdiv_eq_ediv_of_nonneg a (by omega)]
  exact Int.ediv_mul_le a (by omega)

private theorem lt_fdiv {a b : Int} (hb : 0 < b) : a < (a.fdiv b + 1) * b := by
  rw [Int.fdiv_eq_ediv_of_nonneg a (by omega)]
  exact Int.lt_ediv_add_one_mul_self a hb

private theorem floor_mul_le {a b : Rat} (hb : 0 < b) : ((a / b).floor : Rat) * b ≤ a := by
  have h := Rat.mul_le_mul_of_nonneg_right (Rat.floor_le (a := a / b)) (Rat.le_of_lt hb)
  rwa [Rat.div_mul_cancel (by grind)] at h

private theorem lt_floor_mul {a b : Rat} (hb : 0 < b) :
    a < (((a / b).floor + 1 : Int) : Rat) * b := by
  have h := Rat.mul_lt_mul_of_pos_right (Rat.lt_floor (x := a / b)) hb
  have e : a / b * b = a := Rat.div_mul_cancel (by grind)
  rw [Rat.sub_eq_add_neg, Rat.add_mul, e] at h
  rw [Rat.intCast_add, Rat.add_mul]
  grind

/-- The parts of the computed limit. -/
private theorem workerLimit_ok {r : Res} {v : Option Int} (h : workerLimit r = .ok v) :
    ∃ a b, memoryLimit r = .ok a ∧ coresLimit r = .ok b ∧
      v = (minInf a b).map (fun n => if 0 ≤ n then n else 0) := by
  unfold workerLimit at h
  cases h1 : memoryLimit r with
  | error e => rw [h1] at h; cases h
  | ok a =>
    rw [h1] at h
    dsimp only at h
    cases h2 : coresLimit r with
    | error e => rw [h2] at h; cases h
    | ok b =>
      rw [h2] at h
      dsimp only at h
      refine ⟨a, b, rfl, rfl, ?_⟩
      cases h3 : minInf a b with
      | none => rw [h3] at h; cases h; rfl
      | some n => rw [h3] at h; cases h; rfl

private theorem memoryLimit_some {r : Res} {a : Option Int} (h : memoryLimit r = .ok a) {m : Int}
    (hm : r.maxMemory = some m) :
    r.workerMemory ≠ 0 ∧ a = some ((m - r.schedulerMemory).fdiv r.workerMemory) := by
  unfold memoryLimit at h
  rw [hm] at h
  dsimp only at h
  split at h
  · cases h
  · rename_i hw; cases h; exact ⟨hw, rfl⟩

private theorem coresLimit_some {r : Res} {a : Option Int} (h : coresLimit r = .ok a) {m : Rat}
    (hm : r.maxCores = some m) :
    r.workerCores ≠ 0 ∧ a = some ((m - r.schedulerCores) / r.workerCores).floor := by
  unfold coresLimit at h
  rw [hm] at h
  dsimp only at h
  split at h
  · cases h
  · rename_i hw; cases h; exact ⟨hw, rfl⟩

private theorem minInf_some {a b : Option Int} {n : Int} (h : minInf a b = some n) :
    (∀ x, a = some x → n ≤ x) ∧ (∀ x, b = some x → n ≤ x) ∧ (a = some n ∨ b = some n) := by
  cases a <;> cases b <;> simp only [minInf] at h
  · cases h
  · cases h; simp
  · cases h; simp
  · rename_i x y
    split at h <;> cases h
    · refine ⟨by simp, by simp; assumption, Or.inl rfl⟩
    · refine ⟨by simp; omega, by simp, Or.inr rfl⟩

/-- No limit is computed exactly if none is set. -/
private theorem limit_none {r : Res} (h : workerLimit r = .ok none) :
    r.maxMemory = none ∧ r.maxCores = none := by
  obtain ⟨a, b, h1, h2, h3⟩ := workerLimit_ok h
  have hn : minInf a b = none := by
    cases h4 : minInf a b with
    | none => rfl
    | some n => rw [h4] at h3; cases h3
  constructor
  · cases hm : r.maxMemory with
    | none => rfl
    | some m =>
      obtain ⟨_, rfl⟩ := memoryLimit_some h1 hm
      cases b <;> simp [minInf] at hn
  · cases hm : r.maxCores with
    | none => rfl
    | some m =>
      obtain ⟨_, rfl⟩ := coresLimit_some h2 hm
      cases a <;> simp [minInf] at hn

private theorem limit_fits {r : Res} {n k : Int} (h : workerLimit r = .ok (some n))
    (hs : SchedulerFits r) (h0 : 0 ≤ k) (hk : k ≤ n) : Fits r k := by
  by_cases hz : k = 0
  · subst hz
    exact ⟨fun m hm => by have := hs.1 m hm; omega, fun m hm => by have := hs.2 m hm; grind⟩
  obtain ⟨a, b, h1, h2, h3⟩ := workerLimit_ok h
  obtain ⟨q, hq⟩ : ∃ q, minInf a b = some q := by
    cases h4 : minInf a b with
    | none => rw [h4] at h3; cases h3
    | some q => exact ⟨q, rfl⟩
  rw [hq] at h3
  simp only [Option.map_some, Option.some.injEq] at h3
  have hkq : k ≤ q := by split at h3 <;> omega
  obtain ⟨m1, m2, _⟩ := minInf_some hq
  constructor
  · intro m hm
    obtain ⟨hw, ha⟩ := memoryLimit_some h1 hm
    have hle := m1 _ ha
    by_cases hp : 0 < r.workerMemory
    · have e1 := fdiv_le (a := m - r.schedulerMemory) hp
      have e2 : k * r.workerMemory ≤ (m - r.schedulerMemory).fdiv r.workerMemory * r.workerMemory :=
        Int.mul_le_mul_of_nonneg_right (by omega) (by omega)
      omega
    · have e1 : k * r.workerMemory ≤ 0 := Int.mul_nonpos_of_nonneg_of_nonpos h0 (by omega)
      have := hs.1 m hm
      omega
  · intro m hm
    obtain ⟨hw, ha⟩ := coresLimit_some h2 hm
    have hle := m2 _ ha
    have hk' : (0 : Rat) ≤ (k : Rat) := by exact_mod_cast h0
    by_cases hp : 0 < r.workerCores
    · have e1 := floor_mul_le (a := m - r.schedulerCores) hp
      have e2 : (k : Rat) * r.workerCores ≤
          (((m - r.schedulerCores) / r.workerCores).floor : Rat) * r.workerCores :=
        Rat.mul_le_mul_of_nonneg_right (by exact_mod_cast (by omega : k ≤ _)) (Rat.le_of_lt hp)
      grind
    · have e1 : (k : Rat) * r.workerCores ≤ (k : Rat) * 0 :=
        Rat.mul_le_mul_of_nonneg_left (by grind) hk'
      have := hs.2 m hm
      grind

private theorem limit_tight {r : Res} {n : Int} (h : workerLimit r = .ok (some n))
    (hm : 0 < r.workerMemory) (hc : 0 < r.workerCores) : ¬ Fits r (n + 1) := by
  intro hf
  obtain ⟨a, b, h1, h2, h3⟩ := workerLimit_ok h
  obtain ⟨q, hq⟩ : ∃ q, minInf a b = some q := by
    cases h4 : minInf a b with
    | none => rw [h4] at h3; cases h3
    | some q => exact ⟨q, rfl⟩
  rw [hq] at h3
  simp only [Option.map_some, Option.some.injEq] at h3
  have hqn : q ≤ n := by split at h3 <;> omega
  obtain ⟨_, _, h5 | h5⟩ := minInf_some hq
  · cases hm' : r.maxMemory with
    | none => unfold memoryLimit at h1; rw [hm'] at h1; cases h1; cases h5
    | some m =>
      obtain ⟨_, ha⟩ := memoryLimit_some h1 hm'
      rw [ha] at h5
      cases h5
      have e1 := lt_fdiv (a := m - r.schedulerMemory) hm
      have e2 := Int.mul_le_mul_of_nonneg_right
        (a := (m - r.schedulerMemory).fdiv r.workerMemory + 1) (b := n + 1)
        (c := r.workerMemory) (by omega) (by omega)
      have := hf.1 m hm'
      omega
  · cases hm' : r.maxCores with
    | none => unfold coresLimit at h2; rw [hm'] at h2; cases h2; cases h5
    | some m =>
      obtain ⟨_, ha⟩ := coresLimit_some h2 hm'
      rw [ha] at h5
      cases h5
      have e1 := lt_floor_mul (a := m - r.schedulerCores) hc
      have e2 : ((((m - r.schedulerCores) / r.workerCores).floor + 1 : Int) : Rat) * r.workerCores ≤
          ((n + 1 : Int) : Rat) * r.workerCores :=
        Rat.mul_le_mul_of_nonneg_right (by exact_mod_cast (by omega)) (Rat.le_of_lt hc)
      have := hf.2 m hm'
      grind

/-- C44 for the computed limit: without limits there is none; otherwise the scheduler and that many
workers stay within the limits, if the scheduler alone does, and one worker more would not. -/
theorem C44_computed_limit (r : Res) (v : Option Int) (h : workerLimit r = .ok v) :
    (v = none ↔ r.maxMemory = none ∧ r.maxCores = none) ∧
    ∀ n, v = some n →
      0 ≤ n ∧ (SchedulerFits r → ∀ k, 0 ≤ k → k ≤ n → Fits r k) ∧
      (0 < r.workerMemory → 0 < r.workerCores → ¬ Fits r (n + 1)) := by
  constructor
  · constructor
    · rintro rfl; exact limit_none h
    · rintro ⟨h1, h2⟩
      unfold workerLimit memoryLimit coresLimit at h
      rw [h1, h2] at h
      cases h; rfl
  · rintro n rfl
    refine ⟨?_, fun hs k h0 hk => limit_fits h hs h0 hk, limit_tight h⟩
    obtain ⟨a, b, _, _, h3⟩ := workerLimit_ok h
    cases h4 : minInf a b with
    | none => rw [h4] at h3; cases h3
    | some q =>
      rw [h4] at h3
      simp only [Option.map_some, Option.some.injEq] at h3
      split at h3 <;> omega

/-- 10 GiB, a scheduler of 2, workers of 3: two workers. -/
example : workerLimit { maxMemory := some 10, schedulerMemory := 2, workerMemory := 3 } =
    .ok (some 2) := by decide +kernel
/-- Cores are the tighter limit, and fractional. -/
example : workerLimit { maxMemory := some 100, schedulerMemory := 2, workerMemory := 3
                        maxCores := some (3 / 2), schedulerCores := 1 / 2, workerCores := 1 / 4 } =
    .ok (some 4) := by decide +kernel

/-! ### Building a configuration -/

/-- A configuration as the gateway uses it: no number of workers it allows exceeds the limits. -/
def Good (r : Res) : Prop := ∀ v, effectiveMaxWorkers r = .ok v →
  ∀ k, 0 ≤ k → (∀ n, v = some n → k ≤ n) → Fits r k

private theorem checkMemory_ok {s : Int} {m : Option Int} (h : checkMemory s m = .ok ()) :
    ∀ x, m = some x → s ≤ x := by
  rintro x rfl
  unfold checkMemory at h
  dsimp only at h
  split at h
  · cases h
  · omega

private theorem checkCores_ok {s : Rat} {m : Option Rat} (h : checkCores s m = .ok ()) :
    ∀ x, m = some x → s ≤ x := by
  rintro x rfl
  unfold checkCores at h
  dsimp only at h
  split at h
  · cases h
  · grind

/-- The settings without the number of workers. -/
private def core (r : Res) : Res := { r with maxWorkers := none }

private theorem workerLimit_core (r : Res) : workerLimit (core r) = workerLimit r := rfl

private theorem valid_core (r : Res) (v : Option Int) :
    validMaxWorkers (core r) v = validMaxWorkers r v := rfl

/-- What a cross validator checks and stores at the end of a phase. -/
private theorem cross_ok {r : Res} {n : Name} {s : Setting}
    (h : crossValidate r (r.current n) = .ok s) :
    core (r.store s) = core r ∧
    ((n = .schedulerMemory ∨ n = .maxMemory) → checkMemory r.schedulerMemory r.maxMemory = .ok ()) ∧
    ((n = .schedulerCores ∨ n = .maxCores) → checkCores r.schedulerCores r.maxCores = .ok ()) ∧
    (n ≠ .maxWorkers → (r.store s).maxWorkers = r.maxWorkers) ∧
    (n = .maxWorkers → ∃ v v', (r.store s).maxWorkers = some v' ∧ validMaxWorkers r v = .ok v') := by
  cases n with
  | workerMemory => cases h; simp [core, Res.store, Res.current]
  | workerCores => cases h; simp [core, Res.store, Res.current]
  | schedulerMemory =>
    simp only [Res.current, crossValidate] at h
    split at h <;> cases h
    rename_i hc
    simp [core, Res.store, hc]
  | schedulerCores =>
    simp only [Res.current, crossValidate] at h
    split at h <;> cases h
    rename_i hc
    simp [core, Res.store, hc]
  | maxMemory =>
    simp only [Res.current, crossValidate] at h
    split at h <;> cases h
    rename_i hc
    simp [core, Res.store, hc]
  | maxCores =>
    simp only [Res.current, crossValidate] at h
    split at h <;> cases h
    rename_i hc
    simp [core, Res.store, hc]
  | maxWorkers =>
    simp only [Res.current, crossValidate] at h
    split at h <;> cases h
    rename_i v' hc
    exact ⟨rfl, by simp, by simp, by simp, fun _ => ⟨_, _, rfl, hc⟩⟩

private theorem release_ok {r r' : Res} {l : List Name} (h : release r l = .ok r') :
    core r' = core r ∧
    ((.schedulerMemory ∈ l ∨ .maxMemory ∈ l) → checkMemory r.schedulerMemory r.maxMemory = .ok ()) ∧
    ((.schedulerCores ∈ l ∨ .maxCores ∈ l) → checkCores r.schedulerCores r.maxCores = .ok ()) ∧
    (.maxWorkers ∉ l → r'.maxWorkers = r.maxWorkers) ∧
    ((.maxWorkers ∈ l ∨ ∃ v v', r.maxWorkers = some v' ∧ validMaxWorkers r v = .ok v') →
      ∃ v v', r'.maxWorkers = some v' ∧ validMaxWorkers r v = .ok v') := by
  induction l generalizing r with
  | nil => cases h; simp
  | cons n l ih =>
    unfold release at h
    cases hc : crossValidate r (r.current n) with
    | error e => rw [hc] at h; cases h
    | ok s =>
      rw [hc] at h
      obtain ⟨c1, c2, c3, c4, c5⟩ := cross_ok hc
      obtain ⟨i1, i2, i3, i4, i5⟩ := ih h
      have e1 : (r.store s).schedulerMemory = r.schedulerMemory := by
        simpa [core] using congrArg Res.schedulerMemory c1
      have e2 : (r.store s).maxMemory = r.maxMemory := by
        simpa [core] using congrArg Res.maxMemory c1
      have e3 : (r.store s).schedulerCores = r.schedulerCores := by
        simpa [core] using congrArg Res.schedulerCores c1
      have e4 : (r.store s).maxCores = r.maxCores := by
        simpa [core] using congrArg Res.maxCores c1
      have e5 : ∀ v, validMaxWorkers (r.store s) v = validMaxWorkers r v := fun v => by
        rw [← valid_core, c1, valid_core]
      rw [e1, e2] at i2
      rw [e3, e4] at i3
      simp only [e5] at i5
      refine ⟨i1.trans c1, ?_, ?_, ?_, ?_⟩
      · intro hm
        simp only [List.mem_cons] at hm
        rcases hm with (hm | hm) | (hm | hm)
        · exact c2 (Or.inl hm.symm)
        · exact i2 (Or.inl hm)
        · exact c2 (Or.inr hm.symm)
        · exact i2 (Or.inr hm)
      · intro hm
        simp only [List.mem_cons] at hm
        rcases hm with (hm | hm) | (hm | hm)
        · exact c3 (Or.inl hm.symm)
        · exact i3 (Or.inl hm)
        · exact c3 (Or.inr hm.symm)
        · exact i3 (Or.inr hm)
      · intro hm
        simp only [List.mem_cons, not_or] at hm
        rw [i4 hm.2, c4 (Ne.symm hm.1)]
      · intro hm
        simp only [List.mem_cons] at hm
        apply i5
        by_cases hn : n = .maxWorkers
        · exact Or.inr (c5 hn)
        · rcases hm with (hm | hm) | hm
          · exact absurd hm.symm hn
          · exact Or.inl hm
          · rw [c4 hn]; exact Or.inr hm

private theorem store_current {r : Res} {s : Setting} {n : Name} (h : n ≠ s.name) :
    (r.store s).current n = r.current n := by
  cases s <;> cases n <;> first | rfl | exact absurd rfl h

private theorem unchanged_current {r : Res} {s : Setting} (h : r.changes s = false) (n : Name) :
    (r.store s).current n = r.current n := by
  by_cases hn : n = s.name
  · cases s with
    | maxWorkers v =>
      simp only [Res.changes, decide_eq_false_iff_not, Classical.not_not] at h
      subst hn
      simp only [Res.store, Setting.name, Res.current, h]
      rfl
    | _ => simp only [Res.changes, decide_eq_false_iff_not, Classical.not_not] at h; rw [h]
  · exact store_current hn

private theorem holdStore_ok {mc : Rat} {r r' : Res} {ch ch' : List Name} {l : List Setting}
    (h : holdStore mc r ch l = .ok (r', ch')) :
    (∀ n, n ∈ ch → n ∈ ch') ∧ (∀ n, n ∈ ch' → n ∈ ch ∨ n ∈ l.map Setting.name) ∧
    (∀ n, n ∉ ch' → r'.current n = r.current n) ∧
    (.maxWorkers ∉ l.map Setting.name → r'.maxWorkers = r.maxWorkers) := by
  induction l generalizing r ch with
  | nil => cases h; simp
  | cons s l ih =>
    unfold holdStore at h
    split at h
    · obtain ⟨i1, i2, i3, i4⟩ := ih h
      have hsub : ∀ n, n ∈ ch → n ∈ (if r.changes s ∧ s.name ∉ ch then ch ++ [s.name] else ch) := by
        intro n hn; split <;> simp [hn]
      refine ⟨fun n hn => i1 n (hsub n hn), ?_, ?_, ?_⟩
      · intro n hn
        rcases i2 n hn with h1 | h1
        · split at h1
          · rcases List.mem_append.1 h1 with h1 | h1
            · exact Or.inl h1
            · exact Or.inr (by simp [List.mem_singleton.1 h1])
          · exact Or.inl h1
        · exact Or.inr (by simp only [List.map_cons, List.mem_cons]; exact Or.inr h1)
      · intro n hn
        rw [i3 n hn]
        by_cases hc : r.changes s = true
        · apply store_current
          rintro rfl
          apply hn
          apply i1
          by_cases hm : s.name ∈ ch
          · exact hsub _ hm
          · rw [if_pos ⟨hc, hm⟩]; simp
        · exact unchanged_current (by simpa using hc) n
      · intro hn
        simp only [List.map_cons, List.mem_cons, not_or] at hn
        rw [i4 hn.2]
        cases s <;> first | rfl | exact absurd rfl hn.1
    · cases h

private theorem current_fields {r r' : Res} :
    (r'.current .schedulerMemory = r.current .schedulerMemory →
      r'.schedulerMemory = r.schedulerMemory) ∧
    (r'.current .maxMemory = r.current .maxMemory → r'.maxMemory = r.maxMemory) ∧
    (r'.current .schedulerCores = r.current .schedulerCores →
      r'.schedulerCores = r.schedulerCores) ∧
    (r'.current .maxCores = r.current .maxCores → r'.maxCores = r.maxCores) := by
  simp [Res.current]

/-- After a phase the scheduler fits, if it did before. -/
private theorem hold_fits {mc : Rat} {r r' : Res} {ch : List Name} {l : List Setting}
    (h : hold mc r l = .ok (r', ch)) (hs : SchedulerFits r) : SchedulerFits r' := by
  unfold hold at h
  cases h1 : holdStore mc r [] l with
  | error e => rw [h1] at h; cases h
  | ok p =>
    obtain ⟨q, c⟩ := p
    rw [h1] at h
    dsimp only at h
    cases h2 : release q c with
    | error e => rw [h2] at h; cases h
    | ok q' =>
      rw [h2] at h
      cases h
      obtain ⟨_, _, s3, _⟩ := holdStore_ok h1
      obtain ⟨r1, r2, r3, _, _⟩ := release_ok h2
      have e1 : r'.schedulerMemory = q.schedulerMemory := by
        simpa [core] using congrArg Res.schedulerMemory r1
      have e2 : r'.maxMemory = q.maxMemory := by
        simpa [core] using congrArg Res.maxMemory r1
      have e3 : r'.schedulerCores = q.schedulerCores := by
        simpa [core] using congrArg Res.schedulerCores r1
      have e4 : r'.maxCores = q.maxCores := by
        simpa [core] using congrArg Res.maxCores r1
      obtain ⟨f1, f2, f3, f4⟩ := current_fields (r := r) (r' := q)
      constructor
      · intro m hm
        rw [e1]; rw [e2] at hm
        by_cases hc : Name.schedulerMemory ∈ ch ∨ Name.maxMemory ∈ ch
        · exact checkMemory_ok (r2 hc) m hm
        · rw [not_or] at hc
          rw [f1 (s3 _ hc.1)]
          rw [f2 (s3 _ hc.2)] at hm
          exact hs.1 m hm
      · intro m hm
        rw [e3]; rw [e4] at hm
        by_cases hc : Name.schedulerCores ∈ ch ∨ Name.maxCores ∈ ch
        · exact checkCores_ok (r3 hc) m hm
        · rw [not_or] at hc
          rw [f3 (s3 _ hc.1)]
          rw [f4 (s3 _ hc.2)] at hm
          exact hs.2 m hm

private theorem fits_zero {r : Res} (hs : SchedulerFits r) {k : Int} (h0 : 0 ≤ k) (hk : k ≤ 0) :
    Fits r k := by
  have : k = 0 := by omega
  subst this
  exact ⟨fun m hm => by have := hs.1 m hm; omega, fun m hm => by have := hs.2 m hm; grind⟩

private theorem good_unset {r : Res} (hs : SchedulerFits r) (h : r.maxWorkers = none) : Good r := by
  intro v hv k h0 hk
  unfold effectiveMaxWorkers at hv
  rw [h] at hv
  dsimp only at hv
  cases v with
  | none =>
    obtain ⟨h1, h2⟩ := limit_none hv
    exact ⟨fun m hm => (by rw [h1] at hm; cases hm), fun m hm => (by rw [h2] at hm; cases hm)⟩
  | some n => exact limit_fits hv hs h0 (hk n rfl)

private theorem good_valid {r : Res} (hs : SchedulerFits r) {x y : Option Int}
    (h : r.maxWorkers = some y) (hv : validMaxWorkers r x = .ok y) : Good r := by
  intro v he k h0 hk
  unfold effectiveMaxWorkers at he
  rw [h] at he
  cases he
  unfold validMaxWorkers at hv
  cases hl : workerLimit r with
  | error e => rw [hl] at hv; cases hv
  | ok lim =>
    rw [hl] at hv
    cases lim with
    | none =>
      obtain ⟨h1, h2⟩ := limit_none hl
      exact ⟨fun m hm => (by rw [h1] at hm; cases hm), fun m hm => (by rw [h2] at hm; cases hm)⟩
    | some n =>
      dsimp only at hv
      cases x with
      | none => cases hv; exact limit_fits hl hs h0 (hk n rfl)
      | some q =>
        cases hv
        have := hk _ rfl
        exact limit_fits hl hs h0 (by split at this <;> omega)

/-- A phase that starts without a number of workers ends in a good configuration. -/
private theorem hold_good {mc : Rat} {r r' : Res} {ch : List Name} {l : List Setting}
    (h : hold mc r l = .ok (r', ch)) (hs : SchedulerFits r) (hn : r.maxWorkers = none) : Good r' := by
  have hs' := hold_fits h hs
  unfold hold at h
  cases h1 : holdStore mc r [] l with
  | error e => rw [h1] at h; cases h
  | ok p =>
    obtain ⟨q, c⟩ := p
    rw [h1] at h
    dsimp only at h
    cases h2 : release q c with
    | error e => rw [h2] at h; cases h
    | ok q' =>
      rw [h2] at h
      cases h
      obtain ⟨_, _, s3, _⟩ := holdStore_ok h1
      obtain ⟨r1, _, _, r4, r5⟩ := release_ok h2
      by_cases hc : Name.maxWorkers ∈ ch
      · obtain ⟨v, v', h3, h4⟩ := r5 (Or.inl hc)
        refine good_valid hs' (x := v) h3 ?_
        rw [← valid_core, r1, valid_core]
        exact h4
      · have e := s3 _ hc
        simp only [Res.current, hn, Option.getD_none, Setting.maxWorkers.injEq] at e
        cases hq : q.maxWorkers with
        | none => exact good_unset hs' (by rw [r4 hc, hq])
        | some y =>
          rw [hq] at e
          simp only [Option.getD_some] at e
          subst e
          intro v he k h0 hk
          unfold effectiveMaxWorkers at he
          rw [r4 hc, hq] at he
          cases he
          exact fits_zero hs' h0 (hk 0 rfl)

private theorem hold_unset {mc : Rat} {r r' : Res} {ch : List Name} {l : List Setting}
    (h : hold mc r l = .ok (r', ch)) (hn : .maxWorkers ∉ l.map Setting.name) :
    r'.maxWorkers = r.maxWorkers := by
  unfold hold at h
  cases h1 : holdStore mc r [] l with
  | error e => rw [h1] at h; cases h
  | ok p =>
    obtain ⟨q, c⟩ := p
    rw [h1] at h
    dsimp only at h
    cases h2 : release q c with
    | error e => rw [h2] at h; cases h
    | ok q' =>
      rw [h2] at h
      cases h
      obtain ⟨_, s2, _, s4⟩ := holdStore_ok h1
      obtain ⟨_, _, _, r4, _⟩ := release_ok h2
      rw [r4, s4 hn]
      intro hm
      rcases s2 _ hm with h3 | h3
      · simp at h3
      · exact hn h3

theorem hold_changed {mc : Rat} {r r' : Res} {ch : List Name} {l : List Setting}
    (h : hold mc r l = .ok (r', ch)) : ∀ n, n ∈ ch → n ∈ l.map Setting.name := by
  unfold hold at h
  cases h1 : holdStore mc r [] l with
  | error e => rw [h1] at h; cases h
  | ok p =>
    obtain ⟨q, c⟩ := p
    rw [h1] at h
    dsimp only at h
    cases h2 : release q c with
    | error e => rw [h2] at h; cases h
    | ok q' =>
      rw [h2] at h
      cases h
      obtain ⟨_, s2, _, _⟩ := holdStore_ok h1
      intro n hn
      rcases s2 n hn with h3 | h3
      · simp at h3
      · exact h3

private theorem assignNow_ok {mc : Rat} {r r' : Res} {s : Setting}
    (h : assignNow mc r s = .ok r') (hs : SchedulerFits r) :
    SchedulerFits r' ∧ (s.name ≠ .maxWorkers → r'.maxWorkers = r.maxWorkers) := by
  unfold assignNow at h
  split at h
  · split at h
    · cases h
      exact ⟨⟨by simp [Res.store], hs.2⟩, fun _ => rfl⟩
    · cases h
      exact ⟨⟨hs.1, by simp [Res.store]⟩, fun _ => rfl⟩
    · split at h
      · split at h
        · cases h
        · cases h; exact ⟨hs, fun hn => absurd rfl hn⟩
      · cases h; exact ⟨hs, fun hn => absurd rfl hn⟩
    · cases hc : crossValidate r s with
      | error e => rw [hc] at h; cases h
      | ok s' =>
        rw [hc] at h
        cases h
        cases s with
        | workerMemory n => cases hc; exact ⟨hs, fun _ => rfl⟩
        | workerCores n => cases hc; exact ⟨hs, fun _ => rfl⟩
        | schedulerMemory n =>
          simp only [crossValidate] at hc
          split at hc <;> cases hc
          rename_i hk
          exact ⟨⟨checkMemory_ok hk, hs.2⟩, fun _ => rfl⟩
        | schedulerCores n =>
          simp only [crossValidate] at hc
          split at hc <;> cases hc
          rename_i hk
          exact ⟨⟨hs.1, checkCores_ok hk⟩, fun _ => rfl⟩
        | maxMemory n =>
          simp only [crossValidate] at hc
          split at hc <;> cases hc
          rename_i hk
          exact ⟨⟨checkMemory_ok hk, hs.2⟩, fun _ => rfl⟩
        | maxCores n =>
          simp only [crossValidate] at hc
          split at hc <;> cases hc
          rename_i hk
          exact ⟨⟨hs.1, checkCores_ok hk⟩, fun _ => rfl⟩
        | maxWorkers n =>
          simp only [crossValidate] at hc
          split at hc <;> cases hc
          exact ⟨hs, fun hn => absurd rfl hn⟩
  · cases h

private theorem assignAll_ok {mc : Rat} {r r' : Res} {l : List Setting}
    (h : assignAll mc r l = .ok r') (hs : SchedulerFits r) :
    SchedulerFits r' ∧ (.maxWorkers ∉ l.map Setting.name → r'.maxWorkers = r.maxWorkers) := by
  induction l generalizing r with
  | nil => cases h; exact ⟨hs, fun _ => rfl⟩
  | cons s l ih =>
    unfold assignAll at h
    cases hc : assignNow mc r s with
    | error e => rw [hc] at h; cases h
    | ok q =>
      rw [hc] at h
      obtain ⟨h1, h2⟩ := assignNow_ok hc hs
      obtain ⟨h3, h4⟩ := ih h h1
      refine ⟨h3, fun hn => ?_⟩
      simp only [List.map_cons, List.mem_cons, not_or] at hn
      rw [h4 hn.2, h2 (Ne.symm hn.1)]

private theorem default_fits : SchedulerFits {} := by
  constructor <;> intro m hm <;> cases hm

private theorem build_ok {mc : Rat} {shuffle : List Setting → List Setting}
    {file overrides : List Setting} {r : Res} (h : build mc shuffle file overrides = .ok r) :
    ∃ r1 c1 r2 c2, hold mc {} overrides = .ok (r1, c1) ∧ hold mc r1 file = .ok (r2, c2) ∧
      assignAll mc r2 (shuffle (overrides.filter (fun s => decide (s.name ∈ c2)))) = .ok r := by
  unfold build at h
  split at h
  · cases h
  · rename_i r1 c1 h1
    split at h
    · cases h
    · rename_i r2 c2 h2
      exact ⟨r1, c1, r2, c2, h1, h2, h⟩

/-- C44: in every configuration the gateway builds, the scheduler alone stays within the limits. -/
theorem C44_scheduler_fits (mc : Rat) (shuffle : List Setting → List Setting)
    (file overrides : List Setting) (r : Res) (h : build mc shuffle file overrides = .ok r) :
    SchedulerFits r := by
  obtain ⟨r1, c1, r2, c2, h1, h2, h3⟩ := build_ok h
  exact (assignAll_ok h3 (hold_fits h2 (hold_fits h1 default_fits))).1

/-- C44 in full, for configurations: the number of workers a cluster may have, with its scheduler,
never exceeds the limits. -/
def C44_full : Prop := ∀ (mc : Rat) (shuffle : List Setting → List Setting)
    (file overrides : List Setting) (r : Res), (∀ l, (shuffle l).Perm l) →
  build mc shuffle file overrides = .ok r → Good r

/-- C44 is false of the code: a number of workers given by the overrides is not compared with limits
that come from the configuration file. Here the file allows 10 GiB, the scheduler and a worker take
2 GiB each, and 10 workers are allowed. -/
theorem C44_override_violated : ¬ C44_full := by
  intro h
  have hb : build 1 id [.maxMemory (some 10737418240)] [.maxWorkers (some 10)] =
      .ok { maxMemory := some 10737418240, maxWorkers := some (some 10) } := by decide +kernel
  have := (h _ _ _ _ _ (fun l => List.Perm.refl l) hb (some 10) rfl 10 (by decide)
    (by simp)).1 _ rfl
  revert this
  decide

/-- C44 with the number of workers given by the configuration file only. -/
def C44_file_full : Prop := ∀ (mc : Rat) (shuffle : List Setting → List Setting)
    (file overrides : List Setting) (r : Res), (∀ l, (shuffle l).Perm l) →
  .maxWorkers ∉ overrides.map Setting.name → build mc shuffle file overrides = .ok r → Good r

/-- Also then it is false of the code: the number of workers is compared with the limit before the
overrides replace the file's values. Here the file sets workers of 1 GiB, at most 10 GiB and 10
workers, of which 8 fit; the user's options ask for workers of 4 GiB, and 8 are still allowed. -/
theorem C44_stale_violated : ¬ C44_file_full := by
  intro h
  have hb : build 1 id [.workerMemory 1073741824, .maxMemory (some 10737418240),
        .maxWorkers (some 10)] [.workerMemory 4294967296] =
      .ok { workerMemory := 4294967296, maxMemory := some 10737418240,
            maxWorkers := some (some 8) } := by decide +kernel
  have := (h _ _ _ _ _ (fun l => List.Perm.refl l) (by simp [Setting.name]) hb (some 8) rfl 8
    (by decide) (by simp)).1 _ rfl
  revert this
  decide

/-- C44, the part that holds: the number of workers a cluster may have, with its scheduler, never
exceeds the limits, if that number is not set explicitly; or is set by the file and no setting is in
both the file and the overrides; or if the file sets none of these settings. Missing: the other
ways to set the number of workers. -/
theorem C44_limits_partial (mc : Rat) (shuffle : List Setting → List Setting)
    (file overrides : List Setting) (r : Res) (hp : ∀ l, (shuffle l).Perm l)
    (h : build mc shuffle file overrides = .ok r)
    (hc : (.maxWorkers ∉ overrides.map Setting.name ∧ .maxWorkers ∉ file.map Setting.name) ∨
      (.maxWorkers ∉ overrides.map Setting.name ∧
        ∀ n, n ∈ overrides.map Setting.name → n ∉ file.map Setting.name) ∨
      file = []) : Good r := by
  obtain ⟨r1, c1, r2, c2, h1, h2, h3⟩ := build_ok h
  have empty : (∀ n, n ∈ overrides.map Setting.name → n ∉ file.map Setting.name) → r = r2 := by
    intro hd
    have : overrides.filter (fun s => decide (s.name ∈ c2)) = [] := by
      rw [List.filter_eq_nil_iff]
      intro s hs hm
      exact hd s.name (List.mem_map.2 ⟨s, hs, rfl⟩) (hold_changed h2 _ (of_decide_eq_true hm))
    rw [this] at h3
    have e : shuffle [] = [] := List.Perm.eq_nil (hp [])
    rw [e] at h3
    cases h3
    rfl
  rcases hc with ⟨o1, o2⟩ | ⟨o1, o2⟩ | rfl
  · apply good_unset (C44_scheduler_fits mc shuffle file overrides r h)
    rw [(assignAll_ok h3 (hold_fits h2 (hold_fits h1 default_fits))).2, hold_unset h2 o2,
      hold_unset h1 o1]
    intro hm
    obtain ⟨s, hs, e⟩ := List.mem_map.1 hm
    exact o1 (List.mem_map.2 ⟨s, (List.mem_filter.1 ((hp _).mem_iff.1 hs)).1, e⟩)
  · rw [empty o2]
    exact hold_good h2 (hold_fits h1 default_fits) (by rw [hold_unset h1 o1])
  · rw [empty (by simp)]
    have : r2 = r1 := by cases h2; rfl
    rw [this]
    exact hold_good h1 default_fits rfl

/-- The file limits memory and workers, the user picks larger workers. -/
example : build 1 id [.maxMemory (some 10737418240), .maxWorkers (some 10)]
      [.workerMemory 4294967296] =
    .ok { workerMemory := 4294967296, maxMemory := some 10737418240,
          maxWorkers := some (some 2) } := by decide +kernel

/-- A scheduler that is too large is refused. -/
example : build 1 id [.maxMemory (some 10)] [] = .error .value := by decide +kernel

/-! ### C69 -/

private theorem store_same (r : Res) (s : Setting) : (r.store s).current s.name = s := by
  cases s <;> rfl

private theorem core_current {r r' : Res} (h : core r' = core r) {n : Name} (hn : n ≠ .maxWorkers) :
    r'.current n = r.current n := by
  have e1 := congrArg (fun x => (x.workerMemory, x.schedulerMemory, x.workerCores, x.schedulerCores,
    x.maxMemory, x.maxCores)) h
  simp only [core, Prod.mk.injEq] at e1
  obtain ⟨h1, h2, h3, h4, h5, h6⟩ := e1
  cases n <;> first | exact absurd rfl hn | simp only [Res.current, h1, h2, h3, h4, h5, h6]

private theorem holdStore_value {mc : Rat} {r r' : Res} {ch ch' : List Name} {l : List Setting}
    (h : holdStore mc r ch l = .ok (r', ch')) (n : Name) :
    (n ∉ l.map Setting.name → r'.current n = r.current n) ∧
    ((l.map Setting.name).Nodup → ∀ s ∈ l, s.name = n → r'.current n = s) := by
  induction l generalizing r ch with
  | nil => cases h; simp
  | cons a l ih =>
    unfold holdStore at h
    split at h
    · obtain ⟨i1, i2⟩ := ih h
      constructor
      · intro hn
        simp only [List.map_cons, List.mem_cons, not_or] at hn
        rw [i1 hn.2, store_current hn.1]
      · intro hd s hs hsn
        rw [List.map_cons, List.nodup_cons] at hd
        rcases List.mem_cons.1 hs with rfl | hs
        · rw [i1 (by rw [← hsn]; exact hd.1), ← hsn, store_same]
        · exact i2 hd.2 s hs hsn
    · cases h

private theorem hold_value {mc : Rat} {r r' : Res} {ch : List Name} {l : List Setting}
    (h : hold mc r l = .ok (r', ch)) {n : Name} (hn : n ≠ .maxWorkers) :
    (n ∉ ch → r'.current n = r.current n) ∧
    ((l.map Setting.name).Nodup → ∀ s ∈ l, s.name = n → r'.current n = s) := by
  unfold hold at h
  cases h1 : holdStore mc r [] l with
  | error e => rw [h1] at h; cases h
  | ok p =>
    obtain ⟨q, c⟩ := p
    rw [h1] at h
    dsimp only at h
    cases h2 : release q c with
    | error e => rw [h2] at h; cases h
    | ok q' =>
      rw [h2] at h
      cases h
      have e := core_current (release_ok h2).1 hn
      rw [e]
      exact ⟨(holdStore_ok h1).2.2.1 n, (holdStore_value h1 n).2⟩

private theorem cross_name {r : Res} {s s' : Setting} (h : crossValidate r s = .ok s') :
    s'.name = s.name ∧ (s.name ≠ .maxWorkers → s' = s) := by
  cases s <;> simp only [crossValidate] at h
  case workerMemory => cases h; simp
  case workerCores => cases h; simp
  all_goals (split at h <;> cases h)
  all_goals simp [Setting.name]

private theorem assignNow_value {mc : Rat} {r r' : Res} {s : Setting}
    (h : assignNow mc r s = .ok r') :
    (∀ n, n ≠ s.name → r'.current n = r.current n) ∧
    (s.name ≠ .maxWorkers → r'.current s.name = s) := by
  unfold assignNow at h
  split at h
  · split at h
    · cases h
      exact ⟨fun n hn => store_current hn, fun _ => store_same _ _⟩
    · cases h
      exact ⟨fun n hn => store_current hn, fun _ => store_same _ _⟩
    · split at h
      · split at h
        · cases h
        · cases h
          exact ⟨fun n hn => store_current hn, fun hn => absurd rfl hn⟩
      · cases h
        exact ⟨fun n hn => store_current hn, fun hn => absurd rfl hn⟩
    · cases hc : crossValidate r s with
      | error e => rw [hc] at h; cases h
      | ok s' =>
        rw [hc] at h
        cases h
        obtain ⟨h1, h2⟩ := cross_name hc
        refine ⟨fun n hn => store_current (by rw [h1]; exact hn), fun hn => ?_⟩
        rw [h2 hn]
        exact store_same r s
  · cases h

private theorem assignAll_value {mc : Rat} {r r' : Res} {l : List Setting}
    (h : assignAll mc r l = .ok r') (hd : (l.map Setting.name).Nodup) {n : Name}
    (hn : n ≠ .maxWorkers) :
    (n ∉ l.map Setting.name → r'.current n = r.current n) ∧
    (∀ s ∈ l, s.name = n → r'.current n = s) := by
  induction l generalizing r with
  | nil => cases h; simp
  | cons a l ih =>
    unfold assignAll at h
    cases hc : assignNow mc r a with
    | error e => rw [hc] at h; cases h
    | ok q =>
      rw [hc] at h
      rw [List.map_cons, List.nodup_cons] at hd
      obtain ⟨a1, a2⟩ := assignNow_value hc
      obtain ⟨i1, i2⟩ := ih h hd.2
      constructor
      · intro hm
        simp only [List.map_cons, List.mem_cons, not_or] at hm
        rw [i1 hm.2, a1 n hm.1]
      · intro s hs hsn
        rcases List.mem_cons.1 hs with rfl | hs
        · rw [i1 (by rw [← hsn]; exact hd.1), ← hsn, a2 (by rw [hsn]; exact hn)]
        · exact i2 s hs hsn

/-- C69: in every configuration the gateway builds, each setting that the user's options give has the
value they give, whatever the configuration file says; and each setting they do not give has the
file's value, or its default. (The number of workers is the subject of C44.) -/
theorem C69_overrides_win (mc : Rat) (shuffle : List Setting → List Setting)
    (file overrides : List Setting) (r : Res) (hp : ∀ l, (shuffle l).Perm l)
    (ho : (overrides.map Setting.name).Nodup) (hf : (file.map Setting.name).Nodup)
    (h : build mc shuffle file overrides = .ok r) (n : Name) (hn : n ≠ .maxWorkers) :
    (∀ s ∈ overrides, s.name = n → r.current n = s) ∧
    (n ∉ overrides.map Setting.name →
      (∀ s ∈ file, s.name = n → r.current n = s) ∧
      (n ∉ file.map Setting.name → r.current n = ({} : Res).current n)) := by
  obtain ⟨r1, c1, r2, c2, h1, h2, h3⟩ := build_ok h
  have hp' := hp (overrides.filter (fun s => decide (s.name ∈ c2)))
  have hd : ((shuffle (overrides.filter (fun s => decide (s.name ∈ c2)))).map Setting.name).Nodup :=
    (hp'.map Setting.name).nodup_iff.2
      (ho.sublist (List.Sublist.map _ List.filter_sublist))
  obtain ⟨a1, a2⟩ := assignAll_value h3 hd hn
  have hmem : ∀ s, s ∈ shuffle (overrides.filter (fun s => decide (s.name ∈ c2))) ↔
      s ∈ overrides ∧ s.name ∈ c2 := fun s => by
    rw [hp'.mem_iff, List.mem_filter]; simp
  constructor
  · intro s hs hsn
    by_cases hc : n ∈ c2
    · exact a2 s ((hmem s).2 ⟨hs, hsn ▸ hc⟩) hsn
    · rw [a1 ?_, (hold_value h2 hn).1 hc, (hold_value h1 hn).2 ho s hs hsn]
      intro hm
      obtain ⟨t, ht, htn⟩ := List.mem_map.1 hm
      exact hc (htn ▸ ((hmem t).1 ht).2)
  · intro hno
    have e : r.current n = r2.current n := by
      apply a1
      intro hm
      obtain ⟨t, ht, htn⟩ := List.mem_map.1 hm
      exact hno (List.mem_map.2 ⟨t, ((hmem t).1 ht).1, htn⟩)
    have e1 : r1.current n = ({} : Res).current n :=
      (hold_value h1 hn).1 (fun hc => hno (hold_changed h1 n hc))
    rw [e]
    refine ⟨fun s hs hsn => (hold_value h2 hn).2 hf s hs hsn, fun hnf => ?_⟩
    rw [(hold_value h2 hn).1 (fun hc => hnf (hold_changed h2 n hc)), e1]

/-- The user's worker memory replaces the file's. -/
example : build 1 id [.workerMemory 1, .schedulerMemory 5] [.workerMemory 2] =
    .ok { workerMemory := 2, schedulerMemory := 5 } := by decide +kernel

end Verif.Config

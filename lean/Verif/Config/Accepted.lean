import Verif.Config.Props
/-
C69, the other direction: settings within their ranges with which the scheduler stays within the limits are accepted.
-/
namespace Verif.Config

/-- The value is within the range that the documentation gives for the setting; `minCores` is the least number of cores of
one process. -/
def InRange (minCores : Rat) : Setting → Prop
  | .workerCores q => minCores ≤ q
  | .schedulerCores q => minCores ≤ q
  | .maxCores (some q) => 0 ≤ q
  | .maxWorkers (some n) => 0 ≤ n
  | _ => True

/-- The settings with these values, given one after the other. -/
def given (r : Res) (l : List Setting) : Res := l.foldl Res.store r

/-- The scheduler stays within the limits, and the sizes of workers are not zero. -/
def Sound (r : Res) : Prop := SchedulerFits r ∧ r.workerMemory ≠ 0 ∧ r.workerCores ≠ 0

private theorem typeOk_of {mc : Rat} {s : Setting} (h : InRange mc s) : s.typeOk mc = true := by
  cases s with
  | workerMemory n => rfl
  | schedulerMemory n => rfl
  | workerCores q => exact decide_eq_true h
  | schedulerCores q => exact decide_eq_true h
  | maxMemory n => cases n <;> rfl
  | maxCores q =>
    cases q with
    | none => rfl
    | some q => exact decide_eq_true h
  | maxWorkers n =>
    cases n with
    | none => rfl
    | some n => exact decide_eq_true h

private theorem holdStore_accepts {mc : Rat} (l : List Setting) : ∀ (r : Res) (ch : List Name), (∀ s ∈ l, InRange mc s) →
    ∃ ch', holdStore mc r ch l = .ok (given r l, ch') := by
  induction l with
  | nil => intro r ch _; exact ⟨ch, rfl⟩
  | cons s l ih =>
    intro r ch h
    simp only [holdStore, typeOk_of (h s List.mem_cons_self), if_true]
    exact ih _ _ (fun t ht => h t (List.mem_cons_of_mem _ ht))

private theorem workerLimit_accepts {r : Res} (h : Sound r) : ∃ n, workerLimit r = .ok n := by
  have h1 : ∃ a, memoryLimit r = .ok a := by
    unfold memoryLimit
    cases r.maxMemory with
    | none => exact ⟨_, rfl⟩
    | some m => exact ⟨_, by simp only [h.2.1, if_false]; rfl⟩
  have h2 : ∃ b, coresLimit r = .ok b := by
    unfold coresLimit
    cases r.maxCores with
    | none => exact ⟨_, rfl⟩
    | some m => exact ⟨_, by simp only [h.2.2, if_false]; rfl⟩
  obtain ⟨a, ha⟩ := h1
  obtain ⟨b, hb⟩ := h2
  unfold workerLimit
  rw [ha, hb]
  simp only []
  cases minInf a b with
  | none => exact ⟨_, rfl⟩
  | some n => exact ⟨_, rfl⟩

private theorem checkMemory_accepts {s : Int} {m : Option Int} (h : ∀ x, m = some x → s ≤ x) : checkMemory s m = .ok () := by
  unfold checkMemory
  cases m with
  | none => rfl
  | some x =>
    have := h x rfl
    simp only []
    rw [if_neg (by omega)]

private theorem checkCores_accepts {s : Rat} {m : Option Rat} (h : ∀ x, m = some x → s ≤ x) : checkCores s m = .ok () := by
  unfold checkCores
  cases m with
  | none => rfl
  | some x =>
    have := h x rfl
    simp only []
    rw [if_neg (Rat.not_lt.2 this)]

private theorem store_current_self (r : Res) (n : Name) (hn : n ≠ .maxWorkers) : r.store (r.current n) = r := by
  cases n <;> first | rfl | exact absurd rfl hn

private theorem release_accepts (l : List Name) : ∀ r, Sound r → ∃ r', release r l = .ok r' ∧ Sound r' ∧
    ∀ n, n ≠ .maxWorkers → r'.current n = r.current n := by
  induction l with
  | nil => intro r h; exact ⟨r, rfl, h, fun _ _ => rfl⟩
  | cons n l ih =>
    intro r h
    have same : crossValidate r (r.current n) = .ok (r.current n) → n ≠ .maxWorkers →
        ∃ r', release r (n :: l) = .ok r' ∧ Sound r' ∧ ∀ n, n ≠ .maxWorkers → r'.current n = r.current n := by
      intro hc hn
      simp only [release, hc, store_current_self r n hn]
      exact ih r h
    cases n with
    | workerMemory => exact same rfl (by simp)
    | workerCores => exact same rfl (by simp)
    | schedulerMemory => exact same (by simp only [Res.current, crossValidate, checkMemory_accepts h.1.1]) (by simp)
    | schedulerCores => exact same (by simp only [Res.current, crossValidate, checkCores_accepts h.1.2]) (by simp)
    | maxMemory => exact same (by simp only [Res.current, crossValidate, checkMemory_accepts h.1.1]) (by simp)
    | maxCores => exact same (by simp only [Res.current, crossValidate, checkCores_accepts h.1.2]) (by simp)
    | maxWorkers =>
      obtain ⟨lim, hl⟩ := workerLimit_accepts h
      have hv : ∃ v, validMaxWorkers r (r.maxWorkers.getD (some 0)) = .ok v := by
        unfold validMaxWorkers
        rw [hl]
        cases lim with
        | none => exact ⟨_, rfl⟩
        | some lim => cases r.maxWorkers.getD (some 0) <;> exact ⟨_, rfl⟩
      obtain ⟨v, hv⟩ := hv
      simp only [release, Res.current, crossValidate, hv]
      obtain ⟨r', h1, h2, h3⟩ := ih (r.store (.maxWorkers v)) h
      refine ⟨r', h1, h2, fun n hn => (h3 n hn).trans ?_⟩
      cases n <;> first | rfl | exact absurd rfl hn

private theorem hold_accepts {mc : Rat} {r : Res} {l : List Setting} (hr : ∀ s ∈ l, InRange mc s) (h : Sound (given r l)) :
    ∃ r' ch, hold mc r l = .ok (r', ch) ∧ Sound r' ∧ ∀ n, n ≠ .maxWorkers → r'.current n = (given r l).current n := by
  obtain ⟨ch, h1⟩ := holdStore_accepts l r [] hr
  obtain ⟨r', h2, h3, h4⟩ := release_accepts ch (given r l) h
  exact ⟨r', ch, by simp only [hold, h1, h2], h3, h4⟩

private theorem sound_congr {r r' : Res} (h : ∀ n, n ≠ .maxWorkers → r'.current n = r.current n) (hs : Sound r) : Sound r' := by
  have e1 := h .workerMemory (by simp)
  have e2 := h .schedulerMemory (by simp)
  have e3 := h .workerCores (by simp)
  have e4 := h .schedulerCores (by simp)
  have e5 := h .maxMemory (by simp)
  have e6 := h .maxCores (by simp)
  simp only [Res.current, Setting.workerMemory.injEq, Setting.schedulerMemory.injEq, Setting.workerCores.injEq,
    Setting.schedulerCores.injEq, Setting.maxMemory.injEq, Setting.maxCores.injEq] at e1 e2 e3 e4 e5 e6
  refine ⟨⟨fun m hm => ?_, fun m hm => ?_⟩, ?_, ?_⟩
  · rw [e2]; exact hs.1.1 m (e5 ▸ hm)
  · rw [e4]; exact hs.1.2 m (e6 ▸ hm)
  · rw [e1]; exact hs.2.1
  · rw [e3]; exact hs.2.2

private theorem given_congr (l : List Setting) : ∀ {r r' : Res}, (∀ n, n ≠ .maxWorkers → r'.current n = r.current n) →
    ∀ n, n ≠ .maxWorkers → (given r' l).current n = (given r l).current n := by
  induction l with
  | nil => exact fun h => h
  | cons s l ih =>
    intro r r' h
    refine ih (r := r.store s) (r' := r'.store s) (fun n hn => ?_)
    have := h n hn
    cases s <;> cases n <;> first | rfl | exact absurd rfl hn | exact this

/-- C69: if the settings of the options alone, and with those of the file, are within their ranges and leave room for the
scheduler, and no setting is in both, then the configuration is accepted; and it has the values that were given. -/
theorem C69_accepted (mc : Rat) (shuffle : List Setting → List Setting) (file overrides : List Setting)
    (hp : ∀ l, (shuffle l).Perm l) (ho : ∀ s ∈ overrides, InRange mc s) (hf : ∀ s ∈ file, InRange mc s)
    (hd : ∀ n, n ∈ overrides.map Setting.name → n ∉ file.map Setting.name)
    (h1 : Sound (given {} overrides)) (h2 : Sound (given {} (overrides ++ file))) :
    ∃ r, build mc shuffle file overrides = .ok r ∧
      ∀ n, n ≠ .maxWorkers → r.current n = (given {} (overrides ++ file)).current n := by
  obtain ⟨r1, c1, e1, s1, v1⟩ := hold_accepts ho h1
  have hg : given {} (overrides ++ file) = given (given {} overrides) file := List.foldl_append
  have h2' : Sound (given r1 file) := sound_congr (given_congr file v1) (hg ▸ h2)
  obtain ⟨r2, c2, e2, s2, v2⟩ := hold_accepts hf h2'
  have hc2 : ∀ n ∈ c2, n ∈ file.map Setting.name := hold_changed e2
  have hnil : overrides.filter (fun s => decide (s.name ∈ c2)) = [] := by
    rw [List.filter_eq_nil_iff]
    intro s hs hm
    exact hd s.name (List.mem_map.2 ⟨s, hs, rfl⟩) (hc2 _ (of_decide_eq_true hm))
  refine ⟨r2, ?_, fun n hn => ?_⟩
  · simp only [build, e1, e2, hnil, List.Perm.eq_nil (hp [])]
    rfl
  · rw [v2 n hn, hg]
    exact given_congr file v1 n hn

/-- All the cores for the scheduler, and no workers: this is accepted. -/
example : Sound (given {} [.maxCores (some 1), .maxWorkers (some 0)]) ∧
    (∀ s ∈ [Setting.maxCores (some 1), .maxWorkers (some 0)], InRange 1 s) := by
  refine ⟨⟨⟨?_, ?_⟩, ?_, ?_⟩, ?_⟩
  · intro m hm; cases hm
  · intro m hm; cases hm; decide +kernel
  · decide +kernel
  · decide +kernel
  · intro s hs
    simp only [List.mem_cons, List.not_mem_nil, or_false] at hs
    rcases hs with rfl | rfl
    · show (0 : Rat) ≤ 1; decide +kernel
    · show (0 : Int) ≤ 0; decide

/-- C69: and values out of range are refused: the least that is allowed is the least in the documentation. -/
theorem C69_refused (mc : Rat) (shuffle : List Setting → List Setting) (file overrides : List Setting)
    (h : ∃ s ∈ overrides, ¬ InRange mc s) : ∃ e, build mc shuffle file overrides = .error e := by
  obtain ⟨s, hs, hn⟩ := h
  have key : ∀ (l : List Setting) (r : Res) (ch : List Name), s ∈ l → ∃ e, holdStore mc r ch l = .error e := by
    intro l
    induction l with
    | nil => intro _ _ hm; cases hm
    | cons t l ih =>
      intro r ch hm
      unfold holdStore
      by_cases ht : t.typeOk mc = true
      · rw [if_pos ht]
        rcases List.mem_cons.1 hm with rfl | hm
        · exfalso
          apply hn
          revert ht
          cases s with
          | workerMemory n => exact fun _ => trivial
          | schedulerMemory n => exact fun _ => trivial
          | workerCores q => exact of_decide_eq_true
          | schedulerCores q => exact of_decide_eq_true
          | maxMemory n => cases n <;> exact fun _ => trivial
          | maxCores q =>
            cases q with
            | none => exact fun _ => trivial
            | some q => exact of_decide_eq_true
          | maxWorkers n =>
            cases n with
            | none => exact fun _ => trivial
            | some n => exact of_decide_eq_true
        · exact ih _ _ hm
      · rw [if_neg ht]
        exact ⟨_, rfl⟩
  obtain ⟨e, he⟩ := key overrides {} [] hs
  exact ⟨e, by simp only [build, hold, he]⟩

example : ∃ s ∈ [Setting.maxWorkers (some (-1))], ¬ InRange 1 s := ⟨_, List.mem_cons_self, by
  show ¬ ((0 : Int) ≤ -1)
  decide⟩

end Verif.Config

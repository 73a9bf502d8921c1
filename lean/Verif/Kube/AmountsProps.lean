import Verif.Kube.Amounts
import Verif.Kube.ObjectsProps
import Verif.Boot.Props
/-! Property C164: what the pods of a cluster ask for. -/
set_option linter.unusedSimpArgs false
set_option linter.unusedVariables false
namespace Verif.Kube

/-! ### Specification -/

/-- Specification: Kubernetes' reading of a quantity like `1.500`, in thousandths. -/
def milli (s : Str) : Option Nat :=
  let a := s.takeWhile (· ≠ '.')
  let f := s.drop (a.length + 1)
  if a ≠ [] ∧ a.length < s.length ∧ (∀ c ∈ a ++ f, c.isDigit = true) ∧ f.length = 3 then
    some (1000 * Nat.ofDigitChars 10 a 0 + Nat.ofDigitChars 10 f 0)
  else none

/-- Specification: what the first container of a pod asks for, or is limited to. -/
def amount (pod : Obj) (kind what : Str) : Option Str :=
  match (firstContainer pod).bind (fun c => c.get ["resources".toList, kind, what]) with
  | some (.str s) => some s
  | _ => none

/-- Specification: the nearest number of thousandths. -/
def Nearest (m : Nat) (q : Rat) : Prop := 2000 * q - 1 ≤ 2 * m ∧ 2 * (m : Rat) ≤ 2000 * q + 1

/-- The extra configuration of pods says nothing on resources. -/
structure Plain (p : PodConfig) : Prop where
  properPod : (Obj.dict 0 p.extraPod).Proper
  properContainer : (Obj.dict 0 p.extraContainer).Proper
  containers : (Obj.dict 0 p.extraPod).get ["containers".toList] = none ∨
    ∃ i l, (Obj.dict 0 p.extraPod).get ["containers".toList] = some (.list i l)
  resources : (Obj.dict 0 p.extraContainer).get ["resources".toList] = none
  args : (Obj.dict 0 p.extraContainer).get ["args".toList] = none

/-! ### The text of a number of cores -/

theorem round_near (n d : Nat) (hd : 0 < d) :
    2 * n ≤ 2 * (d * Options.roundHalfEven n d) + d ∧ 2 * (d * Options.roundHalfEven n d) ≤ 2 * n + d := by
  have h := Nat.div_add_mod n d
  have hm := Nat.mod_lt n hd
  unfold Options.roundHalfEven
  dsimp only
  have h2 : n / d % 2 = 0 ∨ n / d % 2 = 1 := by omega
  split
  · omega
  · split
    · rw [Nat.mul_add, Nat.mul_one]; omega
    · rcases h2 with e | e
      · rw [e, Nat.add_zero]; omega
      · rw [e, Nat.mul_add, Nat.mul_one]; omega

theorem thousandths_near (q : Rat) (h : 0 ≤ q) : Nearest (thousandths q) q := by
  have hd : 0 < q.den := q.den_pos
  have hn : (q.num.toNat : Int) = q.num := Int.toNat_of_nonneg (Rat.num_nonneg.2 h)
  obtain ⟨h1, h2⟩ := round_near (1000 * q.num.toNat) q.den hd
  have hq : q * (q.den : Rat) = (q.num.toNat : Rat) := by
    have e : (q.num.toNat : Rat) = ((q.num.toNat : Int) : Rat) := rfl
    rw [e, hn]
    have := Rat.mkRat_self q
    rw [Rat.mkRat_eq_div] at this
    have hz : (q.den : Rat) ≠ 0 := by
      have : (0 : Rat) < (q.den : Rat) := by exact_mod_cast hd
      grind
    have := Rat.div_mul_cancel (a := (q.num : Rat)) hz
    grind
  have hpos : (0 : Rat) < (q.den : Rat) := by exact_mod_cast hd
  unfold Nearest
  change _ ∧ _
  have g1 : (2 : Rat) * (1000 * (q.num.toNat : Rat)) ≤ 2 * ((q.den : Rat) * (thousandths q : Rat)) + q.den := by
    exact_mod_cast h1
  have g2 : (2 : Rat) * ((q.den : Rat) * (thousandths q : Rat)) ≤ 2 * (1000 * (q.num.toNat : Rat)) + q.den := by
    exact_mod_cast h2
  rw [← hq] at g1 g2
  constructor
  · apply Rat.le_of_mul_le_mul_right _ hpos
    grind
  · apply Rat.le_of_mul_le_mul_right _ hpos
    grind

theorem near_mono {m n : Nat} {q r : Rat} (hm : Nearest m q) (hn : Nearest n r) (h : q < r) : m ≤ n := by
  apply Classical.byContradiction
  intro hc
  have : n + 1 ≤ m := by omega
  have : (n : Rat) + 1 ≤ (m : Rat) := by exact_mod_cast this
  obtain ⟨_, b⟩ := hm
  obtain ⟨c, _⟩ := hn
  grind

theorem thousandths_mono {q r : Rat} (hq : 0 ≤ q) (h : q ≤ r) : thousandths q ≤ thousandths r := by
  by_cases e : q = r
  · rw [e]; exact Nat.le_refl _
  · exact near_mono (thousandths_near q hq) (thousandths_near r (by grind)) (by grind)

theorem pad3_digits (n : Nat) (h : n < 1000) : ∀ c ∈ pad3 n, c.isDigit = true := by
  intro c hc
  unfold pad3 at hc
  simp only [List.mem_cons, List.not_mem_nil, or_false] at hc
  have hd : ∀ k : Nat, k < 10 → (Nat.digitChar k).isDigit = true := by decide
  rcases hc with rfl | rfl | rfl <;> apply hd <;> omega

theorem pad3_value (n : Nat) (h : n < 1000) : Nat.ofDigitChars 10 (pad3 n) 0 = n := by
  unfold pad3
  rw [Nat.ofDigitChars_cons_digitChar_of_lt_ten (by omega), Nat.ofDigitChars_cons_digitChar_of_lt_ten (by omega),
    Nat.ofDigitChars_cons_digitChar_of_lt_ten (by omega), Nat.ofDigitChars_nil]
  omega

theorem take_dot (a b : Str) (h : '.' ∉ a) : (a ++ '.' :: b).takeWhile (· ≠ '.') = a := by
  induction a with
  | nil => rfl
  | cons c a ih =>
    simp only [List.mem_cons, not_or] at h
    have hc : c ≠ '.' := fun e => h.1 e.symm
    have := ih h.2
    rw [List.cons_append, List.takeWhile_cons, if_pos (by simpa using hc), this]

theorem milli_text (q : Rat) : milli (cpuText q) = some (thousandths q) := by
  have hdig := Boot.toDigits_digit (thousandths q / 1000)
  have hdot : '.' ∉ Nat.toDigits 10 (thousandths q / 1000) := fun h => absurd (hdig _ h) (by decide)
  unfold milli cpuText
  rw [take_dot _ _ hdot]
  have hdrop : ∀ a b : Str, (a ++ '.' :: b).drop (a.length + 1) = b := by
    intro a b
    rw [List.drop_append, List.drop_eq_nil_of_le (by omega), Nat.add_sub_cancel_left]
    rfl
  dsimp only
  rw [hdrop]
  have hlt : thousandths q % 1000 < 1000 := Nat.mod_lt _ (by decide)
  have hall : ∀ c ∈ Nat.toDigits 10 (thousandths q / 1000) ++ pad3 (thousandths q % 1000), c.isDigit = true := by
    intro c hc
    rcases List.mem_append.1 hc with hc | hc
    · exact hdig c hc
    · exact pad3_digits _ hlt c hc
  rw [if_pos ⟨Nat.toDigits_ne_nil, by simp, hall, rfl⟩, Nat.ofDigitChars_ten_toDigits, pad3_value _ hlt,
    Nat.div_add_mod]

/-! ### The pods -/

private theorem base_resources (c : Ctl) (ns name : Str) (p : PodConfig) (worker : Bool) :
    (Obj.dict 0 (container c ns name p worker)).get ["resources".toList] = some (obj
     [("requests".toList, strs [("cpu".toList, p.cpuRequest), ("memory".toList, p.memRequest)]),
      ("limits".toList, strs [("cpu".toList, p.cpuLimit), ("memory".toList, p.memLimit)])]) := rfl

private theorem base_args (c : Ctl) (ns name : Str) (p : PodConfig) (worker : Bool) :
    (Obj.dict 0 (container c ns name p worker)).get ["args".toList] = some (arr (p.args.map .str)) := rfl

/-- A path under a key that the extra configuration leaves alone. -/
private theorem get_under {base extra : List (Str × Obj)} {k : Str} (path : List Str) (hp : (Obj.dict 0 extra).Proper)
    (h : (Obj.dict 0 extra).get [k] = none) :
    (withExtra base extra).get (k :: path) = ((Obj.dict 0 base).get [k]).bind (fun v => v.get path) := by
  have step : ∀ (v : Obj), v.get (k :: path) = (v.get [k]).bind (fun w => w.get path) := by
    intro v
    cases v with
    | dict i d =>
      change (lookup d k).bind _ = ((lookup d k).bind _).bind _
      cases lookup d k with
      | none => rfl
      | some w => cases w <;> rfl
    | _ => rfl
  rw [step, extra_none hp h]

private theorem pod_amounts {c : Ctl} {ns name : Str} {p : PodConfig} {worker : Bool} (hp : Plain p) :
    amount (makePod c ns name p worker) "requests".toList "cpu".toList = some p.cpuRequest ∧
    amount (makePod c ns name p worker) "limits".toList "cpu".toList = some p.cpuLimit ∧
    amount (makePod c ns name p worker) "requests".toList "memory".toList = some p.memRequest ∧
    amount (makePod c ns name p worker) "limits".toList "memory".toList = some p.memLimit := by
  unfold amount
  rw [first_spec hp.properPod hp.containers]
  simp only [Option.bind_some]
  rw [get_under _ hp.properContainer hp.resources, get_under _ hp.properContainer hp.resources,
    get_under _ hp.properContainer hp.resources, get_under _ hp.properContainer hp.resources, base_resources]
  exact ⟨rfl, rfl, rfl, rfl⟩

/-- C164: every number of cores is written for Kubernetes to within half a thousandth, and more cores are never
written as fewer. -/
theorem C164_cores_text (q r : Rat) (h : 0 ≤ q) (hr : q ≤ r) :
    ∃ m n, milli (cpuText q) = some m ∧ milli (cpuText r) = some n ∧ Nearest m q ∧ Nearest n r ∧ m ≤ n :=
  ⟨_, _, milli_text q, milli_text r, thousandths_near q h, thousandths_near r (Rat.le_trans h hr), thousandths_mono h hr⟩

/-- What a pod asks for and is limited to, as Kubernetes reads it. -/
structure Asks (pod : Obj) (cores coresLimit : Rat) (memory memoryLimit : Int) : Prop where
  cpu : ∃ s m, amount pod "requests".toList "cpu".toList = some s ∧ milli s = some m ∧ Nearest m cores
  cpuLimit : ∃ s m, amount pod "limits".toList "cpu".toList = some s ∧ milli s = some m ∧ Nearest m coresLimit
  mem : ∃ s, amount pod "requests".toList "memory".toList = some s ∧ Boot.pyInt s = some memory
  memLimit : ∃ s, amount pod "limits".toList "memory".toList = some s ∧ Boot.pyInt s = some memoryLimit

theorem pyInt_show (n : Int) (h : 0 ≤ n) : Boot.pyInt (Boot.showInt n) = some n := by
  unfold Boot.showInt
  rw [if_neg (by omega), Boot.pyInt_digits]
  congr 1
  omega

/-- C164, in part: the pods of workers and of the scheduler ask for the configured cores (to within half a thousandth)
and the configured memory (exactly), and are limited to the configured limits, or to what they ask for where no
limit is configured. Missing: extra configuration of pods that names resources (it wins). -/
theorem C164_amounts_partial (c : Ctl) (ns name : Str) (cmd : List Str) (a : Amounts) (t : Option Nat) (p : PodConfig)
    (hp : Plain p) (hc : 0 ≤ a.cores) (hl : ∀ l, a.coresLimit = some l → 0 ≤ l) (hm : 0 ≤ a.memory)
    (hml : ∀ l, a.memoryLimit = some l → 0 ≤ l) :
    Asks (workerPodOf c ns name cmd a t p) a.cores (a.coresLimit.getD a.cores) a.memory (a.memoryLimit.getD a.memory) ∧
    Asks (schedulerPodOf c ns name a p) a.cores (a.coresLimit.getD a.cores) a.memory (a.memoryLimit.getD a.memory) := by
  have h1 : 0 ≤ a.coresLimit.getD a.cores := by
    cases h : a.coresLimit with
    | none => exact hc
    | some l => exact hl l h
  have h2 : 0 ≤ a.memoryLimit.getD a.memory := by
    cases h : a.memoryLimit with
    | none => exact hm
    | some l => exact hml l h
  have g : ∀ (q : PodConfig) (w : Bool), Plain q → q.cpuRequest = cpuText a.cores → q.cpuLimit = cpuText (a.coresLimit.getD a.cores) →
      q.memRequest = Boot.showInt a.memory → q.memLimit = Boot.showInt (a.memoryLimit.getD a.memory) →
      Asks (makePod c ns name q w) a.cores (a.coresLimit.getD a.cores) a.memory (a.memoryLimit.getD a.memory) := by
    intro q w hq e1 e2 e3 e4
    obtain ⟨p1, p2, p3, p4⟩ := pod_amounts (c := c) (ns := ns) (name := name) (p := q) (worker := w) hq
    rw [e1] at p1; rw [e2] at p2; rw [e3] at p3; rw [e4] at p4
    exact ⟨⟨_, _, p1, milli_text _, thousandths_near _ hc⟩, ⟨_, _, p2, milli_text _, thousandths_near _ h1⟩,
      ⟨_, p3, pyInt_show _ hm⟩, ⟨_, p4, pyInt_show _ h2⟩⟩
  exact ⟨g _ true ⟨hp.properPod, hp.properContainer, hp.containers, hp.resources, hp.args⟩ rfl rfl rfl rfl,
    g _ false ⟨hp.properPod, hp.properContainer, hp.containers, hp.resources, hp.args⟩ rfl rfl rfl rfl⟩

/-- What Kubernetes demands of a pod: it asks for no more than its limits. -/
def Acceptable (pod : Obj) : Prop :=
  ∀ s t, (amount pod "requests".toList "cpu".toList = some s → amount pod "limits".toList "cpu".toList = some t →
      ∀ m n, milli s = some m → milli t = some n → m ≤ n) ∧
    (amount pod "requests".toList "memory".toList = some s → amount pod "limits".toList "memory".toList = some t →
      ∀ m n, Boot.pyInt s = some m → Boot.pyInt t = some n → m ≤ n)

private theorem acceptable_iff (c : Ctl) (ns name : Str) (a : Amounts) (p : PodConfig) (w : Bool)
    (hp : Plain p) (hm : 0 ≤ a.memory) (hml : 0 ≤ a.limitMemory)
    (e1 : p.cpuRequest = cpuText a.cores) (e2 : p.cpuLimit = cpuText a.limitCores)
    (e3 : p.memRequest = Boot.showInt a.memory) (e4 : p.memLimit = Boot.showInt a.limitMemory) :
    Acceptable (makePod c ns name p w) ↔ thousandths a.cores ≤ thousandths a.limitCores ∧ a.memory ≤ a.limitMemory := by
  obtain ⟨p1, p2, p3, p4⟩ := pod_amounts (c := c) (ns := ns) (name := name) (p := p) (worker := w) hp
  rw [e1] at p1; rw [e2] at p2; rw [e3] at p3; rw [e4] at p4
  constructor
  · intro h
    exact ⟨(h _ _).1 p1 p2 _ _ (milli_text _) (milli_text _), (h _ _).2 p3 p4 _ _ (pyInt_show _ hm) (pyInt_show _ hml)⟩
  · rintro ⟨h1, h2⟩ s t
    constructor
    · intro hs ht m n hm' hn
      rw [p1] at hs; rw [p2] at ht
      cases hs; cases ht
      rw [milli_text] at hm' hn
      cases hm'; cases hn
      exact h1
    · intro hs ht m n hm' hn
      rw [p3] at hs; rw [p4] at ht
      cases hs; cases ht
      rw [pyInt_show _ hm] at hm'; rw [pyInt_show _ hml] at hn
      cases hm'; cases hn
      exact h2

/-- C164, in part: where the configuration sets no limits, whatever cores and memory a user chooses, no pod asks for
more than its limits. The same holds for limits that are at least what the user chose. Missing: smaller limits, with
which Kubernetes refuses the pods (`C164_acceptable_violated`). -/
theorem C164_acceptable_partial (c : Ctl) (ns name : Str) (cmd : List Str) (a : Amounts) (t : Option Nat) (p : PodConfig)
    (cores : Option Rat) (memory : Option Int) (hp : Plain p)
    (hc : 0 ≤ (a.choose cores memory).cores) (hm : 0 ≤ (a.choose cores memory).memory)
    (hl : ∀ l, a.coresLimit = some l → (a.choose cores memory).cores ≤ l)
    (hml : ∀ l, a.memoryLimit = some l → (a.choose cores memory).memory ≤ l) :
    Acceptable (workerPodOf c ns name cmd (a.choose cores memory) t p) ∧
    Acceptable (schedulerPodOf c ns name (a.choose cores memory) p) := by
  have h1 : (a.choose cores memory).cores ≤ (a.choose cores memory).limitCores := by
    unfold Amounts.limitCores
    cases h : (a.choose cores memory).coresLimit with
    | none => exact Rat.le_refl
    | some l => exact hl l h
  have h2 : (a.choose cores memory).memory ≤ (a.choose cores memory).limitMemory := by
    unfold Amounts.limitMemory
    cases h : (a.choose cores memory).memoryLimit with
    | none => exact Int.le_refl _
    | some l => exact hml l h
  have h3 := thousandths_mono hc h1
  exact ⟨(acceptable_iff c ns name (a.choose cores memory)
      { withAmounts (a.choose cores memory) p with args := workerCommand cmd ns name (a.choose cores memory) t } true
      ⟨hp.properPod, hp.properContainer, hp.containers, hp.resources, hp.args⟩ hm
      (Int.le_trans hm h2) rfl rfl rfl rfl).2 ⟨h3, h2⟩,
    (acceptable_iff c ns name (a.choose cores memory) (withAmounts (a.choose cores memory) p) false
      ⟨hp.properPod, hp.properContainer, hp.containers, hp.resources, hp.args⟩ hm
      (Int.le_trans hm h2) rfl rfl rfl rfl).2 ⟨h3, h2⟩⟩

/-- C164 fails where the configuration sets a limit and the options let a user choose more: the pods ask for more
than their limits. -/
theorem C164_acceptable_violated (c : Ctl) (ns name : Str) (cmd : List Str) (t : Option Nat) (p : PodConfig) (hp : Plain p) :
    ∃ (a : Amounts) (cores : Option Rat), a.cores ≤ a.limitCores ∧ a.memory ≤ a.limitMemory ∧
      ¬ Acceptable (workerPodOf c ns name cmd (a.choose cores none) t p) := by
  refine ⟨{ cores := 1, coresLimit := some 2 }, some 4, by decide +kernel, by decide, ?_⟩
  intro h
  have := ((acceptable_iff c ns name { cores := 4, coresLimit := some 2 }
      { withAmounts { cores := 4, coresLimit := some 2 } p with
        args := workerCommand cmd ns name { cores := 4, coresLimit := some 2 } t } true
      ⟨hp.properPod, hp.properContainer, hp.containers, hp.resources, hp.args⟩ (by decide) (by decide) rfl rfl rfl rfl).1 h).1
  exact absurd this (by decide +kernel)

/-- C164, in part: the pods ask for the cores and the memory that a user chose, and, where the user chose nothing or the
configuration sets limits, for those of the configuration. Missing: as for `C164_amounts_partial`. -/
theorem C164_chosen_partial (c : Ctl) (ns name : Str) (cmd : List Str) (a : Amounts) (t : Option Nat) (p : PodConfig)
    (hp : Plain p) (cores : Option Rat) (memory : Option Int) (hc : 0 ≤ cores.getD a.cores) (hm : 0 ≤ memory.getD a.memory)
    (hl : ∀ l, a.coresLimit = some l → 0 ≤ l) (hml : ∀ l, a.memoryLimit = some l → 0 ≤ l) :
    Asks (workerPodOf c ns name cmd (a.choose cores memory) t p) (cores.getD a.cores) (a.coresLimit.getD (cores.getD a.cores))
      (memory.getD a.memory) (a.memoryLimit.getD (memory.getD a.memory)) ∧
    Asks (schedulerPodOf c ns name (a.choose cores memory) p) (cores.getD a.cores) (a.coresLimit.getD (cores.getD a.cores))
      (memory.getD a.memory) (a.memoryLimit.getD (memory.getD a.memory)) :=
  C164_amounts_partial c ns name cmd (a.choose cores memory) t p hp hc hl hm hml

/-! ### The command of a worker -/

/-- Specification: the value of a flag, in a list of flags with their values. -/
def flagValue (flag : Str) : List Str → Option Str
  | x :: y :: l => if x = flag then some y else flagValue flag l
  | _ => none

/-- Specification: the arguments of the first container. -/
def argsOf (pod : Obj) : Option (List Obj) :=
  match (firstContainer pod).bind (fun c => c.get ["args".toList]) with
  | some (.list _ l) => some l
  | _ => none

/-- Specification: as many threads as whole cores, and at least one. -/
def Fitting (n : Int) (cores : Rat) : Prop := 1 ≤ n ∧ ((n : Rat) ≤ cores ∨ n = 1) ∧ cores < (n : Rat) + 1

/-- C164, in part: the command of a worker starts with the configured one; the rest leads it to the service of its own
cluster, and gives it as many threads as the configuration says or, if it says nothing, as there are whole cores, and
the memory to which its pod is limited. Missing: extra configuration with other arguments. -/
theorem C164_worker_partial (c : Ctl) (ns name : Str) (cmd : List Str) (a : Amounts) (t : Option Nat) (p : PodConfig)
    (hp : Plain p) :
    ∃ rest, argsOf (workerPodOf c ns name cmd a t p) = some ((cmd ++ rest).map .str) ∧
      rest.head? = some ("tls://".toList ++ (webRoute c ns name).2.1 ++ ".".toList ++ (webRoute c ns name).2.2 ++ ":8786".toList) ∧
      (∃ n : Int, flagValue "--nthreads".toList rest.tail = some (Boot.showInt n) ∧
        (t = none → Fitting n a.cores) ∧ (∀ k : Nat, t = some k → n = k)) ∧
      flagValue "--memory-limit".toList rest.tail = amount (workerPodOf c ns name cmd a t p) "limits".toList "memory".toList ∧
      flagValue "--name".toList rest.tail = some "$(DASK_GATEWAY_WORKER_NAME)".toList := by
  have hpl : Plain { withAmounts a p with args := workerCommand cmd ns name a t } :=
    ⟨hp.properPod, hp.properContainer, hp.containers, hp.resources, hp.args⟩
  refine ⟨["tls://".toList ++ serviceName name ++ '.' :: ns ++ ":8786".toList,
     "--dashboard-address".toList, ":8787".toList,
     "--name".toList, "$(DASK_GATEWAY_WORKER_NAME)".toList,
     "--nthreads".toList, Boot.showInt (threads a.cores t),
     "--memory-limit".toList, Boot.showInt a.limitMemory], ?_, ?_, ⟨threads a.cores t, ?_, ?_, ?_⟩, ?_, ?_⟩
  · unfold argsOf workerPodOf
    rw [first_spec hpl.properPod hpl.containers]
    simp only [Option.bind_some]
    rw [get_under _ hpl.properContainer hpl.args, base_args]
    rfl
  · change some _ = some _
    congr 1
    simp only [webRoute, List.append_assoc, List.cons_append, List.nil_append]
    rfl
  · rfl
  · rintro rfl
    have h1 := Rat.floor_le a.cores
    have h2 := Rat.lt_floor_add_one a.cores
    unfold threads Fitting
    dsimp only
    by_cases h : 1 ≤ a.cores.floor
    · rw [Int.max_eq_left h]
      exact ⟨h, Or.inl h1, by simpa using h2⟩
    · have h0 : a.cores.floor + 1 ≤ 1 := by omega
      rw [Int.max_eq_right (by omega)]
      refine ⟨by decide, Or.inr rfl, ?_⟩
      have : ((a.cores.floor + 1 : Int) : Rat) ≤ ((1 : Int) : Rat) := by exact_mod_cast h0
      grind
  · rintro k rfl
    rfl
  · unfold workerPodOf
    rw [(pod_amounts hpl).2.2.2]
    rfl
  · rfl

/-- The hypotheses are met by pods without extra configuration. -/
theorem plain_some : Plain somePod := by
  have h : (Obj.dict 0 []).Proper := by
    intro path i d hd
    cases path with
    | nil => cases hd; exact List.nodup_nil
    | cons k path => cases hd
  exact ⟨h, h, Or.inl rfl, rfl, rfl⟩

example : cpuText (3 / 2) = "1.500".toList ∧ cpuText (1 / 3) = "0.333".toList ∧ cpuText (1 / 2000) = "0.000".toList ∧
    cpuText 12 = "12.000".toList := by decide +kernel

example : threads (5 / 2) none = 2 ∧ threads (1 / 2) none = 1 ∧ threads 2 (some 4) = 4 := by decide +kernel

example : amount (workerPodOf someCtl "ns".toList "c1".toList ["dask-worker".toList] { cores := 3 / 2, memory := 4096 } none somePod)
    "limits".toList "cpu".toList = some "1.500".toList ∧
    amount (workerPodOf someCtl "ns".toList "c1".toList ["dask-worker".toList] { cores := 3 / 2, memory := 4096, memoryLimit := some 8192 }
      none somePod) "limits".toList "memory".toList = some "8192".toList := by
  constructor
  · rw [show amount (workerPodOf someCtl "ns".toList "c1".toList ["dask-worker".toList] { cores := 3 / 2, memory := 4096 } none somePod)
      "limits".toList "cpu".toList = some (cpuText (3 / 2)) from rfl]
    decide +kernel
  · rfl

end Verif.Kube

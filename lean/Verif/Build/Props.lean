import Verif.Build.Model
/-
C176: the executable in a wheel is one for the platforms that the wheel is for.
-/
namespace Verif.Build

/-! ## What a wheel is for -/

/-- The processors that the proxy is built for. -/
inductive Arch where
  | amd64
  | arm64
deriving DecidableEq

/-- Platforms: Linux, Windows, and macOS of some version. -/
inductive Plat where
  | linux (a : Arch)
  | windows (a : Arch)
  | mac (major minor : Str) (a : Arch)
deriving DecidableEq

/-- Versions are written in digits. -/
def Number (s : Str) : Prop := s ≠ [] ∧ ∀ c ∈ s, c.isDigit = true

/-- Versions of macOS have numbers. -/
def Plat.Fine : Plat → Prop
  | .mac major minor _ => Number major ∧ Number minor
  | _ => True

/-- How Python calls a platform (`sysconfig.get_platform`). -/
def Plat.python : Plat → Str
  | .linux .amd64 => "linux-x86_64".toList
  | .linux .arm64 => "linux-aarch64".toList
  | .windows .amd64 => "win-amd64".toList
  | .windows .arm64 => "win-arm64".toList
  | .mac major minor .amd64 => "macosx-".toList ++ major ++ ".".toList ++ minor ++ "-x86_64".toList
  | .mac major minor .arm64 => "macosx-".toList ++ major ++ ".".toList ++ minor ++ "-arm64".toList

/-- The number that digits stand for. -/
def value : Str → Nat
  | [] => 0
  | c :: s => (c.toNat - 48) * 10 ^ s.length + value s

/-- The tag of wheels that pip installs there. From version 11 of macOS on it wants the minor version 0. -/
def Plat.tag : Plat → Str
  | .linux .amd64 => "py3-none-linux_x86_64".toList
  | .linux .arm64 => "py3-none-linux_aarch64".toList
  | .windows .amd64 => "py3-none-win_amd64".toList
  | .windows .arm64 => "py3-none-win_arm64".toList
  | .mac major minor a =>
    "py3-none-macosx_".toList ++ major ++ "_".toList ++ (if 11 ≤ value major then "0".toList else minor) ++
      (match a with | .amd64 => "_x86_64".toList | .arm64 => "_arm64".toList)

/-- How Go calls it. -/
def Plat.go : Plat → Str × Str
  | .linux .amd64 => ("linux".toList, "amd64".toList)
  | .linux .arm64 => ("linux".toList, "arm64".toList)
  | .windows .amd64 => ("windows".toList, "amd64".toList)
  | .windows .arm64 => ("windows".toList, "arm64".toList)
  | .mac _ _ .amd64 => ("darwin".toList, "amd64".toList)
  | .mac _ _ .arm64 => ("darwin".toList, "arm64".toList)

/-- Not both variables of the Go compiler are set. -/
def Env.NotCross (e : Env) : Prop := e.goos = none ∨ e.goos = some [] ∨ e.goarch = none ∨ e.goarch = some []

/-! ## Lemmas -/

theorem after_append (p s : Str) : after p (p ++ s) = some s := by
  induction p with
  | nil => cases s <;> rfl
  | cons a p ih => simp [after, ih]

theorem digits_eq {m r : Str} (h : Number m) : digitsThen (m ++ '_' :: r) = some (m, r) := by
  have ht : (m ++ '_' :: r).takeWhile Char.isDigit = m := by
    rw [List.takeWhile_append_of_pos h.2]
    simp [List.takeWhile, show Char.isDigit '_' = false from by decide]
  have hd : (m ++ '_' :: r).dropWhile Char.isDigit = '_' :: r := by
    rw [List.dropWhile_append_of_pos h.2]
    simp [List.dropWhile, show Char.isDigit '_' = false from by decide]
  unfold digitsThen
  rw [ht, hd]
  cases m with
  | nil => exact absurd rfl h.1
  | cons d ds => rfl

theorem under_digits {m : Str} (h : ∀ c ∈ m, c.isDigit = true) : underscored m = m := by
  unfold underscored
  conv => rhs; rw [← List.map_id m]
  refine List.map_congr_left (fun c hc => ?_)
  rw [if_neg]
  · rfl
  · rintro (rfl | rfl | rfl) <;> exact absurd (h _ hc) (by decide)

theorem under_append (a b : Str) : underscored (a ++ b) = underscored a ++ underscored b := by
  simp [underscored]

theorem under_mac {major minor a : Str} (h1 : Number major) (h2 : Number minor) :
    underscored ("macosx-".toList ++ major ++ ".".toList ++ minor ++ a) =
      "macosx_".toList ++ (major ++ '_' :: (minor ++ underscored a)) := by
  simp only [under_append, under_digits h1.2, under_digits h2.2]
  rw [show underscored "macosx-".toList = "macosx_".toList from by decide, show underscored ".".toList = ['_'] from by decide]
  simp only [List.append_assoc, List.cons_append, List.nil_append]

theorem macTag_eq {major minor a : Str} (h1 : Number major) (h2 : Number minor) (ha : a ≠ [] ∧ a.all isWord = true) :
    macTag ("macosx_".toList ++ (major ++ '_' :: (minor ++ '_' :: a))) = some (major, a) := by
  unfold macTag
  rw [after_append]
  simp only [digits_eq h1, digits_eq h2]
  rw [if_pos ha]

theorem intOf_eq (s : Str) : intOf s = value s := by
  have key : ∀ (s : Str) (n : Nat), s.foldl (fun n c => 10 * n + (c.toNat - '0'.toNat)) n = n * 10 ^ s.length + value s := by
    intro s
    induction s with
    | nil => intro n; simp [value]
    | cons c s ih =>
      intro n
      rw [List.foldl_cons, ih]
      show (10 * n + (c.toNat - 48)) * 10 ^ s.length + value s = n * 10 ^ (s.length + 1) + ((c.toNat - 48) * 10 ^ s.length + value s)
      rw [Nat.add_mul, Nat.pow_succ]
      have : 10 * n * 10 ^ s.length = n * (10 ^ s.length * 10) := by
        rw [Nat.mul_comm 10 n, Nat.mul_assoc, Nat.mul_comm 10]
      omega
  have := key s 0
  simpa [intOf] using this

theorem tag_mac {major minor a : Str} (h1 : Number major) (h2 : Number minor) (ha : a ≠ [] ∧ a.all isWord = true)
    (hu : underscored ('-' :: a) = '_' :: a) :
    platformTag ("macosx-".toList ++ major ++ ".".toList ++ minor ++ '-' :: a) =
      "macosx_".toList ++ major ++ "_".toList ++ (if 11 ≤ value major then "0".toList else minor) ++ '_' :: a := by
  unfold platformTag
  rw [under_mac h1 h2, hu, macTag_eq h1 h2 ha]
  simp only [intOf_eq]
  split <;> simp

theorem last_none : ∀ {s : Str} (b : Bool), '-' ∉ s → lastArch b s = none := by
  intro s
  induction s with
  | nil => intro b _; rfl
  | cons c s ih =>
    intro b h
    have hc : c ≠ '-' := fun e => h (e ▸ List.mem_cons_self)
    have hs : '-' ∉ s := fun e => h (List.mem_cons_of_mem _ e)
    unfold lastArch
    rw [ih true hs]
    simp [hc]

theorem last_eq {r a : Str} (hr : '-' ∉ r) (ha : archAt r = some a) : ∀ {m : Str} (b : Bool), (b = true ∨ m ≠ []) →
    (∀ c ∈ m, c ≠ '\n') → lastArch b (m ++ '-' :: r) = some a := by
  intro m
  induction m with
  | nil =>
    intro b hb _
    have hb : b = true := hb.resolve_right (fun h => h rfl)
    subst hb
    show lastArch true ('-' :: r) = _
    unfold lastArch
    rw [last_none true hr]
    simp [ha]
  | cons c m ih =>
    intro b _ hm
    show lastArch b (c :: (m ++ '-' :: r)) = _
    unfold lastArch
    rw [ih true (.inl rfl) (fun x hx => hm x (List.mem_cons_of_mem _ hx)), if_neg (hm c List.mem_cons_self)]

theorem parsed_mac {major minor r a : Str} (h1 : Number major) (h2 : Number minor) (hr : '-' ∉ r) (ha : archAt r = some a) :
    parsed ("macosx-".toList ++ major ++ ".".toList ++ minor ++ '-' :: r) = some ("darwin".toList, goarchOf a) := by
  have e : "macosx-".toList ++ major ++ ".".toList ++ minor ++ '-' :: r = "macosx-".toList ++ ((major ++ '.' :: minor) ++ '-' :: r) := by
    simp only [List.append_assoc, List.cons_append]
    rfl
  have hw : after "win-".toList ("macosx-".toList ++ ((major ++ '.' :: minor) ++ '-' :: r)) = none := rfl
  have hl : after "linux-".toList ("macosx-".toList ++ ((major ++ '.' :: minor) ++ '-' :: r)) = none := rfl
  unfold parsed
  rw [e, hw, hl, after_append]
  have : lastArch false ((major ++ '.' :: minor) ++ '-' :: r) = some a := by
    refine last_eq hr ha false (.inr (by simp)) (fun c hc => ?_)
    rintro rfl
    rcases List.mem_append.1 hc with h | h
    · exact absurd (h1.2 _ h) (by decide)
    · rcases List.mem_cons.1 h with h | h
      · exact absurd h (by decide)
      · exact absurd (h2.2 _ h) (by decide)
  simp only [Option.bind, this]

theorem plat_parsed (p : Plat) (h : p.Fine) : parsed p.python = some p.go := by
  cases p with
  | linux a => cases a <;> decide
  | windows a => cases a <;> decide
  | mac major minor a =>
    cases a
    · exact parsed_mac (r := "x86_64".toList) (a := "x86_64".toList) h.1 h.2 (by decide) (by decide)
    · exact parsed_mac (r := "arm64".toList) (a := "arm64".toList) h.1 h.2 (by decide) (by decide)

theorem glue {p q r m u n t : Str} (h : r = p ++ q) : p ++ (q ++ m ++ u ++ n ++ t) = r ++ m ++ u ++ n ++ t := by
  subst h
  simp only [List.append_assoc]

theorem plat_tag (p : Plat) (h : p.Fine) : "py3-none-".toList ++ platformTag p.python = p.tag := by
  cases p with
  | linux a => cases a <;> decide
  | windows a => cases a <;> decide
  | mac major minor a =>
    have e : "py3-none-macosx_".toList = "py3-none-".toList ++ "macosx_".toList := by decide
    cases a
    · exact (congrArg _ (tag_mac (a := "x86_64".toList) h.1 h.2 (by decide) (by decide))).trans (glue e)
    · exact (congrArg _ (tag_mac (a := "arm64".toList) h.1 h.2 (by decide) (by decide))).trans (glue e)

theorem target_plain {e : Env} (h : e.NotCross) : target e = match parsed e.platform with
    | some t => t
    | none =>
      (if lower e.system ∈ ["windows".toList, "darwin".toList, "linux".toList] then lower e.system else [],
       goarchOf (lower e.machine)) := by
  unfold target
  rcases h with h | h | h | h <;> rw [h]
  · rfl
  · rfl
  · cases given e.goos <;> rfl
  · cases given e.goos <;> rfl

/-! ## C176 -/

/-- C176 for one platform: on Linux, Windows and macOS of every version, for both processors, a wheel that is built has the
tag that pip asks for there, and the executable in it is one for that platform. Missing: the variables of the Go compiler
are both set, and the Python of macOS that is for both processors; see the refutations. -/
theorem C176_partial (e : Env) (p : Plat) (hp : p.Fine) (h : e.platform = p.python) (hc : e.NotCross)
    (hn : e.noProxy = none ∨ e.noProxy = some "0".toList) (w : Wheel) (hw : wheel e = some w) :
    w.tag = p.tag ∧ w.binary = some p.go := by
  have hb : envBool e.noProxy false = some false := by
    rcases hn with hn | hn <;> rw [hn] <;> decide
  have ht : target e = p.go := by rw [target_plain hc, h, plat_parsed p hp]
  unfold wheel at hw
  rw [hb] at hw
  simp only [] at hw
  split at hw
  · cases hw
    exact ⟨by rw [h]; exact plat_tag p hp, by rw [ht]⟩
  · cases hw

/-- And it is built, if the compiler can. -/
theorem C176_built (e : Env) (p : Plat) (hp : p.Fine) (h : e.platform = p.python) (hc : e.NotCross)
    (hn : e.noProxy = none ∨ e.noProxy = some "0".toList) : (wheel e).isSome = (e.go && e.builds p.go.1 p.go.2) := by
  have hb : envBool e.noProxy false = some false := by
    rcases hn with hn | hn <;> rw [hn] <;> decide
  have ht : target e = p.go := by rw [target_plain hc, h, plat_parsed p hp]
  unfold wheel
  rw [hb, ht]
  simp only []
  cases e.go <;> cases hx : e.builds p.go.1 p.go.2 <;> simp

/-- A wheel is for every platform if and only if it has no executable. -/
theorem C176_any (e : Env) (w : Wheel) (hw : wheel e = some w) (hp : e.platform ≠ "any".toList) :
    w.binary = none ↔ w.tag = "py3-none-any".toList := by
  unfold wheel at hw
  split at hw
  · cases hw
  · cases hw
    simp
  · split at hw
    · cases hw
      simp only [reduceCtorEq, false_iff]
      rw [show "py3-none-any".toList = "py3-none-".toList ++ "any".toList from by decide, List.append_cancel_left_eq]
      unfold platformTag
      intro h
      split at h
      · refine hp ?_
        have : ∀ (s : Str), underscored s = "any".toList → s = "any".toList := by
          intro s hs
          unfold underscored at hs
          have key : ∀ (l r : Str), l.map (fun c => if c = '-' ∨ c = '.' ∨ c = ' ' then '_' else c) = r → '_' ∉ r → l = r := by
            intro l
            induction l with
            | nil => intro r h _; exact h
            | cons c l ih =>
              intro r h hr
              subst h
              rw [List.map_cons] at hr ⊢
              rw [List.mem_cons, not_or] at hr
              by_cases hc : c = '-' ∨ c = '.' ∨ c = ' '
              · rw [if_pos hc] at hr
                exact absurd rfl hr.1
              · rw [if_neg hc, ← ih _ rfl hr.2]
          exact key s _ hs (by decide)
        exact this _ h
      · split at h
        · have := congrArg List.head? h
          simp at this
        · rename_i hm hl
          rw [h] at hm
          rw [show macTag "any".toList = none from by decide] at hm
          cases hm
    · cases hw

theorem envBool_true (v : Option Str) : envBool v false = some true ↔
    ∃ x, v = some x ∧ (lower x = "1".toList ∨ lower x = "true".toList) := by
  cases v with
  | none => simp [envBool]
  | some v =>
    unfold envBool
    simp only [Option.some.injEq, exists_eq_left']
    by_cases h : lower v = "1".toList ∨ lower v = "true".toList
    · rw [if_pos h]
      exact ⟨fun _ => h, fun _ => rfl⟩
    · rw [if_neg h]
      refine ⟨fun hx => ?_, fun hx => absurd hx h⟩
      split at hx <;> cases hx

/-- Leaving the executable out is only done if it is asked for in a way that can be understood. -/
theorem C176_left_out (e : Env) (w : Wheel) (hw : wheel e = some w) :
    w.binary = none ↔ ∃ v, e.noProxy = some v ∧ (lower v = "1".toList ∨ lower v = "true".toList) := by
  rw [← envBool_true]
  unfold wheel at hw
  split at hw
  · cases hw
  · rename_i hb
    cases hw
    simp [hb]
  · rename_i hb
    split at hw
    · cases hw
      simp [hb]
    · cases hw

/-- What is asked for in another way is an error, not a guess. -/
theorem C176_unclear (e : Env) (v : Str) (h : e.noProxy = some v)
    (hv : lower v ∉ ["1".toList, "true".toList, "0".toList, "false".toList]) : wheel e = none := by
  simp only [List.mem_cons, List.not_mem_nil, or_false, not_or] at hv
  have : envBool e.noProxy false = none := by
    rw [h]
    unfold envBool
    simp only []
    rw [if_neg (by rintro (h | h); exact hv.1 h; exact hv.2.1 h), if_neg (by rintro (h | h); exact hv.2.2.1 h; exact hv.2.2.2 h)]
  unfold wheel
  rw [this]

/-- On other platforms the executable is built for the machine it is built on: `GOOS` and `GOARCH` are those of the machine,
or left to the compiler. -/
theorem C176_other (e : Env) (hc : e.NotCross) (hp : parsed e.platform = none) (w : Wheel) (hw : wheel e = some w) (os arch : Str)
    (hb : w.binary = some (os, arch)) : (os = lower e.system ∨ os = []) ∧ (arch = [] ∨
      (arch = "amd64".toList ∧ lower e.machine ∈ ["amd64".toList, "x86_64".toList]) ∨
      (arch = "arm64".toList ∧ lower e.machine ∈ ["arm64".toList, "aarch64".toList])) := by
  have ht := target_plain hc
  rw [hp] at ht
  simp only [] at ht
  have : target e = (os, arch) := by
    unfold wheel at hw
    split at hw
    · cases hw
    · cases hw
      cases hb
    · split at hw
      · cases hw
        exact Option.some.inj hb
      · cases hw
  rw [this] at ht
  injection ht with h1 h2
  constructor
  · rw [h1]
    split
    · exact .inl rfl
    · exact .inr rfl
  · rw [h2]
    unfold goarchOf
    split
    · rename_i h
      exact .inr (.inl ⟨rfl, by simpa using h⟩)
    · split
      · rename_i h
        exact .inr (.inr ⟨rfl, by simpa using h⟩)
      · exact .inl rfl

/-- A machine on which the proxy can be built for everything. -/
def machine : Env :=
  { noProxy := none, goos := none, goarch := none, platform := "linux-x86_64".toList, system := "Linux".toList,
    machine := "x86_64".toList, go := true, builds := fun _ _ => true }

example : wheel { machine with platform := (Plat.mac "14".toList "1".toList .arm64).python } =
    some { tag := "py3-none-macosx_14_0_arm64".toList, binary := some ("darwin".toList, "arm64".toList) } := by decide +kernel
example : wheel { machine with platform := (Plat.mac "10".toList "15".toList .amd64).python } =
    some { tag := "py3-none-macosx_10_15_x86_64".toList, binary := some ("darwin".toList, "amd64".toList) } := by decide +kernel
example : wheel { machine with platform := "linux-ppc64le".toList, machine := "ppc64le".toList } =
    some { tag := "py3-none-linux_ppc64le".toList, binary := some ("linux".toList, []) } := by decide +kernel
example : wheel { machine with noProxy := some "True".toList } = some { tag := "py3-none-any".toList, binary := none } ∧
    wheel { machine with noProxy := some "yes".toList } = none := by decide +kernel

/-- C176 does not hold if the variables of the Go compiler are set: the tag is that of the machine, and the executable is
one that does not run there. -/
theorem C176_cross_violated : ∃ (e : Env) (p : Plat) (w : Wheel), p.Fine ∧ e.platform = p.python ∧ e.noProxy = none ∧
    wheel e = some w ∧ w.tag = p.tag ∧ w.binary ≠ some p.go :=
  ⟨{ machine with goos := some "linux".toList, goarch := some "arm64".toList }, .linux .amd64, _, trivial, by decide, rfl, rfl,
    by decide +kernel, by decide +kernel⟩

/-- C176 does not hold for the Python of macOS that is for both processors, the one of python.org: the tag says that the
wheel is for both, and the executable is for one. -/
theorem C176_universal_violated : ∃ (e : Env) (w : Wheel), e.NotCross ∧ e.platform = "macosx-10.13-universal2".toList ∧
    wheel e = some w ∧ w.tag = "py3-none-macosx_10_13_universal2".toList ∧ w.binary = some ("darwin".toList, "arm64".toList) :=
  ⟨{ machine with platform := "macosx-10.13-universal2".toList, system := "Darwin".toList, machine := "arm64".toList }, _,
    .inl rfl, rfl, rfl, by decide +kernel, by decide +kernel⟩

end Verif.Build

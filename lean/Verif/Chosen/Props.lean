import Verif.Chosen.Model
/-
C190: a gateway runs with the authenticator and the backend of its configuration, or not at all.
-/
set_option linter.unusedSimpArgs false
namespace Verif.Chosen

/-! ### Specification -/

/-- `o` is what the value says: the object itself, or the attribute `cls` of the module `package`. -/
inductive Denotes (w : World) : Val → Obj → Prop where
  | itself (o : Obj) : Denotes w (.obj o) o
  | path (package cls : Str) (o : Obj) : '.' ∉ cls → w.modules package = true → w.attr package cls = some o →
      Denotes w (.text (package ++ '.' :: cls)) o

/-- The last value that a list of assignments gives to an option. -/
def Assigned (c : Conf) (name : Str) (v : Val) : Prop := ∃ l r, c = l ++ (name, v) :: r ∧ ∀ e ∈ r, e.1 ≠ name

/-- No value for an option. -/
def Unassigned (c : Conf) (name : Str) : Prop := ∀ e ∈ c, e.1 ≠ name

/-- The value of an option: that of the first of these that has one, else the default. -/
inductive ValueOf (name : Str) (default : Val) : List Conf → Val → Prop where
  | default : ValueOf name default [] default
  | here (c : Conf) (cs : List Conf) (v : Val) : Assigned c name v → ValueOf name default (c :: cs) v
  | later (c : Conf) (cs : List Conf) (v : Val) : Unassigned c name → ValueOf name default cs v → ValueOf name default (c :: cs) v

/-- The values in a file, none if it is not there. -/
def Holds (w : World) (path : Str) (c : Conf) : Prop := w.files path = some (.gives c) ∨ (w.files path = none ∧ c = [])

/-! ### Lemmas -/

theorem lookup_reverse_assigned {c : Conf} {name : Str} {v : Val} (h : Assigned c name v) :
    lookup c.reverse name = some v := by
  obtain ⟨l, r, rfl, hr⟩ := h
  rw [List.reverse_append, List.reverse_cons, List.append_assoc]
  have : ∀ (x y : Conf), (∀ e ∈ x, e.1 ≠ name) → lookup (x ++ y) name = lookup y name := by
    intro x y hx
    induction x with
    | nil => rfl
    | cons e x ih =>
      rw [List.cons_append, lookup_cons, if_neg (hx e List.mem_cons_self)]
      exact ih (fun e he => hx e (List.mem_cons_of_mem _ he))
  rw [this _ _ (fun e he => hr e (List.mem_reverse.mp he)), List.cons_append, lookup_cons, if_pos rfl]

theorem lookup_reverse_unassigned {c : Conf} {name : Str} (h : Unassigned c name) : lookup c.reverse name = none := by
  rw [lookup_eq_none]
  intro hm
  obtain ⟨e, he, rfl⟩ := List.mem_map.mp hm
  exact h e (List.mem_reverse.mp he) rfl

theorem assigned_or (c : Conf) (name : Str) : (∃ v, Assigned c name v) ∨ Unassigned c name := by
  induction c with
  | nil => exact Or.inr (fun e he => by cases he)
  | cons e c ih =>
    rcases ih with ⟨v, l, r, rfl, hr⟩ | hu
    · exact Or.inl ⟨v, e :: l, r, rfl, hr⟩
    · by_cases he : e.1 = name
      · exact Or.inl ⟨e.2, [], c, by rw [← he]; rfl, hu⟩
      · refine Or.inr (fun x hx => ?_)
        rcases List.mem_cons.mp hx with rfl | hx
        · exact he
        · exact hu x hx

theorem assigned_unique {c : Conf} {name : Str} {v v' : Val} (h : Assigned c name v) (h' : Assigned c name v') : v = v' :=
  Option.some.inj ((lookup_reverse_assigned h).symm.trans (lookup_reverse_assigned h'))

theorem value_lookup (name : Str) (d : Val) (py json cli : Conf) (v : Val) :
    (lookup (Dict.update (Dict.update (Dict.ofList py) json) cli) name).getD d = v ↔ ValueOf name d [cli, json, py] v := by
  rw [lookup_update, lookup_update, lookup_ofList]
  have key : ∀ (cs : List Conf) (v : Val), ValueOf name d cs v ↔
      ((cs.map (fun c => lookup c.reverse name)).foldr (fun a b => a.or b) none).getD d = v := by
    intro cs
    induction cs with
    | nil =>
      intro v
      constructor
      · rintro ⟨⟩; rfl
      · rintro rfl; exact .default
    | cons c cs ih =>
      intro v
      rcases assigned_or c name with ⟨x, hx⟩ | hu
      · have e : ((List.map (fun c => lookup c.reverse name) (c :: cs)).foldr (fun a b => a.or b) none).getD d = x := by
          rw [List.map_cons, List.foldr_cons, lookup_reverse_assigned hx]
          rfl
        rw [e]
        constructor
        · intro h
          cases h with
          | here _ _ _ ha => exact assigned_unique hx ha
          | later _ _ _ ha _ =>
            have h1 := lookup_reverse_assigned hx
            rw [lookup_reverse_unassigned ha] at h1
            cases h1
        · rintro rfl
          exact .here _ _ _ hx
      · rw [List.map_cons, List.foldr_cons, lookup_reverse_unassigned hu, Option.none_or, ← ih]
        constructor
        · intro h
          cases h with
          | here _ _ _ ha =>
            have h1 := lookup_reverse_assigned ha
            rw [lookup_reverse_unassigned hu] at h1
            cases h1
          | later _ _ _ _ h => exact h
        · exact .later _ _ _ hu
  rw [key]
  simp [Option.or_none]

theorem cut_last (package cls : Str) (hd : '.' ∉ cls) :
    ((package ++ '.' :: cls).reverse.dropWhile (fun c => c != '.')).drop 1 = package.reverse ∧
      (package ++ '.' :: cls).reverse.takeWhile (fun c => c != '.') = cls.reverse := by
  have hr : (package ++ '.' :: cls).reverse = cls.reverse ++ '.' :: package.reverse := by simp
  have hne : ∀ c ∈ cls.reverse, (c != '.') = true := fun c hc => by
    rw [bne_iff_ne]; exact fun e => hd (e ▸ List.mem_reverse.mp hc)
  rw [hr, List.dropWhile_append_of_pos hne, List.takeWhile_append_of_pos hne]
  simp

theorem split_last (s : Str) (h : '.' ∈ s) : ∃ package cls, s = package ++ '.' :: cls ∧ '.' ∉ cls := by
  induction s with
  | nil => cases h
  | cons c s ih =>
    by_cases hs : '.' ∈ s
    · obtain ⟨p, q, rfl, hq⟩ := ih hs
      exact ⟨c :: p, q, rfl, hq⟩
    · have : c = '.' := by
        rcases List.mem_cons.mp h with h | h
        · exact h.symm
        · exact absurd h hs
      exact ⟨[], s, by rw [this]; rfl, hs⟩

theorem validate_ok (w : World) (klass : Obj → Bool) (hk : klass .other = false) (v : Val) (o : Obj) :
    validate w klass v = .ok o ↔ Denotes w v o ∧ klass o = true := by
  cases v with
  | obj x =>
    unfold validate
    dsimp only
    constructor
    · intro h
      split at h
      · rename_i hx
        cases h
        exact ⟨.itself _, hx⟩
      · cases h
    · rintro ⟨h, hx⟩
      cases h
      rw [if_pos hx]
  | text s =>
    unfold validate
    dsimp only
    by_cases hs : '.' ∈ s
    · obtain ⟨package, cls, rfl, hc⟩ := split_last s hs
      have hi : importItem w (package ++ '.' :: cls) = if w.modules package then
          (match w.attr package cls with | none => Except.error Err.missing | some o => .ok o) else .error .missing := by
        unfold importItem
        dsimp only
        rw [if_pos (by rw [List.contains_iff_mem]; exact hs), (cut_last package cls hc).1, (cut_last package cls hc).2,
          List.reverse_reverse, List.reverse_reverse]
        cases w.attr package cls <;> rfl
      rw [hi]
      constructor
      · intro h
        by_cases hm : w.modules package = true
        · rw [if_pos hm] at h
          cases ha : w.attr package cls with
          | none => rw [ha] at h; cases h
          | some x =>
            rw [ha] at h
            dsimp only at h
            split at h
            · rename_i hx
              cases h
              exact ⟨.path _ _ _ hc hm ha, hx⟩
            · cases h
        · rw [if_neg hm] at h
          cases h
      · rintro ⟨h, hx⟩
        generalize hv : Val.text (package ++ '.' :: cls) = v at h
        cases h with
        | itself => cases hv
        | path p' c' _ hd' hm ha =>
          have e : package ++ '.' :: cls = p' ++ '.' :: c' := by injection hv
          have h1 := cut_last package cls hc
          rw [e] at h1
          have h2 := cut_last p' c' hd'
          have e1 : p' = package := by simpa using h2.1.symm.trans h1.1
          have e2 : c' = cls := by simpa using h2.2.symm.trans h1.2
          subst e1 e2
          rw [if_pos hm, ha]
          dsimp only
          rw [if_pos hx]
    · have hi : importItem w s = if w.modules s then .ok .other else .error .missing := by
        unfold importItem
        dsimp only
        rw [if_neg (by rw [List.contains_iff_mem]; exact hs)]
      rw [hi]
      constructor
      · intro h
        by_cases hm : w.modules s = true
        · rw [if_pos hm] at h
          dsimp only at h
          rw [hk] at h
          cases h
        · rw [if_neg hm] at h
          cases h
      · rintro ⟨h, _⟩
        cases h
        exact absurd (by simp) hs

theorem content_ok (w : World) (path : Str) (c : Conf) : content (w.files path) = .ok c ↔ Holds w path c := by
  unfold Holds
  cases w.files path with
  | none => simp [content, eq_comm]
  | some r => cases r <;> simp [content]

/-- A path that can be given an extension: its last component has something other than dots in it. -/
def Stem (base : Str) : Prop :=
  ∃ dir name, base = dir ++ name ∧ (dir = [] ∨ ∃ d, dir = d ++ ['/']) ∧ '/' ∉ name ∧ ∃ c ∈ name, c ≠ '.'

theorem root_stem (base ext : Str) (h : Stem base) (h1 : '.' ∉ ext) (h2 : '/' ∉ ext) : root (base ++ '.' :: ext) = base := by
  obtain ⟨dir, name, rfl, hdir, hslash, c, hc, hdot⟩ := h
  unfold root
  dsimp only
  have hr : (dir ++ name ++ '.' :: ext).reverse = ext.reverse ++ '.' :: (dir ++ name).reverse := by simp
  have hne : ∀ c ∈ ext.reverse, (c != '.' && c != '/') = true := by
    intro c hc
    rw [Bool.and_eq_true, bne_iff_ne, bne_iff_ne]
    exact ⟨fun e => h1 (e ▸ List.mem_reverse.mp hc), fun e => h2 (e ▸ List.mem_reverse.mp hc)⟩
  have ht : (dir ++ name ++ '.' :: ext).reverse.takeWhile (fun c => c != '.' && c != '/') = ext.reverse := by
    rw [hr, List.takeWhile_append_of_pos hne]
    simp
  rw [ht, hr, List.drop_left]
  have hname : ∀ c ∈ name.reverse, (c != '/') = true := by
    intro c hc
    rw [bne_iff_ne]
    exact fun e => hslash (e ▸ List.mem_reverse.mp hc)
  show (if ((List.takeWhile (fun c => c != '/') (dir ++ name).reverse).any fun c => c != '.') = true then (dir ++ name).reverse.reverse
    else dir ++ name ++ '.' :: ext) = _
  rw [if_pos, List.reverse_reverse]
  rw [List.any_eq_true]
  refine ⟨c, ?_, by rw [bne_iff_ne]; exact hdot⟩
  rw [List.reverse_append, List.takeWhile_append_of_pos hname]
  exact List.mem_append_left _ (List.mem_reverse.mpr hc)

/-! ### C190 -/

/-- The default authenticator. -/
def simple : Val := .text "dask_gateway_server.auth.SimpleAuthenticator".toList

/-- The default backend. -/
def local_ : Val := .text "dask_gateway_server.backends.local.UnsafeLocalBackend".toList

/-- C190: with a configuration file whose name ends in `.py`, the gateway starts with these two exactly if they are what the command
line, the file of the same name with `.json`, or the file itself says, in this order, or else the defaults, and they are
an authenticator and a backend; so it does not start if one of these cannot be imported or is something else, or a file raises.
Partial: not if the file is missing, see `C190_missing_violated`, has another extension, see `C190_extension_violated`, or
misspells an option, see `C190_misspelled_violated`. -/
theorem C190_exact_partial (w : World) (argv : Argv) (base : Str) (hs : Stem base)
    (hf : argv.configFile = some (base ++ ".py".toList) ∨ (argv.configFile = none ∧ base = "dask_gateway_config".toList))
    (a b : Obj) :
    startUp w argv = .ok (a, b) ↔
      ∃ py json va vb, Holds w (base ++ ".py".toList) py ∧ Holds w (base ++ ".json".toList) json ∧
        ValueOf "authenticator_class".toList simple [argv.conf, json, py] va ∧ Denotes w va a ∧ (∃ n x, a = .cls n true x) ∧
        ValueOf "backend_class".toList local_ [argv.conf, json, py] vb ∧ Denotes w vb b ∧ (∃ n x, b = .cls n x true) := by
  have hroot : root (argv.configFile.getD "dask_gateway_config.py".toList) = base := by
    rcases hf with hf | ⟨hf, rfl⟩
    · rw [hf]
      exact root_stem base "py".toList hs (by decide) (by decide)
    · rw [hf]
      exact root_stem "dask_gateway_config".toList "py".toList hs (by decide) (by decide)
  have hauth : ∀ o, isAuthenticator o = true ↔ ∃ n x, o = .cls n true x := by
    intro o
    cases o <;> simp [isAuthenticator, eq_comm]
  have hback : ∀ o, isBackend o = true ↔ ∃ n x, o = .cls n x true := by
    intro o
    cases o <;> simp [isBackend, eq_comm]
  have hload : ∀ conf, loadConfig w argv = .ok conf ↔ ∃ py json, Holds w (base ++ ".py".toList) py ∧
      Holds w (base ++ ".json".toList) json ∧ conf = Dict.update (Dict.update (Dict.ofList py) json) argv.conf := by
    intro conf
    unfold loadConfig
    dsimp only
    rw [hroot]
    constructor
    · intro h
      cases hp : content (w.files (base ++ ".py".toList)) with
      | error e => rw [hp] at h; cases h
      | ok py =>
        rw [hp] at h
        dsimp only at h
        cases hj : content (w.files (base ++ ".json".toList)) with
        | error e => rw [hj] at h; cases h
        | ok json =>
          rw [hj] at h
          cases h
          exact ⟨py, json, (content_ok _ _ _).mp hp, (content_ok _ _ _).mp hj, rfl⟩
    · rintro ⟨py, json, hp, hj, rfl⟩
      rw [(content_ok _ _ _).mpr hp, (content_ok _ _ _).mpr hj]
  constructor
  · intro h
    unfold startUp at h
    cases hl : loadConfig w argv with
    | error e => rw [hl] at h; cases h
    | ok conf =>
      rw [hl] at h
      dsimp only at h
      obtain ⟨py, json, hp, hj, rfl⟩ := (hload conf).mp hl
      split at h
      · cases h
      · rename_i a' ha
        split at h
        · cases h
        · rename_i b' hb
          cases h
          unfold choose at ha hb
          rw [validate_ok _ _ rfl] at ha hb
          exact ⟨py, json, _, _, hp, hj, (value_lookup _ _ _ _ _ _).mp rfl, ha.1, (hauth _).mp ha.2,
            (value_lookup _ _ _ _ _ _).mp rfl, hb.1, (hback _).mp hb.2⟩
  · rintro ⟨py, json, va, vb, hp, hj, hva, hda, haa, hvb, hdb, hbb⟩
    unfold startUp
    rw [(hload _).mpr ⟨py, json, hp, hj, rfl⟩]
    dsimp only
    have ha : choose w isAuthenticator (Dict.update (Dict.update (Dict.ofList py) json) argv.conf) "authenticator_class".toList
        "dask_gateway_server.auth.SimpleAuthenticator".toList = .ok a := by
      show validate w isAuthenticator ((lookup _ _).getD simple) = _
      rw [(value_lookup _ _ _ _ _ va).mpr hva]
      exact (validate_ok _ _ rfl _ _).mpr ⟨hda, (hauth _).mpr haa⟩
    have hb : choose w isBackend (Dict.update (Dict.update (Dict.ofList py) json) argv.conf) "backend_class".toList
        "dask_gateway_server.backends.local.UnsafeLocalBackend".toList = .ok b := by
      show validate w isBackend ((lookup _ _).getD local_) = _
      rw [(value_lookup _ _ _ _ _ vb).mpr hvb]
      exact (validate_ok _ _ rfl _ _).mpr ⟨hdb, (hback _).mpr hbb⟩
    rw [ha]
    dsimp only
    rw [hb]

/-- C190: the gateway does not start if its configuration file raises. -/
theorem C190_raises (w : World) (argv : Argv) (base : Str) (hs : Stem base)
    (hf : argv.configFile = some (base ++ ".py".toList) ∨ (argv.configFile = none ∧ base = "dask_gateway_config".toList))
    (hr : w.files (base ++ ".py".toList) = some .raises) : ∃ e, startUp w argv = .error e := by
  cases h : startUp w argv with
  | error e => exact ⟨e, rfl⟩
  | ok r =>
    obtain ⟨py, _, _, _, hp, _⟩ := (C190_exact_partial w argv base hs hf r.1 r.2).mp h
    rcases hp with hp | ⟨hp, _⟩
    · rw [hr] at hp; cases hp
    · rw [hr] at hp; cases hp

/-- C190: an authenticator that is named in the file and cannot be imported, or is none, is not replaced by the default: the gateway
does not start. -/
theorem C190_no_fallback (w : World) (argv : Argv) (base : Str) (hs : Stem base)
    (hf : argv.configFile = some (base ++ ".py".toList) ∨ (argv.configFile = none ∧ base = "dask_gateway_config".toList))
    (py : Conf) (hr : w.files (base ++ ".py".toList) = some (.gives py)) (hj : w.files (base ++ ".json".toList) = none)
    (hu : Unassigned argv.conf "authenticator_class".toList) (v : Val) (hv : Assigned py "authenticator_class".toList v)
    (hn : ∀ n x, ¬ Denotes w v (.cls n true x)) : ∃ e, startUp w argv = .error e := by
  cases h : startUp w argv with
  | error e => exact ⟨e, rfl⟩
  | ok r =>
    obtain ⟨py', json, va, _, hp, hj', hva, hda, ⟨n, x, ha⟩, _⟩ := (C190_exact_partial w argv base hs hf r.1 r.2).mp h
    have e1 : py' = py := by
      rcases hp with hp | ⟨hp, _⟩
      · rw [hr] at hp; cases hp; rfl
      · rw [hr] at hp; cases hp
    have e2 : json = [] := by
      rcases hj' with hp | ⟨_, hp⟩
      · rw [hj] at hp; cases hp
      · exact hp
    subst e1 e2
    have hval : ValueOf "authenticator_class".toList simple [argv.conf, [], py'] v :=
      .later _ _ _ hu (.later _ _ _ (fun e he => by cases he) (.here _ _ _ hv))
    have : va = v := ((value_lookup _ _ py' [] argv.conf va).mpr hva).symm.trans ((value_lookup _ _ py' [] argv.conf v).mpr hval)
    rw [this, ha] at hda
    exact absurd hda (hn n x)

/-! ### Where the code does not do it -/

/-- A process in which the package can be imported, and a class of one's own. -/
def demo (files : Str → Option Read) : World where
  files := files
  modules p := decide (p ∈ ["dask_gateway_server.auth".toList, "dask_gateway_server.backends.local".toList, "own".toList])
  attr p n :=
    if p = "dask_gateway_server.auth".toList ∧ n = "SimpleAuthenticator".toList then some (.cls n true false)
    else if p = "dask_gateway_server.backends.local".toList ∧ n = "UnsafeLocalBackend".toList then some (.cls n false true)
    else if p = "own".toList ∧ n = "Strict".toList then some (.cls n true false)
    else none

/-- What a gateway without configuration has. -/
def defaults : Obj × Obj := (.cls "SimpleAuthenticator".toList true false, .cls "UnsafeLocalBackend".toList false true)

/-- C190 is refuted for a configuration file that is missing: the gateway starts all the same, with the defaults. -/
theorem C190_missing_violated : ∃ (w : World) (argv : Argv) (f : Str), argv.configFile = some f ∧ w.files f = none ∧
    startUp w argv = .ok defaults :=
  ⟨demo (fun _ => none), ⟨some "/etc/gateway.py".toList, []⟩, "/etc/gateway.py".toList, rfl, rfl, by decide +kernel⟩

theorem choose_files (files : Str → Option Read) (klass : Obj → Bool) (conf : Conf) (name default : Str) :
    choose (demo files) klass conf name default = choose (demo (fun _ => none)) klass conf name default := by
  unfold choose validate
  cases (lookup conf name).getD (.text default) with
  | obj o => rfl
  | text s =>
    have : importItem (demo files) s = importItem (demo (fun _ => none)) s := by
      unfold importItem demo
      rfl
    dsimp only
    rw [this]

theorem startUp_unread (files : Str → Option Read) (h1 : files "/etc/gateway.py".toList = none)
    (h2 : files "/etc/gateway.json".toList = none) : startUp (demo files) ⟨some "/etc/gateway.conf".toList, []⟩ = .ok defaults := by
  have hr : root "/etc/gateway.conf".toList = "/etc/gateway".toList := by decide +kernel
  have e1 : "/etc/gateway".toList ++ ".py".toList = "/etc/gateway.py".toList := by decide +kernel
  have e2 : "/etc/gateway".toList ++ ".json".toList = "/etc/gateway.json".toList := by decide +kernel
  have hl : loadConfig (demo files) ⟨some "/etc/gateway.conf".toList, []⟩ = .ok [] := by
    unfold loadConfig
    dsimp only [Option.getD_some]
    rw [hr, e1, e2, show (demo files).files = files from rfl, h1, h2]
    rfl
  have ha : choose (demo (fun _ => none)) isAuthenticator [] "authenticator_class".toList
      "dask_gateway_server.auth.SimpleAuthenticator".toList = .ok defaults.1 := by decide +kernel
  have hb : choose (demo (fun _ => none)) isBackend [] "backend_class".toList
      "dask_gateway_server.backends.local.UnsafeLocalBackend".toList = .ok defaults.2 := by decide +kernel
  unfold startUp
  rw [hl]
  dsimp only
  rw [choose_files, ha]
  dsimp only
  rw [choose_files, hb]

/-- C190 is refuted for a configuration file whose name does not end in `.py`: it is not read, not even if it is there and raises or
names an authenticator. -/
theorem C190_extension_violated : ∀ r : Read, ∃ (w : World) (argv : Argv) (f : Str), argv.configFile = some f ∧
    w.files f = some r ∧ startUp w argv = .ok defaults := fun r =>
  ⟨demo (fun f => if f = "/etc/gateway.conf".toList then some r else none), ⟨some "/etc/gateway.conf".toList, []⟩,
    "/etc/gateway.conf".toList, rfl,
    show (if "/etc/gateway.conf".toList = "/etc/gateway.conf".toList then some r else none) = some r from if_pos rfl, startUp_unread _ (if_neg (by decide)) (if_neg (by decide))⟩

/-- C190 is refuted for an option that is misspelled in the file: the default is used. -/
theorem C190_misspelled_violated : ∃ (w : World) (argv : Argv) (f : Str), argv.configFile = some f ∧
    w.files f = some (.gives [("authenticator".toList, .text "own.Strict".toList)]) ∧ startUp w argv = .ok defaults :=
  ⟨demo (fun f => if f = "/etc/gateway.py".toList then
      some (.gives [("authenticator".toList, .text "own.Strict".toList)]) else none),
    ⟨some "/etc/gateway.py".toList, []⟩, "/etc/gateway.py".toList, rfl, by decide +kernel, by decide +kernel⟩

/-! ### Examples -/

example : Stem "/etc/gateway".toList := ⟨"/etc/".toList, "gateway".toList, rfl, Or.inr ⟨"/etc".toList, rfl⟩, by decide, 'g', by decide,
  by decide⟩
example : startUp (demo (fun f => if f = "/etc/gateway.py".toList then
      some (.gives [("authenticator_class".toList, .text "own.Strict".toList)]) else none)) ⟨some "/etc/gateway.py".toList, []⟩ =
    .ok (.cls "Strict".toList true false, .cls "UnsafeLocalBackend".toList false true) := by decide +kernel
example : startUp (demo (fun f => if f = "/etc/gateway.py".toList then
      some (.gives [("authenticator_class".toList, .text "own.Strct".toList)]) else none)) ⟨some "/etc/gateway.py".toList, []⟩ =
    .error .missing := by decide +kernel
example : startUp (demo (fun _ => none)) ⟨none, [("authenticator_class".toList, .obj .other)]⟩ = .error .wrong := by decide +kernel

end Verif.Chosen

import Verif.Session.Choice
import Verif.Settings.Props
import Verif.Auth.Props
/-! C180: a client authenticates as it was told to. -/
set_option linter.unusedSimpArgs false
set_option linter.unusedVariables false
namespace Verif.Session

open Verif.Settings (Piece write meaning format formatTemplate FErr)

/-! ### Settings as they are written -/

/-- An entry of the settings: a template, or a value that is no text. -/
inductive Given where
  | template (l : List Piece)
  | value (j : Json)

/-- That it is as it should be. -/
def Given.Plain : Given → Prop
  | .template l => ∀ p ∈ l, p.Plain
  | .value j => ∀ s, j ≠ .str s

/-- How it is written. -/
def Given.written : Given → Json
  | .template l => .str (write l)
  | .value j => j

/-- What it stands for. -/
def Given.meant (env : Str → Option Str) : Given → Except FErr Json
  | .template l => (meaning env l).map .str
  | .value j => .ok j

/-- What all of them stand for. -/
def meantAll (env : Str → Option Str) : List (Str × Given) → Except AuthErr (List (Str × Json))
  | [] => .ok []
  | (k, g) :: l =>
    match g.meant env with
    | .error e => .error (.template e)
    | .ok w =>
      match meantAll env l with
      | .error e => .error e
      | .ok r => .ok ((k, w) :: r)

/-- The settings for the arguments, as they are written. -/
def writtenAll (l : List (Str × Given)) : Json := .obj (l.map (fun e => (e.1, e.2.written)))

theorem format_given (env : Str → Option Str) (g : Given) (h : g.Plain) : formatTemplate env g.written = g.meant env := by
  cases g with
  | template l =>
    show (format env (write l)).map Json.str = (meaning env l).map Json.str
    rw [Settings.C134_template env l h]
  | value j => exact (Settings.C134_as_is env).2 j h

theorem kwargs_given (env : Str → Option Str) (l : List (Str × Given)) (h : ∀ e ∈ l, e.2.Plain) :
    authKwargs env (writtenAll l) = meantAll env l := by
  have key : ∀ l : List (Str × Given), (∀ e ∈ l, e.2.Plain) →
      formatKwargs env (l.map (fun e => (e.1, e.2.written))) = meantAll env l := by
    intro l
    induction l with
    | nil => exact fun _ => rfl
    | cons e l ih =>
      intro h
      obtain ⟨k, g⟩ := e
      rw [List.map_cons]
      unfold formatKwargs meantAll
      dsimp only
      rw [format_given env g (h _ List.mem_cons_self), ih (fun e he => h e (List.mem_cons_of_mem _ he))]
      cases g.meant env with
      | error e => rfl
      | ok w => cases meantAll env l <;> rfl
  unfold authKwargs writtenAll
  cases l with
  | nil => rfl
  | cons e l =>
    rw [if_neg (by simp [falsy])]
    dsimp only
    exact key (e :: l) h

/-! ### Which authentication -/

/-- C180: an authentication that is given as such is used, whatever the settings say. -/
theorem C180_given (py : Python) (type kwargs : Json) (a : AuthObj) : getAuth py type kwargs (.instance_ a) = .ok a := rfl

/-- C180: one that is given by name is the one that the settings would give under this name; what they name does not matter. -/
theorem C180_named (py : Python) (type kwargs : Json) (s : Str) :
    getAuth py type kwargs (.text s) = getAuth py (.str s) kwargs .absent := rfl

/-- Whom a process runs as: the first of the variables that is set and not empty, else the account. -/
def Runs (py : Python) (u : Str) : Prop :=
  (∃ n l r, ["LOGNAME".toList, "USER".toList, "LNAME".toList, "USERNAME".toList] = l ++ n :: r ∧ py.env n = some u ∧ u ≠ [] ∧
    ∀ x ∈ l, py.env x = none ∨ py.env x = some []) ∨
  ((∀ x ∈ ["LOGNAME".toList, "USER".toList, "LNAME".toList, "USERNAME".toList], py.env x = none ∨ py.env x = some []) ∧
    py.account = some u)

theorem firstOf_some (env : Str → Option Str) (l r : List Str) (n u : Str) (hn : env n = some u) (hu : u ≠ [])
    (hl : ∀ x ∈ l, env x = none ∨ env x = some []) : firstOf env (l ++ n :: r) = some u := by
  induction l with
  | nil =>
    show firstOf env (n :: r) = _
    unfold firstOf
    rw [hn]
    cases u with
    | nil => exact absurd rfl hu
    | cons c u => rfl
  | cons x l ih =>
    show firstOf env (x :: (l ++ n :: r)) = _
    unfold firstOf
    rcases hl x List.mem_cons_self with hx | hx <;> rw [hx] <;>
      exact ih (fun y hy => hl y (List.mem_cons_of_mem _ hy))

theorem firstOf_none (env : Str → Option Str) (l : List Str) (hl : ∀ x ∈ l, env x = none ∨ env x = some []) :
    firstOf env l = none := by
  induction l with
  | nil => rfl
  | cons x l ih =>
    unfold firstOf
    rcases hl x List.mem_cons_self with hx | hx <;> rw [hx] <;>
      exact ih (fun y hy => hl y (List.mem_cons_of_mem _ hy))

theorem getuser_runs (py : Python) (u : Str) (h : Runs py u) : getuser py = some u := by
  unfold getuser
  rcases h with ⟨n, l, r, hs, hn, hu, hl⟩ | ⟨hl, ha⟩
  · rw [hs, firstOf_some py.env l r n u hn hu hl]
  · rw [firstOf_none py.env _ hl]; exact ha

/-- C180: with the settings as they are shipped, a client names the user it runs as, with an empty password. -/
theorem C180_default (py : Python) (u : Str) (h : Runs py u) (kerberos : Hooks) (custom : Str → List (Str × Json) → Hooks) :
    ∃ a, getAuth py (.str "basic".toList) (.obj []) .absent = .ok a ∧ a.hooks kerberos custom = basicHooks u [] := by
  refine ⟨.basic (.str u) (.str []), ?_, rfl⟩
  show construct py (.obj []) (.callable (makeBasic py)) = _
  show (match makeBasic py [] with | .error e => Except.error e | .ok none => .error .notAuth | .ok (some a) => .ok a) = _
  have : makeBasic py [] = .ok (some (.basic (.str u) (.str []))) := by
    show (match getuser py with | none => Except.error AuthErr.nobody | some u => .ok (some (AuthObj.basic (.str u) (.str [])))) = _
    rw [getuser_runs py u h]
  rw [this]

/-- C180: user and password of the settings, which may be templates, are sent; and the gateway, if these are ASCII and the user has
no colon in it, takes the client for this user if the password is right. -/
theorem C180_basic (py : Python) (lu lp : List Piece) (hu : ∀ p ∈ lu, p.Plain) (hp : ∀ p ∈ lp, p.Plain) (u p : Str)
    (mu : meaning py.env lu = .ok u) (mp : meaning py.env lp = .ok p) (type : Json) (arg : AuthArg)
    (ha : arg = .text "basic".toList ∨ (arg = .absent ∧ type = .str "basic".toList))
    (kerberos : Hooks) (custom : Str → List (Str × Json) → Hooks) :
    ∃ a, getAuth py type (writtenAll [("username".toList, .template lu), ("password".toList, .template lp)]) arg = .ok a ∧
      a.hooks kerberos custom = basicHooks u p ∧
      (':' ∉ u → Auth.IsAscii u → Auth.IsAscii p → ∃ h, (a.hooks kerberos custom).pre = some h ∧
        ∀ pw, pw ≠ [] → Auth.simpleAuthenticate (some pw) (some h) =
          if p = pw then .user { name := u } else .fail 401) := by
  refine ⟨.basic (.str u) (.str p), ?_, rfl, fun h1 h2 h3 => ?_⟩
  · have hk : authKwargs py.env (writtenAll [("username".toList, .template lu), ("password".toList, .template lp)]) =
        .ok [("username".toList, .str u), ("password".toList, .str p)] := by
      rw [kwargs_given]
      · unfold meantAll Given.meant
        dsimp only
        rw [mu]
        unfold meantAll Given.meant
        dsimp only
        rw [mp]
        rfl
      · intro e he
        simp only [List.mem_cons, List.not_mem_nil, or_false] at he
        rcases he with rfl | rfl
        · exact hu
        · exact hp
    have hc : construct py (writtenAll [("username".toList, .template lu), ("password".toList, .template lp)])
        (.callable (makeBasic py)) = .ok (.basic (.str u) (.str p)) := by
      unfold construct
      rw [hk]
      rfl
    rcases ha with rfl | ⟨rfl, rfl⟩ <;> exact hc
  · obtain ⟨h, e1, _, e3⟩ := Auth.C40_basic_partial u p h1 h2 h3
    exact ⟨h, e1, e3⟩

/-- An argument is given, as a text. -/
def Says (r : List (Str × Json)) (name v : Str) : Prop := r.lookup name = some (.str v)

/-- An argument is not given, or is null. -/
def Silent (r : List (Str × Json)) (name : Str) : Prop := r.lookup name = none ∨ r.lookup name = some .null

theorem argument_says (r : List (Str × Json)) (name v : Str) (h : Says r name v) : argument r name = some (.str v) := by
  unfold argument; rw [show r.lookup name = some (.str v) from h]

theorem argument_silent (r : List (Str × Json)) (name : Str) (h : Silent r name) : argument r name = none := by
  unfold argument; rcases h with h | h <;> rw [h]

/-- C180: in whatever order, and with either left out: the user is that of the settings or else the one the process runs as, the
password that of the settings or else empty. -/
theorem C180_left_out (py : Python) (type : Json) (l : List (Str × Given)) (hl : ∀ e ∈ l, e.2.Plain) (r : List (Str × Json))
    (hm : meantAll py.env l = .ok r) (hk : ∀ e ∈ r, e.1 = "username".toList ∨ e.1 = "password".toList) (u p : Str)
    (hu : Says r "username".toList u ∨ (Silent r "username".toList ∧ Runs py u))
    (hp : Says r "password".toList p ∨ (Silent r "password".toList ∧ p = []))
    (kerberos : Hooks) (custom : Str → List (Str × Json) → Hooks) :
    ∃ a, getAuth py type (writtenAll l) (.text "basic".toList) = .ok a ∧ a.hooks kerberos custom = basicHooks u p := by
  refine ⟨.basic (.str u) (.str p), ?_, rfl⟩
  have hb : makeBasic py r = .ok (some (.basic (.str u) (.str p))) := by
    have hany : ¬ (r.any (fun e => decide (e.1 ≠ "username".toList) && decide (e.1 ≠ "password".toList)) = true) := by
      intro h
      obtain ⟨e, he, h⟩ := List.any_eq_true.mp h
      rw [Bool.and_eq_true, decide_eq_true_iff, decide_eq_true_iff] at h
      rcases hk e he with h' | h'
      · exact h.1 h'
      · exact h.2 h'
    have hpw : (argument r "password".toList).getD (.str []) = .str p := by
      rcases hp with hp | ⟨hp, rfl⟩
      · rw [argument_says r _ p hp]; rfl
      · rw [argument_silent r _ hp]; rfl
    unfold makeBasic
    rw [if_neg hany]
    dsimp only
    rw [hpw]
    rcases hu with hu | ⟨hu, hr⟩
    · rw [argument_says r _ u hu]
    · rw [argument_silent r _ hu]
      dsimp only
      rw [getuser_runs py u hr]
  show construct py (writtenAll l) (.callable (makeBasic py)) = _
  unfold construct
  rw [kwargs_given _ _ hl, hm]
  dsimp only
  rw [hb]

/-- C180: an argument that basic authentication or that of JupyterHub does not have is not overlooked: no client is made. -/
theorem C180_keyword (py : Python) (type : Json) (l : List (Str × Given)) (hl : ∀ e ∈ l, e.2.Plain) (r : List (Str × Json))
    (hm : meantAll py.env l = .ok r) (e : Str × Json) (he : e ∈ r) :
    (e.1 ≠ "username".toList → e.1 ≠ "password".toList →
      getAuth py type (writtenAll l) (.text "basic".toList) = .error .keyword) ∧
    (e.1 ≠ "api_token".toList → getAuth py type (writtenAll l) (.text "jupyterhub".toList) = .error .keyword) := by
  refine ⟨fun h1 h2 => ?_, fun h1 => ?_⟩
  · show construct py (writtenAll l) (.callable (makeBasic py)) = _
    unfold construct
    rw [kwargs_given _ _ hl, hm]
    dsimp only
    unfold makeBasic
    rw [if_pos (List.any_eq_true.mpr ⟨e, he, by rw [decide_eq_true h1, decide_eq_true h2]; rfl⟩)]
  · show construct py (writtenAll l) (.callable (makeHub py)) = _
    unfold construct
    rw [kwargs_given _ _ hl, hm]
    dsimp only
    unfold makeHub
    rw [if_pos (List.any_eq_true.mpr ⟨e, he, decide_eq_true h1⟩)]

/-- C180: the token for JupyterHub is the one of the settings, or else that of the environment; without either the client is not made. -/
theorem C180_hub (py : Python) (type : Json) (arg : AuthArg)
    (ha : arg = .text "jupyterhub".toList ∨ (arg = .absent ∧ type = .str "jupyterhub".toList))
    (kerberos : Hooks) (custom : Str → List (Str × Json) → Hooks) :
    (∀ (l : List Piece) (t : Str), (∀ p ∈ l, p.Plain) → meaning py.env l = .ok t →
      ∃ a, getAuth py type (writtenAll [("api_token".toList, .template l)]) arg = .ok a ∧ a.hooks kerberos custom = hubHooks t) ∧
    (∀ t, py.env "JUPYTERHUB_API_TOKEN".toList = some t →
      ∃ a, getAuth py type (writtenAll []) arg = .ok a ∧ a.hooks kerberos custom = hubHooks t) ∧
    (py.env "JUPYTERHUB_API_TOKEN".toList = none → getAuth py type (writtenAll []) arg = .error .token) := by
  have step : ∀ kw, getAuth py type kw arg = construct py kw (.callable (makeHub py)) := by
    intro kw; rcases ha with rfl | ⟨rfl, rfl⟩ <;> rfl
  refine ⟨fun l t hl hm => ⟨.hub (.str t), ?_, rfl⟩, fun t ht => ⟨.hub (.str t), ?_, rfl⟩, fun hn => ?_⟩
  · rw [step]
    unfold construct
    rw [kwargs_given]
    · unfold meantAll Given.meant
      dsimp only
      rw [hm]
      rfl
    · intro e he
      simp only [List.mem_cons, List.not_mem_nil, or_false] at he
      rcases he with rfl
      exact hl
  · rw [step]
    show (match makeHub py [] with | .error e => Except.error e | .ok none => .error .notAuth | .ok (some a) => .ok a) = _
    have : makeHub py [] = .ok (some (.hub (.str t))) := by
      show (match py.env "JUPYTERHUB_API_TOKEN".toList with
        | none => Except.error AuthErr.token | some t => .ok (some (AuthObj.hub (.str t)))) = _
      rw [ht]
    rw [this]
  · rw [step]
    show (match makeHub py [] with | .error e => Except.error e | .ok none => .error .notAuth | .ok (some a) => .ok a) = _
    have : makeHub py [] = .error .token := by
      show (match py.env "JUPYTERHUB_API_TOKEN".toList with
        | none => Except.error AuthErr.token | some t => .ok (some (AuthObj.hub (.str t)))) = _
      rw [hn]
    rw [this]

/-- C180: Kerberos needs no arguments and takes no notice of any. -/
theorem C180_kerberos (py : Python) (type : Json) (l : List (Str × Given)) (hl : ∀ e ∈ l, e.2.Plain) (r : List (Str × Json))
    (hm : meantAll py.env l = .ok r) : getAuth py type (writtenAll l) (.text "kerberos".toList) = .ok .kerberos := by
  show construct py (writtenAll l) (.callable makeKerberos) = _
  unfold construct
  rw [kwargs_given _ _ hl, hm]
  rfl

/-- The names that stand for the authentications of the package. -/
def known : List Str := ["kerberos".toList, "basic".toList, "jupyterhub".toList]

/-- C180: any other name is the path of a class, which is called with the arguments of the settings; what it gives has to be an
authentication. -/
theorem C180_class (py : Python) (type : Json) (package cls : Str) (hd : '.' ∉ cls) (l : List (Str × Given))
    (hl : ∀ e ∈ l, e.2.Plain) (r : List (Str × Json)) (hm : meantAll py.env l = .ok r)
    (f : List (Str × Json) → Except AuthErr (Option AuthObj)) (hp : py.modules package = true)
    (hf : py.attr package cls = some (.callable f)) :
    getAuth py type (writtenAll l) (.text (package ++ '.' :: cls)) =
      (match f r with
        | .ok (some a) => .ok a
        | .ok none => .error .notAuth
        | .error e => .error e) := by
  have hk : ∀ k ∈ known, package ++ '.' :: cls ≠ k := by
    intro k hk he
    have hdot : '.' ∈ k := by rw [← he]; simp
    revert hdot
    have : ∀ k ∈ known, '.' ∉ k := by decide
    exact this k hk
  have hcut : ((package ++ '.' :: cls).reverse.dropWhile (fun c => c != '.')).drop 1 = package.reverse ∧
      (package ++ '.' :: cls).reverse.takeWhile (fun c => c != '.') = cls.reverse := by
    have hr : (package ++ '.' :: cls).reverse = cls.reverse ++ '.' :: package.reverse := by simp
    have hne : ∀ c ∈ cls.reverse, (c != '.') = true := fun c hc => by
      rw [bne_iff_ne]; exact fun e => hd (e ▸ List.mem_reverse.mp hc)
    rw [hr, List.dropWhile_append_of_pos hne, List.takeWhile_append_of_pos hne]
    simp
  have hi : byName py (package ++ '.' :: cls) = .ok (.callable f) := by
    unfold byName
    rw [if_neg (hk _ (by simp [known])), if_neg (hk _ (by simp [known])), if_neg (hk _ (by simp [known]))]
    unfold importObject Addr.afterLast
    rw [if_pos (by rw [List.contains_iff_mem]; simp)]
    dsimp only
    rw [hcut.1, hcut.2, List.reverse_reverse, List.reverse_reverse, if_pos hp, hf]
  show fromText py (writtenAll l) (package ++ '.' :: cls) = _
  unfold fromText
  rw [hi]
  dsimp only
  unfold construct
  rw [kwargs_given _ _ hl, hm]
  dsimp only
  cases f r with
  | error e => rfl
  | ok a => cases a <;> rfl

/-- C180: a class or function that is given itself is called with the arguments of the settings. -/
theorem C180_callable (py : Python) (type : Json) (l : List (Str × Given)) (hl : ∀ e ∈ l, e.2.Plain) (r : List (Str × Json))
    (hm : meantAll py.env l = .ok r) (f : List (Str × Json) → Except AuthErr (Option AuthObj)) :
    getAuth py type (writtenAll l) (.thing (.callable f)) =
      (match f r with
        | .ok (some a) => .ok a
        | .ok none => .error .notAuth
        | .error e => .error e) := by
  show construct py (writtenAll l) (.callable f) = _
  unfold construct
  rw [kwargs_given _ _ hl, hm]
  dsimp only
  cases f r with
  | error e => rfl
  | ok a => cases a <;> rfl

/-- Settings that say nothing about the arguments. -/
def SaysNothing (j : Json) : Prop :=
  j = .null ∨ j = .bool false ∨ j = .num (.int 0) ∨ j = .num (.fin 0) ∨ j = .str [] ∨ j = .arr [] ∨ j = .obj []

theorem falsy_iff (j : Json) : falsy j = true ↔ SaysNothing j := by
  unfold SaysNothing
  cases j with
  | num n => cases n <;> simp [falsy]
  | _ => simp [falsy]

/-- C180: settings that say nothing about the arguments are as good as an empty dictionary; others that are no dictionary
are refused. -/
theorem C180_arguments (py : Python) (type kwargs : Json) :
    (SaysNothing kwargs → ∀ arg, getAuth py type kwargs arg = getAuth py type (writtenAll []) arg) ∧
    (¬ SaysNothing kwargs → (∀ l, kwargs ≠ .obj l) →
      (∀ f, getAuth py type kwargs (.thing (.callable f)) = .error .kwargs) ∧
      ∀ s ∈ known, getAuth py type kwargs (.text s) = .error .kwargs) := by
  refine ⟨fun h arg => ?_, fun h ho => ?_⟩
  · have hk : authKwargs py.env kwargs = authKwargs py.env (writtenAll []) := by
      unfold authKwargs
      rw [if_pos ((falsy_iff _).mpr h), if_pos (by rfl)]
    have hc : ∀ t, construct py kwargs t = construct py (writtenAll []) t := by
      intro t
      cases t <;> simp only [construct, hk]
    have ht : ∀ s, fromText py kwargs s = fromText py (writtenAll []) s := by
      intro s
      simp only [fromText, hc]
    cases arg with
    | absent =>
      cases type with
      | str s => exact ht s
      | _ => rfl
    | instance_ a => rfl
    | text s => exact ht s
    | thing t =>
      cases t with
      | callable f => exact hc (.callable f)
      | other => rfl
  · have hk : authKwargs py.env kwargs = .error .kwargs := by
      unfold authKwargs
      rw [if_neg (fun hf => h ((falsy_iff _).mp hf))]
      cases kwargs with
      | obj l => exact absurd rfl (ho l)
      | _ => rfl
    have hc : ∀ f, construct py kwargs (.callable f) = .error .kwargs := by
      intro f
      simp only [construct, hk]
    refine ⟨hc, fun s hs => ?_⟩
    simp only [known, List.mem_cons, List.not_mem_nil, or_false] at hs
    rcases hs with rfl | rfl | rfl
    · exact hc makeKerberos
    · exact hc (makeBasic py)
    · exact hc (makeHub py)

/-- C180: with anything else no client is made: something that is neither text nor callable, no setting at all, a name without a dot
that is not known, a class that is not there, arguments that are no dictionary, a template with a variable that is not set. -/
theorem C180_refused (py : Python) (type kwargs : Json) :
    getAuth py type kwargs (.thing .other) = .error .uncallable ∧
    (∀ t, (∀ s, t ≠ .str s) → getAuth py t kwargs .absent = .error .uncallable) ∧
    (∀ s, '.' ∉ s → s ∉ known → ∃ e, getAuth py type kwargs (.text s) = .error e) ∧
    (∀ package cls, '.' ∉ cls → (py.modules package = false ∨ py.attr package cls = none) →
      getAuth py type kwargs (.text (package ++ '.' :: cls)) = .error .missing) ∧
    (∀ (l : List (Str × Given)) e, (∀ e ∈ l, e.2.Plain) → meantAll py.env l = .error e →
      ∀ s ∈ known, getAuth py type (writtenAll l) (.text s) = .error e) := by
  refine ⟨rfl, fun t ht => ?_, fun s hs hk => ?_, fun package cls hd hm => ?_, fun l e hl hm s hs => ?_⟩
  · cases t with
    | str s => exact absurd rfl (ht s)
    | _ => rfl
  · show ∃ e, fromText py kwargs s = .error e
    have h1 : s ≠ "kerberos".toList := fun e => hk (by rw [e]; decide)
    have h2 : s ≠ "basic".toList := fun e => hk (by rw [e]; decide)
    have h3 : s ≠ "jupyterhub".toList := fun e => hk (by rw [e]; decide)
    unfold fromText byName importObject
    rw [if_neg h1, if_neg h2, if_neg h3, if_neg (by rw [List.contains_iff_mem]; exact hs)]
    split
    · next e he => exact ⟨e, rfl⟩
    · next t ht =>
      split at ht
      · cases ht
        unfold construct
        cases authKwargs py.env kwargs with
        | error e => exact ⟨e, rfl⟩
        | ok _ => exact ⟨_, rfl⟩
      · cases ht
  · have hk : ∀ k ∈ known, package ++ '.' :: cls ≠ k := by
      intro k hk he
      have hdot : '.' ∈ k := by rw [← he]; simp
      revert hdot
      have : ∀ k ∈ known, '.' ∉ k := by decide
      exact this k hk
    have hcut : ((package ++ '.' :: cls).reverse.dropWhile (fun c => c != '.')).drop 1 = package.reverse ∧
        (package ++ '.' :: cls).reverse.takeWhile (fun c => c != '.') = cls.reverse := by
      have hr : (package ++ '.' :: cls).reverse = cls.reverse ++ '.' :: package.reverse := by simp
      have hne : ∀ c ∈ cls.reverse, (c != '.') = true := fun c hc => by
        rw [bne_iff_ne]; exact fun e => hd (e ▸ List.mem_reverse.mp hc)
      rw [hr, List.dropWhile_append_of_pos hne, List.takeWhile_append_of_pos hne]
      simp
    have hi : byName py (package ++ '.' :: cls) = .error .missing := by
      unfold byName
      rw [if_neg (hk _ (by simp [known])), if_neg (hk _ (by simp [known])), if_neg (hk _ (by simp [known]))]
      unfold importObject Addr.afterLast
      rw [if_pos (by rw [List.contains_iff_mem]; simp)]
      dsimp only
      rw [hcut.1, hcut.2, List.reverse_reverse, List.reverse_reverse]
      rcases hm with hm | hm
      · rw [hm]; rfl
      · rw [hm]; split <;> rfl
    show fromText py kwargs (package ++ '.' :: cls) = _
    unfold fromText
    rw [hi]
  · have hc : ∀ f, construct py (writtenAll l) (.callable f) = .error e := by
      intro f
      unfold construct
      rw [kwargs_given _ _ hl, hm]
    simp only [known, List.mem_cons, List.not_mem_nil, or_false] at hs
    rcases hs with rfl | rfl | rfl
    · exact hc makeKerberos
    · exact hc (makeBasic py)
    · exact hc (makeHub py)

/-! ### What does not hold -/

/-- A process with a token for JupyterHub in its environment. -/
def pyEx : Python :=
  { env := fun n => if n = "JUPYTERHUB_API_TOKEN".toList then some "t0".toList
      else if n = "USER".toList then some "alice".toList else none,
    account := none, modules := fun _ => false, attr := fun _ _ => none }

/-- C180 is refuted for an authentication given by name while the settings have arguments for another: these are passed to it all the
same, and no client is made. -/
theorem C180_other_arguments_violated :
    ¬ ∀ (py : Python) (t : Str) (kwargs : Json), py.env "JUPYTERHUB_API_TOKEN".toList = some t →
      (∃ a, getAuth py (.str "basic".toList) kwargs .absent = .ok a) →
      ∃ a, getAuth py (.str "basic".toList) kwargs (.text "jupyterhub".toList) = .ok a := by
  intro h
  obtain ⟨a, ha⟩ := h pyEx "t0".toList (.obj [("password".toList, .str "x".toList)]) (by rfl)
    ⟨.basic (.str "alice".toList) (.str "x".toList), by rfl⟩
  have : getAuth pyEx (.str "basic".toList) (.obj [("password".toList, .str "x".toList)]) (.text "jupyterhub".toList) =
      .error .keyword := by rfl
  rw [this] at ha
  cases ha

/-- C180 is refuted for passwords that are all digits, which YAML takes for numbers: the client is made, and raises when the gateway
asks for credentials. -/
theorem C180_number_violated (kerberos : Hooks) (custom : Str → List (Str × Json) → Hooks) :
    ∃ a, getAuth pyEx (.str "basic".toList) (.obj [("password".toList, .num (.int 1234))]) .absent = .ok a ∧
      (a.hooks kerberos custom).pre = none :=
  ⟨.basic (.str "alice".toList) (.num (.int 1234)), by rfl, rfl⟩

example : Runs pyEx "alice".toList :=
  Or.inl ⟨"USER".toList, ["LOGNAME".toList], _, rfl, by rfl, by decide, fun x hx => by
    simp only [List.mem_cons, List.not_mem_nil, or_false] at hx
    rw [hx]
    exact Or.inl (by rfl)⟩

example : ∃ a, getAuth pyEx .null (writtenAll [("password".toList, .template [.lit "x".toList])]) (.text "basic".toList) = .ok a ∧
    a.hooks ⟨none, fun _ => true⟩ (fun _ _ => ⟨none, fun _ => true⟩) = basicHooks "alice".toList "x".toList :=
  ⟨.basic (.str "alice".toList) (.str "x".toList), by rfl, rfl⟩

example : SaysNothing (.num (.int 0)) ∧ ¬ SaysNothing (.num (.int 1)) ∧ ¬ SaysNothing (.str "x".toList) := by
  unfold SaysNothing
  decide

end Verif.Session

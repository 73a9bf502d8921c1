import Verif.Settings.Model
import Verif.Options.Props
import Verif.Addr.Props
/-! Properties C133, C134 and C135: the settings of a client. -/
namespace Verif.Settings
open Verif.Options (Field Made Distinct parseOptions validate jsonSpec CField asDict ckind)

/-! ### C134: templates -/

/-- A part of a template: text, or an environment variable. -/
inductive Piece where
  | lit (s : Str)
  | var (n : Str)

/-- Text in a template: braces are written twice. -/
def writeLit : Str → Str
  | [] => []
  | c :: s => if c = '{' ∨ c = '}' then c :: c :: writeLit s else c :: writeLit s

/-- A template as it is written. -/
def write : List Piece → Str
  | [] => []
  | .lit s :: l => writeLit s ++ write l
  | .var n :: l => '{' :: n ++ '}' :: write l

/-- What a template stands for, or the error that a variable is missing. -/
def meaning (env : Str → Option Str) : List Piece → Except FErr Str
  | [] => .ok []
  | .lit s :: l => (meaning env l).map (fun r => s ++ r)
  | .var n :: l =>
    match env n with
    | none => .error .key
    | some v => (meaning env l).map (fun r => v ++ r)

/-- The name of a variable is not a number, and has no braces and none of the characters `.`, `[`, `:` and `!`. -/
def Piece.Plain : Piece → Prop
  | .lit _ => True
  | .var n => n.all Char.isDigit = false ∧ ∀ c ∈ ['{', '}', '.', '[', ':', '!'], c ∉ n

private theorem format_out (env : Str → Option Str) (c : Char) (s : Str) : formatFrom env none (c :: s) =
    (if c = '{' then
      match s with
      | [] => .error .value
      | d :: t =>
        if d = '{' then (formatFrom env none t).map (fun r => '{' :: r)
        else formatFrom env (some []) (d :: t)
    else if c = '}' then
      match s with
      | [] => .error .value
      | d :: t => if d = '}' then (formatFrom env none t).map (fun r => '}' :: r) else .error .value
    else (formatFrom env none s).map (fun r => c :: r)) := by
  rw [formatFrom.eq_def]
  rfl

private theorem format_lit (env : Str → Option Str) (s rest : Str) :
    formatFrom env none (writeLit s ++ rest) = (formatFrom env none rest).map (fun r => s ++ r) := by
  induction s with
  | nil => cases h : formatFrom env none rest <;> simp [writeLit, h, Except.map]
  | cons c s ih =>
    unfold writeLit
    by_cases hc : c = '{' ∨ c = '}'
    · rw [if_pos hc]
      rcases hc with rfl | rfl
      · rw [List.cons_append, List.cons_append, format_out, if_pos rfl]
        simp only [if_pos]
        rw [ih]
        cases formatFrom env none rest <;> rfl
      · rw [List.cons_append, List.cons_append, format_out, if_neg (by decide), if_pos rfl]
        simp only [if_pos]
        rw [ih]
        cases formatFrom env none rest <;> rfl
    · rw [if_neg hc, List.cons_append, format_out, if_neg (fun e => hc (Or.inl e)), if_neg (fun e => hc (Or.inr e)), ih]
      cases formatFrom env none rest <;> rfl

private theorem format_name (env : Str → Option Str) (n m rest : Str)
    (h : ∀ c ∈ ['{', '}', '.', '[', ':', '!'], c ∉ n) :
    formatFrom env (some m) (n ++ '}' :: rest) =
      (match field env (m ++ n) with
      | .error e => .error e
      | .ok v => (formatFrom env none rest).map (fun r => v ++ r)) := by
  induction n generalizing m with
  | nil => rw [List.nil_append, formatFrom, if_pos rfl, List.append_nil]; rfl
  | cons c n ih =>
    have hc : ∀ d ∈ ['{', '}', '.', '[', ':', '!'], c ≠ d := fun d hd e => h d hd (e ▸ List.mem_cons_self ..)
    have hf : c ∉ fancyChars := by
      intro hm
      simp only [fancyChars, List.mem_cons, List.not_mem_nil, or_false] at hm
      rcases hm with e | e | e | e <;> exact hc _ (by simp) e
    rw [List.cons_append, formatFrom, if_neg (hc _ (by simp)), if_neg (hc _ (by simp)), if_neg hf,
      ih (m ++ [c]) (fun d hd hm => h d hd (List.mem_cons_of_mem _ hm))]
    rw [List.append_assoc]; rfl

/-- **C134.** A template stands for its text with the environment variables it names put in, whatever their
values: these are not taken for templates again. If a variable is missing, this is an error. -/
theorem C134_template (env : Str → Option Str) (l : List Piece) (h : ∀ p ∈ l, p.Plain) :
    format env (write l) = meaning env l := by
  unfold format
  induction l with
  | nil => rfl
  | cons p l ih =>
    have ih := ih (fun q hq => h q (List.mem_cons_of_mem _ hq))
    cases p with
    | lit s => rw [write, format_lit, ih]; rfl
    | var n =>
      have hp : (Piece.var n).Plain := h _ (List.mem_cons_self ..)
      have hne : ∃ d t, n ++ '}' :: write l = d :: t ∧ d ≠ '{' := by
        cases hn : n with
        | nil => rw [hn] at hp; exact absurd hp.1 (by decide)
        | cons d t =>
          refine ⟨d, t ++ '}' :: write l, rfl, ?_⟩
          rintro rfl
          exact hp.2 '{' (by simp) (by rw [hn]; exact List.mem_cons_self ..)
      obtain ⟨d, t, e, hd⟩ := hne
      have e1 : formatFrom env none (write (Piece.var n :: l)) = formatFrom env (some []) (n ++ '}' :: write l) := by
        rw [write, List.cons_append, format_out, if_pos rfl, e]
        simp only [if_neg hd]
      rw [e1, format_name env n [] _ hp.2, List.nil_append, ih]
      rw [meaning]
      unfold field
      rw [hp.1, if_neg (by decide)]
      cases env n <;> rfl

private theorem writeLit_cons {c : Char} (h1 : c ≠ '{') (h2 : c ≠ '}') (s : Str) : writeLit (c :: s) = c :: writeLit s := by
  rw [writeLit, if_neg (by simp [h1, h2])]

private theorem add_lit {env : Str → Option Str} {r : Str} {s t : Str} {l : List Piece} (h : ∀ p ∈ l, p.Plain)
    (h1 : write l = t) (h2 : meaning env l = .ok r) :
    (∀ p ∈ Piece.lit s :: l, p.Plain) ∧ write (.lit s :: l) = writeLit s ++ t ∧
      meaning env (.lit s :: l) = .ok (s ++ r) := by
  refine ⟨?_, by rw [write, h1], by rw [meaning, h2]; rfl⟩
  intro p hp
  rcases List.mem_cons.1 hp with rfl | hp
  · exact trivial
  · exact h p hp

private theorem map_ok {r : Except FErr Str} {f : Str → Str} {v : Str} (h : r.map f = .ok v) :
    ∃ u, r = .ok u ∧ v = f u := by
  cases r with
  | error e => cases h
  | ok u => cases h; exact ⟨u, rfl, rfl⟩

private theorem format_complete (env : Str → Option Str) (n : Nat) : ∀ (s : Str), s.length ≤ n →
    (∀ v, formatFrom env none s = .ok v →
      ∃ l, (∀ p ∈ l, p.Plain) ∧ write l = s ∧ meaning env l = .ok v) ∧
    (∀ m v, (∀ c ∈ ['{', '}', '.', '[', ':', '!'], c ∉ m) → formatFrom env (some m) s = .ok v →
      ∃ l, (∀ p ∈ l, p.Plain) ∧ write l = '{' :: m ++ s ∧ meaning env l = .ok v) := by
  induction n with
  | zero =>
    intro s hs
    have : s = [] := List.length_eq_zero_iff.1 (by omega)
    subst this
    refine ⟨fun v h => ⟨[], by simp, rfl, h⟩, fun m v _ h => ?_⟩
    rw [formatFrom] at h; cases h
  | succ n ih =>
    intro s hs
    cases s with
    | nil =>
      refine ⟨fun v h => ⟨[], by simp, rfl, h⟩, fun m v _ h => ?_⟩
      rw [formatFrom] at h; cases h
    | cons c s =>
      rw [List.length_cons] at hs
      refine ⟨fun v h => ?_, fun m v hm h => ?_⟩
      · rw [format_out] at h
        by_cases h1 : c = '{'
        · subst h1
          rw [if_pos rfl] at h
          cases s with
          | nil => cases h
          | cons d t =>
            rw [List.length_cons] at hs
            dsimp only at h
            by_cases h2 : d = '{'
            · subst h2
              rw [if_pos rfl] at h
              obtain ⟨u, hu, rfl⟩ := map_ok h
              obtain ⟨l, a, b, c⟩ := (ih t (by omega)).1 u hu
              obtain ⟨a, b, c⟩ := add_lit (s := ['{']) a b c
              exact ⟨_, a, b, c⟩
            · rw [if_neg h2] at h
              obtain ⟨l, a, b, c⟩ := (ih (d :: t) (by rw [List.length_cons]; omega)).2 [] v (by simp) h
              exact ⟨l, a, b, c⟩
        · rw [if_neg h1] at h
          by_cases h2 : c = '}'
          · subst h2
            rw [if_pos rfl] at h
            cases s with
            | nil => cases h
            | cons d t =>
              rw [List.length_cons] at hs
              dsimp only at h
              by_cases h3 : d = '}'
              · subst h3
                rw [if_pos rfl] at h
                obtain ⟨u, hu, rfl⟩ := map_ok h
                obtain ⟨l, a, b, c⟩ := (ih t (by omega)).1 u hu
                obtain ⟨a, b, c⟩ := add_lit (s := ['}']) a b c
                exact ⟨_, a, b, c⟩
              · rw [if_neg h3] at h; cases h
          · rw [if_neg h2] at h
            obtain ⟨u, hu, rfl⟩ := map_ok h
            obtain ⟨l, a, b, e⟩ := (ih s (by omega)).1 u hu
            obtain ⟨a, b, e⟩ := add_lit (s := [c]) a b e
            refine ⟨_, a, ?_, e⟩
            rw [b, writeLit_cons h1 h2]; rfl
      · rw [formatFrom] at h
        by_cases h1 : c = '}'
        · subst h1
          rw [if_pos rfl] at h
          unfold field at h
          by_cases h2 : m.all Char.isDigit = true
          · rw [if_pos h2] at h; cases h
          · rw [if_neg h2] at h
            cases hv : env m with
            | none => rw [hv] at h; cases h
            | some w =>
              rw [hv] at h
              dsimp only at h
              obtain ⟨u, hu, rfl⟩ := map_ok h
              obtain ⟨l, a, b, e⟩ := (ih s (by omega)).1 u hu
              refine ⟨.var m :: l, ?_, by rw [write, b], by rw [meaning, hv, e]; rfl⟩
              intro p hp
              rcases List.mem_cons.1 hp with rfl | hp
              · exact ⟨by simpa using h2, hm⟩
              · exact a p hp
        · rw [if_neg h1] at h
          by_cases h2 : c = '{'
          · rw [if_pos h2] at h; cases h
          · rw [if_neg h2] at h
            by_cases h3 : c ∈ fancyChars
            · rw [if_pos h3] at h; cases h
            · rw [if_neg h3] at h
              have hm' : ∀ d ∈ ['{', '}', '.', '[', ':', '!'], d ∉ m ++ [c] := by
                intro d hd hmem
                rcases List.mem_append.1 hmem with hmem | hmem
                · exact hm d hd hmem
                · rw [List.mem_singleton] at hmem
                  subst hmem
                  simp only [fancyChars, List.mem_cons, List.not_mem_nil, or_false] at h3
                  simp only [List.mem_cons, List.not_mem_nil, or_false] at hd
                  rcases hd with e | e | e | e | e | e
                  · exact h2 e
                  · exact h1 e
                  · exact h3 (Or.inl e)
                  · exact h3 (Or.inr (Or.inl e))
                  · exact h3 (Or.inr (Or.inr (Or.inl e)))
                  · exact h3 (Or.inr (Or.inr (Or.inr e)))
              obtain ⟨l, a, b, e⟩ := (ih s (by omega)).2 (m ++ [c]) v hm' h
              refine ⟨l, a, ?_, e⟩
              rw [b]; simp

/-- **C134.** Every text that is accepted is such a template. -/
theorem C134_accepted (env : Str → Option Str) (s v : Str) (h : format env s = .ok v) :
    ∃ l, (∀ p ∈ l, p.Plain) ∧ write l = s ∧ meaning env l = .ok v :=
  (format_complete env s.length s (Nat.le_refl _)).1 v h

/-- **C134.** So are the settings: options and addresses. -/
theorem C134_settings (env : Str → Option Str) (l : List Piece) (h : ∀ p ∈ l, p.Plain) :
    (∀ v, meaning env l = .ok v → formatTemplate env (.str (write l)) = .ok (.str v) ∧
      formatSetting env (.str (write l)) = .ok (.str v)) ∧
    ∀ e, meaning env l = .error e → formatTemplate env (.str (write l)) = .error e ∧
      formatSetting env (.str (write l)) = .error e := by
  refine ⟨fun v hv => ?_, fun e he => ?_⟩
  · have := C134_template env l h
    rw [hv] at this
    unfold formatTemplate formatSetting
    dsimp only
    rw [this]
    exact ⟨rfl, rfl⟩
  · have := C134_template env l h
    rw [he] at this
    unfold formatTemplate formatSetting
    dsimp only
    rw [this]
    exact ⟨rfl, rfl⟩

/-- **C134.** Text without braces and values that are no text are used as they are. -/
theorem C134_as_is (env : Str → Option Str) :
    (∀ s : Str, '{' ∉ s → '}' ∉ s → formatTemplate env (.str s) = .ok (.str s)) ∧
    ∀ x : Json, (∀ s, x ≠ .str s) → formatTemplate env x = .ok x := by
  refine ⟨fun s h1 h2 => ?_, fun x h => ?_⟩
  · have hw : writeLit s = s := by
      induction s with
      | nil => rfl
      | cons c s ih =>
        rw [writeLit_cons (fun e => h1 (e ▸ List.mem_cons_self ..)) (fun e => h2 (e ▸ List.mem_cons_self ..)),
          ih (fun e => h1 (List.mem_cons_of_mem _ e)) (fun e => h2 (List.mem_cons_of_mem _ e))]
    have := C134_template env [.lit s] (by simp [Piece.Plain])
    simp only [write, hw, List.append_nil, meaning, Except.map] at this
    show (format env s).map Json.str = _
    rw [this]; rfl
  · cases x with
    | str s => exact absurd rfl (h s)
    | _ => rfl

/-! ### C133: options -/

variable {V : Type}

private theorem parseFields_congr {r1 r2 : List (Str × Json)} {fs : List (Field V)}
    (h : ∀ f ∈ fs, validate f.kind ((lookup r1 f.name).getD f.default) =
      validate f.kind ((lookup r2 f.name).getD f.default)) :
    Options.parseFields r1 fs = Options.parseFields r2 fs := by
  induction fs with
  | nil => rfl
  | cons f fs ih =>
    unfold Options.parseFields
    rw [h f (List.mem_cons_self ..), ih (fun g hg => h g (List.mem_cons_of_mem _ hg))]

private theorem parseOptions_congr {r1 r2 : List (Str × Json)} {fs : List (Field V)}
    (hk : (∀ k ∈ Dict.keys r1, k ∈ fs.map Field.name) ↔ ∀ k ∈ Dict.keys r2, k ∈ fs.map Field.name)
    (h : ∀ f ∈ fs, validate f.kind ((lookup r1 f.name).getD f.default) =
      validate f.kind ((lookup r2 f.name).getD f.default)) :
    parseOptions fs (.obj r1) = parseOptions fs (.obj r2) := by
  unfold Options.parseOptions
  dsimp only
  rw [parseFields_congr h]
  have : (Dict.keys r1).any (fun k => decide (k ∉ fs.map Field.name)) =
      (Dict.keys r2).any (fun k => decide (k ∉ fs.map Field.name)) := by
    rw [Bool.eq_iff_iff]
    simp only [List.any_eq_true, decide_eq_true_eq]
    constructor
    · rintro ⟨k, a, b⟩
      refine Classical.byContradiction (fun hn => b (hk.2 (fun k' hk' => ?_) k a))
      exact Classical.byContradiction (fun hx => hn ⟨k', hk', hx⟩)
    · rintro ⟨k, a, b⟩
      refine Classical.byContradiction (fun hn => b (hk.1 (fun k' hk' => ?_) k a))
      exact Classical.byContradiction (fun hx => hn ⟨k', hk', hx⟩)
  rw [this]

/-- The options object shows, for each field, what the server would make of a value. -/
private structure Tracks (fields : List (Field V)) (o : List (Str × CField)) (g : Field V → Json) : Prop where
  keys : Dict.keys o = fields.map Field.name
  vals : ∀ f ∈ fields, ∃ c, lookup o f.name = some c ∧ c.kind = ckind f.kind ∧ validate f.kind (g f) = .ok c.value

private theorem tracks_fromSpec {fields : List (Field V)} (hm : ∀ f ∈ fields, Made f) (hd : Distinct fields) :
    ∃ o, Options.fromSpec (fields.map jsonSpec) = .ok o ∧ Tracks fields o (fun f => f.default) := by
  have key : ∃ o, Options.fieldsFromSpec (fields.map jsonSpec) = .ok o ∧
      Dict.keys o = fields.map Field.name ∧
      ∀ f ∈ fields, ∃ c, (f.name, c) ∈ o ∧ c.kind = ckind f.kind ∧ validate f.kind f.default = .ok c.value := by
    clear hd
    induction fields with
    | nil => exact ⟨[], rfl, rfl, by simp⟩
    | cons f fs ih =>
      obtain ⟨o, h1, h2, h3⟩ := ih (fun g hg => hm g (by simp [hg]))
      obtain ⟨v, h4, h5⟩ := Options.fieldFromSpec_made (hm f (by simp))
      refine ⟨(f.name, { kind := ckind f.kind, value := v }) :: o, ?_, ?_, ?_⟩
      · simp only [List.map_cons, Options.fieldsFromSpec]
        rw [h5]; dsimp only; rw [h1]
      · simp only [Dict.keys, List.map_cons] at h2 ⊢
        rw [h2]
      · intro g hg
        rcases List.mem_cons.1 hg with rfl | hg
        · exact ⟨{ kind := ckind g.kind, value := v }, by simp, rfl, h4⟩
        · obtain ⟨c, h6, h7⟩ := h3 g hg
          exact ⟨c, by simp [h6], h7⟩
  obtain ⟨o, h1, h2, h3⟩ := key
  have hn : (Dict.keys o).Nodup := by rw [h2]; exact hd
  refine ⟨o, ?_, h2, ?_⟩
  · unfold Options.fromSpec; rw [h1]; dsimp only; rw [ofList_nodup hn]
  · intro f hf
    obtain ⟨c, h4, h5⟩ := h3 f hf
    exact ⟨c, lookup_of_mem hn h4, h5⟩

private theorem setOption_ok {o o' : List (Str × CField)} {k : Str} {v : Json} (h : Options.setOption o k v = .ok o') :
    ∃ f w, lookup o k = some f ∧ Options.cvalidate f.kind v = .ok w ∧ o' = Dict.set o k { f with value := w } := by
  unfold Options.setOption at h
  cases hl : lookup o k with
  | none => rw [hl] at h; cases h
  | some f =>
    rw [hl] at h
    dsimp only at h
    cases hv : Options.cvalidate f.kind v with
    | error e => rw [hv] at h; cases h
    | ok w => rw [hv] at h; cases h; exact ⟨f, w, rfl, hv, rfl⟩

private theorem tracks_update {fields : List (Field V)} {o o' : List (Str × CField)} {g : Field V → Json}
    {c : List (Str × Json)} (hn : (Dict.keys c).Nodup) (h : Tracks fields o g) (hu : updateAll o c = .ok o') :
    Tracks fields o' (fun f => (lookup c f.name).getD (g f)) ∧ ∀ k ∈ Dict.keys c, k ∈ fields.map Field.name := by
  induction c generalizing o g with
  | nil =>
    cases hu
    exact ⟨h, fun k hk => (by cases hk)⟩
  | cons e c ih =>
    obtain ⟨k, v⟩ := e
    unfold updateAll at hu
    cases hs : Options.setOption o k v with
    | error e => rw [hs] at hu; cases hu
    | ok o1 =>
      rw [hs] at hu
      dsimp only at hu
      obtain ⟨f0, w, hl, hv, rfl⟩ := setOption_ok hs
      have hmem : k ∈ Dict.keys o := lookup_isSome.1 (by rw [hl]; rfl)
      have hn' : k ∉ Dict.keys c ∧ (Dict.keys c).Nodup := List.nodup_cons.1 hn
      have h1 : Tracks fields (Dict.set o k { f0 with value := w }) (fun f => if f.name = k then v else g f) := by
        refine ⟨by rw [keys_set, if_pos hmem]; exact h.keys, fun f hf => ?_⟩
        obtain ⟨c0, a, b, d⟩ := h.vals f hf
        by_cases e : f.name = k
        · rw [e, hl] at a
          cases a
          refine ⟨{ f0 with value := w }, by rw [lookup_set, if_pos e.symm], b, ?_⟩
          rw [b, Options.cvalidate_eq] at hv
          dsimp only
          rw [if_pos e]
          exact hv
        · refine ⟨c0, by rw [lookup_set, if_neg (fun x => e x.symm)]; exact a, b, ?_⟩
          rw [if_neg e]
          exact d
      obtain ⟨h2, h3⟩ := ih hn'.2 h1 hu
      refine ⟨⟨h2.keys, fun f hf => ?_⟩, ?_⟩
      · obtain ⟨c0, a, b, d⟩ := h2.vals f hf
        refine ⟨c0, a, b, ?_⟩
        rw [lookup_cons]
        dsimp only
        by_cases e : k = f.name
        · rw [if_pos e]
          rw [← e, lookup_eq_none.2 hn'.1, e, if_pos rfl] at d
          exact d
        · rw [if_neg e]
          rw [if_neg (fun x => e x.symm)] at d
          exact d
      · intro k' hk'
        rcases List.mem_cons.1 hk' with rfl | hk'
        · rw [← h.keys]; exact hmem
        · exact h3 k' hk'

private theorem keys_asDict (o : List (Str × CField)) : Dict.keys (asDict o) = Dict.keys o := by
  simp [Dict.keys, asDict]

private theorem lookup_asDict (o : List (Str × CField)) (k : Str) :
    lookup (asDict o) k = (lookup o k).map (·.value) := by
  induction o with
  | nil => rfl
  | cons e o ih =>
    unfold asDict at ih ⊢
    rw [List.map_cons, lookup_cons, lookup_cons]
    dsimp only
    split
    · rfl
    · exact ih

private theorem config_nodup {env : Str → Option Str} {conf c : List (Str × Json)}
    (h : configOptions env conf = .ok c) : (Dict.keys c).Nodup := by
  unfold configOptions at h
  cases hf : formatAll env conf with
  | error e => rw [hf] at h; cases h
  | ok l => rw [hf] at h; cases h; exact nodup_ofList l

/-- What the server makes of the options object is what it makes of the values it was made of. -/
private theorem same_parse {fields : List (Field V)} {o : List (Str × CField)} {c kwargs : List (Str × Json)}
    (ht : Tracks fields o (fun f => (lookup c f.name).getD f.default))
    (hk : ∀ k ∈ Dict.keys c, k ∈ fields.map Field.name) :
    parseOptions fields (Options.submitted o kwargs) = parseOptions fields (.obj (Dict.update c kwargs)) := by
  refine parseOptions_congr ?_ ?_
  · constructor
    · intro h k hm
      rcases mem_keys_update.1 hm with hm | hm
      · exact hk k hm
      · exact h k (mem_keys_update.2 (Or.inr hm))
    · intro h k hm
      rcases mem_keys_update.1 hm with hm | hm
      · rw [keys_asDict, ht.keys] at hm; exact hm
      · exact h k (mem_keys_update.2 (Or.inr hm))
  · intro f hf
    rw [lookup_update, lookup_update, lookup_asDict]
    cases hl : lookup kwargs.reverse f.name with
    | some v => rfl
    | none =>
      obtain ⟨c0, a, b, d⟩ := ht.vals f hf
      rw [a]
      show validate f.kind c0.value = validate f.kind ((lookup c f.name).getD f.default)
      rw [Options.validate_idem d]
      exact d.symm

/-- **C133.** Of the options that are sent, a keyword argument wins over the options object, if one is given, and
else over the local configuration. -/
theorem C133_sent (env : Str → Option Str) (conf : List (Str × Json)) (o : Option (List (Str × CField)))
    (kwargs : List (Str × Json)) (hn : (Dict.keys kwargs).Nodup) (j : Json) (h : submit env conf o kwargs = .ok j) :
    ∃ r, j = .obj r ∧ ∀ k, lookup r k = (match lookup kwargs k with
      | some v => some v
      | none =>
        match o with
        | some o => (lookup o k).map (·.value)
        | none =>
          match configOptions env conf with
          | .ok c => lookup c k
          | .error _ => none) := by
  unfold submit at h
  cases o with
  | some o =>
    dsimp only at h
    cases h
    refine ⟨_, rfl, fun k => ?_⟩
    rw [lookup_update, lookup_reverse hn, lookup_asDict]
    cases lookup kwargs k <;> rfl
  | none =>
    dsimp only at h
    cases hc : configOptions env conf with
    | error e => rw [hc] at h; cases h
    | ok c =>
      rw [hc] at h
      cases h
      refine ⟨_, rfl, fun k => ?_⟩
      rw [lookup_update, lookup_reverse hn]
      cases lookup kwargs k <;> rfl

/-- **C133.** The local configuration is worth the same in both ways of making a cluster: with the options object
that the client shows, and without. -/
theorem C133_same (env : Str → Option Str) (conf : List (Str × Json)) (fields : List (Field V))
    (hm : ∀ f ∈ fields, Made f) (hd : Distinct fields) (o : List (Str × CField))
    (ho : clusterOptions env conf (fields.map jsonSpec) true = .ok o) (kwargs : List (Str × Json)) :
    ∃ a b, submit env conf (some o) kwargs = .ok a ∧ submit env conf none kwargs = .ok b ∧
      parseOptions fields a = parseOptions fields b := by
  obtain ⟨o0, h0, ht⟩ := tracks_fromSpec hm hd
  unfold clusterOptions at ho
  rw [h0] at ho
  dsimp only at ho
  rw [if_pos rfl] at ho
  cases hc : configOptions env conf with
  | error e => rw [hc] at ho; cases ho
  | ok c =>
    rw [hc] at ho
    dsimp only at ho
    obtain ⟨h1, h2⟩ := tracks_update (config_nodup hc) ht ho
    refine ⟨_, _, rfl, by unfold submit; dsimp only; rw [hc], same_parse h1 h2⟩

/-- **C133.** Without the local configuration the options object is worth the defaults of the server. -/
theorem C133_server_defaults (env : Str → Option Str) (conf : List (Str × Json)) (fields : List (Field V))
    (hm : ∀ f ∈ fields, Made f) (hd : Distinct fields) (kwargs : List (Str × Json)) (hn : (Dict.keys kwargs).Nodup) :
    ∃ o a, clusterOptions env conf (fields.map jsonSpec) false = .ok o ∧ submit env conf (some o) kwargs = .ok a ∧
      parseOptions fields a = parseOptions fields (.obj kwargs) := by
  obtain ⟨o, h0, ht⟩ := tracks_fromSpec hm hd
  refine ⟨o, _, ?_, rfl, ?_⟩
  · unfold clusterOptions
    rw [h0]
    rfl
  · have := same_parse (c := []) (kwargs := kwargs) ht (fun k hk => (by cases hk))
    rw [this]
    refine parseOptions_congr ?_ ?_
    · rw [← ofList_eq, ofList_nodup hn]
    · intro f _
      rw [← ofList_eq, ofList_nodup hn]

private theorem updateAll_accepts {fields : List (Field V)} {o : List (Str × CField)} {g : Field V → Json}
    {c : List (Str × Json)} (h : Tracks fields o g)
    (hk : ∀ e ∈ c, ∃ f ∈ fields, f.name = e.1 ∧ ∃ w, validate f.kind e.2 = .ok w) :
    ∃ o', updateAll o c = .ok o' := by
  induction c generalizing o g with
  | nil => exact ⟨o, rfl⟩
  | cons e c ih =>
    obtain ⟨k, v⟩ := e
    obtain ⟨f, hf, e1, w, hw⟩ := hk _ (List.mem_cons_self ..)
    dsimp only at e1 hw
    obtain ⟨c0, a, b, d⟩ := h.vals f hf
    have hs : Options.setOption o k v = .ok (Dict.set o k { c0 with value := w }) := by
      unfold Options.setOption
      rw [← e1, a]
      dsimp only
      rw [b, Options.cvalidate_eq, hw]
    have hmem : k ∈ Dict.keys o := lookup_isSome.1 (by rw [← e1, a]; rfl)
    have h1 : Tracks fields (Dict.set o k { c0 with value := w })
        (fun f' => if f'.name = k then w else g f') := by
      refine ⟨by rw [keys_set, if_pos hmem]; exact h.keys, fun f' hf' => ?_⟩
      obtain ⟨c1, a1, b1, d1⟩ := h.vals f' hf'
      by_cases e : f'.name = k
      · have : c1 = c0 := by
          rw [e, ← e1, a] at a1; cases a1; rfl
        subst this
        refine ⟨{ c1 with value := w }, by rw [lookup_set, if_pos e.symm], b1, ?_⟩
        dsimp only
        rw [if_pos e]
        have h2 := Options.validate_idem hw
        rw [← Options.cvalidate_eq, ← b, b1, Options.cvalidate_eq] at h2
        exact h2
      · refine ⟨c1, by rw [lookup_set, if_neg (fun x => e x.symm)]; exact a1, b1, ?_⟩
        rw [if_neg e]
        exact d1
    obtain ⟨o', ho'⟩ := ih h1 (fun e he => hk e (List.mem_cons_of_mem _ he))
    refine ⟨o', ?_⟩
    unfold updateAll
    rw [hs]
    exact ho'

/-- **C133.** If the local configuration has options that the client refuses to show, the server refuses them, too. -/
theorem C133_refused (env : Str → Option Str) (conf : List (Str × Json)) (fields : List (Field V))
    (hm : ∀ f ∈ fields, Made f) (hd : Distinct fields) (e : Options.Err)
    (ho : clusterOptions env conf (fields.map jsonSpec) true = .error (.option e)) :
    ∃ a x, submit env conf none [] = .ok a ∧ parseOptions fields a = .error x := by
  obtain ⟨o0, h0, ht⟩ := tracks_fromSpec hm hd
  unfold clusterOptions at ho
  rw [h0] at ho
  dsimp only at ho
  rw [if_pos rfl] at ho
  cases hc : configOptions env conf with
  | error e' =>
    rw [hc] at ho
    dsimp only at ho
    cases ho
    exfalso
    unfold configOptions at hc
    cases hf : formatAll env conf with
    | ok l => rw [hf] at hc; cases hc
    | error x =>
      rw [hf] at hc
      cases hc
      clear ht h0
      induction conf with
      | nil => cases hf
      | cons p conf ih =>
        obtain ⟨k, v⟩ := p
        unfold formatAll at hf
        cases hv : formatTemplate env v with
        | error y => rw [hv] at hf; cases hf
        | ok w =>
          rw [hv] at hf
          dsimp only at hf
          cases hr : formatAll env conf with
          | ok l => rw [hr] at hf; cases hf
          | error y => rw [hr] at hf; cases hf; exact ih hr
  | ok c =>
    rw [hc] at ho
    dsimp only at ho
    refine ⟨.obj c, ?_⟩
    have hsub : submit env conf none [] = .ok (.obj c) := by unfold submit; dsimp only; rw [hc]; rfl
    cases hp : parseOptions fields (.obj c) with
    | error x => exact ⟨x, hsub, rfl⟩
    | ok out =>
      exfalso
      obtain ⟨r, l, e1, hk, _⟩ := Options.parseOptions_ok hp
      cases e1
      have hok : ∃ o', updateAll o0 c = .ok o' := by
        refine updateAll_accepts ht (fun e he => ?_)
        have hmem : e.1 ∈ fields.map Field.name := hk e.1 (List.mem_map.2 ⟨e, he, rfl⟩)
        obtain ⟨f, hf, e2⟩ := List.mem_map.1 hmem
        refine ⟨f, hf, e2, ?_⟩
        obtain ⟨w, _, h5⟩ := Options.parseOptions_field hd hp hf
        have h6 : lookup c f.name = some e.2 := by
          rw [e2]; exact lookup_of_mem (config_nodup hc) he
        rw [h6] at h5
        exact ⟨w, h5⟩
      obtain ⟨o', h7⟩ := hok
      rw [h7] at ho
      cases ho

/-- **C133.** The value that an accepted option has: of the keyword argument, else of the local configuration, else of
the server's default. -/
theorem C133_effective (env : Str → Option Str) (conf c : List (Str × Json)) (fields : List (Field V))
    (hd : Distinct fields) (kwargs : List (Str × Json)) (hn : (Dict.keys kwargs).Nodup)
    (hc : configOptions env conf = .ok c) (a : Json) (ha : submit env conf none kwargs = .ok a)
    (out : List (Str × Json)) (ho : parseOptions fields a = .ok out) (f : Field V) (hf : f ∈ fields) :
    ∃ v, lookup out f.name = some v ∧
      validate f.kind (((lookup kwargs f.name).or (lookup c f.name)).getD f.default) = .ok v := by
  unfold submit at ha
  dsimp only at ha
  rw [hc] at ha
  cases ha
  obtain ⟨v, h1, h2⟩ := Options.parseOptions_field hd ho hf
  refine ⟨v, h1, ?_⟩
  rw [← h2, lookup_update, lookup_reverse hn]

/-- **C133.** The options of the configuration are templates; of entries of the same name the last one counts. -/
theorem C133_templates (env : Str → Option Str) (conf c : List (Str × Json)) (hc : configOptions env conf = .ok c)
    (hn : (Dict.keys conf).Nodup) (k : Str) (v : Json) (h : lookup conf k = some v) :
    ∃ w, formatTemplate env v = .ok w ∧ lookup c k = some w := by
  unfold configOptions at hc
  cases hf : formatAll env conf with
  | error e => rw [hf] at hc; cases hc
  | ok l =>
    rw [hf] at hc
    cases hc
    have key : Dict.keys l = Dict.keys conf ∧ ∀ v, lookup conf k = some v →
        ∃ w, formatTemplate env v = .ok w ∧ lookup l k = some w := by
      clear h hn v
      induction conf generalizing l with
      | nil => cases hf; exact ⟨rfl, fun v h => (by cases h)⟩
      | cons p conf ih =>
        obtain ⟨k', v'⟩ := p
        unfold formatAll at hf
        cases hv : formatTemplate env v' with
        | error y => rw [hv] at hf; cases hf
        | ok w =>
          rw [hv] at hf
          dsimp only at hf
          cases hr : formatAll env conf with
          | error y => rw [hr] at hf; cases hf
          | ok r =>
            rw [hr] at hf
            cases hf
            obtain ⟨h1, h2⟩ := ih r hr
            refine ⟨?_, fun v h => ?_⟩
            · unfold Dict.keys at h1 ⊢; rw [List.map_cons, List.map_cons, h1]
            · rw [lookup_cons] at h ⊢
              dsimp only at h ⊢
              by_cases e : k' = k
              · rw [if_pos e] at h ⊢; cases h; exact ⟨w, hv, rfl⟩
              · rw [if_neg e] at h ⊢; exact h2 v h
    rw [ofList_nodup (by rw [key.1]; exact hn)]
    exact key.2 v h

/-! ### C135: addresses -/

open Verif.Addr (Netloc gatewayScheme rstrip urlparse)

private theorem netloc_eq {nl : Str} (hl : Netloc nl) :
    urlparse (gatewayScheme ++ nl) = some { scheme := "gateway".toList, netloc := nl, path := [] } := by
  have hclean : Addr.clean (gatewayScheme ++ nl) = "gateway".toList ++ ':' :: '/' :: '/' :: nl := by
    unfold Addr.clean
    have hd : (gatewayScheme ++ nl).dropWhile (fun c => decide (c.toNat ≤ 32)) = gatewayScheme ++ nl := by
      unfold gatewayScheme
      exact List.dropWhile_cons_of_neg (by decide)
    rw [hd, Addr.filter_id]
    · unfold gatewayScheme
      simp
    · intro c hc hm
      rw [List.mem_append] at hm
      rcases hm with hm | hm
      · revert hm
        revert c
        decide
      · exact hl.kept c hc hm
  have hsplit : Addr.splitScheme ("gateway".toList ++ ':' :: '/' :: '/' :: nl) = ("gateway".toList, '/' :: '/' :: nl) := by
    have hb : Addr.before ':' ("gateway".toList ++ ':' :: '/' :: '/' :: nl) = "gateway".toList :=
      Addr.before_append (by decide)
    have ha : Addr.after ':' ("gateway".toList ++ ':' :: '/' :: '/' :: nl) = '/' :: '/' :: nl :=
      Addr.after_append (by decide)
    unfold Addr.splitScheme
    rw [hb, ha]
    have hc : ("gateway".toList ++ ':' :: '/' :: '/' :: nl).contains ':' = true := by
      rw [List.contains_iff_mem]; simp
    rw [hc]
    rfl
  have htake : List.take 2 ('/' :: '/' :: nl) = ['/', '/'] := rfl
  have hN : Addr.netlocOf ('/' :: '/' :: nl) = nl.takeWhile (fun c => !Addr.delims.contains c) := if_pos htake
  have hR : Addr.restOf ('/' :: '/' :: nl) = nl.dropWhile (fun c => !Addr.delims.contains c) := if_pos htake
  have hall : ∀ x ∈ nl, (!Addr.delims.contains x) = true := fun x hx => by
    have a1 : x ≠ '/' := fun e => hl.slash (e ▸ hx)
    have a2 : x ≠ '?' := fun e => hl.question (e ▸ hx)
    have a3 : x ≠ '#' := fun e => hl.hash (e ▸ hx)
    simp [Addr.delims, a1, a2, a3]
  have hsep : nl.takeWhile (fun c => !Addr.delims.contains c) = nl ∧
      nl.dropWhile (fun c => !Addr.delims.contains c) = [] := by
    clear hN hR hsplit hclean hl htake
    induction nl with
    | nil => exact ⟨rfl, rfl⟩
    | cons x nl ih =>
      obtain ⟨a, b⟩ := ih (fun y hy => hall y (List.mem_cons_of_mem _ hy))
      have hx := hall x (List.mem_cons_self ..)
      rw [List.takeWhile_cons, if_pos hx, List.dropWhile_cons, if_pos hx, a, b]
      exact ⟨rfl, rfl⟩
  unfold urlparse
  rw [hclean, hsplit]
  dsimp only
  rw [hN, hR, hsep.1, hsep.2]
  have hbr : nl.contains '[' = nl.contains ']' := by
    have := hl.brackets
    rw [← List.contains_iff_mem, ← List.contains_iff_mem] at this
    cases h : nl.contains '[' <;> cases h' : nl.contains ']' <;> simp_all
  rw [if_pos hbr]
  rfl

private theorem rstrip_idem (s : Str) : rstrip (rstrip s) = rstrip s := by
  unfold rstrip
  rw [List.reverse_reverse]
  congr 1
  generalize s.reverse = l
  induction l with
  | nil => rfl
  | cons x l ih =>
    rw [List.dropWhile_cons]
    by_cases h : (x == '/') = true
    · rw [if_pos h]; exact ih
    · rw [if_neg h, List.dropWhile_cons, if_neg h]

/-- **C135.** What is given as an argument wins over the local configuration. -/
theorem C135_arguments (env env' : Str → Option Str) (conf conf' : Conf) (a p : Str) (q : Setting) (hq : q ≠ .none) :
    gateway env conf (some a) (some p) q = gateway env' conf' (some a) (some p) q := by
  unfold gateway
  have h : ∀ (env : Str → Option Str) (c : Setting), proxyOr env q c = .ok q := by
    intro env c
    cases q with
    | none => exact absurd rfl hq
    | int n => rfl
    | str s => rfl
  rw [h, h]
  rfl

/-- **C135.** The local configuration counts for what is not given, as if it were given. -/
theorem C135_configuration (env env' : Str → Option Str) (conf conf' : Conf) (a p q a' p' q' : Str)
    (ha : conf.address = some a) (hp : conf.publicAddress = some p) (hq : conf.proxyAddress = .str q)
    (fa : format env a = .ok a') (fp : format env p = .ok p') (fq : format env q = .ok q') :
    gateway env conf none none .none = gateway env' conf' (some a') (some p') (.str q') := by
  have e1 : argOr env none conf.address = .ok (some a') := by unfold argOr; dsimp only; rw [ha]; dsimp only; rw [fa]
  have e2 : argOr env none conf.publicAddress = .ok (some p') := by
    unfold argOr; dsimp only; rw [hp]; dsimp only; rw [fp]
  have e3 : proxyOr env .none conf.proxyAddress = .ok (.str q') := by
    unfold proxyOr formatSetting; dsimp only; rw [hq]; dsimp only; rw [fq]; rfl
  unfold gateway
  rw [e1, e2, e3]
  rfl

/-- **C135.** Without an address there is no client. -/
theorem C135_missing (env : Str → Option Str) (conf : Conf) (p : Option Str) (q : Setting) (h : conf.address = none) :
    gateway env conf none p q = .error .missing := by
  unfold gateway argOr
  rw [h]

private theorem gateway_ok {env : Str → Option Str} {conf : Conf} {a p : Option Str} {q : Setting} {g : Addrs}
    (h : gateway env conf a p q = .ok g) :
    ∃ a' q', argOr env a conf.address = .ok (some a') ∧ proxyOr env q conf.proxyAddress = .ok q' ∧
      g.address = rstrip a' ∧ rstrip g.publicAddress = g.publicAddress ∧
      Addr.proxyAddress a' q'.arg = some g.proxyAddress := by
  unfold gateway at h
  cases ha : argOr env a conf.address with
  | error e => rw [ha] at h; cases h
  | ok o =>
    rw [ha] at h
    cases o with
    | none => cases h
    | some a' =>
      dsimp only at h
      cases hp : argOr env p conf.publicAddress with
      | error e => rw [hp] at h; cases h
      | ok pub =>
        rw [hp] at h
        dsimp only at h
        cases hq : proxyOr env q conf.proxyAddress with
        | error e => rw [hq] at h; cases h
        | ok q' =>
          rw [hq] at h
          dsimp only at h
          cases hx : Addr.proxyAddress a' q'.arg with
          | none => rw [hx] at h; cases h
          | some x =>
            rw [hx] at h
            cases h
            refine ⟨a', q', rfl, rfl, rfl, ?_, hx⟩
            cases pub with
            | none => exact rstrip_idem a'
            | some y => exact rstrip_idem y

private theorem proxy_ok {a x : Str} {q : Addr.ProxyArg} (h : Addr.proxyAddress a q = some x) :
    ∃ n u, Addr.proxyNetloc (rstrip a) q = some n ∧ urlparse (rstrip a) = some u ∧ x = gatewayScheme ++ n := by
  unfold Addr.proxyAddress at h
  cases h1 : Addr.proxyNetloc (rstrip a) q with
  | none => rw [h1] at h; cases h
  | some n =>
    rw [h1] at h
    cases h2 : urlparse (rstrip a) with
    | none => rw [h2] at h; cases h
    | some u => rw [h2] at h; cases h; exact ⟨n, u, rfl, rfl, rfl⟩

/-- **C135 (partly).** The clusters that a client makes or connects to talk to the same gateway by the same
addresses, whatever the local configuration and the environment are meanwhile; if its proxy's address is
that of a host, as shown in `C135_proxy`. -/
theorem C135_same_gateway_partial (env env' : Str → Option Str) (conf conf' : Conf) (a p : Option Str) (q : Setting)
    (g : Addrs) (h : gateway env conf a p q = .ok g) (n : Str) (hg : g.proxyAddress = gatewayScheme ++ n)
    (hn : Netloc n) (hne : n ≠ []) : derived env' conf' g = .ok g := by
  obtain ⟨a', q', _, _, h1, h2, h3⟩ := gateway_ok h
  obtain ⟨n', u, _, h4, h5⟩ := proxy_ok h3
  have h6 : Addr.proxyAddress g.address (.addr g.proxyAddress) = some g.proxyAddress := by
    unfold Addr.proxyAddress
    rw [h1, rstrip_idem, h4]
    have : Addr.proxyNetloc (rstrip a') (.addr g.proxyAddress) = some n := by
      unfold Addr.proxyNetloc
      dsimp only
      rw [hg, netloc_eq hn]
      dsimp only
      rw [if_neg hne]
    rw [this]
    dsimp only
    rw [hg]
  unfold derived gateway argOr proxyOr
  dsimp only [Setting.arg]
  rw [h6]
  dsimp only [publicOf]
  rw [h2, h1, rstrip_idem, ← h1]

private theorem mem_netloc {url : Str} {u : Addr.Url} {c : Char} (hu : urlparse url = some u) (hc : c ∈ u.netloc) :
    c ∈ url := by
  unfold urlparse at hu
  dsimp only at hu
  split at hu
  · cases hu
    dsimp only at hc
    have h1 : c ∈ (Addr.splitScheme (Addr.clean url)).2 := by
      unfold Addr.netlocOf at hc
      split at hc
      · exact (List.drop_sublist 2 _).mem ((List.takeWhile_sublist _).mem hc)
      · cases hc
    have h2 := Addr.mem_scheme h1
    unfold Addr.clean at h2
    exact (List.dropWhile_sublist _).mem (List.mem_filter.1 h2).1
  · cases hu

private theorem netloc_port {h : Str} (hh : ∀ c ∈ ['[', ']', '/', '?', '#', '\t', '\r', '\n'], c ∉ h) (p : Nat) :
    Netloc (h ++ ':' :: Nat.toDigits 10 p) := by
  have hnot : ∀ c ∈ ['[', ']', '/', '?', '#', '\t', '\r', '\n'], c ∉ h ++ ':' :: Nat.toDigits 10 p := by
    intro c hc hm
    rcases List.mem_append.1 hm with hm | hm
    · exact hh c hc hm
    · rcases List.mem_cons.1 hm with hm | hm
      · rw [hm] at hc; revert hc; decide
      · have hd : c.isDigit = true := Nat.isDigit_of_mem_toDigits (by decide) (by decide) hm
        have : ∀ c ∈ ['[', ']', '/', '?', '#', '\t', '\r', '\n'], c.isDigit = false := by decide
        rw [this c hc] at hd
        cases hd
  refine ⟨hnot _ (by decide), hnot _ (by decide), hnot _ (by decide), ?_, ?_⟩
  · intro c hc
    refine hnot c ?_
    revert c
    decide
  · exact ⟨fun h => absurd h (hnot _ (by decide)), fun h => absurd h (hnot _ (by decide))⟩

private theorem plain_host {url : Str} {u : Addr.Url} (hu : urlparse url = some u) (hb : '[' ∉ url) :
    ∀ c ∈ ['[', ']', '/', '?', '#', '\t', '\r', '\n'], c ∉ Addr.showHost (Addr.hostname u.netloc) := by
  cases hh : Addr.hostname u.netloc with
  | none => show ∀ c ∈ ['[', ']', '/', '?', '#', '\t', '\r', '\n'], c ∉ "None".toList; decide
  | some h =>
    intro c hc
    refine (Addr.host_of hu hh (fun hm => hb (mem_netloc hu hm))).plain c ?_
    simp only [List.mem_cons] at hc ⊢
    rcases hc with hc | hc
    · exact Or.inr (Or.inr (Or.inl hc))
    · exact Or.inr (Or.inr (Or.inr hc))

/-- Specification: the proxy is given by its URL, or by its host and perhaps port, or it is on the host of the
gateway, whose address is not an IPv6 address. -/
def Clear (address : Str) : Setting → Prop
  | .str s => (∃ u, urlparse s = some u ∧ u.netloc ≠ []) ∨ (Netloc s ∧ s ≠ [])
  | _ => '[' ∉ address

/-- **C135.** So it is with the address of the proxy if it is given clearly, by an argument. -/
theorem C135_proxy (env : Str → Option Str) (conf : Conf) (a : Str) (p : Option Str) (q : Setting)
    (hq : q ≠ .none ∨ conf.proxyAddress = .none) (hc : Clear a q) (g : Addrs)
    (h : gateway env conf (some a) p q = .ok g) :
    ∃ n, g.proxyAddress = gatewayScheme ++ n ∧ Netloc n ∧ n ≠ [] := by
  obtain ⟨a', q', h1, h2, _, _, h3⟩ := gateway_ok h
  cases h1
  have e : q' = q := by
    unfold proxyOr formatSetting at h2
    cases q with
    | none =>
      rcases hq with hq | hq
      · exact absurd rfl hq
      · dsimp only at h2; rw [hq] at h2; cases h2; rfl
    | int n => cases h2; rfl
    | str s => cases h2; rfl
  subst e
  obtain ⟨n, u, h4, h5, h6⟩ := proxy_ok h3
  refine ⟨n, h6, ?_⟩
  have hr : '[' ∉ a → '[' ∉ rstrip a := by
    intro hb hm
    unfold rstrip at hm
    rw [List.mem_reverse] at hm
    exact hb (List.mem_reverse.1 ((List.dropWhile_sublist _).mem hm))
  unfold Addr.proxyNetloc at h4
  cases q' with
  | none =>
    dsimp only [Setting.arg] at h4
    rw [h5] at h4
    dsimp only at h4
    by_cases hn : u.netloc = []
    · rw [if_pos hn] at h4
      cases h4
      refine ⟨⟨by decide, by decide, by decide, by decide, by decide⟩, by decide⟩
    · rw [if_neg hn] at h4
      cases hp : Addr.port u.netloc with
      | none => rw [hp] at h4; cases h4
      | some x =>
        rw [hp] at h4
        cases h4
        exact ⟨netloc_port (plain_host h5 (hr hc)) _, by simp⟩
  | int m =>
    dsimp only [Setting.arg] at h4
    rw [h5] at h4
    cases h4
    exact ⟨netloc_port (plain_host h5 (hr hc)) _, by simp⟩
  | str s =>
    dsimp only [Setting.arg] at h4
    cases hu : urlparse s with
    | none => rw [hu] at h4; cases h4
    | some v =>
      rw [hu] at h4
      dsimp only at h4
      by_cases hv : v.netloc = []
      · rw [if_pos hv] at h4
        cases h4
        rcases hc with ⟨w, hw, hw'⟩ | hc
        · rw [hu] at hw; cases hw; exact absurd hv hw'
        · exact hc
      · rw [if_neg hv] at h4
        cases h4
        exact ⟨Addr.netloc_ok hu, hv⟩

end Verif.Settings

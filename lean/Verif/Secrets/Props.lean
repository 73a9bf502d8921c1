import Verif.Secrets.Lemmas

/-!
Properties of the encryption keys and of the stored credentials (C99 to C102).
-/

set_option linter.unusedSimpArgs false
set_option linter.unusedVariables false

namespace Verif.Secrets

open Verif.Auth
open Verif.Api (splitAll)

/-! ### Specification -/

/-- A byte string. -/
def IsBytes (s : Str) : Prop := ∀ c ∈ s, c.toNat < 256

/-- The characters a base64-encoded key may use: those of both alphabets. -/
def keyChars : Str :=
  "ABCDEFGHIJKLMNOPQRSTUVWXYZabcdefghijklmnopqrstuvwxyz0123456789+/-_".toList

/-- The shape of a base64-encoded 32-byte value: 43 characters and a `=`. -/
def Base64Form (k : Str) : Prop := ∃ t, k = t ++ ['='] ∧ t.length = 43 ∧ ∀ c ∈ t, c ∈ keyChars

/-- What the operator wrote. -/
def Key.text : Key → Str
  | .str s => s
  | .bytes b => b

/-- The raw key, or one of its two base64 encodings. -/
def Writes (raw k : Str) : Prop :=
  k = raw ∨ k = urlsafeEncode raw ∨ k = b64encode (raw.map Char.toNat)

/-- The pieces with a `;` between them. -/
def joinSemi : List Str → Str
  | [] => []
  | [p] => p
  | p :: q :: r => p ++ ';' :: joinSemi (q :: r)

/-- White space. -/
def Blank (s : Str) : Prop := ∀ c ∈ s, c ∈ [' ', '\t', '\n', '\r', Char.ofNat 11, Char.ofNat 12]

/-- The database is in memory. -/
def Memory (url : Str) : Prop := url = "sqlite://".toList ∨ url = "sqlite:///:memory:".toList

private theorem blank_space {s : Str} (h : Blank s) : ∀ c ∈ s, isSpace c = true := by
  intro c hc
  have := h c hc
  simp only [List.mem_cons, List.not_mem_nil, or_false] at this
  rcases this with rfl | rfl | rfl | rfl | rfl | rfl <;> decide

private theorem memory_iff (url : Str) : Memory url ↔ inMemory url = true := by
  unfold Memory inMemory
  rw [Bool.or_eq_true, decide_eq_true_iff, decide_eq_true_iff]

private theorem not_memory {url : Str} (h : ¬ Memory url) : inMemory url = false := by
  rw [memory_iff] at h
  simpa using h

/-! ### C99: which keys are accepted, and what they mean -/

private theorem keyChars_of : ∀ c ∈ keyChars, ofUrl c ∈ alphabet := by decide +kernel

private theorem alphabet_sub : ∀ c ∈ alphabet, c ∈ keyChars := by decide +kernel

private theorem keyChars_iff (c : Char) : c ∈ keyChars ↔ ofUrl c ∈ alphabet := by
  refine ⟨keyChars_of c, fun h => ?_⟩
  by_cases h1 : c = '-'
  · rw [h1]; decide +kernel
  · by_cases h2 : c = '_'
    · rw [h2]; decide +kernel
    · rw [ofUrl, if_neg h1, if_neg h2] at h
      exact alphabet_sub c h

private theorem ofUrl_eq {c : Char} (h : ofUrl c = '=') : c = '=' := by
  unfold ofUrl at h
  by_cases h1 : c = '-'
  · rw [if_pos h1] at h; exact absurd h (by decide)
  · rw [if_neg h1] at h
    by_cases h2 : c = '_'
    · rw [if_pos h2] at h; exact absurd h (by decide)
    · rw [if_neg h2] at h; exact h

private theorem form_iff (k : Str) :
    Base64Form k ↔ k.length = 44 ∧ ∃ raw, urlsafeDecode k = some raw ∧ raw.length = 32 := by
  constructor
  · rintro ⟨t, rfl, hl, ht⟩
    have hmem : ∀ c ∈ t.map ofUrl, c ∈ alphabet := by
      intro c hc
      obtain ⟨d, hd, rfl⟩ := List.mem_map.1 hc
      exact keyChars_of d (ht d hd)
    have hmap : (t ++ ['=']).map ofUrl = t.map ofUrl ++ ['='] := by
      rw [List.map_append]; rfl
    obtain ⟨b, hb⟩ := loop_data (t.map ofUrl) 0 0 (by omega) hmem (by rw [List.length_map, hl])
    refine ⟨by simp [hl], b.map Char.ofNat, ?_, ?_⟩
    · rw [urlsafeDecode, hmap, hb]; rfl
    · rw [List.length_map]
      obtain ⟨u, v, e, h1, h2⟩ := loop_shape _ 0 0 0 b (by omega) hb
      have hcount : (t.map ofUrl).countP (· ∈ alphabet) = 43 := by
        rw [← hl, ← List.length_map (f := ofUrl) (as := t)]
        exact List.countP_eq_length.2 (fun c hc => by simpa using hmem c hc)
      have hall : (t.map ofUrl ++ ['=']).countP (· ∈ alphabet) = 43 := by
        rw [List.countP_append, hcount, List.countP_cons_of_neg (by simpa using eq_notin)]; rfl
      rw [e, List.countP_append] at hall
      have hlen : u.length + v.length = 44 := by
        have := congrArg List.length e
        simp only [List.length_append, List.length_map, hl, List.length_cons, List.length_nil] at this
        omega
      have hv : v.countP (· ∈ alphabet) = 0 := by
        rcases h2 with ⟨h3, _⟩ | ⟨⟨w, h3⟩, _⟩
        · rw [h3]; rfl
        · have hw : w = [] := by
            have e2 : t.map ofUrl ++ ['='] = u ++ '=' :: w := by rw [e, h3]
            rcases List.eq_nil_or_concat w with h5 | ⟨w', x, h5⟩
            · exact h5
            · exfalso
              subst h5
              have e3 : t.map ofUrl ++ ['='] = (u ++ '=' :: w') ++ [x] := by rw [e2]; simp
              have e4 := (List.append_inj' e3 rfl).1
              exact eq_notin (hmem '=' (by rw [e4]; simp))
          rw [h3, hw, List.countP_cons_of_neg (by simpa using eq_notin)]; rfl
      omega
  · rintro ⟨hl, raw, h, hr⟩
    rw [urlsafeDecode] at h
    obtain ⟨b, hb, rfl⟩ := Option.map_eq_some_iff.1 h
    rw [List.length_map] at hr
    obtain ⟨t, e, ht, hm⟩ := decode44_form (by rw [List.length_map]; exact hl) hb hr
    obtain ⟨t', u', e', h1, h2⟩ := List.map_eq_append_iff.1 e
    obtain ⟨c, r, e3, h3, h4⟩ := List.map_eq_cons_iff.1 h2
    have h5 := ofUrl_eq h3
    have h6 : r = [] := List.map_eq_nil_iff.1 h4
    subst h6 h5
    refine ⟨t', by rw [e', e3], by rw [← ht, ← h1, List.length_map], ?_⟩
    intro c hc
    exact (keyChars_iff c).2 (hm _ (by rw [← h1]; exact List.mem_map.2 ⟨c, hc, rfl⟩))

private theorem decode44_of_form {k raw : Str} (hl : k.length = 44) (h : urlsafeDecode k = some raw) :
    decode44 k = raw := by
  rw [decode44, if_pos hl, h]

private theorem decode44_raw {k : Str} (hl : k.length = 32) : decode44 k = k := by
  rw [decode44, if_neg (by omega)]

private theorem decode44_len {k : Str} (h : (decode44 k).length = 32) :
    k.length = 32 ∨ (k.length = 44 ∧ ∃ raw, urlsafeDecode k = some raw ∧ raw.length = 32) := by
  rw [decode44] at h
  by_cases h1 : k.length = 44
  · rw [if_pos h1] at h
    cases h2 : urlsafeDecode k with
    | none => rw [h2] at h; exact Or.inl h
    | some raw => rw [h2] at h; exact Or.inr ⟨h1, raw, rfl, h⟩
  · rw [if_neg h1] at h; exact Or.inl h

/-- C99. The keys that are accepted are the 32-byte values, as they are or in base64 (with either
alphabet); a key given as text must be ASCII. -/
theorem C99_accepted (key : Key) :
    (∃ n, normalizeKey key = some n) ↔
      ((∀ s, key = .str s → ∀ c ∈ s, c.toNat < 128) ∧
        (key.text.length = 32 ∨ Base64Form key.text)) := by
  have hiff : ∀ k, (decode44 k).length = 32 ↔ (k.length = 32 ∨ Base64Form k) := by
    intro k
    constructor
    · intro h
      rcases decode44_len h with h | h
      · exact Or.inl h
      · exact Or.inr ((form_iff k).2 h)
    · rintro (h | h)
      · rw [decode44_raw h]; exact h
      · obtain ⟨hl, raw, h1, h2⟩ := (form_iff k).1 h
        rw [decode44_of_form hl h1]; exact h2
  have hgen : ∀ k, (∃ n, (if (decode44 k).length = 32 then some (urlsafeEncode (decode44 k)) else none)
      = some n) ↔ (k.length = 32 ∨ Base64Form k) := by
    intro k
    rw [← hiff k]
    by_cases h : (decode44 k).length = 32
    · rw [if_pos h]; exact ⟨fun _ => h, fun _ => ⟨_, rfl⟩⟩
    · rw [if_neg h]; exact ⟨fun ⟨_, h'⟩ => (by cases h'), fun h' => absurd h' h⟩
  cases key with
  | bytes b =>
    rw [normalizeKey]
    simp only [Key.encode, Key.text]
    rw [hgen b]
    exact ⟨fun h => ⟨fun s e => (by cases e), h⟩, fun h => h.2⟩
  | str s =>
    rw [normalizeKey]
    simp only [Key.encode, Key.text]
    by_cases ha : s.all (fun c => decide (c.toNat < 128)) = true
    · rw [if_pos ha]
      simp only
      rw [hgen s]
      refine ⟨fun h => ⟨fun s' e => ?_, h⟩, fun h => h.2⟩
      injection e with e
      subst e
      simpa using ha
    · rw [if_neg ha]
      constructor
      · rintro ⟨n, h⟩; cases h
      · rintro ⟨h, _⟩
        exact absurd (by simpa using h s rfl) ha

/-- C99. The raw form of a key and its two encodings are the same key. -/
theorem C99_same_key (raw k : Str) (hb : IsBytes raw) (hl : raw.length = 32) (h : Writes raw k) :
    normalizeKey (.bytes k) = some (urlsafeEncode raw) ∧
    (k ≠ raw → normalizeKey (.str k) = some (urlsafeEncode raw)) := by
  have hd : decode44 k = raw := by
    rcases h with rfl | rfl | rfl
    · exact decode44_raw hl
    · exact decode44_of_form (by rw [urlsafe_length, hl]) (decode_encode raw hb)
    · exact decode44_of_form (by rw [encode_length, List.length_map, hl]) (decode_standard raw hb)
  refine ⟨?_, fun hne => ?_⟩
  · rw [normalizeKey]
    simp only [Key.encode]
    rw [hd, if_pos hl]
  · rw [normalizeKey]
    simp only [Key.encode]
    have ha : k.all (fun c => decide (c.toNat < 128)) = true := by
      rcases h with h | rfl | rfl
      · exact absurd h hne
      · rw [List.all_eq_true]
        intro c hc
        exact decide_eq_true (urlsafe_mem raw hb c hc).1
      · exact encode_ascii _ (bytes_of raw hb)
    rw [if_pos ha]
    simp only
    rw [hd, if_pos hl]

/-- C99. Different keys stay different, and every accepted key is one of them. -/
theorem C99_distinct (raw raw' : Str) (hb : IsBytes raw) (hb' : IsBytes raw')
    (h : urlsafeEncode raw = urlsafeEncode raw') : raw = raw' := by
  have h1 := decode_encode raw hb
  rw [h, decode_encode raw' hb'] at h1
  injection h1 with h1
  exact h1.symm

private theorem normal_raw {key : Key} {n : Str} (hk : IsBytes key.text) (h : normalizeKey key = some n) :
    ∃ raw, IsBytes raw ∧ raw.length = 32 ∧ n = urlsafeEncode raw := by
  rw [normalizeKey] at h
  cases he : key.encode with
  | none => rw [he] at h; cases h
  | some k =>
    rw [he] at h
    simp only at h
    have hkk : k = key.text := by
      cases key with
      | bytes b => injection he with he; exact he.symm
      | str s =>
        rw [Key.encode] at he
        by_cases ha : s.all (fun c => decide (c.toNat < 128)) = true
        · rw [if_pos ha] at he; injection he with he; exact he.symm
        · rw [if_neg ha] at he; cases he
    by_cases hl : (decode44 k).length = 32
    · rw [if_pos hl] at h
      injection h with h
      refine ⟨decode44 k, ?_, hl, h.symm⟩
      rcases decode44_len hl with h1 | ⟨h1, raw, h2, _⟩
      · rw [decode44_raw h1, hkk]; exact hk
      · rw [decode44_of_form h1 h2]; exact decode_bytes h2
    · rw [if_neg hl] at h; cases h

/-- C99. What is kept of a key is again accepted, and means the same key: normalising twice (as
happens to the keys of the environment) does no harm. -/
theorem C99_idempotent (key : Key) (n : Str) (hk : IsBytes key.text) (h : normalizeKey key = some n) :
    ∃ raw, IsBytes raw ∧ raw.length = 32 ∧ n = urlsafeEncode raw ∧ normalizeKey (.bytes n) = some n := by
  obtain ⟨raw, h1, h2, rfl⟩ := normal_raw hk h
  exact ⟨raw, h1, h2, rfl, (C99_same_key raw _ h1 h2 (Or.inr (Or.inl rfl))).1⟩

/-- 32 bytes, not all of them ASCII. -/
private def raw1 : Str := (List.range 32).map (fun n => Char.ofNat (n * 8 + 3))

private def raw2 : Str := List.replicate 32 (Char.ofNat 255)

example : IsBytes raw1 ∧ raw1.length = 32 ∧ Writes raw1 (urlsafeEncode raw1) ∧
    normalizeKey (.str (urlsafeEncode raw1)) = some (urlsafeEncode raw1) ∧
    normalizeKey (.bytes raw1) = some (urlsafeEncode raw1) ∧
    normalizeKey (.str raw1) = none := by
  refine ⟨?_, by decide, Or.inr (Or.inl rfl), by decide +kernel, by decide +kernel, by decide +kernel⟩
  unfold IsBytes
  decide +kernel

/-- The two encodings differ. -/
example : urlsafeEncode raw2 ≠ b64encode (raw2.map Char.toNat) ∧
    normalizeKey (.bytes (b64encode (raw2.map Char.toNat))) = some (urlsafeEncode raw2) ∧
    normalizeKey (.bytes (urlsafeEncode raw2)) = some (urlsafeEncode raw2) := by
  decide +kernel

/-- 44 characters with a newline instead of one of the alphabet are not a key. -/
example : normalizeKey (.bytes ('\n' :: (urlsafeEncode raw2).drop 1)) = none ∧
    normalizeKey (.bytes ((urlsafeEncode raw2).take 43)) = none := by
  decide +kernel

/-! ### C100: the keys of the environment -/

private theorem envKeys_join (ps : List (Str × Str × Str))
    (h : ∀ p ∈ ps, (∀ c ∈ p.1, isSpace c = true) ∧ (∀ c ∈ p.2.1, isSpace c = false ∧ c ≠ ';') ∧
      (∀ c ∈ p.2.2, isSpace c = true) ∧ p.2.1 ≠ []) :
    envKeys (joinSemi (ps.map (fun p => p.1 ++ p.2.1 ++ p.2.2))) = ps.map (fun p => p.2.1) := by
  have hsemi : ∀ c, isSpace c = true → c ≠ ';' := by
    intro c hc e
    rw [e] at hc
    exact absurd hc (by decide)
  have hno : ∀ p ∈ ps, ';' ∉ p.1 ++ p.2.1 ++ p.2.2 := by
    intro p hp hm
    obtain ⟨h1, h2, h3, _⟩ := h p hp
    rcases List.mem_append.1 hm with hm | hm
    · rcases List.mem_append.1 hm with hm | hm
      · exact hsemi _ (h1 _ hm) rfl
      · exact (h2 _ hm).2 rfl
    · exact hsemi _ (h3 _ hm) rfl
  have hstrip : ∀ p ∈ ps, strip (p.1 ++ p.2.1 ++ p.2.2) = p.2.1 := by
    intro p hp
    obtain ⟨h1, h2, h3, _⟩ := h p hp
    exact strip_padded h1 (fun c hc => (h2 c hc).1) h3
  have hne : ∀ p ∈ ps, p.2.1 ≠ [] := fun p hp => (h p hp).2.2.2
  clear h
  have key : ∀ qs : List (Str × Str × Str), qs ≠ [] → (∀ p ∈ qs, p ∈ ps) →
      splitAll ';' (joinSemi (qs.map (fun p => p.1 ++ p.2.1 ++ p.2.2))) =
        qs.map (fun p => p.1 ++ p.2.1 ++ p.2.2) := by
    intro qs
    induction qs with
    | nil => intro h; exact absurd rfl h
    | cons q qs ih =>
      intro _ hsub
      cases qs with
      | nil =>
        simp only [List.map_cons, List.map_nil, joinSemi]
        exact Api.splitAll_piece _ _ (hno q (hsub q (by simp)))
      | cons r qs =>
        have ih' := ih (by simp) (fun p hp => hsub p (List.mem_cons_of_mem _ hp))
        simp only [List.map_cons] at ih' ⊢
        rw [joinSemi, Api.splitAll_append _ _ _ (hno q (hsub q (by simp))), ih']
  cases ps with
  | nil => decide
  | cons p ps =>
    rw [envKeys, key (p :: ps) (by simp) (fun _ h => h), List.map_map]
    have : ((p :: ps).map (strip ∘ fun p => p.1 ++ p.2.1 ++ p.2.2)) = (p :: ps).map (fun p => p.2.1) :=
      List.map_congr_left (fun q hq => hstrip q hq)
    rw [this, List.filter_eq_self]
    intro k hk
    obtain ⟨q, hq, rfl⟩ := List.mem_map.1 hk
    simpa using hne q hq

private theorem mapM_normal (ks : List Key) (raws : List Str) (hlen : ks.length = raws.length)
    (h : ∀ p ∈ ks.zip raws, normalizeKey p.1 = some (urlsafeEncode p.2)) :
    ks.mapM normalizeKey = some (raws.map urlsafeEncode) := by
  induction ks generalizing raws with
  | nil =>
    cases raws with
    | nil => rfl
    | cons _ _ => simp at hlen
  | cons k ks ih =>
    cases raws with
    | nil => simp at hlen
    | cons r raws =>
      have h1 := h (k, r) (by simp)
      have h2 := ih raws (by simpa using hlen) (fun p hp => h p (by simp [hp]))
      simp only at h1
      rw [List.mapM_cons, h1, h2]
      rfl

/-- C100. A list of base64-encoded keys written into the environment variable, with a `;` between
them and any white space around them, is read back as exactly these keys, in this order. -/
theorem C100_environment (url : Str) (ps : List (Str × Str × Str × Str)) (hps : ps ≠ [])
    (h : ∀ p ∈ ps, IsBytes p.1 ∧ p.1.length = 32 ∧ Blank p.2.1 ∧
      (p.2.2.1 = urlsafeEncode p.1 ∨ p.2.2.1 = b64encode (p.1.map Char.toNat)) ∧
      Blank p.2.2.2) :
    configuredKeys url none (joinSemi (ps.map (fun p => p.2.1 ++ p.2.2.1 ++ p.2.2.2))) =
      some (ps.map (fun p => urlsafeEncode p.1)) := by
  have hstd : ∀ n < 64, isSpace (b64char n) = false ∧ b64char n ≠ ';' := by decide +kernel
  have henv : envKeys (joinSemi (ps.map (fun p => p.2.1 ++ p.2.2.1 ++ p.2.2.2))) =
      ps.map (fun p => p.2.2.1) := by
    have := envKeys_join (ps.map (fun p => p.2)) (by
      intro q hq
      obtain ⟨p, hp, rfl⟩ := List.mem_map.1 hq
      obtain ⟨h1, h2, h3, h4, h5⟩ := h p hp
      refine ⟨blank_space h3, ?_, blank_space h5, ?_⟩
      · intro c hc
        rcases h4 with h4 | h4
        · rw [h4] at hc
          have := urlsafe_mem p.1 h1 c hc
          exact ⟨this.2.2, this.2.1⟩
        · rw [h4] at hc
          rcases encode_mem _ (bytes_of p.1 h1) c hc with rfl | ⟨n, hn, rfl⟩
          · decide
          · exact hstd n hn
      · intro e
        have hl : p.2.2.1.length = 44 := by
          rcases h4 with h4 | h4
          · rw [h4, urlsafe_length, h2]
          · rw [h4, encode_length, List.length_map, h2]
        rw [e] at hl
        cases hl)
    rw [List.map_map, List.map_map] at this
    exact this
  rw [configuredKeys, henv, validateKeys, if_neg (by
    rintro ⟨h1, _⟩
    rw [List.map_map, List.map_eq_nil_iff] at h1
    exact hps h1)]
  have := mapM_normal ((ps.map (fun p => p.2.2.1)).map Key.bytes) (ps.map (fun p => p.1)) (by simp) (by
    clear hps henv
    intro q hq
    induction ps with
    | nil => simp at hq
    | cons p ps ih =>
      simp only [List.map_cons, List.zip_cons_cons, List.mem_cons] at hq
      rcases hq with rfl | hq
      · obtain ⟨h1, h2, _, h4, _⟩ := h p (by simp)
        exact (C99_same_key p.1 p.2.2.1 h1 h2 (Or.inr h4)).1
      · exact ih (fun p' hp' => h p' (List.mem_cons_of_mem _ hp')) hq)
  rw [this, List.map_map]
  rfl

example : configuredKeys "sqlite:////data/db".toList none
      (joinSemi [' ' :: urlsafeEncode raw1 ++ ['\n'], b64encode (raw2.map Char.toNat)]) =
    some [urlsafeEncode raw1, urlsafeEncode raw2] := by
  decide +kernel

/-! ### C101: nothing is stored in the clear -/

private theorem snoc_ind {α : Type} {P : List α → Prop} (h0 : P [])
    (hs : ∀ l x, P l → P (l ++ [x])) : ∀ l, P l := by
  intro l
  rw [← List.reverse_reverse l]
  induction l.reverse with
  | nil => exact h0
  | cons x r ih => rw [List.reverse_cons]; exact hs _ _ ih

private theorem history_snoc (F : Fernet) (url : Str) (ls : List Life) (l : Life) :
    history F url (ls ++ [l]) = l.live F url (history F url ls) := by
  rw [history, List.foldl_append]; rfl

private theorem cipher_some {url : Str} {l : Life} {c : Option (List Str)} (hu : inMemory url = false)
    (h : l.cipher url = some c) :
    ∃ k ks, configuredKeys url l.config l.env = some (k :: ks) ∧ c = some (k :: ks) := by
  rw [Life.cipher] at h
  cases hk : configuredKeys url l.config l.env with
  | none => rw [hk] at h; cases h
  | some keys =>
    rw [hk] at h
    cases hs : validateStop url l.stop with
    | none => rw [hs] at h; cases h
    | some b =>
      rw [hs] at h
      simp only [Secrets.cipher] at h
      rw [if_neg (by rw [hu]; decide)] at h
      cases keys with
      | nil => rw [if_pos rfl] at h; cases h
      | cons k ks =>
        rw [if_neg (by simp)] at h
        injection h with h
        exact ⟨k, ks, rfl, h.symm⟩

private theorem live_cases (F : Fernet) (url : Str) (hu : inMemory url = false) (rows : List Row) (l : Life) :
    l.live F url rows = rows ∨
    ∃ k ks cs, configuredKeys url l.config l.env = some (k :: ks) ∧ l.cipher url = some (some (k :: ks)) ∧
      l.start F url rows = some cs ∧
      l.live F url rows = rows ++ l.creates.map (fun p => store F (some (k :: ks)) p.1 p.2.1 p.2.2) := by
  rw [Life.live]
  cases hs : l.start F url rows with
  | none => exact Or.inl rfl
  | some cs =>
    cases hc : l.cipher url with
    | none => exact Or.inl rfl
    | some c =>
      obtain ⟨k, ks, h1, rfl⟩ := cipher_some hu hc
      right
      refine ⟨k, ks, cs, h1, rfl, rfl, ?_⟩
      simp only
      rw [if_neg (by rw [hu]; decide)]

/-- C101. Whatever the sequence of gateways that used the database: every record of a database that is
not in memory holds the token and the TLS credentials of a cluster encrypted with the first key that
was configured for the gateway that wrote it. -/
theorem C101_encrypted (F : Fernet) (url : Str) (hm : ¬ Memory url) (ls : List Life) (row : Row)
    (h : row ∈ history F url ls) :
    ∃ l ∈ ls, ∃ k ks, configuredKeys url l.config l.env = some (k :: ks) ∧
      ∃ p ∈ l.creates, row.name = p.2.2.name ∧ row.token = F.enc k p.1 p.2.2.token ∧
        row.tls = F.enc k p.2.1 (p.2.2.cert ++ ';' :: p.2.2.key) := by
  have hu := not_memory hm
  induction ls using snoc_ind with
  | h0 => simp [history] at h
  | hs ls l ih =>
    rw [history_snoc] at h
    rcases live_cases F url hu (history F url ls) l with e | ⟨k, ks, cs, h1, _, _, e⟩
    · rw [e] at h
      obtain ⟨l', hl, r⟩ := ih h
      exact ⟨l', List.mem_append_left _ hl, r⟩
    · rw [e] at h
      rcases List.mem_append.1 h with h | h
      · obtain ⟨l', hl, r⟩ := ih h
        exact ⟨l', List.mem_append_left _ hl, r⟩
      · obtain ⟨p, hp, rfl⟩ := List.mem_map.1 h
        exact ⟨l, by simp, k, ks, h1, p, hp, rfl, rfl, rfl⟩

/-- C101. A gateway with a database that is not in memory and without keys does not start. -/
theorem C101_no_keys (F : Fernet) (url : Str) (hm : ¬ Memory url) (l : Life) (rows : List Row)
    (h : l.config = some [] ∨ (l.config = none ∧ l.env = [])) :
    l.start F url rows = none ∧ l.live F url rows = rows := by
  have hu := not_memory hm
  have hk : configuredKeys url l.config l.env = none := by
    rcases h with h | ⟨h, h'⟩
    · rw [h, configuredKeys, validateKeys, if_pos ⟨rfl, hu⟩]
    · rw [h, h', configuredKeys, show envKeys [] = [] from (by decide), List.map_nil, validateKeys, if_pos ⟨rfl, hu⟩]
  have hc : l.cipher url = none := by
    rw [Life.cipher, hk]
  have hs : l.start F url rows = none := by rw [Life.start, hc]
  exact ⟨hs, by rw [Life.live, hs]⟩

/-! ### C102: restarts and key rotation -/

/-- The clusters created by gateways that started, with the key each was encrypted with. -/
def journal (F : Fernet) (url : Str) : List Row → List Life → List (Str × Creds)
  | _, [] => []
  | rows, l :: ls =>
    (match l.start F url rows, configuredKeys url l.config l.env with
      | some _, some (k :: _) => l.creates.map (fun p => (k, p.2.2))
      | _, _ => []) ++ journal F url (l.live F url rows) ls

private theorem findSome_dec {F : Fernet} (hF : F.Ideal) (k : Str) (r : Nat) (m : Str) (ks : List Str) :
    ks.findSome? (fun k' => F.dec k' (F.enc k r m)) = if k ∈ ks then some m else none := by
  induction ks with
  | nil => rfl
  | cons a ks ih =>
    rw [List.findSome?_cons]
    by_cases e : k = a
    · rw [← e, hF.same, if_pos (by simp)]
    · rw [hF.other k a r m e]
      simp only
      rw [ih]
      by_cases h : k ∈ ks
      · rw [if_pos h, if_pos (List.mem_cons_of_mem _ h)]
      · rw [if_neg h, if_neg (by simp [h, e])]

/-- What a record can be read as. -/
private theorem load_store {F : Fernet} (hF : F.Ideal) (k : Str) (ks keys : List Str) (r1 r2 : Nat) (x : Creds) :
    load F (some keys) (store F (some (k :: ks)) r1 r2 x) =
      if k ∈ keys ∧ ';' ∉ x.cert ∧ ';' ∉ x.key then some x else none := by
  have h1 : ∀ r m, decrypt F (some keys) (F.enc k r m) = if k ∈ keys then some m else none :=
    fun r m => findSome_dec hF k r m keys
  unfold load store
  simp only [encrypt, List.headD_cons]
  rw [h1, h1]
  by_cases hk : k ∈ keys
  · rw [if_pos hk, if_pos hk]
    simp only
    by_cases hs : ';' ∉ x.cert ∧ ';' ∉ x.key
    · rw [if_pos ⟨hk, hs⟩, Api.splitAll_append _ _ _ hs.1, Api.splitAll_piece _ _ hs.2]
    · rw [if_neg (fun h => hs h.2)]
      split
      · rename_i cert key e
        exfalso
        obtain ⟨e1, e2, e3⟩ := splitAll_two e
        have hc := congrArg (List.count ';') e1
        rw [List.count_append, List.count_append, List.count_cons_self, List.count_cons_self,
          List.count_eq_zero_of_not_mem e2, List.count_eq_zero_of_not_mem e3] at hc
        apply hs
        constructor
        · apply List.count_eq_zero.1; omega
        · apply List.count_eq_zero.1; omega
      · rfl
  · rw [if_neg hk, if_neg (show ¬ (k ∈ keys ∧ ';' ∉ x.cert ∧ ';' ∉ x.key) from fun h => hk h.1)]

/-- The rows a journal stands for. -/
private def Matches (F : Fernet) (row : Row) (e : Str × Creds) : Prop :=
  ∃ ks r1 r2, row = store F (some (e.1 :: ks)) r1 r2 e.2

private inductive AllMatch (F : Fernet) : List Row → List (Str × Creds) → Prop
  | nil : AllMatch F [] []
  | cons {row : Row} {e : Str × Creds} {rows : List Row} {js : List (Str × Creds)} :
    Matches F row e → AllMatch F rows js → AllMatch F (row :: rows) (e :: js)

private theorem AllMatch.append {F : Fernet} {a b : List Row} {c d : List (Str × Creds)}
    (h : AllMatch F a c) (h' : AllMatch F b d) : AllMatch F (a ++ b) (c ++ d) := by
  induction h with
  | nil => exact h'
  | cons hm _ ih => exact .cons hm ih

private theorem history_journal (F : Fernet) (url : Str) (hu : inMemory url = false) (ls : List Life) :
    ∀ rows js, AllMatch F rows js →
      AllMatch F (ls.foldl (Life.live F url) rows) (js ++ journal F url rows ls) := by
  induction ls with
  | nil => intro rows js h; simpa [journal] using h
  | cons l ls ih =>
    intro rows js h
    rw [List.foldl_cons, journal, ← List.append_assoc]
    apply ih
    rw [Life.live]
    cases hs : l.start F url rows with
    | none => simpa using h
    | some cs =>
      have : ∃ c, l.cipher url = some c := by
        rw [Life.start] at hs
        cases hc : l.cipher url with
        | none => rw [hc] at hs; cases hs
        | some c => exact ⟨c, rfl⟩
      obtain ⟨c, hc⟩ := this
      obtain ⟨k, ks, h1, rfl⟩ := cipher_some hu hc
      rw [hc, h1]
      simp only
      rw [if_neg (by rw [hu]; decide)]
      apply AllMatch.append h
      generalize l.creates = ps
      induction ps with
      | nil => exact .nil
      | cons p ps ih => exact .cons ⟨ks, p.1, p.2.1, rfl⟩ ih

private theorem mapM_load {F : Fernet} (hF : F.Ideal) (keys : List Str) (rows : List Row)
    (js : List (Str × Creds)) (h : AllMatch F rows js) :
    (( ∀ e ∈ js, e.1 ∈ keys ∧ ';' ∉ e.2.cert ∧ ';' ∉ e.2.key) →
      rows.mapM (load F (some keys)) = some (js.map Prod.snd)) ∧
    ((∃ e ∈ js, ¬ (e.1 ∈ keys ∧ ';' ∉ e.2.cert ∧ ';' ∉ e.2.key)) →
      rows.mapM (load F (some keys)) = none) := by
  induction h with
  | nil => exact ⟨fun _ => rfl, fun ⟨_, h, _⟩ => (by cases h)⟩
  | @cons row e rows js hm _ ih =>
    obtain ⟨ks, r1, r2, rfl⟩ := hm
    have hl := load_store hF e.1 ks keys r1 r2 e.2
    by_cases hg : e.1 ∈ keys ∧ ';' ∉ e.2.cert ∧ ';' ∉ e.2.key
    · rw [if_pos hg] at hl
      constructor
      · intro h
        rw [List.mapM_cons, hl, ih.1 (fun e' he' => h e' (List.mem_cons_of_mem _ he'))]
        rfl
      · rintro ⟨e', he', hn⟩
        rcases List.mem_cons.1 he' with rfl | he'
        · exact absurd hg hn
        · rw [List.mapM_cons, hl, ih.2 ⟨e', he', hn⟩]
          rfl
    · rw [if_neg hg] at hl
      constructor
      · intro h
        exact absurd (h e (by simp)) hg
      · intro _
        rw [List.mapM_cons, hl]
        rfl

/-- C102. After any sequence of gateways, each with its own keys, a gateway started on the database
with keys that include every key used so far knows exactly the clusters created so far, with the
credentials each was created with, provided that no credential contains a `;`. -/
theorem C102_restart (F : Fernet) (hF : F.Ideal) (url : Str) (hm : ¬ Memory url)
    (ls : List Life) (l : Life) (k : Str) (ks : List Str)
    (hk : configuredKeys url l.config l.env = some (k :: ks))
    (h : ∀ e ∈ journal F url [] ls, e.1 ∈ k :: ks ∧ ';' ∉ e.2.cert ∧ ';' ∉ e.2.key) :
    l.start F url (history F url ls) = some ((journal F url [] ls).map Prod.snd) := by
  have hu := not_memory hm
  have hc : l.cipher url = some (some (k :: ks)) := by
    rw [Life.cipher, hk, validateStop, if_neg (by rw [hu]; simp)]
    simp only [Secrets.cipher]
    rw [if_neg (by rw [hu]; decide), if_neg (by simp)]
  have hj := history_journal F url hu ls [] [] .nil
  rw [List.nil_append] at hj
  rw [Life.start, hc]
  exact (mapM_load hF (k :: ks) _ _ hj).1 h

/-- C102. And only then: if a key that was used is no longer configured, or if a credential contains a
`;`, the gateway does not start at all, whatever the other records are. -/
theorem C102_no_restart (F : Fernet) (hF : F.Ideal) (url : Str) (hm : ¬ Memory url)
    (ls : List Life) (l : Life)
    (h : ∀ keys, configuredKeys url l.config l.env = some keys →
      ∃ e ∈ journal F url [] ls, ¬ (e.1 ∈ keys ∧ ';' ∉ e.2.cert ∧ ';' ∉ e.2.key)) :
    l.start F url (history F url ls) = none := by
  have hu := not_memory hm
  have hj := history_journal F url hu ls [] [] .nil
  rw [List.nil_append] at hj
  rw [Life.start]
  cases hc : l.cipher url with
  | none => rfl
  | some c =>
    obtain ⟨k, ks, h1, rfl⟩ := cipher_some hu hc
    exact (mapM_load hF (k :: ks) _ _ hj).2 (h _ h1)

/-- A toy cipher that meets the assumptions: the key and the message, side by side, with the key's
length first. -/
private def toy : Fernet where
  enc k _ m := List.replicate k.length 'x' ++ 'y' :: k ++ m
  dec k t := if (List.replicate k.length 'x' ++ 'y' :: k).isPrefixOf t then
      some (t.drop (2 * k.length + 1)) else none

private theorem rep_inj : ∀ (a b : Nat) (s t : Str),
    List.replicate a 'x' ++ 'y' :: s = List.replicate b 'x' ++ 'y' :: t → a = b ∧ s = t := by
  intro a
  induction a with
  | zero =>
    intro b s t h
    cases b with
    | zero => simpa using h
    | succ b => simp [List.replicate_succ] at h
  | succ a ih =>
    intro b s t h
    cases b with
    | zero => simp [List.replicate_succ] at h
    | succ b =>
      rw [List.replicate_succ, List.replicate_succ, List.cons_append, List.cons_append] at h
      injection h with _ h
      obtain ⟨h1, h2⟩ := ih b s t h
      exact ⟨by rw [h1], h2⟩

private theorem toy_ideal : toy.Ideal where
  same k r m := by
    simp only [toy]
    rw [if_pos (by rw [List.isPrefixOf_iff_prefix]; exact ⟨m, rfl⟩)]
    congr 1
    rw [List.drop_left' (by simp; omega)]
  other k k' r m hne := by
    simp only [toy]
    rw [if_neg]
    intro h
    rw [List.isPrefixOf_iff_prefix] at h
    obtain ⟨u, h⟩ := h
    rw [List.append_assoc, List.append_assoc, List.cons_append, List.cons_append] at h
    obtain ⟨h1, h2⟩ := rep_inj _ _ _ _ h
    exact hne (List.append_inj_left h2 h1).symm

private def life1 : Life where
  config := some [.str (urlsafeEncode raw1)]
  env := []
  stop := false
  creates := [(1, 2, ⟨"a".toList, "t".toList, "cert".toList, "key".toList⟩)]

private def life2 : Life where
  config := none
  env := joinSemi [b64encode (raw2.map Char.toNat), urlsafeEncode raw1]
  stop := true
  creates := [(3, 4, ⟨"b".toList, "u".toList, "cert2".toList, "key2".toList⟩)]

private def life3 : Life where
  config := some [.bytes raw2]
  env := []
  stop := true
  creates := []

private def file : Str := "sqlite:////data/db".toList

/-- Key rotation: the second gateway puts a new key before the old one and reads both kinds of
records; a third one without the old key does not start. -/
example : toy.Ideal ∧ ¬ Memory file ∧
    (history toy file [life1, life2]).length = 2 ∧
    life2.start toy file (history toy file [life1, life2]) =
      some [⟨"a".toList, "t".toList, "cert".toList, "key".toList⟩,
        ⟨"b".toList, "u".toList, "cert2".toList, "key2".toList⟩] ∧
    journal toy file [] [life1, life2] =
      [(urlsafeEncode raw1, ⟨"a".toList, "t".toList, "cert".toList, "key".toList⟩),
        (urlsafeEncode raw2, ⟨"b".toList, "u".toList, "cert2".toList, "key2".toList⟩)] ∧
    life3.start toy file (history toy file [life1, life2]) = none := by
  refine ⟨toy_ideal, fun h => absurd ((memory_iff _).1 h) (by decide +kernel), ?_, ?_, ?_, ?_⟩ <;>
    decide +kernel

/-! ### C103: clusters left running are on record -/

/-- C103. A gateway that leaves its clusters running when it exits has their records in a database that
outlives it; with a database in memory, such a configuration is not accepted. -/
theorem C103_left_running (F : Fernet) (url : Str) (ls : List Life) (l : Life) (cs : List Creds)
    (h : l.start F url (history F url ls) = some cs) (hstop : l.stop = false) :
    ¬ Memory url ∧
    (∀ p ∈ l.creates, ∃ row ∈ history F url (ls ++ [l]), row.name = p.2.2.name) ∧
    (∀ row ∈ history F url ls, row ∈ history F url (ls ++ [l])) := by
  have hc : ∃ c, l.cipher url = some c := by
    rw [Life.start] at h
    cases hc : l.cipher url with
    | none => rw [hc] at h; cases h
    | some c => exact ⟨c, rfl⟩
  obtain ⟨c, hc⟩ := hc
  have hu : inMemory url = false := by
    rw [Life.cipher] at hc
    cases hm : inMemory url with
    | false => rfl
    | true =>
      rw [validateStop, if_pos ⟨hstop, hm⟩] at hc
      cases hk : configuredKeys url l.config l.env with
      | none => rw [hk] at hc; cases hc
      | some keys => rw [hk] at hc; cases hc
  have hl : l.live F url (history F url ls) =
      history F url ls ++ l.creates.map (fun p => store F c p.1 p.2.1 p.2.2) := by
    rw [Life.live, h, hc]
    simp only
    rw [if_neg (by rw [hu]; decide)]
  rw [history_snoc, hl]
  refine ⟨fun h => absurd ((memory_iff _).1 h) (by rw [hu]; decide), ?_, fun row hr => List.mem_append_left _ hr⟩
  intro p hp
  exact ⟨_, List.mem_append_right _ (List.mem_map.2 ⟨p, hp, rfl⟩), rfl⟩

/-- C103. With a database in memory no keys are needed, and the clusters must be stopped on exit. -/
theorem C103_in_memory (F : Fernet) (url : Str) (hm : Memory url) (l : Life)
    (hk : l.config = some [] ∨ (l.config = none ∧ l.env = [])) :
    l.start F url [] = if l.stop = true then some [] else none := by
  have hu := (memory_iff _).1 hm
  have hkeys : configuredKeys url l.config l.env = some [] := by
    have hv : validateKeys url [] = some [] := by
      rw [validateKeys, if_neg (by rw [hu]; simp)]; rfl
    rcases hk with h | ⟨h, h'⟩
    · rw [h, configuredKeys, hv]
    · rw [h, h', configuredKeys, show envKeys [] = [] from (by decide), List.map_nil, hv]
  rw [Life.start, Life.cipher, hkeys, validateStop]
  cases l.stop with
  | false => rw [if_pos ⟨rfl, hu⟩, if_neg (by decide)]
  | true =>
    rw [if_neg (by simp), if_pos rfl]
    simp only [Secrets.cipher]
    rw [if_pos hu]
    rfl

example : life1.stop = false ∧ life1.start toy file (history toy file []) = some [] ∧
    life1.start toy "sqlite://".toList [] = none := by
  decide +kernel

end Verif.Secrets

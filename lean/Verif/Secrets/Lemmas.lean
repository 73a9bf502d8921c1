import Verif.Secrets.Model
import Verif.Auth.Lemmas
import Verif.Api.Lemmas

/-! Lemmas about base64 and about the keys. -/

namespace Verif.Secrets

open Verif.Auth
open Verif.Api (splitAll)

theorem eq_notin : ('=' : Char) ∉ alphabet := by decide +kernel

/-- What the loop of the decoder accepts, and the number of bytes it gives. -/
theorem loop_shape (s : Str) : ∀ (quad left pads : Nat) (b : List Nat), quad ≤ 3 →
    b64decodeLoop quad left pads s = some b →
    ∃ t u, s = t ++ u ∧ b.length + quad * 3 / 4 = (quad + t.countP (· ∈ alphabet)) * 3 / 4 ∧
      ((u = [] ∧ (quad + t.countP (· ∈ alphabet)) % 4 = 0) ∨
        ((∃ v, u = '=' :: v) ∧ 2 ≤ (quad + t.countP (· ∈ alphabet)) % 4)) := by
  induction s with
  | nil =>
    intro quad left pads b hq h
    rw [b64decodeLoop] at h
    by_cases e : quad = 0
    · rw [if_pos e] at h
      injection h with h
      subst h e
      exact ⟨[], [], rfl, rfl, Or.inl ⟨rfl, rfl⟩⟩
    · rw [if_neg e] at h; cases h
  | cons x s ih =>
    intro quad left pads b hq h
    rw [b64decodeLoop] at h
    by_cases hx : x = '='
    · rw [if_pos hx] at h
      have hna : x ∉ alphabet := by rw [hx]; exact eq_notin
      have lift : ∀ q' l' p', q' = quad → b64decodeLoop q' l' p' s = some b →
          ∃ t u, x :: s = t ++ u ∧
            b.length + quad * 3 / 4 = (quad + t.countP (· ∈ alphabet)) * 3 / 4 ∧
            ((u = [] ∧ (quad + t.countP (· ∈ alphabet)) % 4 = 0) ∨
              ((∃ v, u = '=' :: v) ∧ 2 ≤ (quad + t.countP (· ∈ alphabet)) % 4)) := by
        intro q' l' p' e h'
        subst e
        obtain ⟨t, u, e, h1, h2⟩ := ih q' l' p' b hq h'
        refine ⟨x :: t, u, by rw [e]; rfl, ?_, ?_⟩
        · rw [List.countP_cons_of_neg (by simpa using hna)]; exact h1
        · rw [List.countP_cons_of_neg (by simpa using hna)]; exact h2
      by_cases h2 : quad < 2
      · rw [if_pos h2] at h
        exact lift quad left pads rfl h
      · rw [if_neg h2] at h
        by_cases h3 : quad + (pads + 1) ≥ 4
        · rw [if_pos h3] at h
          injection h with h
          subst h
          refine ⟨[], x :: s, rfl, by simp, Or.inr ⟨⟨s, by rw [hx]⟩, ?_⟩⟩
          simp only [List.countP_nil, Nat.add_zero]
          omega
        · rw [if_neg h3] at h
          exact lift quad left (pads + 1) rfl h
    · rw [if_neg hx] at h
      cases hi : alphabet.idxOf? x with
      | none =>
        rw [hi] at h
        have hna : x ∉ alphabet := by simpa using hi
        obtain ⟨t, u, e, h1, h2⟩ := ih quad left pads b hq h
        refine ⟨x :: t, u, by rw [e]; rfl, ?_, ?_⟩
        · rw [List.countP_cons_of_neg (by simpa using hna)]; exact h1
        · rw [List.countP_cons_of_neg (by simpa using hna)]; exact h2
      | some v =>
        rw [hi] at h
        have hmem : x ∈ alphabet := by
          apply Classical.byContradiction
          intro hn
          have : alphabet.idxOf? x = none := by simpa using hn
          rw [this] at hi; cases hi
        have up : ∀ q' l' b' d, q' ≤ 3 → b64decodeLoop q' l' 0 s = some b' →
            b.length = b'.length + d →
            (quad + 1) % 4 = q' % 4 → d + quad * 3 / 4 + (if quad = 3 then 0 else q' * 3 / 4) =
              (if quad = 3 then 3 else q' * 3 / 4 + q' * 3 / 4) →
            (quad ≠ 3 → q' = quad + 1) → (quad = 3 → q' = 0) →
            ∃ t u, x :: s = t ++ u ∧
            b.length + quad * 3 / 4 = (quad + t.countP (· ∈ alphabet)) * 3 / 4 ∧
            ((u = [] ∧ (quad + t.countP (· ∈ alphabet)) % 4 = 0) ∨
              ((∃ v, u = '=' :: v) ∧ 2 ≤ (quad + t.countP (· ∈ alphabet)) % 4)) := by
          intro q' l' b' d hq' h' hb hm hd h3 h4
          obtain ⟨t, u, e, h1, h2⟩ := ih q' l' 0 b' hq' h'
          refine ⟨x :: t, u, by rw [e]; rfl, ?_, ?_⟩
          · rw [List.countP_cons_of_pos (by simpa using hmem)]
            by_cases e3 : quad = 3
            · have := h4 e3
              subst this e3
              simp only [if_true] at hd
              omega
            · have := h3 e3
              subst this
              simp only [if_neg e3] at hd
              omega
          · rw [List.countP_cons_of_pos (by simpa using hmem)]
            have h7 : (quad + (t.countP (· ∈ alphabet) + 1)) % 4 =
                (q' + t.countP (· ∈ alphabet)) % 4 := by
              by_cases e3 : quad = 3
              · have := h4 e3; omega
              · have := h3 e3; omega
            rw [h7]
            exact h2
        match quad, hq, h with
        | 0, _, h => exact up 1 v b 0 (by omega) h rfl rfl rfl (fun _ => rfl) (fun h => (by omega))
        | 1, _, h =>
          obtain ⟨b', h5, rfl⟩ := Option.map_eq_some_iff.1 h
          exact up 2 _ b' 1 (by omega) h5 rfl rfl rfl (fun _ => rfl) (fun h => (by omega))
        | 2, _, h =>
          obtain ⟨b', h5, rfl⟩ := Option.map_eq_some_iff.1 h
          exact up 3 _ b' 1 (by omega) h5 rfl rfl rfl (fun _ => rfl) (fun h => (by omega))
        | 3, _, h =>
          obtain ⟨b', h5, rfl⟩ := Option.map_eq_some_iff.1 h
          exact up 0 _ b' 1 (by omega) h5 rfl rfl rfl (fun h => absurd rfl h) (fun _ => rfl)

/-- Characters of the alphabet followed by one `=` are accepted if they are 3 modulo 4. -/
theorem loop_data (t : Str) : ∀ (quad left : Nat), quad ≤ 3 → (∀ c ∈ t, c ∈ alphabet) →
    (quad + t.length) % 4 = 3 → ∃ b, b64decodeLoop quad left 0 (t ++ ['=']) = some b := by
  induction t with
  | nil =>
    intro quad left hq _ hm
    have : quad = 3 := by simp only [List.length_nil] at hm; omega
    subst this
    exact ⟨[], rfl⟩
  | cons x t ih =>
    intro quad left hq hall hm
    have hx := hall x (by simp)
    have ht : ∀ c ∈ t, c ∈ alphabet := fun c hc => hall c (by simp [hc])
    have hne : x ≠ '=' := fun e => eq_notin (e ▸ hx)
    rw [List.cons_append, b64decodeLoop, if_neg hne]
    simp only [List.length_cons] at hm
    cases hi : alphabet.idxOf? x with
    | none => exact absurd hx (by simpa using hi)
    | some v =>
      match quad, hq with
      | 0, _ => exact ih 1 v (by omega) ht (by omega)
      | 1, _ =>
        obtain ⟨b, h⟩ := ih 2 (v % 16) (by omega) ht (by omega)
        exact ⟨_, Option.map_eq_some_iff.2 ⟨b, h, rfl⟩⟩
      | 2, _ =>
        obtain ⟨b, h⟩ := ih 3 (v % 4) (by omega) ht (by omega)
        exact ⟨_, Option.map_eq_some_iff.2 ⟨b, h, rfl⟩⟩
      | 3, _ =>
        obtain ⟨b, h⟩ := ih 0 0 (by omega) ht (by omega)
        exact ⟨_, Option.map_eq_some_iff.2 ⟨b, h, rfl⟩⟩

theorem countP_all {p : Char → Bool} {t : Str} (h : t.countP p = t.length) : ∀ c ∈ t, p c = true :=
  List.countP_eq_length.1 h

/-- 44 characters decode to 32 bytes only if they are 43 of the alphabet and a `=`. -/
theorem decode44_form {s : Str} {b : List Nat} (hl : s.length = 44)
    (h : b64decodeLoop 0 0 0 s = some b) (hb : b.length = 32) :
    ∃ t, s = t ++ ['='] ∧ t.length = 43 ∧ ∀ c ∈ t, c ∈ alphabet := by
  obtain ⟨t, u, e, h1, h2⟩ := loop_shape s 0 0 0 b (by omega) h
  have hc : t.countP (· ∈ alphabet) ≤ t.length := List.countP_le_length
  have hlen : t.length + u.length = 44 := by rw [← hl, e, List.length_append]
  generalize hn : t.countP (· ∈ alphabet) = n at *
  rcases h2 with ⟨h3, h4⟩ | ⟨⟨v, h3⟩, h4⟩
  · omega
  · rw [h3, List.length_cons] at hlen
    have : v = [] := by
      apply List.eq_nil_of_length_eq_zero
      omega
    subst this
    refine ⟨t, by rw [e, h3], by omega, ?_⟩
    intro c hc
    have := countP_all (p := (· ∈ alphabet)) (t := t) (by rw [hn]; simp only [List.length_nil] at hlen; omega) c hc
    simpa using this

/-- The decoder gives bytes. -/
theorem idx_lt {x : Char} {v : Nat} (h : alphabet.idxOf? x = some v) : v < 64 := by
  have h1 : v < alphabet.length := by
    rw [List.idxOf?_eq_some_iff] at h
    obtain ⟨h1, _⟩ := h
    exact h1
  have : alphabet.length = 64 := by decide +kernel
  omega

theorem loop_bytes (s : Str) : ∀ (quad left pads : Nat) (b : List Nat),
    (quad = 1 → left < 64) → (quad = 2 → left < 16) → (3 ≤ quad → left < 4) →
    b64decodeLoop quad left pads s = some b → ∀ x ∈ b, x < 256 := by
  induction s with
  | nil =>
    intro quad left pads b _ _ _ h
    rw [b64decodeLoop] at h
    by_cases e : quad = 0
    · rw [if_pos e] at h; injection h with h; subst h; simp
    · rw [if_neg e] at h; cases h
  | cons x s ih =>
    intro quad left pads b l1 l2 l3 h
    rw [b64decodeLoop] at h
    by_cases hx : x = '='
    · rw [if_pos hx] at h
      by_cases h2 : quad < 2
      · rw [if_pos h2] at h; exact ih _ _ _ _ l1 l2 l3 h
      · rw [if_neg h2] at h
        by_cases h3 : quad + (pads + 1) ≥ 4
        · rw [if_pos h3] at h; injection h with h; subst h; simp
        · rw [if_neg h3] at h; exact ih _ _ _ _ l1 l2 l3 h
    · rw [if_neg hx] at h
      cases hi : alphabet.idxOf? x with
      | none => rw [hi] at h; exact ih _ _ _ _ l1 l2 l3 h
      | some v =>
        rw [hi] at h
        have hv := idx_lt hi
        match quad, l1, l2, l3, h with
        | 0, _, _, _, h => exact ih 1 v 0 b (fun _ => hv) (fun h => (by omega)) (fun h => (by omega)) h
        | 1, l1, _, _, h =>
          have := l1 rfl
          obtain ⟨b', h5, rfl⟩ := Option.map_eq_some_iff.1 h
          intro y hy
          rcases List.mem_cons.1 hy with rfl | hy
          · omega
          · exact ih 2 _ 0 b' (fun h => (by omega)) (fun _ => (by omega)) (fun h => (by omega)) h5 y hy
        | 2, _, l2, _, h =>
          have := l2 rfl
          obtain ⟨b', h5, rfl⟩ := Option.map_eq_some_iff.1 h
          intro y hy
          rcases List.mem_cons.1 hy with rfl | hy
          · omega
          · exact ih 3 _ 0 b' (fun h => (by omega)) (fun h => (by omega)) (fun _ => (by omega)) h5 y hy
        | q + 3, _, _, l3, h =>
          have := l3 (by omega)
          obtain ⟨b', h5, rfl⟩ := Option.map_eq_some_iff.1 h
          intro y hy
          rcases List.mem_cons.1 hy with rfl | hy
          · omega
          · exact ih 0 0 0 b' (fun h => (by omega)) (fun h => (by omega)) (fun h => (by omega)) h5 y hy

/-! ### The two alphabets -/

theorem toUrl_props : ∀ n < 64, ofUrl (toUrl (b64char n)) = b64char n ∧ ofUrl (b64char n) = b64char n ∧
    (toUrl (b64char n)).toNat < 128 ∧ toUrl (b64char n) ≠ ';' ∧ isSpace (toUrl (b64char n)) = false := by
  decide +kernel

theorem encode_mem (b : List Nat) (h : ∀ x ∈ b, x < 256) :
    ∀ c ∈ b64encode b, c = '=' ∨ ∃ n < 64, c = b64char n := by
  induction b using b64encode.induct with
  | case1 => simp [b64encode]
  | case2 a =>
    have ha := h a (by simp)
    intro c hc
    simp only [b64encode, List.mem_cons, List.not_mem_nil, or_false] at hc
    rcases hc with rfl | rfl | rfl | rfl
    · exact Or.inr ⟨_, by omega, rfl⟩
    · exact Or.inr ⟨_, by omega, rfl⟩
    · exact Or.inl rfl
    · exact Or.inl rfl
  | case3 a b =>
    have ha := h a (by simp)
    have hb := h b (by simp)
    intro c hc
    simp only [b64encode, List.mem_cons, List.not_mem_nil, or_false] at hc
    rcases hc with rfl | rfl | rfl | rfl
    · exact Or.inr ⟨_, by omega, rfl⟩
    · exact Or.inr ⟨_, by omega, rfl⟩
    · exact Or.inr ⟨_, by omega, rfl⟩
    · exact Or.inl rfl
  | case4 a b c r ih =>
    have ha := h a (by simp)
    have hb := h b (by simp)
    have hc := h c (by simp)
    intro d hd
    simp only [b64encode, List.mem_cons] at hd
    rcases hd with rfl | rfl | rfl | rfl | hd
    · exact Or.inr ⟨_, by omega, rfl⟩
    · exact Or.inr ⟨_, by omega, rfl⟩
    · exact Or.inr ⟨_, by omega, rfl⟩
    · exact Or.inr ⟨_, by omega, rfl⟩
    · exact ih (fun x hx => h x (by simp [hx])) d hd

theorem encode_length (b : List Nat) : (b64encode b).length = (b.length + 2) / 3 * 4 := by
  induction b using b64encode.induct with
  | case1 => rfl
  | case2 a => simp [b64encode]
  | case3 a b => simp [b64encode]
  | case4 a b c r ih => simp only [b64encode, List.length_cons, ih]; omega

theorem map_ofUrl_toUrl (b : List Nat) (h : ∀ x ∈ b, x < 256) :
    ((b64encode b).map toUrl).map ofUrl = b64encode b := by
  rw [List.map_map]
  conv => rhs; rw [← List.map_id (b64encode b)]
  apply List.map_congr_left
  intro c hc
  rcases encode_mem b h c hc with rfl | ⟨n, hn, rfl⟩
  · decide
  · exact (toUrl_props n hn).1

theorem map_ofUrl (b : List Nat) (h : ∀ x ∈ b, x < 256) : (b64encode b).map ofUrl = b64encode b := by
  conv => rhs; rw [← List.map_id (b64encode b)]
  apply List.map_congr_left
  intro c hc
  rcases encode_mem b h c hc with rfl | ⟨n, hn, rfl⟩
  · decide
  · exact (toUrl_props n hn).2.1

theorem map_toNat_ofNat (raw : Str) : (raw.map Char.toNat).map Char.ofNat = raw := by
  rw [List.map_map]
  conv => rhs; rw [← List.map_id raw]
  apply List.map_congr_left
  intro c _
  exact Char.ofNat_toNat c

theorem bytes_of (raw : Str) (h : ∀ c ∈ raw, c.toNat < 256) : ∀ x ∈ raw.map Char.toNat, x < 256 := by
  intro x hx
  obtain ⟨c, hc, rfl⟩ := List.mem_map.1 hx
  exact h c hc

theorem decode_encode (raw : Str) (h : ∀ c ∈ raw, c.toNat < 256) :
    urlsafeDecode (urlsafeEncode raw) = some raw := by
  rw [urlsafeDecode, urlsafeEncode, map_ofUrl_toUrl _ (bytes_of raw h), loop_encode _ (bytes_of raw h)]
  rw [Option.map_some, map_toNat_ofNat]

theorem decode_standard (raw : Str) (h : ∀ c ∈ raw, c.toNat < 256) :
    urlsafeDecode (b64encode (raw.map Char.toNat)) = some raw := by
  rw [urlsafeDecode, map_ofUrl _ (bytes_of raw h), loop_encode _ (bytes_of raw h)]
  rw [Option.map_some, map_toNat_ofNat]

theorem urlsafe_length (raw : Str) : (urlsafeEncode raw).length = (raw.length + 2) / 3 * 4 := by
  rw [urlsafeEncode, List.length_map, encode_length, List.length_map]

theorem urlsafe_mem (raw : Str) (h : ∀ c ∈ raw, c.toNat < 256) :
    ∀ c ∈ urlsafeEncode raw, c.toNat < 128 ∧ c ≠ ';' ∧ isSpace c = false := by
  intro c hc
  rw [urlsafeEncode] at hc
  obtain ⟨d, hd, rfl⟩ := List.mem_map.1 hc
  rcases encode_mem _ (bytes_of raw h) d hd with rfl | ⟨n, hn, rfl⟩
  · decide
  · exact (toUrl_props n hn).2.2

theorem ofNat_byte : ∀ n < 256, (Char.ofNat n).toNat = n := by decide +kernel

theorem decode_bytes {s raw : Str} (h : urlsafeDecode s = some raw) : ∀ c ∈ raw, c.toNat < 256 := by
  rw [urlsafeDecode] at h
  obtain ⟨b, h1, rfl⟩ := Option.map_eq_some_iff.1 h
  intro c hc
  obtain ⟨x, hx, rfl⟩ := List.mem_map.1 hc
  have := loop_bytes _ 0 0 0 b (fun h => (by omega)) (fun h => (by omega)) (fun h => (by omega)) h1 x hx
  rw [ofNat_byte x this]
  exact this

/-! ### Splitting and stripping -/

theorem dropWhile_none {p : Char → Bool} {s : Str} (h : ∀ c ∈ s, p c = false) : s.dropWhile p = s := by
  cases s with
  | nil => rfl
  | cons x s => rw [List.dropWhile_cons, if_neg (by simp [h x (by simp)])]

theorem dropWhile_all {p : Char → Bool} {a s : Str} (h : ∀ c ∈ a, p c = true) :
    (a ++ s).dropWhile p = s.dropWhile p := by
  induction a with
  | nil => rfl
  | cons x a ih =>
    rw [List.cons_append, List.dropWhile_cons, if_pos (h x (by simp))]
    exact ih (fun c hc => h c (by simp [hc]))

theorem strip_padded {a k b : Str} (ha : ∀ c ∈ a, isSpace c = true) (hk : ∀ c ∈ k, isSpace c = false)
    (hb : ∀ c ∈ b, isSpace c = true) : strip (a ++ k ++ b) = k := by
  unfold strip
  rw [List.append_assoc, dropWhile_all ha]
  cases k with
  | nil =>
    rw [List.nil_append]
    have : b.dropWhile isSpace = [] := by
      have := dropWhile_all (s := []) hb
      rw [List.append_nil] at this
      rw [this]; rfl
    rw [this]; rfl
  | cons x k =>
    rw [List.cons_append, List.dropWhile_cons, if_neg (by simp [hk x (by simp)]), ← List.cons_append,
      List.reverse_append, dropWhile_all (fun c hc => hb c (List.mem_reverse.1 hc)),
      dropWhile_none (fun c hc => hk c (List.mem_reverse.1 hc)), List.reverse_reverse]

theorem first_mem {c : Char} {s : Str} (hm : c ∈ s) : ∃ a b, s = a ++ c :: b ∧ c ∉ a := by
  induction s with
  | nil => cases hm
  | cons x s ih =>
    by_cases e : x = c
    · exact ⟨[], s, by rw [e]; rfl, by simp⟩
    · have hm' : c ∈ s := by
        rcases List.mem_cons.1 hm with h | h
        · exact absurd h.symm e
        · exact h
      obtain ⟨a, b, h1, h2⟩ := ih hm'
      refine ⟨x :: a, b, by rw [h1]; rfl, ?_⟩
      intro h3
      rcases List.mem_cons.1 h3 with h | h
      · exact e h.symm
      · exact h2 h

theorem splitAll_two {c : Char} {s a b : Str} (h : splitAll c s = [a, b]) :
    s = a ++ c :: b ∧ c ∉ a ∧ c ∉ b := by
  by_cases hm : c ∈ s
  · obtain ⟨p, q, rfl, hp⟩ := first_mem hm
    rw [Api.splitAll_append c p q hp] at h
    injection h with h1 h2
    by_cases hq : c ∈ q
    · exfalso
      obtain ⟨u, v, rfl, hu⟩ := first_mem hq
      rw [Api.splitAll_append c u v hu] at h2
      injection h2 with _ h3
      exact Api.splitAll_ne_nil c v h3
    · rw [Api.splitAll_piece c q hq] at h2
      injection h2 with h2
      subst h1 h2
      exact ⟨rfl, hp, hq⟩
  · rw [Api.splitAll_piece c s hm] at h
    cases h

end Verif.Secrets

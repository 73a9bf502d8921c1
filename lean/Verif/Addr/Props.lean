import Verif.Addr.Model
import Verif.Tcp.Model
import Verif.Client.Model
/-! Property C63: gateway addresses parse back. -/
set_option linter.unusedSimpArgs false
set_option linter.unusedVariables false
namespace Verif.Addr

/-! ### Lemmas -/

theorem before_append {c : Char} {a b : Str} (h : c ∉ a) : before c (a ++ c :: b) = a := by
  induction a with
  | nil => simp [before]
  | cons x a ih =>
    have hx : x ≠ c := fun e => h (e ▸ List.mem_cons_self)
    have := ih (fun m => h (List.mem_cons_of_mem _ m))
    unfold before at this ⊢
    rw [List.cons_append, List.takeWhile_cons, if_pos (by simpa using hx), this]

theorem after_append {c : Char} {a b : Str} (h : c ∉ a) : after c (a ++ c :: b) = b := by
  induction a with
  | nil => simp [after]
  | cons x a ih =>
    have hx : x ≠ c := fun e => h (e ▸ List.mem_cons_self)
    have := ih (fun m => h (List.mem_cons_of_mem _ m))
    unfold after at this ⊢
    rw [List.cons_append, List.dropWhile_cons, if_pos (by simpa using hx), this]

private theorem before_self {c : Char} {a : Str} (h : c ∉ a) : before c a = a := by
  induction a with
  | nil => rfl
  | cons x a ih =>
    have hx : x ≠ c := fun e => h (e ▸ List.mem_cons_self)
    have := ih (fun m => h (List.mem_cons_of_mem _ m))
    unfold before at this ⊢
    rw [List.takeWhile_cons, if_pos (by simpa using hx), this]

private theorem dropWhile_self {c : Char} {a : Str} (h : c ∉ a) : a.dropWhile (fun x => x != c) = [] := by
  induction a with
  | nil => rfl
  | cons x a ih =>
    have hx : x ≠ c := fun e => h (e ▸ List.mem_cons_self)
    rw [List.dropWhile_cons, if_pos (by simpa using hx), ih (fun m => h (List.mem_cons_of_mem _ m))]

private theorem dropWhile_head {p : Char → Bool} {l t : Str} {x : Char} (h : l.dropWhile p = x :: t) : p x = false := by
  induction l with
  | nil => cases h
  | cons y l ih =>
    rw [List.dropWhile_cons] at h
    split at h
    · exact ih h
    · rename_i hy
      cases h
      simpa using hy

private theorem not_mem_before (c : Char) (s : Str) : c ∉ before c s := by
  induction s with
  | nil => simp [before]
  | cons x s ih =>
    unfold before at ih ⊢
    rw [List.takeWhile_cons]
    split
    · rename_i hx
      rw [List.mem_cons, not_or]
      exact ⟨fun e => by simp [e] at hx, ih⟩
    · simp

private theorem mem_before {c x : Char} {s : Str} (h : x ∈ before c s) : x ∈ s :=
  (List.takeWhile_sublist _).mem h

private theorem afterLast_self {c : Char} {a : Str} (h : c ∉ a) : afterLast c a = a := by
  have := before_self (c := c) (a := a.reverse) (fun m => h (List.mem_reverse.1 m))
  unfold before at this
  unfold afterLast
  rw [this, List.reverse_reverse]

private theorem mem_afterLast {c x : Char} {s : Str} (h : x ∈ afterLast c s) : x ∈ s ∧ x ≠ c := by
  unfold afterLast at h
  rw [List.mem_reverse] at h
  refine ⟨List.mem_reverse.1 ((List.takeWhile_sublist _).mem h), fun e => ?_⟩
  have := not_mem_before c s.reverse
  unfold before at this
  exact this (e ▸ h)

private theorem digits_isDigit (n : Nat) : ∀ c ∈ Nat.toDigits 10 n, c.isDigit = true :=
  fun c hc => Nat.isDigit_of_mem_toDigits (by decide) (by decide) hc

private theorem digit_not {c : Char} (hc : c.isDigit = false) (n : Nat) : c ∉ Nat.toDigits 10 n := by
  intro h
  rw [digits_isDigit n c h] at hc
  cases hc

/-! #### Lower case -/

private theorem lower_spec (c : Char) : lowerC (lowerC c) = lowerC c ∧
    (lowerC c = c ∨ (97 ≤ (lowerC c).toNat ∧ (lowerC c).toNat ≤ 122)) := by
  by_cases h : 65 ≤ c.toNat ∧ c.toNat ≤ 90
  · have e : lowerC c = Char.ofNat (c.toNat + 32) := if_pos h
    have hv : (Char.ofNat (c.toNat + 32)).toNat = c.toNat + 32 := by
      have hval : (c.toNat + 32).isValidChar := by
        unfold Nat.isValidChar
        omega
      unfold Char.ofNat
      rw [dif_pos hval]
      rfl
    refine ⟨?_, Or.inr ?_⟩
    · rw [e]
      exact if_neg (by rw [hv]; omega)
    · rw [e, hv]; omega
  · have e : lowerC c = c := if_neg h
    rw [e, e]
    exact ⟨rfl, Or.inl rfl⟩

private theorem mem_lower {x : Char} {s : Str} (hx : x.toNat < 97 ∨ 122 < x.toNat) (h : x ∈ s.map lowerC) : x ∈ s := by
  obtain ⟨c, hc, e⟩ := List.mem_map.1 h
  rcases (lower_spec c).2 with h' | h'
  · rw [← e, h']; exact hc
  · rw [e] at h'
    omega

private theorem lower_idem (s : Str) : (s.map lowerC).map lowerC = s.map lowerC := by
  rw [List.map_map]
  exact List.map_congr_left (fun c _ => (lower_spec c).1)

/-! ### The general statement -/

/-- What may stand before the path of an address: none of the characters that end it or are removed, and
brackets in pairs. -/
structure Netloc (s : Str) : Prop where
  slash : '/' ∉ s
  question : '?' ∉ s
  hash : '#' ∉ s
  kept : ∀ c ∈ removed, c ∉ s
  brackets : '[' ∈ s ↔ ']' ∈ s

/-- What may be the name of a cluster: no characters that end a path or are removed, and no slash at the
ends. -/
structure Name (s : Str) : Prop where
  question : '?' ∉ s
  hash : '#' ∉ s
  kept : ∀ c ∈ removed, c ∉ s
  first : s.head? ≠ some '/'
  last : s.getLast? ≠ some '/'

theorem filter_id {s : Str} (h : ∀ c ∈ removed, c ∉ s) : s.filter (fun c => !removed.contains c) = s := by
  rw [List.filter_eq_self]
  intro c hc
  cases hr : removed.contains c with
  | false => rfl
  | true => exact absurd hc (h c (List.contains_iff_mem.1 hr))

private theorem takeWhile_all {p : Char → Bool} {a b : Str} {c : Char} (h : ∀ x ∈ a, p x = true) (hc : p c = false) :
    (a ++ c :: b).takeWhile p = a ∧ (a ++ c :: b).dropWhile p = c :: b := by
  induction a with
  | nil => simp [List.takeWhile_cons, List.dropWhile_cons, hc]
  | cons x a ih =>
    obtain ⟨h1, h2⟩ := ih (fun y hy => h y (List.mem_cons_of_mem _ hy))
    have hx := h x List.mem_cons_self
    refine ⟨?_, ?_⟩
    · rw [List.cons_append, List.takeWhile_cons, if_pos hx, h1]
    · rw [List.cons_append, List.dropWhile_cons, if_pos hx, h2]

private theorem strip_name {n : Str} (hn : Name n) : strip ('/' :: n) = n := by
  unfold strip rstrip
  have h1 : ('/' :: n).dropWhile (fun c => c == '/') = n := by
    rw [List.dropWhile_cons, if_pos (by decide)]
    cases n with
    | nil => rfl
    | cons x n =>
      have : x ≠ '/' := fun e => hn.first (by rw [e]; rfl)
      rw [List.dropWhile_cons, if_neg (by simpa using this)]
  rw [h1]
  have h2 : n.reverse.dropWhile (fun c => c == '/') = n.reverse := by
    cases hr : n.reverse with
    | nil => rfl
    | cons x m =>
      have : x ≠ '/' := by
        intro e
        refine hn.last ?_
        rw [List.getLast?_eq_head?_reverse, hr, e]
        rfl
      rw [List.dropWhile_cons, if_neg (by simpa using this)]
  rw [h2, List.reverse_reverse]

private theorem urlparse_gateway {nl n : Str} (hl : Netloc nl) (hn : Name n) :
    urlparse (gatewayScheme ++ nl ++ '/' :: n) =
      some { scheme := "gateway".toList, netloc := nl, path := '/' :: n } := by
  have hclean : clean (gatewayScheme ++ nl ++ '/' :: n) = "gateway".toList ++ ':' :: '/' :: '/' :: (nl ++ '/' :: n) := by
    unfold clean
    have hd : (gatewayScheme ++ nl ++ '/' :: n).dropWhile (fun c => decide (c.toNat ≤ 32)) = gatewayScheme ++ nl ++ '/' :: n := by
      unfold gatewayScheme
      exact List.dropWhile_cons_of_neg (by decide)
    rw [hd, filter_id]
    · unfold gatewayScheme
      simp
    · intro c hc hm
      rw [List.append_assoc, List.mem_append, List.mem_append, List.mem_cons] at hm
      rcases hm with hm | hm | hm | hm
      · revert hm
        revert c
        decide
      · exact hl.kept c hc hm
      · rw [hm] at hc
        revert hc
        decide
      · exact hn.kept c hc hm
  have hsplit : splitScheme ("gateway".toList ++ ':' :: '/' :: '/' :: (nl ++ '/' :: n)) =
      ("gateway".toList, '/' :: '/' :: (nl ++ '/' :: n)) := by
    have hb : before ':' ("gateway".toList ++ ':' :: '/' :: '/' :: (nl ++ '/' :: n)) = "gateway".toList :=
      before_append (by decide)
    have ha : after ':' ("gateway".toList ++ ':' :: '/' :: '/' :: (nl ++ '/' :: n)) = '/' :: '/' :: (nl ++ '/' :: n) :=
      after_append (by decide)
    unfold splitScheme
    rw [hb, ha]
    have hc : ("gateway".toList ++ ':' :: '/' :: '/' :: (nl ++ '/' :: n)).contains ':' = true := by
      rw [List.contains_iff_mem]; simp
    rw [hc]
    rfl
  unfold urlparse
  rw [hclean, hsplit]
  dsimp only
  have htake : List.take 2 ('/' :: '/' :: (nl ++ '/' :: n)) = ['/', '/'] := rfl
  have hN : netlocOf ('/' :: '/' :: (nl ++ '/' :: n)) = (nl ++ '/' :: n).takeWhile (fun c => !delims.contains c) := if_pos htake
  have hR : restOf ('/' :: '/' :: (nl ++ '/' :: n)) = (nl ++ '/' :: n).dropWhile (fun c => !delims.contains c) := if_pos htake
  rw [hN, hR]
  obtain ⟨h1, h2⟩ := takeWhile_all (p := fun c => !delims.contains c) (a := nl) (b := n) (c := '/')
    (fun x hx => by
      have a1 : x ≠ '/' := fun e => hl.slash (e ▸ hx)
      have a2 : x ≠ '?' := fun e => hl.question (e ▸ hx)
      have a3 : x ≠ '#' := fun e => hl.hash (e ▸ hx)
      simp [delims, a1, a2, a3]) (by decide)
  rw [h1, h2]
  have hbr : nl.contains '[' = nl.contains ']' := by
    have := hl.brackets
    rw [← List.contains_iff_mem, ← List.contains_iff_mem] at this
    cases h : nl.contains '[' <;> cases h' : nl.contains ']' <;> simp_all
  rw [if_pos hbr]
  have hh : before '#' ('/' :: n) = '/' :: n := before_self (by simp [hn.hash])
  have hq : before '?' ('/' :: n) = '/' :: n := before_self (by simp [hn.question])
  rw [hh, hq]

/-- C63: an address that is made of the part for host and port, and a cluster's name, parses to the host and
port of the former and to the name. -/
theorem C63_parse (nl n : Str) (hl : Netloc nl) (hn : Name n) :
    parseGateway (gatewayScheme ++ nl ++ '/' :: n) = (port nl).map (fun p => (hostname nl, p, n)) := by
  unfold parseGateway
  have hp : gatewayScheme.isPrefixOf (gatewayScheme ++ nl ++ '/' :: n) = true := by
    rw [List.isPrefixOf_iff_prefix, List.append_assoc]
    exact List.prefix_append _ _
  dsimp only
  rw [if_pos hp, urlparse_gateway hl hn]
  dsimp only
  rw [if_neg (by simp), strip_name hn]

/-- C63: so it does without the scheme, as the address is given to the connector. -/
theorem C63_parse_location (nl n : Str) (hl : Netloc nl) (hn : Name n) (h : ¬ gatewayScheme <+: nl ++ '/' :: n) :
    parseGateway (nl ++ '/' :: n) = (port nl).map (fun p => (hostname nl, p, n)) := by
  rw [← C63_parse nl n hl hn]
  unfold parseGateway
  have hp : gatewayScheme.isPrefixOf (gatewayScheme ++ nl ++ '/' :: n) = true := by
    rw [List.isPrefixOf_iff_prefix, List.append_assoc]
    exact List.prefix_append _ _
  have hp' : ¬ gatewayScheme.isPrefixOf (nl ++ '/' :: n) = true := by
    rw [List.isPrefixOf_iff_prefix]
    exact h
  dsimp only
  rw [if_pos hp, if_neg hp', ← List.append_assoc]

/-! ### Hosts and ports -/

/-- Specification: a host as a name or an IPv4 address, in lower case. -/
structure Host (h : Str) : Prop where
  nonempty : h ≠ []
  plain : ∀ c ∈ ['@', ':', '[', ']', '/', '?', '#', '\t', '\r', '\n'], c ∉ h
  lower : (before '%' h).map lowerC = before '%' h

private theorem before_after (c : Char) (s : Str) : before c s ++ s.dropWhile (fun x => x != c) = s :=
  List.takeWhile_append_dropWhile

theorem host_port {h : Str} (hh : Host h) (p : Nat) :
    Netloc (h ++ ':' :: Nat.toDigits 10 p) ∧ hostname (h ++ ':' :: Nat.toDigits 10 p) = some h ∧
    (p ≤ 65535 → port (h ++ ':' :: Nat.toDigits 10 p) = some (some p)) := by
  have hnot : ∀ c ∈ ['@', '[', ']', '/', '?', '#', '\t', '\r', '\n'], c ∉ h ++ ':' :: Nat.toDigits 10 p := by
    intro c hc hm
    rw [List.mem_append, List.mem_cons] at hm
    rcases hm with hm | hm | hm
    · refine hh.plain c ?_ hm
      simp only [List.mem_cons] at hc ⊢
      rcases hc with hc | hc
      · exact Or.inl hc
      · exact Or.inr (Or.inr hc)
    · rw [hm] at hc
      revert hc
      decide
    · refine digit_not ?_ p hm
      clear hm
      revert c
      decide
  have hcolon : ':' ∉ h := hh.plain ':' (by decide)
  have hinfo : hostinfo (h ++ ':' :: Nat.toDigits 10 p) = (h, Nat.toDigits 10 p) := by
    unfold hostinfo
    rw [afterLast_self (hnot '@' (by decide))]
    have : (h ++ ':' :: Nat.toDigits 10 p).contains '[' = false := by
      cases hc : (h ++ ':' :: Nat.toDigits 10 p).contains '[' with
      | false => rfl
      | true => exact absurd (List.contains_iff_mem.1 hc) (hnot '[' (by decide))
    dsimp only
    rw [this, if_neg (by simp), before_append hcolon, after_append hcolon]
  refine ⟨⟨hnot _ (by decide), hnot _ (by decide), hnot _ (by decide), ?_, ?_⟩, ?_, ?_⟩
  · intro c hc
    refine hnot c ?_
    revert c
    decide
  · exact ⟨fun h => absurd h (hnot _ (by decide)), fun h => absurd h (hnot _ (by decide))⟩
  · unfold hostname
    rw [hinfo]
    dsimp only
    rw [if_neg hh.nonempty, hh.lower, before_after]
  · intro hp
    unfold port
    rw [hinfo]
    dsimp only
    rw [if_neg Nat.toDigits_ne_nil, if_pos (List.all_eq_true.2 (digits_isDigit p)), Nat.ofDigitChars_ten_toDigits,
      if_pos hp]

private theorem takeWhile_delims (l : Str) (x : Char) (h : x ∈ l.takeWhile (fun c => !delims.contains c)) : x ∉ delims := by
  induction l with
  | nil => cases h
  | cons y l ih =>
    rw [List.takeWhile_cons] at h
    split at h
    · rename_i hy
      rcases List.mem_cons.1 h with rfl | h
      · intro hm
        rw [List.contains_iff_mem.2 hm] at hy
        cases hy
      · exact ih h
    · cases h

theorem mem_scheme {c : Char} {t : Str} (h : c ∈ (splitScheme t).2) : c ∈ t := by
  unfold splitScheme at h
  split at h
  · exact h
  · split at h
    · exact (List.dropWhile_sublist _).mem ((List.drop_sublist 1 _).mem h)
    · exact h

theorem netloc_ok {url : Str} {u : Url} (hu : urlparse url = some u) : Netloc u.netloc := by
  unfold urlparse at hu
  dsimp only at hu
  split at hu
  · rename_i hbr
    have hnl : u.netloc = netlocOf (splitScheme (clean url)).2 := by cases hu; rfl
    rw [hnl]
    generalize hs : (splitScheme (clean url)).2 = s at hbr
    have hmem : ∀ c ∈ netlocOf s, c ∉ delims ∧ c ∈ s := by
      intro c hc
      unfold netlocOf at hc
      split at hc
      · exact ⟨takeWhile_delims _ c hc, (List.drop_sublist 2 _).mem ((List.takeWhile_sublist _).mem hc)⟩
      · cases hc
    refine ⟨fun h => (hmem _ h).1 (by decide), fun h => (hmem _ h).1 (by decide), fun h => (hmem _ h).1 (by decide), ?_, ?_⟩
    · intro c hc hm
      have := (hmem c hm).2
      rw [← hs] at this
      have := mem_scheme this
      unfold clean at this
      rw [List.mem_filter] at this
      have h2 := this.2
      rw [List.contains_iff_mem.2 hc] at h2
      cases h2
    · rw [← List.contains_iff_mem, ← List.contains_iff_mem, hbr]
  · cases hu

/-- The host that is found in an address without brackets is one. -/
theorem host_of {url : Str} {u : Url} (hu : urlparse url = some u) {h : Str} (hh : hostname u.netloc = some h)
    (hb : '[' ∉ u.netloc) : Host h := by
  have hok := netloc_ok hu
  generalize u.netloc = nl at hh hb hok
  unfold hostname hostinfo at hh
  dsimp only at hh
  have hb2 : ¬ (afterLast '@' nl).contains '[' = true := by
    intro hc
    exact hb (mem_afterLast (List.contains_iff_mem.1 hc)).1
  rw [if_neg hb2] at hh
  dsimp only at hh
  split at hh
  · cases hh
  · rename_i hne
    injection hh with hh
    generalize hB : before ':' (afterLast '@' nl) = B at hh hne
    have hBmem : ∀ c ∈ B, c ∈ nl ∧ c ≠ '@' ∧ c ≠ ':' := by
      intro c hc
      rw [← hB] at hc
      refine ⟨(mem_afterLast (mem_before hc)).1, (mem_afterLast (mem_before hc)).2, fun e => ?_⟩
      rw [e] at hc
      exact not_mem_before _ _ hc
    have hmem : ∀ c ∈ h, (c.toNat < 97 ∨ 122 < c.toNat) → c ∈ B := by
      intro c hc hr
      rw [← hh, List.mem_append] at hc
      rcases hc with hc | hc
      · exact mem_before (mem_lower hr hc)
      · exact (List.dropWhile_sublist _).mem hc
    have hpc : '%' ∉ (before '%' B).map lowerC := fun hm => not_mem_before '%' B (mem_lower (by decide) hm)
    have hbefore : before '%' h = (before '%' B).map lowerC := by
      rw [← hh]
      cases hd : B.dropWhile (fun x => x != '%') with
      | nil => rw [List.append_nil]; exact before_self hpc
      | cons x l =>
        have hx : x = '%' := by
          have hx' := dropWhile_head hd
          simpa using hx'
        rw [hx]
        exact before_append hpc
    refine ⟨?_, ?_, ?_⟩
    · intro e
      rw [e] at hh
      obtain ⟨e1, e2⟩ := List.append_eq_nil_iff.1 hh
      refine hne ?_
      rw [← before_after '%' B, List.map_eq_nil_iff.1 e1, e2]
      rfl
    · intro c hc hm
      have hr : c.toNat < 97 ∨ 122 < c.toNat := by
        clear hm
        revert c
        decide
      obtain ⟨h1, h2, h3⟩ := hBmem c (hmem c hm hr)
      simp only [List.mem_cons, List.not_mem_nil, or_false] at hc
      rcases hc with rfl | rfl | rfl | rfl | rfl | rfl | rfl | rfl | rfl | rfl
      · exact h2 rfl
      · exact h3 rfl
      · exact hb h1
      · exact hb (hok.brackets.2 h1)
      · exact hok.slash h1
      · exact hok.question h1
      · exact hok.hash h1
      · exact hok.kept _ (by decide) h1
      · exact hok.kept _ (by decide) h1
      · exact hok.kept _ (by decide) h1
    · rw [hbefore, lower_idem]

private theorem not_scheme {h n : Str} (hh : Host h) (p : Nat) :
    ¬ gatewayScheme <+: (h ++ ':' :: Nat.toDigits 10 p) ++ '/' :: n := by
  rintro ⟨r, hr⟩
  have hcolon : ':' ∉ h := hh.plain ':' (by decide)
  rw [List.append_assoc, List.cons_append] at hr
  have h1 := after_append (b := Nat.toDigits 10 p ++ '/' :: n) hcolon
  rw [← hr] at h1
  have h2 : after ':' (gatewayScheme ++ r) = '/' :: '/' :: r := by
    exact after_append (a := "gateway".toList) (b := '/' :: '/' :: r) (by decide)
  rw [h2] at h1
  have hd := Nat.toDigits_ne_nil (n := p) (b := 10)
  cases hdig : Nat.toDigits 10 p with
  | nil => exact hd hdig
  | cons x l =>
    rw [hdig, List.cons_append] at h1
    injection h1 with h1 _
    have := digits_isDigit p x (by rw [hdig]; exact List.mem_cons_self)
    rw [← h1] at this
    exact absurd this (by decide)

/-! ### The addresses that the client makes -/

/-- The host and port that a user means by an address: its own port, or that of its scheme. -/
def Means (address : Str) (host : Str) (p : Nat) : Prop :=
  ∃ u, urlparse (rstrip address) = some u ∧ '[' ∉ u.netloc ∧ hostname u.netloc = some host ∧
    (port u.netloc = some (some p) ∨ (port u.netloc = some none ∧ p = defaultPort u.scheme))

private theorem port_le {nl : Str} {p : Nat} (h : port nl = some (some p)) : p ≤ 65535 := by
  unfold port at h
  dsimp only at h
  split at h
  · cases h
  · split at h
    · split at h
      · rename_i hle
        cases h
        exact hle
      · cases h
    · cases h

private theorem hostname_nil : hostname [] = none := rfl

/-- C63, in part: with an address that is a URL whose host is a name or IPv4 address, the address of a
cluster parses to this host, its port and the cluster's name; and so it does without the scheme. Missing:
IPv6 hosts, and addresses that are no URLs; see `C63_ipv6_violated` and `C63_no_url_violated`. -/
theorem C63_client_partial (address name host : Str) (p : Nat) (hm : Means address host p) (hn : Name name) :
    ∃ proxy, proxyAddress address .none = some proxy ∧
      parseGateway (schedulerAddress proxy name) = some (some host, some p, name) ∧
      ∃ loc, schedulerAddress proxy name = gatewayScheme ++ loc ∧ parseGateway loc = some (some host, some p, name) := by
  obtain ⟨u, hu, hb, hh, hp⟩ := hm
  have hhost := host_of hu hh hb
  have hne : u.netloc ≠ [] := by
    intro e
    rw [e, hostname_nil] at hh
    cases hh
  have hle : p ≤ 65535 := by
    rcases hp with hp | ⟨_, hp⟩
    · exact port_le hp
    · rw [hp]
      unfold defaultPort
      split
      · decide
      · split <;> decide
  have hnl : proxyNetloc (rstrip address) .none = some (host ++ ':' :: Nat.toDigits 10 p) := by
    unfold proxyNetloc
    rw [hu]
    dsimp only
    rw [if_neg hne, hh]
    rcases hp with hp | ⟨hp, e⟩
    · rw [hp]; rfl
    · rw [hp, e]; rfl
  obtain ⟨h1, h2, h3⟩ := host_port hhost p
  refine ⟨gatewayScheme ++ (host ++ ':' :: Nat.toDigits 10 p), ?_, ?_, (host ++ ':' :: Nat.toDigits 10 p) ++ '/' :: name, ?_, ?_⟩
  · unfold proxyAddress
    rw [hnl, hu]
  · unfold schedulerAddress
    rw [C63_parse _ _ h1 hn, h2, h3 hle]
    rfl
  · unfold schedulerAddress
    rw [List.append_assoc]
  · rw [C63_parse_location _ _ h1 hn (not_scheme hhost p), h2, h3 hle]
    rfl

/-- C63, in part: the same with a port that is given for the proxy. -/
theorem C63_port_partial (address name host : Str) (q p : Nat) (hm : Means address host q) (hn : Name name)
    (hp : p ≤ 65535) :
    ∃ proxy, proxyAddress address (.port p) = some proxy ∧
      parseGateway (schedulerAddress proxy name) = some (some host, some p, name) := by
  obtain ⟨u, hu, hb, hh, _⟩ := hm
  have hhost := host_of hu hh hb
  have hnl : proxyNetloc (rstrip address) (.port p) = some (host ++ ':' :: Nat.toDigits 10 p) := by
    unfold proxyNetloc
    rw [hu]
    dsimp only
    rw [hh]
    rfl
  obtain ⟨h1, h2, h3⟩ := host_port hhost p
  refine ⟨gatewayScheme ++ (host ++ ':' :: Nat.toDigits 10 p), ?_, ?_⟩
  · unfold proxyAddress
    rw [hnl, hu]
  · unfold schedulerAddress
    rw [C63_parse _ _ h1 hn, h2, h3 hp]
    rfl

/-- C63: with a URL given for the proxy, the address of a cluster parses to the host and port of this URL,
also where the host is an IPv6 address. -/
theorem C63_proxy_url (address s name : Str) (u v : Url) (ha : urlparse (rstrip address) = some v)
    (hu : urlparse s = some u) (hne : u.netloc ≠ []) (hn : Name name) :
    ∃ proxy, proxyAddress address (.addr s) = some proxy ∧
      parseGateway (schedulerAddress proxy name) = (port u.netloc).map (fun p => (hostname u.netloc, p, name)) := by
  refine ⟨gatewayScheme ++ u.netloc, ?_, ?_⟩
  · have : proxyNetloc (rstrip address) (.addr s) = some u.netloc := by
      unfold proxyNetloc
      dsimp only
      rw [hu]
      dsimp only
      rw [if_neg hne]
    unfold proxyAddress
    rw [this, ha]
  · exact C63_parse _ _ (netloc_ok hu) hn

theorem no_netloc {s : Str} (h : '/' ∉ s) : ∃ u, urlparse s = some u ∧ u.netloc = [] := by
  have hnl : netlocOf (splitScheme (clean s)).2 = [] := by
    unfold netlocOf
    rw [if_neg]
    intro e
    have hm : '/' ∈ (splitScheme (clean s)).2 := (List.take_sublist 2 _).mem (by rw [e]; exact List.mem_cons_self)
    have := mem_scheme hm
    unfold clean at this
    rw [List.mem_filter] at this
    exact h ((List.dropWhile_sublist _).mem this.1)
  unfold urlparse
  dsimp only
  rw [hnl, if_pos (by rfl)]
  exact ⟨_, rfl, rfl⟩

/-- C63: with a host and port given for the proxy, without a scheme, the address of a cluster parses to
these. -/
theorem C63_proxy_plain (address host name : Str) (p : Nat) (v : Url) (ha : urlparse (rstrip address) = some v)
    (hh : Host host) (hp : p ≤ 65535) (hn : Name name) :
    ∃ proxy, proxyAddress address (.addr (host ++ ':' :: Nat.toDigits 10 p)) = some proxy ∧
      parseGateway (schedulerAddress proxy name) = some (some host, some p, name) := by
  obtain ⟨h1, h2, h3⟩ := host_port hh p
  obtain ⟨u, hu, hne⟩ := no_netloc h1.slash
  refine ⟨gatewayScheme ++ (host ++ ':' :: Nat.toDigits 10 p), ?_, ?_⟩
  · have : proxyNetloc (rstrip address) (.addr (host ++ ':' :: Nat.toDigits 10 p)) = some (host ++ ':' :: Nat.toDigits 10 p) := by
      unfold proxyNetloc
      dsimp only
      rw [hu]
      dsimp only
      rw [if_pos hne]
    unfold proxyAddress
    rw [this, ha]
  · unfold schedulerAddress
    rw [C63_parse _ _ h1 hn, h2, h3 hp]
    rfl

/-- C63, in part: the resolved address parses to the IP address, the port and the name, for IPv4. -/
theorem C63_resolve_partial (ensureIp : Str → Option Str) (host ip name : Str) (p : Nat) (hh : Host host)
    (hi : Host ip) (he : ensureIp host = some ip) (hp : p ≤ 65535) (hn : Name name) :
    ∃ loc, resolve ensureIp ((host ++ ':' :: Nat.toDigits 10 p) ++ '/' :: name) = some loc ∧
      parseGateway loc = some (some ip, some p, name) := by
  obtain ⟨h1, h2, h3⟩ := host_port hh p
  obtain ⟨i1, i2, i3⟩ := host_port hi p
  refine ⟨(ip ++ ':' :: Nat.toDigits 10 p) ++ '/' :: name, ?_, ?_⟩
  · unfold resolve
    rw [C63_parse_location _ _ h1 hn (not_scheme hh p), h2, h3 hp]
    dsimp only [Option.map_some]
    rw [he]
    rfl
  · rw [C63_parse_location _ _ i1 hn (not_scheme hi p), i2, i3 hp]
    rfl

/-- C63: the greeting's server name is the one under which the proxy looks for the cluster of this name. -/
theorem C63_sni (name : Str) :
    Tcp.sniPrefix.isPrefixOf (sni name) = true ∧ (sni name).drop Tcp.sniPrefix.length = name := by
  refine ⟨?_, ?_⟩
  · rw [List.isPrefixOf_iff_prefix]
    exact List.prefix_append _ _
  · exact List.drop_left

/-- C63 does not hold for gateways at IPv6 addresses: the brackets are lost, and the address of a cluster
does not parse. -/
theorem C63_ipv6_violated (name : Str) (hn : Name name) :
    ∃ proxy, proxyAddress "http://[::1]:8000".toList .none = some proxy ∧
      proxy = "gateway://::1:8000".toList ∧ parseGateway (schedulerAddress proxy name) = none := by
  refine ⟨"gateway://::1:8000".toList, by decide +kernel, rfl, ?_⟩
  have hl : Netloc "::1:8000".toList := by
    refine ⟨by decide, by decide, by decide, by decide, by decide⟩
  have := C63_parse "::1:8000".toList name hl hn
  have hp : port "::1:8000".toList = none := by decide +kernel
  rw [hp] at this
  exact this

/-- C63 does not hold for addresses without a scheme: the host is lost. -/
theorem C63_no_url_violated :
    proxyAddress "localhost:8000".toList .none = some "gateway://None".toList ∧
    parseGateway (schedulerAddress "gateway://None".toList "c".toList) = some (some "none".toList, none, "c".toList) := by
  decide +kernel

/-- An address with upper case, a prefix and a slash at its end. -/
example : Means "https://Gate.example:8443/dask/".toList "gate.example".toList 8443 ∧
    Means "https://gate.example".toList "gate.example".toList 443 ∧ Name "0123abcd".toList ∧
    proxyAddress "https://Gate.example:8443/dask/".toList .none = some "gateway://gate.example:8443".toList ∧
    parseGateway "gate.example:8443/0123abcd".toList = some (some "gate.example".toList, some 8443, "0123abcd".toList) := by
  refine ⟨⟨{ scheme := "https".toList, netloc := "Gate.example:8443".toList, path := "/dask".toList }, ?_⟩,
    ⟨{ scheme := "https".toList, netloc := "gate.example".toList, path := [] }, ?_⟩, ⟨?_, ?_, ?_, ?_, ?_⟩, ?_⟩ <;> decide +kernel

/-- A proxy at an IPv6 address, and one without scheme. -/
example :
    proxyAddress "https://g".toList (.addr "tls://[::1]:8786".toList) = some "gateway://[::1]:8786".toList ∧
    parseGateway "gateway://[::1]:8786/c".toList = some (some "::1".toList, some 8786, "c".toList) ∧
    proxyAddress "https://g".toList (.addr "p:8786".toList) = some "gateway://p:8786".toList ∧
    proxyAddress "https://g".toList (.port 8786) = some "gateway://g:8786".toList := by decide +kernel

end Verif.Addr

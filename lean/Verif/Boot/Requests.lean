import Verif.Boot.Props
import Verif.Addr.Props
import Verif.Env.Props
import Verif.Forward.Props
import Verif.Api.Props
/-
C127: the requests of a scheduler get to the gateway, as requests of its cluster.
-/
set_option linter.unusedSimpArgs false
set_option linter.unusedVariables false
namespace Verif.Boot
open Verif.Router (tableOf key Longest joinSlash splitSlash stripLead stripTrail trailing)

/-! ### The target of a request -/

/-- Specification: a path of an URL, without query. -/
structure Path (p : Str) : Prop where
  slash : p.head? = some '/'
  plain : ∀ c ∈ p, Forward.Plain c

theorem plain_facts (c : Char) (h : Forward.Plain c) : c ≠ '?' ∧ c ≠ '#' ∧ c ≠ '\t' ∧ c ≠ '\r' ∧ c ≠ '\n' ∧ c ≠ '%' ∧
    c ≠ '{' ∧ c ≠ '}' ∧ 32 < c.toNat ∧ c.toNat < 127 := by
  have hlt : c.toNat < 128 ∧ 32 < c.toNat ∧ c.toNat ≠ 127 := by
    rcases h with h | h
    · simp only [Char.isAlphanum, Char.isAlpha, Char.isUpper, Char.isLower, Char.isDigit, Bool.or_eq_true,
        Bool.and_eq_true, decide_eq_true_eq] at h
      have f : ∀ n : UInt32, n ≤ c.val → n.toNat ≤ c.toNat := fun n hn => UInt32.le_iff_toNat_le.mp hn
      have g : ∀ n : UInt32, c.val ≤ n → c.toNat ≤ n.toNat := fun n hn => UInt32.le_iff_toNat_le.mp hn
      rcases h with (⟨h1, h2⟩ | ⟨h1, h2⟩) | ⟨h1, h2⟩ <;>
        (have a1 := f _ h1; have a2 := g _ h2; simp at a1 a2; omega)
    · simp only [List.mem_cons, List.not_mem_nil, or_false] at h
      rcases h with h | h | h | h | h | h | h | h | h | h | h | h | h <;> (subst h; decide)
  have key : ∀ n, n < 128 → Forward.shouldEscape (Char.ofNat n) = false →
      (Char.ofNat n ≠ '?' ∧ Char.ofNat n ≠ '#' ∧ Char.ofNat n ≠ '\t' ∧ Char.ofNat n ≠ '\r' ∧ Char.ofNat n ≠ '\n' ∧
        Char.ofNat n ≠ '%' ∧ Char.ofNat n ≠ '{' ∧ Char.ofNat n ≠ '}') := by decide +kernel
  have he := (Forward.shouldEscape_iff c).mpr h
  have := key c.toNat hlt.1 (by rw [Char.ofNat_toNat]; exact he)
  rw [Char.ofNat_toNat] at this
  obtain ⟨a, b, c1, d, e, f, g, i⟩ := this
  exact ⟨a, b, c1, d, e, f, g, i, hlt.2.1, by omega⟩

theorem takeWhile_until {p : Char → Bool} {a b : Str} {c : Char} (h : ∀ x ∈ a, p x = true) (hc : p c = false) :
    (a ++ c :: b).takeWhile p = a ∧ (a ++ c :: b).dropWhile p = c :: b := by
  induction a with
  | nil => simp [List.takeWhile_cons, List.dropWhile_cons, hc]
  | cons x a ih =>
    obtain ⟨h1, h2⟩ := ih (fun y hy => h y (List.mem_cons_of_mem _ hy))
    have hx := h x List.mem_cons_self
    refine ⟨?_, ?_⟩
    · rw [List.cons_append, List.takeWhile_cons, if_pos hx, h1]
    · rw [List.cons_append, List.dropWhile_cons, if_pos hx, h2]

theorem takeWhile_whole {p : Char → Bool} {a : Str} (h : ∀ x ∈ a, p x = true) : a.takeWhile p = a := by
  induction a with
  | nil => rfl
  | cons x a ih => rw [List.takeWhile_cons, if_pos (h x (by simp)), ih (fun y hy => h y (List.mem_cons_of_mem _ hy))]

/-- What matters of the schemes of URLs of the gateway. -/
structure Scheme (s : Str) : Prop where
  start : ∀ x, (s ++ x).dropWhile (fun c => decide (c.toNat ≤ 32)) = s ++ x
  kept : ∀ c ∈ Addr.removed, c ∉ s
  colon : ':' ∉ s
  head : ∀ x, ∃ c, (s ++ x).head? = some c ∧ c.isAlpha = true
  chars : s.all Addr.schemeChar = true
  lower : s.map Addr.lowerC = s

theorem scheme_http : Scheme "http".toList :=
  ⟨fun x => List.dropWhile_cons_of_neg (by decide), by decide +kernel, by decide +kernel, fun x => ⟨'h', rfl, by decide⟩,
    by decide +kernel, by decide +kernel⟩

theorem scheme_https : Scheme "https".toList :=
  ⟨fun x => List.dropWhile_cons_of_neg (by decide), by decide +kernel, by decide +kernel, fun x => ⟨'h', rfl, by decide⟩,
    by decide +kernel, by decide +kernel⟩

theorem urlparse_path (s nl p : Str) (hs : Scheme s) (hl : Addr.Netloc nl) (hp : Path p) :
    Addr.urlparse (s ++ "://".toList ++ nl ++ p) = some { scheme := s, netloc := nl, path := p } := by
  have hsep : "://".toList = [':', '/', '/'] := rfl
  have hshape : s ++ "://".toList ++ nl ++ p = s ++ ':' :: '/' :: '/' :: (nl ++ p) := by rw [hsep]; simp
  rw [hshape]
  have hclean : Addr.clean (s ++ ':' :: '/' :: '/' :: (nl ++ p)) = s ++ ':' :: '/' :: '/' :: (nl ++ p) := by
    unfold Addr.clean
    rw [hs.start, List.filter_eq_self]
    intro c hc
    cases hr : Addr.removed.contains c with
    | false => rfl
    | true =>
      exfalso
      have hm := List.contains_iff_mem.1 hr
      simp only [List.mem_append, List.mem_cons] at hc
      rcases hc with hc | rfl | rfl | rfl | hc | hc
      · exact hs.kept c hm hc
      · revert hm; decide
      · revert hm; decide
      · revert hm; decide
      · exact hl.kept c hm hc
      · have := plain_facts c (hp.plain c hc)
        simp only [Addr.removed, List.mem_cons, List.not_mem_nil, or_false] at hm
        rcases hm with e | e | e
        · exact this.2.2.1 e
        · exact this.2.2.2.1 e
        · exact this.2.2.2.2.1 e
  have hcolon := takeWhile_until (p := fun x => x != ':') (a := s) (b := '/' :: '/' :: (nl ++ p)) (c := ':')
    (fun x hx => by simpa using fun e : x = ':' => hs.colon (e ▸ hx)) (by decide)
  have hsplit : Addr.splitScheme (s ++ ':' :: '/' :: '/' :: (nl ++ p)) = (s, '/' :: '/' :: (nl ++ p)) := by
    unfold Addr.splitScheme
    obtain ⟨c, h1, h2⟩ := hs.head (':' :: '/' :: '/' :: (nl ++ p))
    rw [h1]
    dsimp only
    unfold Addr.before Addr.after
    rw [hcolon.1, hcolon.2, h2, hs.chars, hs.lower]
    have hc : (s ++ ':' :: '/' :: '/' :: (nl ++ p)).contains ':' = true := by
      rw [List.contains_iff_mem]; simp
    rw [hc]
    rfl
  unfold Addr.urlparse
  rw [hclean, hsplit]
  dsimp only
  obtain ⟨q, rfl⟩ : ∃ q, p = '/' :: q := by
    have := hp.slash
    cases p with
    | nil => cases this
    | cons c q => simp only [List.head?_cons, Option.some.injEq] at this; exact ⟨q, by rw [this]⟩
  have htake : List.take 2 ('/' :: '/' :: (nl ++ '/' :: q)) = ['/', '/'] := rfl
  have hN : Addr.netlocOf ('/' :: '/' :: (nl ++ '/' :: q)) = (nl ++ '/' :: q).takeWhile (fun c => !Addr.delims.contains c) :=
    if_pos htake
  have hR : Addr.restOf ('/' :: '/' :: (nl ++ '/' :: q)) = (nl ++ '/' :: q).dropWhile (fun c => !Addr.delims.contains c) :=
    if_pos htake
  rw [hN, hR]
  obtain ⟨h1, h2⟩ := takeWhile_until (p := fun c => !Addr.delims.contains c) (a := nl) (b := q) (c := '/')
    (fun x hx => by
      have a1 : x ≠ '/' := fun e => hl.slash (e ▸ hx)
      have a2 : x ≠ '?' := fun e => hl.question (e ▸ hx)
      have a3 : x ≠ '#' := fun e => hl.hash (e ▸ hx)
      simp [Addr.delims, a1, a2, a3]) (by decide)
  rw [h1, h2]
  have hbr : nl.contains '[' = nl.contains ']' := by
    have := hl.brackets
    rw [← List.contains_iff_mem, ← List.contains_iff_mem] at this
    cases h : nl.contains '[' <;> cases h' : nl.contains ']' <;> simp_all
  rw [if_pos hbr]
  have hh : Addr.before '#' ('/' :: q) = '/' :: q :=
    takeWhile_whole (fun x hx => by simpa using (plain_facts x (hp.plain x hx)).2.1)
  have hq : Addr.before '?' ('/' :: q) = '/' :: q :=
    takeWhile_whole (fun x hx => by simpa using (plain_facts x (hp.plain x hx)).1)
  rw [hh, hq]

/-! ### The proxy -/

theorem unescape_plain (p : Str) (h : ∀ c ∈ p, Forward.Plain c) : Forward.unescape p = some p ∧ Forward.escape p = p := by
  induction p with
  | nil => exact ⟨rfl, rfl⟩
  | cons c p ih =>
    obtain ⟨h1, h2⟩ := ih (fun d hd => h d (by simp [hd]))
    have hc := h c (by simp)
    refine ⟨?_, ?_⟩
    · rw [Forward.unescape.eq_def]
      dsimp only
      rw [if_neg (plain_facts c hc).2.2.2.2.2.1, h1]
      rfl
    · rw [Forward.escape_cons, h2]
      unfold Forward.escape1
      rw [if_neg (by rw [(Forward.shouldEscape_iff c).mpr hc]; simp)]
      rfl

theorem parse_plain (p : Str) (hp : Path p) :
    Forward.parseTarget p = some { scheme := [], host := [], path := p, rawPath := [], forceQuery := false, rawQuery := [] } := by
  obtain ⟨h1, h2⟩ := unescape_plain p hp.plain
  unfold Forward.parseTarget
  have hc : Forward.hasCtl p = false := by
    unfold Forward.hasCtl
    rw [List.any_eq_false]
    intro c hc
    have := plain_facts c (hp.plain c hc)
    simp
    omega
  have ht : p.takeWhile (· != '?') = p := takeWhile_whole (fun x hx => by simpa using (plain_facts x (hp.plain x hx)).1)
  have hd : p.dropWhile (· != '?') = [] := by
    have := List.takeWhile_append_dropWhile (p := (· != '?')) (l := p)
    rw [ht] at this
    exact List.append_cancel_left (this.trans (List.append_nil p).symm)
  rw [hc, if_neg (by simp)]
  dsimp only
  rw [ht, hd, if_neg (Classical.not_not.mpr hp.slash)]
  unfold Forward.setPath
  rw [h1]
  dsimp only
  rw [if_pos h2.symm]
  simp

theorem splitSlash_append' (a b : Str) : splitSlash (a ++ '/' :: b) = splitSlash a ++ splitSlash b := by
  induction a with
  | nil => simp [splitSlash]
  | cons c a ih =>
    rw [List.cons_append]
    by_cases hc : c = '/'
    · subst hc
      rw [splitSlash, if_pos rfl, splitSlash, if_pos rfl, ih]
      rfl
    · rw [splitSlash, if_neg hc, splitSlash, if_neg hc, ih]
      cases hs : splitSlash a with
      | nil => exact absurd hs (Router.splitSlash_ne_nil a)
      | cons x l => rfl

/-- The key of a path below a prefix. -/
theorem key_below (pre rest : Str) (hp : pre = [] ∨ pre.head? = some '/') (hl : pre.getLast? ≠ some '/') (hr : rest ≠ [])
    (hrl : rest.getLast? ≠ some '/') : key (pre ++ '/' :: rest) = key (pre ++ ['/']) ++ splitSlash rest := by
  cases pre with
  | nil =>
    have h0 : key ([] ++ ['/']) = [] := by decide
    rw [h0]
    unfold key
    rw [List.nil_append, show stripLead ('/' :: rest) = rest from rfl, Router.stripTrail_eq, if_neg hrl, if_neg hr]
    rfl
  | cons c q =>
    have hc : c = '/' := by
      rcases hp with h | h
      · cases h
      · simpa using h
    subst hc
    have hq : q ≠ [] := by intro e; subst e; exact hl rfl
    have e1 : stripTrail (stripLead ('/' :: q ++ ['/'])) = q := by
      rw [List.cons_append, show stripLead ('/' :: (q ++ ['/'])) = q ++ ['/'] from rfl, Router.stripTrail_eq,
        if_pos (by simp), List.dropLast_concat]
    have e2 : stripTrail (stripLead ('/' :: q ++ '/' :: rest)) = q ++ '/' :: rest := by
      rw [List.cons_append, show stripLead ('/' :: (q ++ '/' :: rest)) = q ++ '/' :: rest from rfl, Router.stripTrail_eq,
        if_neg ?_]
      rw [List.getLast?_append, List.getLast?_cons]
      cases hg : rest.getLast? with
      | none => exact absurd (List.getLast?_eq_none_iff.mp hg) hr
      | some x => intro e; rw [hg] at hrl; apply hrl; simpa using e
    unfold key
    rw [e1, e2, if_neg hq, if_neg (by simp), splitSlash_append']

/-- Specification: in the table of the proxy, the gateway has the route for the prefix, and the only other ones are below
`clusters` there. -/
structure Table (m : Router.Table Forward.Url) (pre : Str) (t : Forward.Url) : Prop where
  gateway : m (key (pre ++ ['/'])) = some t
  others : ∀ k, (m k).isSome → k = key (pre ++ ['/']) ∨ ∃ l, k = key (pre ++ ['/']) ++ "clusters".toList :: l

theorem longest_gateway (m : Router.Table Forward.Url) (pre : Str) (t : Forward.Url) (ht : Table m pre t) (segs : List Str)
    (s : Str) (l : List Str) (hs : segs = key (pre ++ ['/']) ++ s :: l) (hne : s ≠ "clusters".toList) :
    Longest m segs (key (pre ++ ['/'])) t := by
  refine ⟨⟨s :: l, hs.symm⟩, ht.gateway, ?_⟩
  intro k' hk hsome
  rcases ht.others k' hsome with e | ⟨l', e⟩
  · rw [e]; exact Nat.le_refl _
  · exfalso
    rw [e, hs] at hk
    rw [List.prefix_append_right_inj] at hk
    obtain ⟨z, hz⟩ := hk
    injection hz with h1 _
    exact hne h1.symm

/-- The gateway's requests: what the proxy makes of a path below its prefix. -/
theorem proxied_below (ops : List (Router.Op Forward.Url)) (pre rest s : Str) (l : List Str) (t : Forward.Url)
    (ht : Table (tableOf ops) pre t) (hpath : t.path = []) (hquery : t.rawQuery = [])
    (hp : pre = [] ∨ pre.head? = some '/') (hl : pre.getLast? ≠ some '/') (hplain : ∀ c ∈ pre, Forward.Plain c)
    (hr : ∀ c ∈ rest, Forward.Plain c) (hsplit : splitSlash rest = s :: l) (hs : s ≠ "clusters".toList) (hs0 : s ≠ [])
    (hrl : rest.getLast? ≠ some '/') :
    proxied (Router.Router.run ops) (pre ++ '/' :: rest) = some (t.host, '/' :: rest) := by
  have hrne : rest ≠ [] := by
    intro e
    subst e
    simp only [splitSlash] at hsplit
    injection hsplit with h1 _
    exact hs0 h1.symm
  have hslash : Forward.Plain '/' := Or.inr (by decide)
  have hpath' : Path (pre ++ '/' :: rest) := by
    refine ⟨?_, ?_⟩
    · rcases hp with rfl | h
      · rfl
      · cases pre with
        | nil => cases h
        | cons c q => exact h
    · intro c hc
      rcases List.mem_append.mp hc with h | h
      · exact hplain c h
      · rcases List.mem_cons.mp h with e | e
        · rw [e]; exact hslash
        · exact hr c e
  have hk := key_below pre rest hp hl hrne hrl
  rw [hsplit] at hk
  have hlong := longest_gateway _ pre t ht _ s l hk hs
  unfold proxied
  rw [parse_plain _ hpath']
  dsimp only
  cases hserve : Forward.serveHTTP (Router.Router.run ops)
      { scheme := [], host := [], path := pre ++ '/' :: rest, rawPath := [], forceQuery := false, rawQuery := [] } with
  | notFound =>
    have := (Forward.C107_not_found ops _).mp hserve _ hlong.1
    rw [hlong.2.1] at this
    cases this
  | forward v =>
    obtain ⟨k, post, t', s1, s2, s3, s4, s5, s6, s7, s8⟩ := Forward.serve_spec ops _ v hserve
    dsimp only at s1 s2 s5 s6 s7 s8
    obtain ⟨rfl, rfl⟩ := Router.longest_unique _ _ _ _ _ _ s2 hlong
    have hpost : post = s :: l := by
      rw [hk] at s1
      exact (List.append_cancel_left s1).symm
    have htrail : trailing (pre ++ '/' :: rest) = [] := by
      unfold trailing
      rw [if_neg]
      rw [List.getLast?_append, List.getLast?_cons]
      cases hg : rest.getLast? with
      | none => exact absurd (List.getLast?_eq_none_iff.mp hg) hrne
      | some x => intro e; rw [hg] at hrl; apply hrl; simpa using e
    have hv : v.path = '/' :: rest := by
      rw [s5, hpath, htrail, hpost, List.append_nil, ← hsplit, Router.joinSlash_splitSlash]
      have : stripLead rest = rest := by
        rw [Router.stripLead_eq, if_neg]
        intro e
        cases rest with
        | nil => cases e
        | cons c r =>
          simp only [List.head?_cons, Option.some.injEq] at e
          subst e
          rw [splitSlash, if_pos rfl] at hsplit
          injection hsplit with h1 _
          exact hs0 h1.symm
      rw [this]
      rfl
    dsimp only
    have hq : v.rawQuery = [] := by rw [s8, hquery]; rfl
    have hplainv : ∀ c ∈ '/' :: rest, Forward.Plain c := by
      intro c hc
      rcases List.mem_cons.mp hc with e | e
      · rw [e]; exact hslash
      · exact hr c e
    have hesc : Forward.escapedPath v = '/' :: rest := by
      unfold Forward.escapedPath
      rw [s6, hv, if_neg (fun hh => hh.1 rfl), if_neg (by simp), (unescape_plain _ hplainv).2]
    unfold Forward.requestURI
    rw [hesc, s7, hq, s4]
    simp

/-! ### C127 -/

/-- Specification: the name of a cluster, as the gateway makes them: letters, digits and dots (base.py, db_base.py:
`uuid4().hex`, and with a namespace before it on Kubernetes), or other characters that may stand in a segment of a path. -/
structure Named (n : Str) : Prop where
  nonempty : n ≠ []
  slash : '/' ∉ n
  plain : ∀ c ∈ n, Forward.Plain c

/-- Specification: a prefix as it is accepted (`C125_prefix`), of characters that need no escape. -/
structure Prefixed (pre : Str) : Prop where
  start : pre = [] ∨ pre.head? = some '/'
  last : pre.getLast? ≠ some '/'
  plain : ∀ c ∈ pre, Forward.Plain c

/-- Specification: an URL of the API at a place below a prefix. -/
def ApiUrl (url scheme nl pre : Str) : Prop :=
  Scheme scheme ∧ Addr.Netloc nl ∧ Prefixed pre ∧ url = scheme ++ "://".toList ++ nl ++ pre ++ "/api".toList

theorem string_plain (s : Str) (h : s.all (fun c => !Forward.shouldEscape c) = true) : ∀ c ∈ s, Forward.Plain c := by
  intro c hc
  rw [List.all_eq_true] at h
  have := h c hc
  rw [← Forward.shouldEscape_iff]
  simpa using this

theorem last_cons (a b : Str) (h : b ≠ []) : (a ++ b).getLast? = b.getLast? := by
  rw [List.getLast?_append]
  cases hb : b.getLast? with
  | none => exact absurd (List.getLast?_eq_none_iff.mp hb) h
  | some x => rfl

theorem target_path (url scheme nl pre rest : Str) (h : ApiUrl url scheme nl pre) (hr : ∀ c ∈ rest, Forward.Plain c) :
    (Addr.urlparse (url ++ '/' :: rest)).map Addr.Url.path = some (pre ++ '/' :: ("api/".toList ++ rest)) := by
  obtain ⟨h1, h2, h3, rfl⟩ := h
  have e : scheme ++ "://".toList ++ nl ++ pre ++ "/api".toList ++ '/' :: rest =
      scheme ++ "://".toList ++ nl ++ (pre ++ '/' :: ("api/".toList ++ rest)) := by
    have : "/api".toList = ['/', 'a', 'p', 'i'] := rfl
    have h' : "api/".toList = ['a', 'p', 'i', '/'] := rfl
    rw [this, h']
    simp
  rw [e, urlparse_path _ _ _ h1 h2]
  · rfl
  · refine ⟨?_, ?_⟩
    · rcases h3.start with rfl | hh
      · rfl
      · cases pre with
        | nil => cases hh
        | cons c q => exact hh
    · intro c hc
      rcases List.mem_append.mp hc with hc | hc
      · exact h3.plain c hc
      · rcases List.mem_cons.mp hc with e | e
        · rw [e]; exact Or.inr (by decide)
        · rcases List.mem_append.mp e with e | e
          · exact string_plain "api/".toList (by decide +kernel) c e
          · exact hr c e

theorem split_delete (n : Str) (h : Named n) :
    splitSlash ("api/".toList ++ ("v1/clusters/".toList ++ n)) = ["api".toList, "v1".toList, "clusters".toList, n] := by
  have e : "api/".toList ++ ("v1/clusters/".toList ++ n) = "api".toList ++ '/' :: ("v1".toList ++ '/' :: ("clusters".toList ++ '/' :: n)) := rfl
  rw [e, Router.splitSlash_append _ _ (by decide +kernel), Router.splitSlash_append _ _ (by decide +kernel),
    Router.splitSlash_append _ _ (by decide +kernel), Router.splitSlash_noslash _ h.slash]

theorem split_heartbeat (n : Str) (h : Named n) :
    splitSlash ("api/".toList ++ ("v1/clusters/".toList ++ n ++ "/heartbeat".toList)) =
      ["api".toList, "v1".toList, "clusters".toList, n, "heartbeat".toList] := by
  have hb : "/heartbeat".toList = '/' :: "heartbeat".toList := rfl
  have e : "api/".toList ++ ("v1/clusters/".toList ++ n ++ "/heartbeat".toList) =
      "api".toList ++ '/' :: ("v1".toList ++ '/' :: ("clusters".toList ++ '/' :: (n ++ '/' :: "heartbeat".toList))) := by
    have h1 : "api/".toList = "api".toList ++ ['/'] := rfl
    have h2 : "v1/clusters/".toList = "v1".toList ++ '/' :: ("clusters".toList ++ ['/']) := rfl
    rw [h1, h2, hb]
    simp only [List.append_assoc, List.cons_append, List.nil_append]
  rw [e, Router.splitSlash_append _ _ (by decide +kernel), Router.splitSlash_append _ _ (by decide +kernel),
    Router.splitSlash_append _ _ (by decide +kernel), Router.splitSlash_append _ _ h.slash,
    Router.splitSlash_noslash _ (by decide +kernel)]

theorem splitAll_slash (s : Str) : Api.splitAll '/' s = splitSlash s := by
  induction s with
  | nil => rfl
  | cons c s ih =>
    rw [Api.splitAll, splitSlash, ih]
    cases hs : splitSlash s with
    | nil => exact absurd hs (Router.splitSlash_ne_nil s)
    | cons p ps => rfl

theorem named_braces (n : Str) (h : Named n) : '{' ∉ n ∧ '}' ∉ n :=
  ⟨fun hc => (plain_facts _ (h.plain _ hc)).2.2.2.2.2.2.1 rfl, fun hc => (plain_facts _ (h.plain _ hc)).2.2.2.2.2.2.2.1 rfl⟩

theorem route_heartbeat (n : Str) (h : Named n) :
    route "POST".toList ('/' :: ("api/".toList ++ ("v1/clusters/".toList ++ n ++ "/heartbeat".toList))) = some (.heartbeat n) := by
  unfold route
  rw [splitAll_slash, splitSlash, if_pos rfl, split_heartbeat n h]
  dsimp only
  rw [if_pos ⟨rfl, rfl, rfl, rfl, h.nonempty, (named_braces n h).1, (named_braces n h).2, rfl, rfl⟩]

theorem route_delete (n : Str) (h : Named n) :
    route "DELETE".toList ('/' :: ("api/".toList ++ ("v1/clusters/".toList ++ n))) = some (.delete n) := by
  unfold route
  rw [splitAll_slash, splitSlash, if_pos rfl, split_delete n h]
  dsimp only
  rw [if_pos ⟨rfl, rfl, rfl, rfl, h.nonempty, (named_braces n h).1, (named_braces n h).2, rfl⟩]

theorem plain_all (n a b : Str) (h : Named n) (ha : a.all (fun c => !Forward.shouldEscape c) = true)
    (hb : b.all (fun c => !Forward.shouldEscape c) = true) : ∀ c ∈ a ++ n ++ b, Forward.Plain c := by
  intro c hc
  rcases List.mem_append.mp hc with hc | hc
  · rcases List.mem_append.mp hc with hc | hc
    · exact string_plain a ha c hc
    · exact h.plain c hc
  · exact string_plain b hb c hc

theorem api_plain (rest : Str) (h : ∀ c ∈ rest, Forward.Plain c) : ∀ c ∈ "api/".toList ++ rest, Forward.Plain c := by
  intro c hc
  rcases List.mem_append.mp hc with hc | hc
  · exact string_plain "api/".toList (by decide +kernel) c hc
  · exact h c hc

/-- Specification: where the requests of a scheduler go through: the proxy has the gateway's route, to `gw`. -/
structure Way (ops : List (Router.Op Forward.Url)) (pre gw : Str) : Prop where
  route : ∃ t, Table (tableOf ops) pre t ∧ t.host = gw ∧ t.path = [] ∧ t.rawQuery = []

theorem heartbeat_delivered (ops : List (Router.Op Forward.Url)) (scheme nl pre gw : Str) (c : Client)
    (hu : ApiUrl c.url scheme nl pre) (hn : Named c.cluster) (hw : Way ops pre gw) (env : Api.Env)
    (clusters : List Api.Cluster) (body : Option Json) :
    delivered (Router.Router.run ops) gw env clusters c.heartbeat body =
      some (Api.handle env clusters
        { route := .heartbeat c.cluster, header := some ("token ".toList ++ c.token), body := body }) := by
  obtain ⟨t, ht, hg, hp, hq⟩ := hw.route
  have hplain := plain_all c.cluster "v1/clusters/".toList "/heartbeat".toList hn (by decide +kernel) (by decide +kernel)
  have htarget : c.heartbeat.target =
      some (pre ++ '/' :: ("api/".toList ++ ("v1/clusters/".toList ++ c.cluster ++ "/heartbeat".toList))) := by
    unfold Sent.target Client.heartbeat
    dsimp only
    have e : c.url ++ "/v1/clusters/".toList ++ c.cluster ++ "/heartbeat".toList =
        c.url ++ '/' :: ("v1/clusters/".toList ++ c.cluster ++ "/heartbeat".toList) := by
      have : "/v1/clusters/".toList = '/' :: "v1/clusters/".toList := rfl
      rw [this]
      simp only [List.append_assoc, List.cons_append]
    rw [e]
    exact target_path _ _ _ _ _ hu hplain
  have hlast : ("api/".toList ++ ("v1/clusters/".toList ++ c.cluster ++ "/heartbeat".toList)).getLast? ≠ some '/' := by
    rw [last_cons _ _ (by simp), last_cons _ _ (by decide +kernel)]
    decide +kernel
  unfold delivered
  rw [htarget]
  dsimp only
  rw [proxied_below ops pre _ _ _ t ht hp hq hu.2.2.1.start hu.2.2.1.last hu.2.2.1.plain (api_plain _ hplain)
    (split_heartbeat _ hn) (by decide +kernel) (by decide +kernel) hlast]
  dsimp only
  rw [if_neg (by rw [hg]; simp)]
  unfold Client.heartbeat
  dsimp only
  rw [route_heartbeat _ hn]
  rfl

theorem shutdown_delivered (ops : List (Router.Op Forward.Url)) (scheme nl pre gw : Str) (c : Client)
    (hu : ApiUrl c.url scheme nl pre) (hn : Named c.cluster) (hw : Way ops pre gw) (env : Api.Env)
    (clusters : List Api.Cluster) (body : Option Json) :
    delivered (Router.Router.run ops) gw env clusters c.shutdown body =
      some (Api.handle env clusters
        { route := .delete c.cluster, header := some ("token ".toList ++ c.token), body := body }) := by
  obtain ⟨t, ht, hg, hp, hq⟩ := hw.route
  have hplain : ∀ d ∈ "v1/clusters/".toList ++ c.cluster, Forward.Plain d := by
    have := plain_all c.cluster "v1/clusters/".toList [] hn (by decide +kernel) rfl
    rwa [List.append_nil] at this
  have htarget : c.shutdown.target =
      some (pre ++ '/' :: ("api/".toList ++ ("v1/clusters/".toList ++ c.cluster))) := by
    unfold Sent.target Client.shutdown
    dsimp only
    have e : c.url ++ "/v1/clusters/".toList ++ c.cluster = c.url ++ '/' :: ("v1/clusters/".toList ++ c.cluster) := by
      have : "/v1/clusters/".toList = '/' :: "v1/clusters/".toList := rfl
      rw [this]
      simp only [List.append_assoc, List.cons_append]
    rw [e]
    exact target_path _ _ _ _ _ hu hplain
  have hlast : ("api/".toList ++ ("v1/clusters/".toList ++ c.cluster)).getLast? ≠ some '/' := by
    rw [last_cons _ _ (by simp [hn.nonempty]), last_cons _ _ hn.nonempty]
    intro e
    exact hn.slash (List.mem_of_getLast? e)
  unfold delivered
  rw [htarget]
  dsimp only
  rw [proxied_below ops pre _ _ _ t ht hp hq hu.2.2.1.start hu.2.2.1.last hu.2.2.1.plain (api_plain _ hplain)
    (split_delete _ hn) (by decide +kernel) (by decide +kernel) hlast]
  dsimp only
  rw [if_neg (by rw [hg]; simp)]
  unfold Client.shutdown
  dsimp only
  rw [route_delete _ hn]
  rfl

/-- The environment of a scheduler has the values of its cluster (C62). -/
structure Given (env : List (Str × Str)) (name url token : Str) : Prop where
  name : lookup env "DASK_GATEWAY_CLUSTER_NAME".toList = some name
  url : lookup env "DASK_GATEWAY_API_URL".toList = some url
  token : lookup env "DASK_GATEWAY_API_TOKEN".toList = some token

/-- Specification: the token, or a path to a file with it. -/
def TokenAt (files : Str → Option Str) (value token : Str) : Prop :=
  value ≠ [] ∧ (('/' ∉ value ∧ token = value) ∨ ('/' ∈ value ∧ files value = some token))

theorem client_made (env : List (Str × Str)) (files : Str → Option Str) (name url value token : Str)
    (h : Given env name url value) (hn : name ≠ []) (hu : url ≠ []) (ht : TokenAt files value token) :
    makeClient env files = some { cluster := name, token := token, url := url } := by
  have hget : ∀ k v, lookup env k = some v → v ≠ [] → getenv env k = some v := by
    intro k v hk hv
    unfold getenv
    rw [hk]
    cases v with
    | nil => exact absurd rfl hv
    | cons c v => rfl
  unfold makeClient
  rw [hget _ _ h.name hn, hget _ _ h.url hu, hget _ _ h.token ht.1]
  dsimp only
  rcases ht.2 with ⟨h1, h2⟩ | ⟨h1, h2⟩
  · rw [if_neg (by rw [List.contains_iff_mem]; exact h1), h2]
  · rw [if_pos (List.contains_iff_mem.mpr h1), h2]
    rfl

/-- C127: without one of the three variables, or with an empty one, the scheduler does not start. -/
theorem C127_missing (env : List (Str × Str)) (files : Str → Option Str) (k : Str)
    (hk : k ∈ ["DASK_GATEWAY_CLUSTER_NAME".toList, "DASK_GATEWAY_API_URL".toList, "DASK_GATEWAY_API_TOKEN".toList])
    (h : lookup env k = none ∨ lookup env k = some []) : makeClient env files = none := by
  have hg : getenv env k = none := by
    unfold getenv
    rcases h with h | h <;> rw [h]
  unfold makeClient
  simp only [List.mem_cons, List.not_mem_nil, or_false] at hk
  rcases hk with rfl | rfl | rfl
  · rw [hg]
  · rw [hg]
    cases getenv env "DASK_GATEWAY_CLUSTER_NAME".toList <;> rfl
  · rw [hg]
    cases getenv env "DASK_GATEWAY_CLUSTER_NAME".toList <;> cases getenv env "DASK_GATEWAY_API_URL".toList <;> rfl

theorem url_nonempty {url scheme nl pre : Str} (h : ApiUrl url scheme nl pre) : url ≠ [] := by
  rw [h.2.2.2]
  have : "/api".toList ≠ [] := by decide
  simp [this]

/-- C127: a scheduler with the environment of its cluster can make its client, and what it sends as a heartbeat comes
through the proxy to the gateway, is let in there, and is taken for a heartbeat of just this cluster, with the content
that was sent. -/
theorem C127_heartbeat (ops : List (Router.Op Forward.Url)) (scheme nl pre gw name url value : Str)
    (environ : List (Str × Str)) (files : Str → Option Str) (env : Api.Env) (clusters : List Api.Cluster) (c : Api.Cluster)
    (msg : Json) (hu : ApiUrl url scheme nl pre) (hn : Named name) (hw : Way ops pre gw) (he : Given environ name url value)
    (hc : Api.Called clusters name c) (ht : TokenAt files value c.token) :
    ∃ client, makeClient environ files = some client ∧
      ∃ r, delivered (Router.Router.run ops) gw env clusters client.heartbeat (some msg) = some r ∧
        r.effects = [.heartbeat name msg] := by
  refine ⟨_, client_made environ files name url value c.token he hn.nonempty (url_nonempty hu) ht, ?_⟩
  refine ⟨_, heartbeat_delivered ops scheme nl pre gw _ hu hn hw env clusters (some msg), ?_⟩
  refine Api.C33_heartbeat_served env clusters _ name c msg hc ?_ rfl rfl
  rfl

/-- C127: and what it sends to have its cluster stopped stops just this cluster. -/
theorem C127_shutdown (ops : List (Router.Op Forward.Url)) (scheme nl pre gw name url value : Str)
    (environ : List (Str × Str)) (files : Str → Option Str) (env : Api.Env) (clusters : List Api.Cluster) (c : Api.Cluster)
    (hu : ApiUrl url scheme nl pre) (hn : Named name) (hw : Way ops pre gw) (he : Given environ name url value)
    (hc : Api.Called clusters name c) (ht : TokenAt files value c.token) :
    ∃ client, makeClient environ files = some client ∧
      ∃ r, delivered (Router.Router.run ops) gw env clusters client.shutdown none = some r ∧
        r.code = 204 ∧ r.effects = [.stop name false] := by
  refine ⟨_, client_made environ files name url value c.token he hn.nonempty (url_nonempty hu) ht, ?_⟩
  refine ⟨_, shutdown_delivered ops scheme nl pre gw _ hu hn hw env clusters none, ?_⟩
  have htok : Api.tokenOk clusters { route := .delete name, header := some ("token ".toList ++ c.token), body := none } name =
      some true := Api.tokenOk_true.2 ⟨c, hc, (show Api.HasToken _ c from rfl)⟩
  unfold Api.handle
  dsimp only
  rw [htok]
  dsimp only
  unfold Api.deleteHandler
  rw [hc]
  exact ⟨rfl, rfl⟩

/-- C127: the URL of the API that the gateway gives its schedulers by default has the form that is assumed, if the proxy's
address has a host without special characters and a number as its port; it is at the machine's name if the proxy listens
at all interfaces. -/
theorem C127_default (m : Machine) (s : Settings) (host : Str) (port : Nat) (ha : Addressed s.address host port)
    (hport : port ≠ 0) (hh : Addr.Host (contactHost m.hostname host)) (hp : Prefixed s.pathPrefix) :
    ∃ url, apiUrl m s = some url ∧
      ApiUrl url (if s.tlsCert = [] then "http".toList else "https".toList)
        (contactHost m.hostname host ++ ':' :: Nat.toDigits 10 port) s.pathPrefix := by
  unfold apiUrl
  rw [C125_address _ _ _ _ _ _ ha, if_pos rfl, if_neg hport]
  refine ⟨_, rfl, ?_, (Addr.host_port hh port).1, hp, rfl⟩
  by_cases h : s.tlsCert = []
  · rw [if_pos h]; exact scheme_http
  · rw [if_neg h]; exact scheme_https

/-- C127: the environment that the batch systems and YARN give a scheduler has what it needs, whatever variables are
configured. -/
theorem C127_environment (g : Env.Given) (cert key : Str) :
    Given (Env.schedulerEnv (Env.getEnv g) cert key) g.name g.apiUrl g.token := by
  have h := Env.C62_scheduler g cert key
  have f : ∀ k v, lookup (Env.ownScheduler g cert key) k = some v →
      lookup (Env.schedulerEnv (Env.getEnv g) cert key) k = some v := by
    intro k v hk
    rw [h k, hk]
    rfl
  exact ⟨f _ _ rfl, f _ _ rfl, f _ _ rfl⟩

/-- C127: so does that of the local backend, unless these variables are configured to be inherited. -/
theorem C127_environment_local (g : Env.Given) (inherited : List Str) (os : List (Str × Str)) (cert key : Str)
    (h1 : "DASK_GATEWAY_CLUSTER_NAME".toList ∉ inherited) (h2 : "DASK_GATEWAY_API_URL".toList ∉ inherited)
    (h3 : "DASK_GATEWAY_API_TOKEN".toList ∉ inherited) :
    Given (Env.schedulerEnv (Env.localEnv g inherited os) cert key) g.name g.apiUrl g.token := by
  have f : ∀ k v, k ∉ inherited → k ≠ "USER".toList → lookup (Env.ownScheduler g cert key) k = some v →
      lookup (Env.schedulerEnv (Env.localEnv g inherited os) cert key) k = some v := by
    intro k v hi hu hk
    rw [Env.C62_local_scheduler_partial g inherited os cert key k hi hu, hk]
    rfl
  exact ⟨f _ _ h1 (by decide +kernel) rfl, f _ _ h2 (by decide +kernel) rfl, f _ _ h3 (by decide +kernel) rfl⟩

end Verif.Boot

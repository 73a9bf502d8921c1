import Verif.Auth.Lemmas
/-! Properties C38-C40, C65 and C66: cookies, hub usernames, Basic credentials, hub scopes. -/
namespace Verif.Auth

private theorem last_eq (m : Rat) (ops : List Op) (k : Nat) (now : Rat) :
    ((Cache.empty m).run (ops ++ [.present k now])).2.getLast? =
      some (((Cache.empty m).run ops).1.get k now).2 := by
  rw [run_snoc]; simp [Cache.step]

/-! ### C38 -/

/-- C38: a cookie resolves only to the user it was first handed to, and only up to `m` seconds after
that. -/
theorem C38_cookie_resolves (m : Rat) (ops : List Op) (k : Nat) (now : Rat) (u : User)
    (h : ResolvesTo m ops k now (some u)) :
    ∃ i t, FirstGave m ops i u t k ∧ now ≤ t + m := by
  unfold ResolvesTo at h
  rw [last_eq] at h
  have hi := inv_run m ops
  have hs := step_case hi (.present k now)
  simp only [Cache.step] at hs
  rw [Option.some.inj h] at hs
  generalize (((Cache.empty m).run ops).1.get k now).1 = c' at hs
  generalize ((Cache.empty m).run ops).1 = c at hs hi
  cases hs with
  | keep _ _ _ hu =>
    rcases hu with ⟨h1, _⟩ | ⟨t, v, h1, h2, h3⟩
    · simp at h1
    · obtain ⟨_, i, g1, g2⟩ := hi.entry _ _ _ h2
      cases h1
      exact ⟨i, t, ⟨g1, g2⟩, by rw [← hi.age]; exact h3⟩

/-- C38: a cookie is accepted for `m` seconds after it was first handed out, whatever happens in
between (short of a clock that jumps ahead and back). -/
theorem C38_cookie_accepted (m : Rat) (pre mid : List Op) (u : User) (t now : Rat) (k : Nat)
    (h : FirstGave m (pre ++ [.issue u t]) pre.length u t k)
    (hm : ∀ now', .present k now' ∈ mid → now' ≤ t + m) (hn : now ≤ t + m) :
    ResolvesTo m (pre ++ [.issue u t] ++ mid) k now (some u) := by
  have hi := inv_run m pre
  have hs := step_case hi (.issue u t)
  have hg : (((Cache.empty m).run pre).1.step (.issue u t)).2 = .gave k := by
    rcases gave_snoc.1 h.1 with g | ⟨_, _, g⟩
    · exact absurd (gave_lt g) (Nat.lt_irrefl _)
    · exact g
  have live : ((Cache.empty m).run (pre ++ [.issue u t])).1.cookieToUser k = some (t, u) := by
    rw [run_snoc]
    generalize ((Cache.empty m).run pre).1.step (.issue u t) = r at hs hg
    obtain ⟨c', x⟩ := r
    simp only at hs hg
    subst hg
    generalize hc : ((Cache.empty m).run pre).1 = c at hs hi
    cases hs with
    | old _ _ t' v _ hn hk hv =>
      obtain ⟨_, i, g, _⟩ := hi.entry _ _ _ hk
      exact absurd (gave_snoc.2 (Or.inl g)) (h.2 i (gave_lt g) _ _)
    | new => simp [upd]
  have live2 := entry_survives mid live hm
  have ha := (inv_run m (pre ++ [.issue u t] ++ mid)).age
  unfold ResolvesTo
  rw [last_eq, Cache.get, live2]
  simp only
  rw [if_neg (by rw [ha]; grind)]

/-- C38: a cookie is never handed to two users. -/
theorem C38_cookie_not_shared (m : Rat) (ops : List Op) (i j k : Nat) (u v : User) (t s : Rat)
    (hi : Gave m ops i u t k) (hj : Gave m ops j v s k) : u.name = v.name := by
  obtain ⟨own, h1, _⟩ := (inv_run m ops).owner
  rw [← h1 _ _ _ _ hi, h1 _ _ _ _ hj]

/-- C38: no operation on the cookies fails. -/
theorem C38_no_failure (m : Rat) (ops : List Op) :
    Out.keyError ∉ ((Cache.empty m).run ops).2 := by
  induction ops using snoc_induction with
  | h0 => simp [Cache.run]
  | h1 l a ih =>
    rw [run_snoc]
    simp only [List.mem_append, not_or, List.mem_singleton]
    refine ⟨ih, fun e => ?_⟩
    have hs := step_case (inv_run m l) a
    rw [← e] at hs
    generalize (((Cache.empty m).run l).1.step a).1 = c' at hs
    generalize ((Cache.empty m).run l).1 = c at hs
    cases hs

private def alice : User := { name := "alice".toList }
private def bob : User := { name := "bob".toList }

/-- Two users; the cookies differ, resolve in time and do not resolve late. -/
example : ((Cache.empty 300).run [.issue alice 0, .issue bob 5, .present 0 300, .present 1 305,
      .present 0 301, .present 1 306, .issue alice 400, .present 2 500, .present 0 500]).2 =
    [.gave 0, .gave 1, .who (some alice), .who (some bob), .who none, .who none, .gave 2,
      .who (some alice), .who none] := by decide +kernel

example : ResolvesTo 300 [.issue alice 0, .issue bob 5] 1 200 (some bob) := by
  unfold ResolvesTo; decide +kernel

/-! ### C65: a login hands out a cookie that works -/

/-- C65 in full: the cookie a login hands out is accepted at once. -/
def C65_full : Prop := ∀ (m : Rat) (pre : List Op) (u : User) (t : Rat) (k : Nat), 0 ≤ m →
  Gave m (pre ++ [.issue u t]) pre.length u t k →
  ∃ v : User, v.name = u.name ∧ ResolvesTo m (pre ++ [.issue u t]) k t (some v)

/-- C65 is false of the code: if the user's previous cookie has expired but was not presented since,
a new login hands the expired cookie out again. -/
theorem C65_fresh_cookie_violated : ¬ C65_full := by
  intro h
  obtain ⟨v, _, hv⟩ := h 300 [.issue alice 0] alice 400 0 (by decide +kernel)
    ⟨rfl, by decide +kernel⟩
  have : ResolvesTo 300 ([.issue alice 0] ++ [.issue alice 400]) 0 400 none := by
    unfold ResolvesTo; decide +kernel
  unfold ResolvesTo at hv this
  rw [this] at hv
  simp at hv

/-- C65, the part that holds: the cookie a login hands out is accepted at once, unless it was first
handed out more than `m` seconds before. Missing: the expired cookies that are handed out again. -/
theorem C65_fresh_cookie_partial (m : Rat) (pre : List Op) (u : User) (t : Rat) (k : Nat)
    (hm : 0 ≤ m) (h : Gave m (pre ++ [.issue u t]) pre.length u t k)
    (hf : ∀ i v s, FirstGave m pre i v s k → t ≤ s + m) :
    ∃ v : User, v.name = u.name ∧ ResolvesTo m (pre ++ [.issue u t]) k t (some v) := by
  have hi := inv_run m pre
  have hs := step_case hi (.issue u t)
  have hg : (((Cache.empty m).run pre).1.step (.issue u t)).2 = .gave k := by
    rcases gave_snoc.1 h with g | ⟨_, _, g⟩
    · exact absurd (gave_lt g) (Nat.lt_irrefl _)
    · exact g
  have live : ∃ s v, v.name = u.name ∧ t ≤ s + m ∧
      ((Cache.empty m).run (pre ++ [.issue u t])).1.cookieToUser k = some (s, v) := by
    rw [run_snoc]
    generalize ((Cache.empty m).run pre).1.step (.issue u t) = r at hs hg
    obtain ⟨c', x⟩ := r
    simp only at hs hg
    subst hg
    generalize hc : ((Cache.empty m).run pre).1 = c at hs hi
    cases hs with
    | old _ _ t' v _ hn hk hv =>
      obtain ⟨_, i, g, g'⟩ := hi.entry _ _ _ hk
      exact ⟨t', v, hv, hf i v t' ⟨g, g'⟩, hk⟩
    | new => exact ⟨t, u, rfl, by grind, by simp [upd]⟩
  obtain ⟨s, v, hv, hts, hl⟩ := live
  have ha := (inv_run m (pre ++ [.issue u t])).age
  refine ⟨v, hv, ?_⟩
  unfold ResolvesTo
  rw [last_eq, Cache.get, hl]
  simp only
  rw [if_neg (by rw [ha]; grind)]

example : ResolvesTo 300 ([.issue alice 0] ++ [.issue alice 200]) 0 200 (some alice) := by
  unfold ResolvesTo; decide +kernel

/-! ### C39 -/

private theorem hubUsername_inj {k1 k2 n1 n2 : Str} (h1 : ':' ∉ k1) (h2 : ':' ∉ k2)
    (h : hubUsername k1 n1 = hubUsername k2 n2) : k1 = k2 ∧ n1 = n2 := by
  unfold hubUsername at h
  by_cases c1 : k1 ≠ "user".toList ∨ ':' ∈ n1 <;> by_cases c2 : k2 ≠ "user".toList ∨ ':' ∈ n2
  · rw [if_pos c1, if_pos c2] at h
    have e1 := split1_append ':' k1 n1 h1
    rw [h, split1_append ':' k2 n2 h2] at e1
    simp only [Option.some.injEq, Prod.mk.injEq] at e1
    exact ⟨e1.1.symm, e1.2.symm⟩
  · rw [if_pos c1, if_neg c2] at h
    exact absurd (Or.inr (h ▸ (by simp))) c2
  · rw [if_neg c1, if_pos c2] at h
    exact absurd (Or.inr (h ▸ (by simp))) c1
  · rw [if_neg c1, if_neg c2] at h
    simp only [not_or, Classical.not_not, ne_eq] at c1 c2
    exact ⟨by rw [c1.1, c2.1], h⟩

/-- C39: if two tokens are accepted and get the same gateway username, the hub knows them as the
same principal (kind and name). -/
theorem C39_principals_distinct (c : HubCfg) (header1 header2 : Option Str) (tok1 tok2 : Str)
    (reply : Str → HubReply) (d1 d2 : HubData) (u1 u2 : User)
    (t1 : hubToken header1 = some (some tok1)) (t2 : hubToken header2 = some (some tok2))
    (r1 : (reply tok1).data = some d1) (r2 : (reply tok2).data = some d2)
    (k1 : HubKind d1.kind) (k2 : HubKind d2.kind)
    (a1 : hubAuthenticate c header1 reply = .user u1)
    (a2 : hubAuthenticate c header2 reply = .user u2)
    (h : u1.name = u2.name) : d1.kind = d2.kind ∧ d1.name = d2.name := by
  have key : ∀ (header : Option Str) (tok : Str) (d : HubData) (u : User),
      hubToken header = some (some tok) → (reply tok).data = some d →
      hubAuthenticate c header reply = .user u → u.name = hubUsername d.kind d.name := by
    intro header tok d u ht hr ha
    simp only [hubAuthenticate, ht, hr] at ha
    split at ha
    · split at ha
      · simp at ha
      · simp only [Outcome.user.injEq] at ha
        rw [← ha]
    · split at ha
      · simp at ha
      · split at ha
        · simp at ha
        · split at ha <;> simp at ha
  have nc : ∀ k, HubKind k → ':' ∉ k := by
    rintro k (rfl | rfl) <;> decide
  rw [key _ _ _ _ t1 r1 a1, key _ _ _ _ t2 r2 a2] at h
  exact hubUsername_inj (nc _ k1) (nc _ k2) h

/-- C39: an ordinary user keeps the name the hub knows. -/
theorem C39_users_keep_name (name : Str) (h : ':' ∉ name) :
    hubUsername "user".toList name = name := by
  simp [hubUsername, h]

/-- A user and a service of the same name, and a user named like the service's gateway name. -/
example : hubUsername "user".toList "x".toList = "x".toList ∧
    hubUsername "service".toList "x".toList = "service:x".toList ∧
    hubUsername "user".toList "service:x".toList = "user:service:x".toList := by decide +kernel

private def good (kind name scope : String) : HubReply :=
  ⟨200, some { name := name.toList, kind := kind.toList, scopes := [scope.toList] }⟩

private def hub (t : Str) : HubReply :=
  if t = "t1".toList then good "user" "x" "access:services!service=dask"
  else if t = "t2".toList then good "service" "x" "access:services"
  else if t = "t3".toList then good "user" "y" "access:services!service=other"
  else ⟨404, none⟩

private def ask (t : String) : Outcome :=
  hubAuthenticate { serviceName := "dask".toList } (some (hubHeader t.toList)) hub

example : ask "t1" = .user { name := "x".toList } ∧
    ask "t2" = .user { name := "service:x".toList } ∧
    ask "t3" = .fail 401 ∧ ask "t4" = .fail 401 := by decide +kernel

/-! ### C66: hub tokens need the access scope -/

/-- C66: a request is accepted exactly if its header carries a token the hub accepts, and, when
scopes are enforced, the token has the scope for all services or for this one; then the user is the
token's principal with its groups and admin flag. -/
theorem C66_scopes (c : HubCfg) (header : Option Str) (reply : Str → HubReply) (u : User) :
    hubAuthenticate c header reply = .user u ↔
      ∃ token d, header = some (hubHeader token) ∧ (reply token).status < 400 ∧
        (reply token).data = some d ∧
        (c.enforce = true → "access:services".toList ∈ d.scopes ∨
          "access:services!service=".toList ++ c.serviceName ∈ d.scopes) ∧
        u = { name := hubUsername d.kind d.name, groups := d.groups, admin := d.admin } := by
  have tok : ∀ token, hubToken header = some (some token) ↔ header = some (hubHeader token) := by
    intro token
    constructor
    · intro h
      cases header with
      | none => simp [hubToken] at h
      | some s =>
        cases s with
        | nil => simp [hubToken] at h
        | cons x s =>
          simp only [hubToken] at h
          cases hs : split1 ' ' (x :: s) with
          | none => rw [hs] at h; simp at h
          | some p =>
            obtain ⟨a, b⟩ := p
            rw [hs] at h
            dsimp only at h
            obtain ⟨e, _⟩ := split1_eq_some hs
            by_cases ea : a = "jupyterhub".toList
            · rw [if_pos ea] at h
              rw [e, ea, Option.some.inj (Option.some.inj h)]; rfl
            · rw [if_neg ea] at h
              simp at h
    · intro h
      have e : hubHeader token = "jupyterhub".toList ++ ' ' :: token := rfl
      have hs : split1 ' ' (hubHeader token) = some ("jupyterhub".toList, token) := by
        rw [e]; exact split1_append _ _ _ (by decide)
      subst h
      unfold hubToken
      have hne : hubHeader token = 'j' :: ("upyterhub".toList ++ ' ' :: token) := rfl
      rw [hne] at hs ⊢
      simp only [hs]
      simp
  constructor
  · intro h
    unfold hubAuthenticate at h
    cases ht : hubToken header with
    | none => rw [ht] at h; simp at h
    | some o =>
      cases o with
      | none => rw [ht] at h; simp at h
      | some token =>
        rw [ht] at h
        simp only at h
        by_cases hs : (reply token).status < 400
        · rw [if_pos hs] at h
          cases hd : (reply token).data with
          | none => rw [hd] at h; simp at h
          | some d =>
            rw [hd] at h
            simp only at h
            split at h
            · simp at h
            · rename_i hn
              simp only [Outcome.user.injEq] at h
              refine ⟨token, d, (tok _).1 ht, hs, hd, ?_, h.symm⟩
              intro he
              simp only [he, hubAccessScopes, List.all_cons, List.all_nil, Bool.and_true,
                true_and, Bool.and_eq_true, decide_eq_true_iff, not_and, Classical.not_not] at hn
              by_cases hq : "access:services".toList ∈ d.scopes
              · exact Or.inl hq
              · exact Or.inr (hn hq)
        · rw [if_neg hs] at h
          split at h
          · simp at h
          · split at h
            · simp at h
            · split at h <;> simp at h
  · rintro ⟨token, d, ht, hs, hd, he, rfl⟩
    unfold hubAuthenticate
    rw [(tok _).2 ht]
    simp only
    rw [if_pos hs, hd]
    simp only
    rw [if_neg]
    rintro ⟨h1, h2⟩
    simp only [hubAccessScopes, List.all_cons, List.all_nil, Bool.and_true, Bool.and_eq_true,
      decide_eq_true_iff] at h2
    rcases he h1 with h | h
    · exact h2.1 h
    · exact h2.2 h

/-- C66: by default the scope is required as soon as the service has a name. -/
theorem C66_default (c : HubCfg) (h : c.useScopes = none) (hn : c.serviceName ≠ []) :
    c.enforce = true := by simp [HubCfg.enforce, h, hn]

/-! ### C40 -/

/-- C40 in full: a username that the Basic scheme allows (no colon) and a password that the client
can send reach the server unchanged: without a configured password the login is as that user, and
with one it is accepted exactly if the passwords agree. -/
def C40_full : Prop := ∀ (u p : Str) (h : Str), ':' ∉ u → basicHeader u p = some h →
  simpleAuthenticate none (some h) = .user { name := u } ∧
  ∀ pw, pw ≠ [] → simpleAuthenticate (some pw) (some h) =
    if p = pw then .user { name := u } else .fail 401

/-- C40 is false of the code: the client encodes in latin-1 and the server decodes ASCII, so a name
with an accent is answered 500. -/
theorem C40_basic_violated : ¬ C40_full := by
  intro h
  have := (h "é".toList [] (("Basic ".toList ++ b64encode [233, 58])) (by decide) (by decide +kernel)).1
  revert this
  decide +kernel

/-- C40, the part that holds: ASCII credentials without a colon in the name. Missing: the latin-1
characters that are not ASCII. -/
theorem C40_basic_partial (u p : Str) (hu : ':' ∉ u) (au : IsAscii u) (ap : IsAscii p) :
    ∃ h, basicHeader u p = some h ∧
      simpleAuthenticate none (some h) = .user { name := u } ∧
      ∀ pw, pw ≠ [] → simpleAuthenticate (some pw) (some h) =
        if p = pw then .user { name := u } else .fail 401 := by
  have lat : ∀ s, IsAscii s → latin1 s = some (s.map Char.toNat) := by
    intro s hs
    unfold latin1
    rw [if_pos]
    simp only [List.all_eq_true, decide_eq_true_eq]
    intro x hx
    have := hs x hx
    omega
  have e1 : u.map Char.toNat ++ ':'.toNat :: p.map Char.toNat = (u ++ ':' :: p).map Char.toNat := by
    simp
  have hb : ∀ x ∈ (u ++ ':' :: p).map Char.toNat, x < 128 := by
    intro x hx
    simp only [List.mem_map, List.mem_append, List.mem_cons] at hx
    obtain ⟨y, hy | rfl | hy, rfl⟩ := hx
    · exact au y hy
    · decide
    · exact ap y hy
  have hd : (b64decode (b64encode ((u ++ ':' :: p).map Char.toNat))).bind ascii =
      some (u ++ ':' :: p) := by
    rw [b64_roundtrip _ (fun x hx => by have := hb x hx; omega)]
    simp only [Option.bind_some, ascii]
    rw [if_pos (List.all_eq_true.2 (fun x hx => decide_eq_true (hb x hx))), List.map_map]
    have : (Char.ofNat ∘ Char.toNat) = id := by
      funext x; simp
    rw [this, List.map_id]
  have hsp : split1 ' ' ("Basic ".toList ++ b64encode ((u ++ ':' :: p).map Char.toNat)) =
      some ("Basic".toList, b64encode ((u ++ ':' :: p).map Char.toNat)) :=
    split1_append ' ' "Basic".toList _ (by decide)
  refine ⟨"Basic ".toList ++ b64encode ((u ++ ':' :: p).map Char.toNat), ?_, ?_, ?_⟩
  · simp only [basicHeader, lat u au, lat p ap, e1]
  all_goals
    generalize hk : b64encode ((u ++ ':' :: p).map Char.toNat) = key at hd hsp
    have hne : "Basic ".toList ++ key = 'B' :: ("asic ".toList ++ key) := rfl
    rw [hne] at hsp ⊢
  · simp only [simpleAuthenticate, hsp, hd, split1_append ':' u p hu]
    simp
  · intro pw hpw
    simp only [simpleAuthenticate, hsp, hd, split1_append ':' u p hu]
    by_cases e : p = pw <;> simp [e, hpw]

/-- A colon in the name is sent, but the server takes the part before it as the name. -/
theorem C40_colon_confuses : ∃ h, basicHeader "alice:x".toList [] = some h ∧
    simpleAuthenticate none (some h) = .user { name := "alice".toList } :=
  ⟨"Basic ".toList ++ b64encode ("alice:x:".toList.map Char.toNat), by decide +kernel,
    by decide +kernel⟩

example : basicHeader "alice".toList "s3cret".toList =
      some "Basic YWxpY2U6czNjcmV0".toList ∧
    simpleAuthenticate (some "s3cret".toList) (some "Basic YWxpY2U6czNjcmV0".toList) =
      .user { name := "alice".toList } ∧
    simpleAuthenticate (some "other".toList) (some "Basic YWxpY2U6czNjcmV0".toList) = .fail 401 := by
  decide +kernel

end Verif.Auth

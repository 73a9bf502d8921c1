import Verif.EndToEnd.Slots
/-
Everything in the proxy's tables, and on its way there, was once added by the gateway.
-/
set_option linter.unusedSimpArgs false
set_option linter.unusedVariables false
namespace Verif.ProxyEvents
open Verif.Router (Str Router key walk look put_look delete_look)
variable {Url : Type} {lib : UrlLib Url} {cfg : Config} {G : Key → Str → Prop}

/-- A route that is fine to put. -/
def RouteFrom (G : Key → Str → Prop) (r : Route) : Prop := ∀ k, r.validKey = some k → G k r.target

/-- An event that puts only such a route. -/
def EventFrom (G : Key → Str → Prop) (e : Event) : Prop := e.type = .put → RouteFrom G e.route

/-- Tables with such routes only. -/
def TablesFrom (lib : UrlLib Url) (G : Key → Str → Prop) (t : Tables Url) : Prop :=
  (∀ s v, sniGet t.sniRoutes s = some v → ∃ a, G (.sni, s) a ∧ v = trimTls a) ∧
  (∀ k u, look t.router k = some u → ∃ p a, key p = k ∧ G (.path, p) a ∧ lib.target a = some u)

/-- What is on its way to the proxy. -/
def PhaseFrom (G : Key → Str → Prop) : Phase → Prop
  | .gotTable rs _ => ∀ r ∈ rs, RouteFrom G r
  | .streaming ch => ∀ b ∈ ch, ∀ e ∈ b, EventFrom G e
  | _ => True

/-- The gateway's side. -/
def ServerFrom (G : Key → Str → Prop) (s : Server) : Prop :=
  (∀ e ∈ s.routes, G e.1 e.2) ∧ ∀ e ∈ s.events, EventFrom G e

theorem routeFrom_put {k : Key} {v : Str} (h : G k v) : RouteFrom G (putRouteOf k v) := by
  obtain ⟨kind, x⟩ := k
  intro k' hk
  by_cases hx : x = []
  · cases kind <;> simp [putRouteOf, Route.validKey, hx] at hk
  · cases kind <;> simp [putRouteOf, Route.validKey, hx] at hk <;> subst hk <;> exact h

theorem put_from {t : Tables Url} (ht : TablesFrom lib G t) {r : Route} (hr : RouteFrom G r) :
    TablesFrom lib G (t.putRoute lib r) := by
  unfold Tables.putRoute
  split
  · exact ht
  · rename_i s hk
    split
    · exact ht
    · refine ⟨fun s' v h => ?_, ht.2⟩
      dsimp only at h
      rw [sniGet_cons_filter] at h
      split at h
      · rename_i e
        cases h
        exact ⟨_, e ▸ hr _ hk, rfl⟩
      · exact ht.1 s' v h
  · rename_i p hk
    split
    · exact ht
    · split
      · exact ht
      · rename_i u hu
        refine ⟨ht.1, fun k u' h => ?_⟩
        dsimp only at h
        rw [put_look] at h
        split at h
        · rename_i e
          cases h
          exact ⟨p, _, e.symm, hr _ hk, hu⟩
        · exact ht.2 k u' h

theorem delete_from {t : Tables Url} (ht : TablesFrom lib G t) (r : Route) : TablesFrom lib G (t.deleteRoute r) := by
  unfold Tables.deleteRoute
  split
  · exact ht
  · refine ⟨fun s' v h => ?_, ht.2⟩
    dsimp only at h
    rw [sniGet_filter] at h
    split at h
    · cases h
    · exact ht.1 s' v h
  · refine ⟨ht.1, fun k u' h => ?_⟩
    dsimp only at h
    rw [delete_look] at h
    split at h
    · cases h
    · exact ht.2 k u' h

theorem apply_from {t : Tables Url} (ht : TablesFrom lib G t) {e : Event} (he : EventFrom G e) :
    TablesFrom lib G (t.applyEvent lib e) := by
  unfold Tables.applyEvent
  split
  · rename_i h; exact put_from ht (he h)
  · exact delete_from ht _
  · exact ht

theorem events_from (es : List Event) : ∀ {t : Tables Url}, TablesFrom lib G t → (∀ e ∈ es, EventFrom G e) →
    TablesFrom lib G (t.updateFromEvents lib es) := by
  induction es with
  | nil => exact fun h _ => h
  | cons e es ih => exact fun h he => ih (apply_from h (he e (by simp))) (fun x hx => he x (by simp [hx]))

theorem routes_from (rs : List Route) : ∀ {t : Tables Url}, TablesFrom lib G t → (∀ r ∈ rs, RouteFrom G r) →
    TablesFrom lib G (rs.foldl (Tables.putRoute lib) t) := by
  induction rs with
  | nil => exact fun h _ => h
  | cons r rs ih => exact fun h hr => ih (put_from h (hr r (by simp))) (fun x hx => hr x (by simp [hx]))

theorem empty_from : TablesFrom lib G (Tables.empty : Tables Url) :=
  ⟨fun s v h => (by cases h), fun k u h => (by
    have : look (Router.new : Router Url) k = some u := h
    rw [Verif.Router.look_new] at this; cases this)⟩

theorem append_from {s : Server} (hs : ServerFrom G s) (ty : EventType) (r : Route) (hr : ty = .put → RouteFrom G r) :
    ServerFrom G (s.appendEvent cfg ty r).1 ∧ EventFrom G (s.appendEvent cfg ty r).2 ∧
      (s.appendEvent cfg ty r).1.routes = s.routes := by
  have he : EventFrom G ⟨s.nextId, ty, r⟩ := hr
  unfold Server.appendEvent
  dsimp only
  refine ⟨⟨?_, ?_⟩, he, ?_⟩
  · split <;> exact hs.1
  · intro e h
    split at h
    · rcases List.mem_append.1 h with h | h
      · exact hs.2 e (List.mem_of_mem_drop h)
      · rw [List.mem_singleton] at h; subst h; exact he
    · rcases List.mem_append.1 h with h | h
      · exact hs.2 e h
      · rw [List.mem_singleton] at h; subst h; exact he
  · split <;> rfl

theorem mem_dictSet {d : Dict} {k : Key} {v : Str} {e : Key × Str} (h : e ∈ dictSet d k v) : e = (k, v) ∨ e ∈ d := by
  unfold dictSet at h
  split at h
  · obtain ⟨x, hx, rfl⟩ := List.mem_map.1 h
    split
    · exact Or.inl rfl
    · exact Or.inr hx
  · rcases List.mem_append.1 h with h | h
    · exact Or.inr h
    · exact Or.inl (List.mem_singleton.1 h)

/-- The routes after `add_route`. -/
theorem add_routes {s : Server} {kind : Option Kind} {sni path : Option Str} {t : Str} {k : Key}
    (hk : callKey cfg kind sni path = some k) :
    ∃ s' e, s.addRoute cfg kind sni path (some t) = some (s', e) ∧ s'.routes = dictSet s.routes k t ∧
      (ServerFrom G s → G k t → ServerFrom G s' ∧ EventFrom G e) := by
  unfold Server.addRoute
  rw [hk]
  refine ⟨_, _, rfl, ?_, ?_⟩
  · simp only [Server.appendEvent]
    split <;> rfl
  · intro hs hg
    have hs' : ServerFrom G { s with routes := dictSet s.routes k t } := ⟨fun e he => by
      rcases mem_dictSet he with rfl | he
      · exact hg
      · exact hs.1 e he, hs.2⟩
    obtain ⟨h1, h2, -⟩ := append_from (cfg := cfg) hs' .put (putRouteOf k t) (fun _ => routeFrom_put hg)
    exact ⟨h1, h2⟩

theorem dictPop_none {d : Dict} {k : Key} (h : dictGet d k = none) (k' : Key) :
    dictGet d k' = if k' = k then none else dictGet d k' := by
  split
  · rename_i e; rw [e, h]
  · rfl

/-- The routes after `remove_route`. -/
theorem remove_routes {s : Server} {kind : Option Kind} {sni path : Option Str} {k : Key}
    (hk : callKey cfg kind sni path = some k) :
    ∃ s' e, s.removeRoute cfg kind sni path = some (s', e) ∧
      (∀ k', dictGet s'.routes k' = if k' = k then none else dictGet s.routes k') ∧
      (ServerFrom G s → ServerFrom G s' ∧ ∀ x ∈ e, EventFrom G x) := by
  unfold Server.removeRoute
  rw [hk]
  dsimp only
  cases hg : dictGet s.routes k with
  | none => exact ⟨s, none, rfl, dictPop_none hg, fun h => ⟨h, by simp⟩⟩
  | some v =>
    refine ⟨_, _, rfl, ?_, ?_⟩
    · intro k'
      have : ({ s with routes := dictPop s.routes k }.appendEvent cfg .delete (delRouteOf k)).1.routes =
          dictPop s.routes k := by simp only [Server.appendEvent]; split <;> rfl
      rw [this, dictGet_dictPop]
    · intro hs
      have hs' : ServerFrom G { s with routes := dictPop s.routes k } :=
        ⟨fun e he => hs.1 e (List.mem_filter.1 he).1, hs.2⟩
      obtain ⟨h1, h2, -⟩ := append_from (cfg := cfg) hs' .delete (delRouteOf k) (by simp)
      exact ⟨h1, by rintro x ⟨⟩; exact h2⟩

/-- Calls that add only such routes, and a gateway whose own route is such. -/
def OpFrom (cfg : Config) (G : Key → Str → Prop) : Op → Prop
  | .add kind sni path target => ∀ k t, callKey cfg kind sni path = some k → target = some t → G k t
  | .restart url _ => G (.path, cfg.pfx ++ ['/']) url
  | _ => True

/-- The whole. -/
def SysFrom (lib : UrlLib Url) (G : Key → Str → Prop) (s : Sys Url) : Prop :=
  ServerFrom G s.srv ∧ TablesFrom lib G s.tables ∧ PhaseFrom G s.phase

theorem push_from {p : Phase} {e : Event} (hp : PhaseFrom G p) (he : EventFrom G e) : PhaseFrom G (p.push e) := by
  unfold Phase.push
  split
  · intro b hb x hx
    rcases List.mem_append.1 hb with hb | hb
    · exact hp b hb x hx
    · rw [List.mem_singleton] at hb; subst hb
      rw [List.mem_singleton] at hx; subst hx
      exact he
  · exact hp

theorem setup_from (url : Str) (h : G (.path, cfg.pfx ++ ['/']) url) : ServerFrom G (Server.setup cfg url).1 := by
  obtain ⟨s', e, h1, -, h3⟩ := add_routes (cfg := cfg) (G := G) (s := Server.init) (kind := some .path) (sni := none)
    (path := some ['/']) (t := url) (k := (.path, cfg.pfx ++ ['/'])) rfl
  unfold Server.setup
  rw [h1]
  exact (h3 ⟨fun e he => (by cases he), fun e he => (by cases he)⟩ h).1

theorem setup_routes (url : Str) : (Server.setup cfg url).1.routes = dictSet [] (.path, cfg.pfx ++ ['/']) url := by
  obtain ⟨s', e, h1, h2, -⟩ := add_routes (cfg := cfg) (G := fun _ _ => True) (s := Server.init) (kind := some .path)
    (sni := none) (path := some ['/']) (t := url) (k := (.path, cfg.pfx ++ ['/'])) rfl
  unfold Server.setup
  rw [h1]
  exact h2

theorem init_from (url : Str) (h : G (.path, cfg.pfx ++ ['/']) url) : SysFrom lib G (Sys.init cfg url : Sys Url) :=
  ⟨setup_from url h, empty_from, trivial⟩

theorem step_from {s : Sys Url} (hs : SysFrom lib G s) {o : Op} (ho : OpFrom cfg G o) : SysFrom lib G (s.step lib cfg o) := by
  obtain ⟨h1, h2, h3⟩ := hs
  obtain ⟨srv, tb, li, ph⟩ := s
  dsimp only at h1 h2 h3
  cases o with
  | add kind sni path target =>
    unfold Sys.step
    dsimp only
    cases target with
    | none => exact ⟨h1, h2, h3⟩
    | some t =>
      cases hk : callKey cfg kind sni path with
      | none =>
        have : srv.addRoute cfg kind sni path (some t) = none := by unfold Server.addRoute; rw [hk]
        rw [this]; exact ⟨h1, h2, h3⟩
      | some k =>
        obtain ⟨s', e, e1, -, e3⟩ := add_routes (cfg := cfg) (G := G) (s := srv) (t := t) hk
        rw [e1]
        obtain ⟨a, b⟩ := e3 h1 (ho k t hk rfl)
        exact ⟨a, h2, push_from h3 b⟩
  | remove kind sni path =>
    unfold Sys.step
    dsimp only
    cases hk : callKey cfg kind sni path with
    | none =>
      have : srv.removeRoute cfg kind sni path = none := by unfold Server.removeRoute; rw [hk]
      rw [this]; exact ⟨h1, h2, h3⟩
    | some k =>
      obtain ⟨s', e, e1, -, e3⟩ := remove_routes (cfg := cfg) (G := G) (s := srv) hk
      rw [e1]
      obtain ⟨a, b⟩ := e3 h1
      cases e with
      | none => exact ⟨a, h2, h3⟩
      | some x => exact ⟨a, h2, push_from h3 (b x rfl)⟩
  | fetch =>
    cases ph with
    | needFetch =>
      refine ⟨h1, h2, ?_⟩
      intro r hr
      obtain ⟨e, he, rfl⟩ := List.mem_map.1 hr
      exact routeFrom_put (h1.1 e he)
    | _ => exact ⟨h1, h2, h3⟩
  | fetchFail => cases ph <;> exact ⟨h1, h2, by first | trivial | exact h3⟩
  | applyTable =>
    cases ph with
    | gotTable rs id => exact ⟨h1, routes_from rs empty_from h3, trivial⟩
    | _ => exact ⟨h1, h2, h3⟩
  | watch =>
    cases ph with
    | needWatch =>
      unfold Sys.step
      dsimp only
      unfold Server.eventsAfter
      dsimp only
      by_cases hx : (li : Int) - (srv.offset : Int) ≥ 0
      · rw [if_pos hx]
        refine ⟨h1, h2, ?_⟩
        dsimp only
        intro b hb e he
        split at hb
        · cases hb
        · rw [List.mem_singleton] at hb; subst hb
          exact h1.2 e (List.mem_of_mem_drop he)
      · rw [if_neg hx]; exact ⟨h1, h2, trivial⟩
    | _ => exact ⟨h1, h2, h3⟩
  | watchFail => cases ph <;> exact ⟨h1, h2, by first | trivial | exact h3⟩
  | deliver =>
    cases ph with
    | streaming ch =>
      cases ch with
      | nil => exact ⟨h1, h2, h3⟩
      | cons es ch =>
        unfold Sys.step
        dsimp only
        refine ⟨?_, ?_, fun b hb => h3 b (by simp [hb])⟩
        · unfold Sys.processBatch; split <;> exact h1
        · unfold Sys.processBatch
          split
          · exact h2
          · exact events_from es h2 (h3 es (by simp))
    | _ => exact ⟨h1, h2, h3⟩
  | eof => cases ph <;> exact ⟨h1, h2, by first | trivial | exact h3⟩
  | garbled => cases ph <;> exact ⟨h1, h2, by first | trivial | exact h3⟩
  | restart url noticed =>
    refine ⟨setup_from url ho, h2, ?_⟩
    cases noticed
    · cases ph <;> first | trivial | exact h3
    · trivial

end Verif.ProxyEvents

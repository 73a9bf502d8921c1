import Verif.EndToEnd.Paths
import Verif.Tcp.Props
/-
C113-C115: from what the scheduler of a cluster reports to where the proxy sends traffic.
-/
set_option linter.unusedSimpArgs false
set_option linter.unusedVariables false
set_option linter.unusedSectionVars false
namespace Verif.EndToEnd
open Verif.Router (Str Router key walk look)
open Verif.ProxyEvents (Sys UrlLib Config dictGet ValidTarget ValidPrefix CaughtUp trimTls)
open Verif.Backend (Cluster)
variable {Url : Type} {d : Deployment Url} {items : List Item}

/-- A deployment as the gateway's configuration allows it: names of clusters as the database makes them, a prefix
that passed validation, and a gateway whose own address the proxy accepts. -/
structure Fit (d : Deployment Url) : Prop where
  names : Names d.nameOf
  pfx : ValidPrefix d.pcfg.pfx
  url : ValidTarget d.lib .path d.url

theorem state_routes {cfg : Backend.Cfg} {s : Backend.State} (hi : Backend.SInv cfg s) {c : Cluster} (hc : c ∈ s.clusters) :
    s.routes c.row.name = (c.vol.pathRoute, c.vol.sniRoute) := by
  unfold Backend.State.routes
  rw [Backend.sfind_mem hi.named.nodup hc]

theorem routes_some {cfg : Backend.Cfg} {s : Backend.State} (hi : Backend.SInv cfg s) {n : Nat} :
    (∀ a, (s.routes n).1 = some a → ∃ c ∈ s.clusters, c.row.name = n ∧ c.vol.pathRoute = some a) ∧
    (∀ a, (s.routes n).2 = some a → ∃ c ∈ s.clusters, c.row.name = n ∧ c.vol.sniRoute = some a) := by
  unfold Backend.State.routes
  cases h : s.find n with
  | none => exact ⟨fun a e => (by cases e), fun a e => (by cases e)⟩
  | some c =>
    obtain ⟨hc, hn⟩ := Backend.sfind_spec h
    exact ⟨fun a e => ⟨c, hc, hn, e⟩, fun a e => ⟨c, hc, hn, e⟩⟩

theorem backend_run (items : List Item) : ∃ evs, (World.run d items).backend = Backend.run d.cfg evs := by
  induction items using Verif.Router.snoc_induction with
  | nil => exact ⟨[], rfl⟩
  | snoc items i ih =>
    obtain ⟨evs, e⟩ := ih
    have e' : World.run d (items ++ [i]) = (World.run d items).step d i := by
      simp only [World.run, List.foldl_append, List.foldl_cons, List.foldl_nil]
    rw [e']
    cases i with
    | gateway o => exact ⟨evs ++ [.op o], by simp [World.step, itemBackend, e, Backend.run]⟩
    | crash o k now calls noticed =>
      exact ⟨evs ++ [.crash o k now], by simp [World.step, itemBackend, e, Backend.run]⟩
    | proxy p => exact ⟨evs, e⟩

/-! ### C113: requests reach the cluster they name -/

section
variable (hF : Fit d) (hS : Sound d items)
include hF hS

/-- Where TLS connections go when the proxy has caught up. -/
theorem tls_is (hc : CaughtUp (World.run d items).proxy) (s : Str) :
    (∀ n, s = d.nameOf n → (World.run d items).tlsTarget s =
      ((World.run d items).backend.routes n).2.map (fun a => trimTls a.toList)) ∧
    ((∀ n, s ≠ d.nameOf n) → (World.run d items).tlsTarget s = none) := by
  have h := winv_run hF.names hF.url (all := items)
  obtain ⟨hA, hR⟩ := ProxyEvents.gateway_paths_noAlias (cfg := d.pcfg) hF.pfx
  obtain ⟨ops, e, hok⟩ := h.ops
  have corr := h.corr
  unfold World.tlsTarget
  rw [e] at hc corr ⊢
  have hold := (ProxyEvents.caught_up_holds_routes hA hR d.url hF.url ops (hok hS) hc).1 s
  rw [hold]
  constructor
  · rintro n rfl
    rw [corr.sni]
    cases ((World.run d items).backend.routes n).2 <;> rfl
  · intro hn
    cases hg : dictGet (Sys.run d.lib d.pcfg d.url ops).srv.routes (.sni, s) with
    | none => rfl
    | some v =>
      rcases corr.only _ v hg with e1 | ⟨n, e1 | e1⟩
      · cases e1
      · simp only [Prod.mk.injEq, true_and] at e1; exact absurd e1 (hn n)
      · cases e1

/-- C113, TLS: whenever the proxy has caught up, a connection for the name of a cluster that clients see running, with
no work pending for it, goes to the address its scheduler reported. -/
theorem C113_scheduler_reached (hc : CaughtUp (World.run d items).proxy) {c : Cluster}
    (hm : c ∈ (World.run d items).backend.clusters) (hr : c.modelStatus = some .running) (hq : c.Quiescent) :
    c.row.sched ≠ "" ∧ (World.run d items).tlsTarget (d.nameOf c.row.name) = some (trimTls c.row.sched.toList) := by
  have h := winv_run hF.names hF.url (all := items)
  rw [(tls_is hF hS hc _).1 _ rfl, state_routes h.inv hm]
  obtain ⟨evs, e⟩ := backend_run (d := d) items
  rw [e] at hm
  obtain ⟨h1, h2, -⟩ := (Backend.C25_routes hm).2.2 hr hq
  rw [h2]
  exact ⟨h1, rfl⟩

/-- C113, TLS: whenever the proxy has caught up, a connection is sent on only if it names a cluster that is running or
closing, and then to the address its scheduler reported. -/
theorem C113_tls_only (hc : CaughtUp (World.run d items).proxy) {s t : Str} (h : (World.run d items).tlsTarget s = some t) :
    ∃ c ∈ (World.run d items).backend.clusters, d.nameOf c.row.name = s ∧
      (c.row.status = .running ∨ c.row.status = .closing) ∧ t = trimTls c.row.sched.toList := by
  have hw := winv_run hF.names hF.url (all := items)
  by_cases hn : ∃ n, s = d.nameOf n
  · obtain ⟨n, rfl⟩ := hn
    rw [(tls_is hF hS hc _).1 n rfl] at h
    cases hs : ((World.run d items).backend.routes n).2 with
    | none => rw [hs] at h; cases h
    | some a =>
      rw [hs] at h
      simp only [Option.map_some, Option.some.injEq] at h
      obtain ⟨c, hcm, hcn, ha⟩ := (routes_some hw.inv (n := n)).2 a hs
      obtain ⟨evs, e⟩ := backend_run (d := d) items
      have hcm' := hcm
      rw [e] at hcm'
      obtain ⟨h1, h2⟩ := (Backend.C25_routes hcm').1 a ha
      exact ⟨c, hcm, by rw [hcn], h1, by rw [← h, h2]⟩
  · rw [(tls_is hF hS hc _).2 (fun n e => hn ⟨n, e⟩)] at h; cases h

theorem key_pfx (n : Nat) {rest : Str} (hr : Below rest) : ∃ more,
    key (d.pcfg.pfx ++ d.clusterPath n ++ rest) = key (d.pcfg.pfx ++ ['/']) ++ [clustersWord, d.nameOf n] ++ more :=
  let ⟨more, e, _⟩ := key_cluster hF.pfx (hF.names.ne n) (hF.names.slash n) hr
  ⟨more, e⟩

theorem key_own (n : Nat) : key (d.pcfg.pfx ++ d.clusterPath n) = key (d.pcfg.pfx ++ ['/']) ++ [clustersWord, d.nameOf n] := by
  obtain ⟨more, e, e'⟩ := key_cluster hF.pfx (hF.names.ne n) (hF.names.slash n) (Or.inl rfl)
  rw [e' rfl, List.append_nil, List.append_nil] at e
  exact e

/-- Where HTTP requests go when the proxy has caught up. -/
theorem http_is (hc : CaughtUp (World.run d items).proxy) {q : Str} (hq : key (d.pcfg.pfx ++ ['/']) <+: key q) :
    ((World.run d items).httpTarget q = d.lib.target d.url ∧ ∀ n, ((World.run d items).backend.routes n).1.isSome →
      ¬ key (d.pcfg.pfx ++ d.clusterPath n) <+: key q) ∨
    ∃ n a, ((World.run d items).backend.routes n).1 = some a ∧ key (d.pcfg.pfx ++ d.clusterPath n) <+: key q ∧
      (World.run d items).httpTarget q = d.lib.target a.toList := by
  have h := winv_run hF.names hF.url (all := items)
  obtain ⟨hA, hR⟩ := ProxyEvents.gateway_paths_noAlias (cfg := d.pcfg) hF.pfx
  obtain ⟨ops, e, hok⟩ := h.ops
  have corr := h.corr
  have valid : ∀ n a, ((World.run d items).backend.routes n).1 = some a → (d.lib.target a.toList).isSome := by
    intro n a ha
    obtain ⟨c, hcm, hcn, hp⟩ := (routes_some h.inv (n := n)).1 a ha
    obtain ⟨-, e1, e2⟩ := (h.inv.inv c hcm).2.rt2 a hp
    rcases (h.addr c hcm).2 with e3 | ⟨i, hi, m, hr, e3⟩
    · rw [← e1] at e3; exact absurd e3 e2
    · rw [← e1] at e3
      rcases (hS i hi).2 _ m hr with e4 | e4
      · rw [e3] at e4; exact absurd e4 e2
      · rw [e3] at e4; exact e4
  unfold World.httpTarget
  rw [e] at hc corr ⊢
  have hreq := ProxyEvents.caught_up_request hA hR d.url hF.url ops (hok hS) hc q
  cases hm : (Sys.run d.lib d.pcfg d.url ops).tables.router.match_ q with
  | none =>
    rw [hm] at hreq
    exact absurd hq (hreq _ _ corr.root (hF.url.2 rfl))
  | some x =>
    obtain ⟨u, rest⟩ := x
    rw [hm] at hreq
    obtain ⟨p, v, h1, h2, h3, h4⟩ := hreq
    rcases corr.only _ v h1 with e1 | ⟨n, e1 | e1⟩
    · left
      simp only [Prod.mk.injEq, true_and] at e1
      rw [e1, corr.root] at h1
      cases h1
      refine ⟨by rw [h2]; rfl, fun n hn hk => ?_⟩
      obtain ⟨a, ha⟩ := Option.isSome_iff_exists.1 hn
      have hd := corr.path n
      rw [ha] at hd
      have := h4 _ _ hd (valid n a ha) hk
      rw [e1, key_own hF hS n] at this
      simp at this
      omega
    · cases e1
    · right
      simp only [Prod.mk.injEq, true_and] at e1
      have hd := corr.path n
      rw [e1, hd] at h1
      cases ha : ((World.run d items).backend.routes n).1 with
      | none => rw [ha] at h1; cases h1
      | some a =>
        rw [ha] at h1
        simp only [Option.map_some, Option.some.injEq] at h1
        refine ⟨n, a, ha, by rw [← e1]; exact h3, ?_⟩
        rw [h1, h2]; rfl

/-- A request below the path of a cluster is below the path of no other. -/
theorem own_path {m n : Nat} {rest : Str} (hr : Below rest)
    (h : key (d.pcfg.pfx ++ d.clusterPath m) <+: key (d.pcfg.pfx ++ d.clusterPath n ++ rest)) : m = n := by
  obtain ⟨more, e⟩ := key_pfx hF hS n hr
  rw [e, key_own hF hS, List.append_assoc, List.prefix_append_right_inj] at h
  obtain ⟨t, ht⟩ := h
  simp only [List.cons_append, List.nil_append, List.cons.injEq, true_and] at ht
  exact hF.names.inj m n ht.1

theorem root_prefix (n : Nat) {rest : Str} (hr : Below rest) :
    key (d.pcfg.pfx ++ ['/']) <+: key (d.pcfg.pfx ++ d.clusterPath n ++ rest) := by
  obtain ⟨more, e⟩ := key_pfx hF hS n hr
  rw [e, List.append_assoc]
  exact List.prefix_append _ _

/-- C113, HTTP: whenever the proxy has caught up, every request for the path of a cluster or anything below it goes to
the dashboard its scheduler reported, if clients see the cluster running, no work is pending for it and it has a dashboard. -/
theorem C113_dashboard_reached (hc : CaughtUp (World.run d items).proxy) {c : Cluster}
    (hm : c ∈ (World.run d items).backend.clusters) (hr : c.modelStatus = some .running) (hq : c.Quiescent)
    (hd : c.row.dash ≠ "") {rest : Str} (hb : Below rest) :
    (World.run d items).httpTarget (d.pcfg.pfx ++ d.clusterPath c.row.name ++ rest) = d.lib.target c.row.dash.toList := by
  have h := winv_run hF.names hF.url (all := items)
  have hrt := state_routes h.inv hm
  obtain ⟨evs, e⟩ := backend_run (d := d) items
  have hm' := hm
  rw [e] at hm'
  obtain ⟨-, -, h2⟩ := (Backend.C25_routes hm').2.2 hr hq
  rw [h2 hd] at hrt
  rcases http_is hF hS hc (root_prefix hF hS c.row.name hb) with ⟨-, h1⟩ | ⟨n, a, h1, h3, h4⟩
  · refine absurd ?_ (h1 c.row.name (by rw [hrt]; rfl))
    obtain ⟨more, e⟩ := key_pfx hF hS c.row.name hb
    rw [e, key_own hF hS]
    exact List.prefix_append _ _
  · rw [own_path hF hS hb h3, hrt] at h1
    cases h1
    exact h4

/-- C113, HTTP: whenever the proxy has caught up, a request for the path of a cluster, or anything below it, goes to the
dashboard of that cluster, which is running or closing, or to the gateway. It never goes to another cluster. -/
theorem C113_http_only (hc : CaughtUp (World.run d items).proxy) (n : Nat) {rest : Str} (hb : Below rest) :
    (World.run d items).httpTarget (d.pcfg.pfx ++ d.clusterPath n ++ rest) = d.lib.target d.url ∨
    ∃ c ∈ (World.run d items).backend.clusters, c.row.name = n ∧ (c.row.status = .running ∨ c.row.status = .closing) ∧
      (World.run d items).httpTarget (d.pcfg.pfx ++ d.clusterPath n ++ rest) = d.lib.target c.row.dash.toList := by
  have h := winv_run hF.names hF.url (all := items)
  rcases http_is hF hS hc (root_prefix hF hS n hb) with ⟨h1, -⟩ | ⟨m, a, h1, h3, h4⟩
  · exact Or.inl h1
  · right
    have := own_path hF hS hb h3
    subst this
    obtain ⟨c, hcm, hcn, hp⟩ := (routes_some h.inv (n := m)).1 a h1
    obtain ⟨evs, e⟩ := backend_run (d := d) items
    have hcm' := hcm
    rw [e] at hcm'
    obtain ⟨k1, k2⟩ := (Backend.C25_routes hcm').2.1 a hp
    exact ⟨c, hcm, hcn, k1, by rw [h4, k2]⟩

/-- C113: whenever the proxy has caught up, a cluster that is not running or closing, or that the gateway does not know,
gets no traffic: requests for its path go to the gateway, and connections for its name nowhere. -/
theorem C113_finished_gets_nothing (hc : CaughtUp (World.run d items).proxy) (n : Nat)
    (hn : ∀ c ∈ (World.run d items).backend.clusters, c.row.name = n → ¬ (c.row.status = .running ∨ c.row.status = .closing))
    {rest : Str} (hb : Below rest) :
    (World.run d items).tlsTarget (d.nameOf n) = none ∧
    (World.run d items).httpTarget (d.pcfg.pfx ++ d.clusterPath n ++ rest) = d.lib.target d.url := by
  constructor
  · cases ht : (World.run d items).tlsTarget (d.nameOf n) with
    | none => rfl
    | some t =>
      obtain ⟨c, hcm, e, h1, -⟩ := C113_tls_only hF hS hc ht
      exact absurd h1 (hn c hcm (hF.names.inj _ _ e))
  · rcases C113_http_only hF hS hc n hb with h | ⟨c, hcm, e, h1, -⟩
    · exact h
    · exact absurd h1 (hn c hcm e)

/-- C113: whenever the proxy has caught up, the gateway's own pages are served by the gateway: every path whose first
segment behind the prefix is not "clusters". -/
theorem C113_gateway_reached (hc : CaughtUp (World.run d items).proxy) {w : Str} (hw : w ≠ []) (hs : '/' ∉ w)
    (hne : w ≠ "clusters".toList) {rest : Str} (hb : Below rest) :
    (World.run d items).httpTarget (d.pcfg.pfx ++ '/' :: w ++ rest) = d.lib.target d.url := by
  obtain ⟨more, e⟩ := key_one hF.pfx hw hs hb
  have hp : key (d.pcfg.pfx ++ ['/']) <+: key (d.pcfg.pfx ++ '/' :: w ++ rest) := by
    rw [e, List.append_assoc]; exact List.prefix_append _ _
  rcases http_is hF hS hc hp with ⟨h1, -⟩ | ⟨n, a, -, h3, -⟩
  · exact h1
  · rw [e, key_own hF hS, List.append_assoc, List.prefix_append_right_inj] at h3
    obtain ⟨t, ht⟩ := h3
    simp only [List.cons_append, List.nil_append, List.cons.injEq] at ht
    have : clustersWord = "clusters".toList := by decide +kernel
    exact absurd (ht.1.symm.trans this) hne

/-- C113, TLS, with the bytes: whenever the proxy has caught up, a client whose greeting (of at most 4096 bytes, however
divided) names such a cluster is connected with its scheduler, and no byte is lost. -/
theorem C113_connection (hc : CaughtUp (World.run d items).proxy) {c : Cluster}
    (hm : c ∈ (World.run d items).backend.clusters) (hr : c.modelStatus = some .running) (hq : c.Quiescent)
    (ht : trimTls c.row.sched.toList ≠ []) (hello : List Tcp.Byte → Str) (forwarder : Bool) (conn : Tcp.Conn) (k : Nat)
    (hh : Tcp.Hello conn.flatten k) (hk : k ≤ 4096)
    (hx : hello (conn.flatten.take k) = "daskgateway-".toList ++ d.nameOf c.row.name) :
    ∃ p : Tcp.Peeked, p.peeked ++ p.conn.flatten = conn.flatten ∧
      Tcp.handle hello (fun s => ((World.run d items).tlsTarget s).getD []) forwarder conn =
        .dial (trimTls c.row.sched.toList) p := by
  obtain ⟨-, h2⟩ := C113_scheduler_reached hF hS hc hm hr hq
  have := Tcp.C81_reaches_partial hello (fun s => ((World.run d items).tlsTarget s).getD []) forwarder conn k hh hk
    (d.nameOf c.row.name) hx (by simp only [h2]; exact ht)
  simp only [h2] at this
  exact this

/-! ### C114: the proxy can always catch up -/

/-- C114: from every state the proxy can catch up by its own steps, without any change in the gateway. -/
theorem C114_can_catch_up : ∃ more : List ProxyStep,
    CaughtUp (World.run d (items ++ more.map Item.proxy)).proxy ∧
    (World.run d (items ++ more.map Item.proxy)).backend = (World.run d items).backend := by
  have h := winv_run hF.names hF.url (all := items)
  obtain ⟨hA, hR⟩ := ProxyEvents.gateway_paths_noAlias (cfg := d.pcfg) hF.pfx
  obtain ⟨ops, e, hok⟩ := h.ops
  obtain ⟨more, h1, h2, -⟩ := ProxyEvents.can_catch_up hA hR d.url hF.url ops (hok hS)
  have steps : ∀ l : List ProxyEvents.Op, (∀ o ∈ l, ProxyEvents.Op.isClient o) → ∃ l' : List ProxyStep, l'.map ProxyStep.toOp = l := by
    intro l
    induction l with
    | nil => exact fun _ => ⟨[], rfl⟩
    | cons o l ih =>
      intro hl
      obtain ⟨l', e⟩ := ih (fun x hx => hl x (by simp [hx]))
      have := hl o (by simp)
      cases o <;> simp [ProxyEvents.Op.isClient] at this
      · exact ⟨.fetch :: l', by simp [e, ProxyStep.toOp]⟩
      · exact ⟨.applyTable :: l', by simp [e, ProxyStep.toOp]⟩
      · exact ⟨.watch :: l', by simp [e, ProxyStep.toOp]⟩
      · exact ⟨.deliver :: l', by simp [e, ProxyStep.toOp]⟩
  obtain ⟨l, rfl⟩ := steps more h1
  have fold : ∀ (l : List ProxyStep) (w : World Url), (l.map Item.proxy).foldl (World.step d) w =
      ⟨w.backend, (l.map ProxyStep.toOp).foldl (Sys.step d.lib d.pcfg) w.proxy⟩ := by
    intro l
    induction l with
    | nil => intro w; rfl
    | cons p l ih => intro w; exact ih (w.step d (.proxy p))
  have e3 : World.run d (items ++ l.map Item.proxy) =
      ⟨(World.run d items).backend, (l.map ProxyStep.toOp).foldl (Sys.step d.lib d.pcfg) (World.run d items).proxy⟩ := by
    unfold World.run
    rw [List.foldl_append, fold]
  refine ⟨l, ?_, by rw [e3]⟩
  rw [e3, e]
  have e4 : Sys.run d.lib d.pcfg d.url (ops ++ l.map ProxyStep.toOp) =
      (l.map ProxyStep.toOp).foldl (Sys.step d.lib d.pcfg) (Sys.run d.lib d.pcfg d.url ops) := by
    simp [Sys.run]
  rw [e4] at h2
  exact h2

end

/-! ### C115: traffic never reaches another cluster, not even while the proxy is behind -/

/-- C115, TLS: at any time, also while the proxy is behind, and after restarts of the gateway that it did not notice, a
connection is sent on only to an address that the scheduler of the cluster of that name reported in a heartbeat. -/
theorem C115_tls_isolated (hF : Fit d) {s t : Str} (h : (World.run d items).tlsTarget s = some t) :
    ∃ n, s = d.nameOf n ∧ ∃ i ∈ items, ∃ m, i.Reports n m ∧ m.sched ≠ "" ∧ t = trimTls m.sched.toList := by
  have hw := winv_run hF.names hF.url (all := items)
  obtain ⟨a, ha, e⟩ := hw.orig.2.1.1 s t h
  rcases ha with ⟨e1, -⟩ | ⟨n, x, e1, e2, e3, e4⟩ | ⟨n, x, e1, -⟩
  · cases e1
  · simp only [Prod.mk.injEq, true_and] at e1
    rcases e4 with e5 | ⟨i, hi, m, hr, e5⟩
    · exact absurd e5 e3
    · exact ⟨n, e1, i, hi, m, hr, by rw [e5]; exact e3, by rw [e, e2, e5]⟩
  · cases e1

/-- C115, HTTP: at any time, a request goes only to the gateway, or to a dashboard address that the scheduler of a cluster
reported in a heartbeat below whose path the requested path is. -/
theorem C115_http_isolated (hF : Fit d) {q : Str} {u : Url} (h : (World.run d items).httpTarget q = some u) :
    (key (d.pcfg.pfx ++ ['/']) <+: key q ∧ d.lib.target d.url = some u) ∨
    ∃ n, key (d.pcfg.pfx ++ d.clusterPath n) <+: key q ∧ ∃ i ∈ items, ∃ m, i.Reports n m ∧ m.dash ≠ "" ∧
      d.lib.target m.dash.toList = some u := by
  have hw := winv_run hF.names hF.url (all := items)
  have ht := hw.orig.2.1.2
  have h0 : look (World.run d items).proxy.tables.router [[]] = none := by
    cases e : look (World.run d items).proxy.tables.router [[]] with
    | none => rfl
    | some u =>
      obtain ⟨p, a, h2, -⟩ := ht _ _ e
      exact absurd h2 (Verif.Router.key_ne_empty_seg p)
  unfold World.httpTarget at h
  rcases Verif.Router.match_spec _ h0 q with ⟨-, e⟩ | ⟨k, post, u', a1, a2, e⟩
  · rw [e] at h; cases h
  · rw [e] at h
    simp only [Option.map_some, Option.some.injEq] at h
    subst h
    obtain ⟨p, a, h1, h2, h3⟩ := ht k u' a2.2.1
    rcases h2 with ⟨e1, e2⟩ | ⟨n, x, e1, -⟩ | ⟨n, x, e1, e2, e3, e4⟩
    · simp only [Prod.mk.injEq, true_and] at e1
      left; rw [← e2, ← e1, h1]; exact ⟨a2.1, h3⟩
    · cases e1
    · right
      simp only [Prod.mk.injEq, true_and] at e1
      rcases e4 with e5 | ⟨i, hi, m, hr, e5⟩
      · exact absurd e5 e3
      · exact ⟨n, by rw [← e1, h1]; exact a2.1, i, hi, m, hr, by rw [e5]; exact e3, by rw [e5, ← e2]; exact h3⟩

/-- C115, HTTP: in particular a request for the path of a cluster, or anything below it, never goes to the dashboard of
another. -/
theorem C115_http_cluster (hF : Fit d) (n : Nat) {rest : Str} (hb : Below rest) {u : Url}
    (h : (World.run d items).httpTarget (d.pcfg.pfx ++ d.clusterPath n ++ rest) = some u) :
    d.lib.target d.url = some u ∨
    ∃ i ∈ items, ∃ m, i.Reports n m ∧ m.dash ≠ "" ∧ d.lib.target m.dash.toList = some u := by
  rcases C115_http_isolated hF h with h | ⟨m, hk, h'⟩
  · exact Or.inl h.2
  · have : m = n := by
      obtain ⟨more, e, -⟩ := key_cluster hF.pfx (hF.names.ne n) (hF.names.slash n) hb
      obtain ⟨more', e', e''⟩ := key_cluster hF.pfx (hF.names.ne m) (hF.names.slash m) (Or.inl rfl)
      rw [e'' rfl, List.append_nil, List.append_nil] at e'
      have e : key (d.pcfg.pfx ++ d.clusterPath n ++ rest) = _ := e
      have e' : key (d.pcfg.pfx ++ d.clusterPath m) = _ := e'
      rw [e, e', List.append_assoc, List.prefix_append_right_inj] at hk
      obtain ⟨t, ht⟩ := hk
      simp only [List.cons_append, List.nil_append, List.cons.injEq, true_and] at ht
      exact hF.names.inj m n ht.1
    subst this
    exact Or.inr h'

end Verif.EndToEnd

import Verif.Yarn.Model
/-
What holds of clusters on YARN after any history.
-/
set_option linter.unusedSimpArgs false
set_option linter.unusedVariables false
namespace Verif.Yarn

theorem upd_same {α : Type} (f : Nat → α) (k : Nat) (v : α) : upd f k v k = v := by simp [upd]

theorem upd_ne {α : Type} (f : Nat → α) {k x : Nat} (v : α) (h : x ≠ k) : upd f k v x = f x := by simp [upd, h]

/-- The start of the cluster is over: it stays so, and the application of its record does not change. -/
def Settled (w : World) (c : Nat) : Prop := w.stat c = .submitted ∨ w.stat c = .stopping ∨ w.stat c = .stopped

/-- The application `a` was submitted for the cluster, and is running at the address, or has ended. -/
def IsAt (w : World) (c a addr : Nat) : Prop :=
  ∃ app, w.apps a = some app ∧ app.cluster = c ∧ (app.phase = .running addr ∨ app.phase = .ended)

/-- A client for a cluster is one for its own application. -/
def Good (w : World) (c : Nat) (cl : Client) : Prop :=
  cl.creds = c ∧ Settled w c ∧ w.appOf c = some cl.app ∧ IsAt w c cl.app cl.addr

/-- What is known of a call. -/
def CallOk (own : Nat → Nat) (w : World) (c : Call) : Prop :=
  match c.kind with
  | .submit n => (c.waited = true → w.stat n = .starting) ∧
      ∀ a, c.result = some (.ok a) → ∃ app, w.apps a = some app ∧ app.cluster = n
  | .add k cl => Good w (own k) cl ∧ ∀ t, c.result = some (.ok t) → ∃ x, w.conts t = some x ∧ x.worker = k
  | .killCont k cl t => Good w (own k) cl ∧ ∃ x, w.conts t = some x ∧ x.worker = k
  | .killApp n a => Settled w n ∧ w.appOf n = some a ∧
      ∀ r, c.result = some (.ok r) → ∃ app, w.apps a = some app ∧ app.told = true

/-- What holds after any history. -/
structure Inv (own : Nat → Nat) (w : World) : Prop where
  freshApp : ∀ a app, w.apps a = some app → a < w.nApps
  freshCont : ∀ k t, w.conts k = some t → k < w.nConts
  freshCall : ∀ i c, w.calls i = some c → i < w.nCalls
  conts : ∀ k t, w.conts k = some t →
    ∃ app, w.apps t.app = some app ∧ app.cluster = own t.worker ∧ (app.phase = .ended → t.alive = false)
  contOf : ∀ k t, w.contOf k = some t → ∃ x, w.conts t = some x ∧ x.worker = k
  appOf : ∀ c a, w.appOf c = some a → ∃ app, w.apps a = some app ∧ app.cluster = c
  clients : ∀ c cl, (c, cl) ∈ w.clients.cache → Good w c cl
  addrs : ∀ c addr, (c, addr) ∈ w.addrs → Settled w c ∧ ∃ a, w.appOf c = some a ∧ IsAt w c a addr
  calls : ∀ i c, w.calls i = some c → CallOk own w c

/-- What one step does not take back. -/
structure Ext (w w' : World) : Prop where
  apps : ∀ a app, w.apps a = some app → ∃ app', w'.apps a = some app' ∧ app'.cluster = app.cluster ∧
    (app.told = true → app'.told = true) ∧ (app.phase = .ended → app'.phase = .ended) ∧
    (∀ x, app.phase = .running x → app'.phase = .running x ∨ app'.phase = .ended)
  conts : ∀ k t, w.conts k = some t → ∃ t', w'.conts k = some t' ∧ t'.app = t.app ∧ t'.worker = t.worker ∧
    (t'.alive = true → t.alive = true)
  settled : ∀ c, Settled w c → Settled w' c ∧ w'.appOf c = w.appOf c

theorem IsAt.mono {w w' : World} (h : Ext w w') {c a addr : Nat} (g : IsAt w c a addr) : IsAt w' c a addr := by
  obtain ⟨app, h1, h2, h3⟩ := g
  obtain ⟨app', e1, e2, e3, e4, e5⟩ := h.apps a app h1
  refine ⟨app', e1, e2.trans h2, ?_⟩
  rcases h3 with h3 | h3
  · exact e5 _ h3
  · exact Or.inr (e4 h3)

theorem Good.mono {w w' : World} (h : Ext w w') {c : Nat} {cl : Client} (g : Good w c cl) : Good w' c cl := by
  obtain ⟨h1, h2, h3, h4⟩ := g
  obtain ⟨s1, s2⟩ := h.settled c h2
  exact ⟨h1, s1, s2.trans h3, h4.mono h⟩

theorem app_mono {w w' : World} (h : Ext w w') {a c : Nat} (g : ∃ app, w.apps a = some app ∧ app.cluster = c) :
    ∃ app, w'.apps a = some app ∧ app.cluster = c := by
  obtain ⟨app, h1, h2⟩ := g
  obtain ⟨app', e1, e2, _⟩ := h.apps a app h1
  exact ⟨app', e1, e2.trans h2⟩

theorem told_mono {w w' : World} (h : Ext w w') {a : Nat} (g : ∃ app, w.apps a = some app ∧ app.told = true) :
    ∃ app, w'.apps a = some app ∧ app.told = true := by
  obtain ⟨app, h1, h2⟩ := g
  obtain ⟨app', e1, _, e3, _⟩ := h.apps a app h1
  exact ⟨app', e1, e3 h2⟩

theorem cont_mono {w w' : World} (h : Ext w w') {t k : Nat} (g : ∃ x, w.conts t = some x ∧ x.worker = k) :
    ∃ x, w'.conts t = some x ∧ x.worker = k := by
  obtain ⟨x, h1, h2⟩ := g
  obtain ⟨x', e1, _, e3, _⟩ := h.conts t x h1
  exact ⟨x', e1, e3.trans h2⟩

/-- What is known of a call stays so, where submissions that are waited for are still under way. -/
theorem CallOk.mono {own : Nat → Nat} {w w' : World} (h : Ext w w') {c : Call} (g : CallOk own w c)
    (hs : ∀ n, c.kind = .submit n → c.waited = true → w'.stat n = .starting) : CallOk own w' c := by
  obtain ⟨k, r, wt⟩ := c
  cases k with
  | submit n => exact ⟨hs n rfl, fun a ha => app_mono h (g.2 a ha)⟩
  | add k cl => exact ⟨g.1.mono h, fun t ht => cont_mono h (g.2 t ht)⟩
  | killCont k cl t => exact ⟨g.1.mono h, cont_mono h g.2⟩
  | killApp n a =>
    obtain ⟨s1, s2⟩ := h.settled n g.1
    exact ⟨s1, s2.trans g.2.1, fun r hr => told_mono h (g.2.2 r hr)⟩

theorem Ext.refl (w : World) : Ext w w :=
  ⟨fun a app h => ⟨app, h, rfl, id, id, fun x hx => Or.inl hx⟩, fun k t h => ⟨t, h, rfl, rfl, id⟩,
    fun c h => ⟨h, rfl⟩⟩

/-- Only the states of clusters and other parts that do not matter here change. -/
theorem Ext.same {w w' : World} (ha : w'.apps = w.apps) (hc : w'.conts = w.conts)
    (hs : ∀ c, Settled w c → Settled w' c ∧ w'.appOf c = w.appOf c) : Ext w w' := by
  refine ⟨?_, ?_, hs⟩
  · intro a app h
    rw [ha]
    exact ⟨app, h, rfl, id, id, fun x hx => Or.inl hx⟩
  · intro k t h
    rw [hc]
    exact ⟨t, h, rfl, rfl, id⟩

/-! ### The caches -/

theorem find_mem {α β : Type} [DecidableEq α] {d : List (α × β)} {k : α} {v : β} (h : Utils.find d k = some v) :
    (k, v) ∈ d := by
  unfold Utils.find at h
  cases hf : d.find? (fun e => e.1 = k) with
  | none => rw [hf] at h; cases h
  | some e =>
    rw [hf] at h
    have h1 := List.find?_some hf
    have h2 := List.mem_of_find?_eq_some hf
    simp only [decide_eq_true_eq] at h1
    have h3 : e.2 = v := Option.some.inj h
    rw [← h1, ← h3]
    exact h2

theorem mem_assign {α β : Type} [DecidableEq α] {d : List (α × β)} {k : α} {v : β} {e : α × β}
    (h : e ∈ Utils.assign d k v) : e = (k, v) ∨ (e ∈ d ∧ e.1 ≠ k) ∨ (e ∈ d ∧ Utils.find d k = none) := by
  unfold Utils.assign at h
  by_cases hf : (Utils.find d k).isSome = true
  · rw [if_pos hf] at h
    obtain ⟨x, hx, hxe⟩ := List.mem_map.mp h
    by_cases hk : x.1 = k
    · rw [if_pos hk] at hxe; exact Or.inl hxe.symm
    · rw [if_neg hk] at hxe; subst hxe; exact Or.inr (Or.inl ⟨hx, hk⟩)
  · rw [if_neg hf] at h
    rcases List.mem_append.mp h with h | h
    · exact Or.inr (Or.inr ⟨h, by cases hh : Utils.find d k with | none => rfl | some _ => rw [hh] at hf; exact absurd rfl hf⟩)
    · exact Or.inl (List.mem_singleton.mp h)

theorem mem_assign' {α β : Type} [DecidableEq α] {d : List (α × β)} {k : α} {v : β} {e : α × β}
    (h : e ∈ Utils.assign d k v) : e = (k, v) ∨ e ∈ d := by
  rcases mem_assign h with h | h | h
  · exact Or.inl h
  · exact Or.inr h.1
  · exact Or.inr h.1

theorem mem_get {c : Utils.Lru Nat Client} {k : Nat} {e : Nat × Client} (h : e ∈ (c.get k).2.cache) : e ∈ c.cache := by
  unfold Utils.Lru.get at h
  cases hf : Utils.find c.cache k with
  | none => rw [hf] at h; exact h
  | some v =>
    rw [hf] at h
    rcases List.mem_append.mp h with h | h
    · exact (List.mem_filter.mp h).1
    · rw [List.mem_singleton.mp h]; exact find_mem hf

theorem get_some {c : Utils.Lru Nat Client} {k : Nat} {v : Client} (h : (c.get k).1 = some v) : (k, v) ∈ c.cache := by
  unfold Utils.Lru.get at h
  cases hf : Utils.find c.cache k with
  | none => rw [hf] at h; cases h
  | some x => rw [hf] at h; cases h; exact find_mem hf

theorem mem_put {c : Utils.Lru Nat Client} {k : Nat} {v : Client} {e : Nat × Client} (h : e ∈ (c.put k v).cache) :
    e = (k, v) ∨ e ∈ c.cache := by
  unfold Utils.Lru.put at h
  by_cases hl : c.maxSize < (Utils.assign c.cache k v).length
  · rw [if_pos hl] at h; exact mem_assign' (List.mem_of_mem_tail h)
  · rw [if_neg hl] at h; exact mem_assign' h

theorem mem_discard {c : Utils.Lru Nat Client} {k : Nat} {e : Nat × Client} (h : e ∈ (c.discard k).cache) :
    e ∈ c.cache ∧ e.1 ≠ k := by
  have := List.mem_filter.mp h
  exact ⟨this.1, by simpa using this.2⟩

theorem mem_erase {d : List (Nat × Nat)} {k : Nat} {e : Nat × Nat} (h : e ∈ Utils.erase d k) : e ∈ d ∧ e.1 ≠ k := by
  have := List.mem_filter.mp h
  exact ⟨this.1, by simpa using this.2⟩

/-! ### `_get_app_client` -/

/-- All that `_get_app_client` changes are the caches, where only entries of this cluster are new. -/
theorem getClient_shape (w : World) (c : Nat) :
    ∃ cs as, (w.getClient c).2 = { w with clients := cs, addrs := as } ∧
      (∀ e ∈ cs.cache, e ∈ w.clients.cache ∨ (e.1 = c ∧ (w.getClient c).1 = some e.2)) ∧
      (∀ e ∈ as, e ∈ w.addrs ∨ (e.1 = c ∧ ∃ a, w.appOf c = some a ∧ w.report a = some e.2)) ∧
      (∀ cl, (w.getClient c).1 = some cl → (c, cl) ∈ w.clients.cache ∨
        ∃ addr, cl.creds = c ∧ cl.addr = addr ∧ w.appOf c = some cl.app ∧
          ((c, addr) ∈ w.addrs ∨ w.report cl.app = some addr)) := by
  unfold World.getClient
  cases hg : w.clients.get c with
  | mk o cs =>
    have hcs : (w.clients.get c).2 = cs := by rw [hg]
    have hgo : (w.clients.get c).1 = o := by rw [hg]
    cases o with
    | some cl =>
      refine ⟨cs, w.addrs, rfl, ?_, fun e he => Or.inl he, ?_⟩
      · intro e he
        rw [← hcs] at he
        exact Or.inl (mem_get he)
      · intro cl' h
        cases h
        exact Or.inl (get_some hgo)
    | none =>
      cases ha : w.appOf c with
      | none => exact ⟨w.clients, w.addrs, rfl, fun e he => Or.inl he, fun e he => Or.inl he, fun cl h => by cases h⟩
      | some a =>
        cases hf : Utils.find w.addrs c with
        | some addr =>
          refine ⟨w.clients.put c ⟨a, addr, c⟩, w.addrs, rfl, ?_, fun e he => Or.inl he, ?_⟩
          · intro e he
            rcases mem_put he with h | h
            · rw [h]; exact Or.inr ⟨rfl, rfl⟩
            · exact Or.inl h
          · intro cl h
            cases h
            exact Or.inr ⟨addr, rfl, rfl, rfl, Or.inl (find_mem hf)⟩
        | none =>
          dsimp only
          cases hr : w.report a with
          | none => exact ⟨w.clients, w.addrs, rfl, fun e he => Or.inl he, fun e he => Or.inl he, fun cl h => by cases h⟩
          | some addr =>
            refine ⟨w.clients.put c ⟨a, addr, c⟩, Utils.assign w.addrs c addr, rfl, ?_, ?_, ?_⟩
            · intro e he
              rcases mem_put he with h | h
              · rw [h]; exact Or.inr ⟨rfl, rfl⟩
              · exact Or.inl h
            · intro e he
              rcases mem_assign' he with h | h
              · rw [h]; exact Or.inr ⟨rfl, a, rfl, hr⟩
              · exact Or.inl h
            · intro cl h
              cases h
              exact Or.inr ⟨addr, rfl, rfl, rfl, Or.inr hr⟩

theorem report_isAt {own : Nat → Nat} {w : World} (h : Inv own w) {c a addr : Nat} (ha : w.appOf c = some a)
    (hr : w.report a = some addr) : IsAt w c a addr := by
  obtain ⟨app, h1, h2⟩ := h.appOf c a ha
  unfold World.report at hr
  rw [h1] at hr
  obtain ⟨cc, ph, td⟩ := app
  cases ph with
  | running x => cases hr; exact ⟨_, h1, h2, Or.inl rfl⟩
  | accepted => cases hr
  | ended => cases hr

theorem getClient_good {own : Nat → Nat} {w : World} (h : Inv own w) {c : Nat} (hs : Settled w c) {cl : Client}
    (hc : (w.getClient c).1 = some cl) : Good w c cl := by
  obtain ⟨cs, as, _, _, _, h4⟩ := getClient_shape w c
  rcases h4 cl hc with h' | ⟨addr, h1, h2, h3, h5⟩
  · exact h.clients c cl h'
  · refine ⟨h1, hs, h3, ?_⟩
    rw [h2]
    rcases h5 with h5 | h5
    · obtain ⟨_, a, e1, e2⟩ := h.addrs c addr h5
      rw [h3] at e1
      cases e1
      exact e2
    · exact report_isAt h h3 h5

theorem inv_getClient {own : Nat → Nat} {w : World} (h : Inv own w) {c : Nat} (hs : Settled w c) :
    Inv own (w.getClient c).2 := by
  have hgood := fun cl => getClient_good h hs (cl := cl)
  obtain ⟨cs, as, e, h2, h3, _⟩ := getClient_shape w c
  rw [e]
  refine ⟨h.freshApp, h.freshCont, h.freshCall, h.conts, h.contOf, h.appOf, ?_, ?_, h.calls⟩
  · intro c' cl hm
    rcases h2 _ hm with h' | ⟨h', h''⟩
    · exact h.clients c' cl h'
    · cases h'; exact hgood cl h''
  · intro c' addr hm
    rcases h3 _ hm with h' | ⟨h', a, h1, h''⟩
    · exact h.addrs c' addr h'
    · cases h'; exact ⟨hs, a, h1, report_isAt h h1 h''⟩

/-! ### Steps that change states and calls only -/

/-- Where applications and containers stay as they are. -/
theorem inv_states {own : Nat → Nat} {w w' : World} (h : Inv own w)
    (ha : w'.apps = w.apps) (hna : w'.nApps = w.nApps) (hc : w'.conts = w.conts) (hnc : w'.nConts = w.nConts)
    (hs : ∀ c, Settled w c → Settled w' c ∧ w'.appOf c = w.appOf c)
    (happ : ∀ c a, w'.appOf c = some a → ∃ app, w.apps a = some app ∧ app.cluster = c)
    (hco : ∀ k t, w'.contOf k = some t → ∃ x, w.conts t = some x ∧ x.worker = k)
    (hcl : ∀ e ∈ w'.clients.cache, e ∈ w.clients.cache) (had : ∀ e ∈ w'.addrs, e ∈ w.addrs)
    (hf : ∀ i c, w'.calls i = some c → i < w'.nCalls)
    (hcalls : ∀ i c, w'.calls i = some c → CallOk own w' c) : Inv own w' := by
  have he : Ext w w' := Ext.same ha hc hs
  refine ⟨?_, ?_, hf, ?_, ?_, ?_, ?_, ?_, hcalls⟩
  · rw [ha, hna]; exact h.freshApp
  · rw [hc, hnc]; exact h.freshCont
  · rw [ha, hc]; exact h.conts
  · rw [hc]; exact hco
  · rw [ha]; exact happ
  · intro c cl hm; exact (h.clients c cl (hcl _ hm)).mono he
  · intro c addr hm
    obtain ⟨h1, a, h2, h3⟩ := h.addrs c addr (had _ hm)
    obtain ⟨s1, s2⟩ := hs c h1
    exact ⟨s1, a, s2.trans h2, h3.mono he⟩

/-- A new call. -/
theorem inv_call {own : Nat → Nat} {w : World} (h : Inv own w) (k : Kind) (hk : CallOk own w ⟨k, none, true⟩) :
    Inv own (w.call k) := by
  refine inv_states h rfl rfl rfl rfl (fun c hc => ⟨hc, rfl⟩) h.appOf h.contOf (fun e he => he) (fun e he => he) ?_ ?_
  · intro i c hi
    show i < w.nCalls + 1
    by_cases he : i = w.nCalls
    · omega
    · have hi' : upd w.calls w.nCalls (some ⟨k, none, true⟩) i = some c := hi
      rw [upd_ne _ _ he] at hi'
      have := h.freshCall i c hi'
      omega
  · intro i c hi
    have hext : Ext w (w.call k) := Ext.same rfl rfl (fun c hc => ⟨hc, rfl⟩)
    have hi' : upd w.calls w.nCalls (some ⟨k, none, true⟩) i = some c := hi
    by_cases he : i = w.nCalls
    · rw [he, upd_same] at hi'
      cases hi'
      refine hk.mono hext ?_
      intro n hn hw
      cases hn
      exact hk.1 rfl
    · rw [upd_ne _ _ he] at hi'
      refine (h.calls i c hi').mono hext ?_
      intro n hn hw
      have := h.calls i c hi'
      unfold CallOk at this
      rw [hn] at this
      exact this.1 hw

/-- A submission that is waited for is under way. -/
theorem submit_starting {own : Nat → Nat} {w : World} (h : Inv own w) {i : Nat} {c : Call} (hi : w.calls i = some c)
    {n : Nat} (hn : c.kind = .submit n) (hw : c.waited = true) : w.stat n = .starting := by
  have := h.calls i c hi
  unfold CallOk at this
  rw [hn] at this
  exact this.1 hw

/-- The state of one cluster changes. -/
theorem inv_stat {own : Nat → Nat} {w : World} (h : Inv own w) (n : Nat) (s : CStat)
    (hs : Settled w n → s = .submitted ∨ s = .stopping ∨ s = .stopped)
    (hnot : ∀ i c, w.calls i = some c → c.kind = .submit n → c.waited = true → s = .starting) :
    Inv own { w with stat := upd w.stat n s } := by
  have hset : ∀ c, Settled w c → Settled { w with stat := upd w.stat n s } c ∧ ({ w with stat := upd w.stat n s } : World).appOf c = w.appOf c := by
    intro c hc
    refine ⟨?_, rfl⟩
    unfold Settled
    by_cases e : c = n
    · subst e
      show upd w.stat c s c = _ ∨ upd w.stat c s c = _ ∨ upd w.stat c s c = _
      rw [upd_same]
      exact hs hc
    · show upd w.stat n s c = _ ∨ upd w.stat n s c = _ ∨ upd w.stat n s c = _
      rw [upd_ne _ _ e]
      exact hc
  refine inv_states h rfl rfl rfl rfl hset h.appOf h.contOf (fun e he => he) (fun e he => he) h.freshCall ?_
  intro i c hi
  refine (h.calls i c hi).mono (w := w) (w' := { w with stat := upd w.stat n s }) (Ext.same rfl rfl hset) ?_
  intro m hm hw
  show upd w.stat n s m = .starting
  by_cases e : m = n
  · subst e; rw [upd_same]; exact hnot i c hi hm hw
  · rw [upd_ne _ _ e]; exact submit_starting h hi hm hw

/-- Only the states of workers change. -/
theorem inv_wstat {own : Nat → Nat} {w : World} (h : Inv own w) (f : Nat → WStat) : Inv own { w with wstat := f } := by
  refine inv_states h rfl rfl rfl rfl (fun c hc => ⟨hc, rfl⟩) h.appOf h.contOf (fun e he => he) (fun e he => he) h.freshCall ?_
  intro i c hi
  exact (h.calls i c hi).mono (w := w) (w' := { w with wstat := f }) (Ext.same rfl rfl (fun c hc => ⟨hc, rfl⟩)) (fun n hn hw => submit_starting h hi hn hw)

/-- A call gets another entry. -/
theorem inv_entry {own : Nat → Nat} {w : World} (h : Inv own w) (i : Nat) {c : Call} (hi : w.calls i = some c) (c' : Call)
    (hc : CallOk own w c') : Inv own { w with calls := upd w.calls i (some c') } := by
  have hext : Ext w { w with calls := upd w.calls i (some c') } := Ext.same rfl rfl (fun c hc => ⟨hc, rfl⟩)
  refine inv_states h rfl rfl rfl rfl (fun c hc => ⟨hc, rfl⟩) h.appOf h.contOf (fun e he => he) (fun e he => he) ?_ ?_
  · intro j d hj
    have hj' : upd w.calls i (some c') j = some d := hj
    by_cases e : j = i
    · subst e; exact h.freshCall j c hi
    · rw [upd_ne _ _ e] at hj'; exact h.freshCall j d hj'
  · intro j d hj
    have hj' : upd w.calls i (some c') j = some d := hj
    by_cases e : j = i
    · subst e
      rw [upd_same] at hj'
      cases hj'
      refine hc.mono hext ?_
      intro n hn hw
      unfold CallOk at hc
      rw [hn] at hc
      exact hc.1 hw
    · rw [upd_ne _ _ e] at hj'
      exact (h.calls j d hj').mono hext (fun n hn hw => submit_starting h hj' hn hw)

theorem callOk_leave {own : Nat → Nat} {w : World} {c : Call} (h : CallOk own w c) :
    CallOk own w { c with waited := false } := by
  obtain ⟨k, r, wt⟩ := c
  cases k with
  | submit n => exact ⟨fun e => (by cases e), h.2⟩
  | add k cl => exact h
  | killCont k cl t => exact h
  | killApp n a => exact h

theorem callOk_error {own : Nat → Nat} {w : World} {c : Call} (h : CallOk own w c) :
    CallOk own w { c with result := some .error } := by
  obtain ⟨k, r, wt⟩ := c
  cases k with
  | submit n => exact ⟨h.1, fun a e => (by cases e)⟩
  | add k cl => exact ⟨h.1, fun a e => (by cases e)⟩
  | killCont k cl t => exact h
  | killApp n a => exact ⟨h.1, h.2.1, fun a e => (by cases e)⟩

theorem inv_leave {own : Nat → Nat} {w : World} (h : Inv own w) {i : Nat} {c : Call} (hi : w.calls i = some c) :
    Inv own (w.leave i c) := inv_entry h i hi _ (callOk_leave (h.calls i c hi))

theorem inv_error {own : Nat → Nat} {w : World} (h : Inv own w) {i : Nat} {c : Call} (hi : w.calls i = some c) :
    Inv own (w.answer i c .error) := inv_entry h i hi _ (callOk_error (h.calls i c hi))

end Verif.Yarn

import Verif.Handshake.Model
import Verif.Router.Lemmas2
/-
C138: whoever a client, a scheduler or a worker of a cluster is connected to holds the key of that cluster.
C139: those who hold the credentials of a cluster can connect to each other.
C140: the credentials of a client do not stay on disk.
-/
set_option linter.unusedSimpArgs false
set_option linter.unusedVariables false
namespace Verif.Handshake

/-! ### The invariant -/

/-- What is known of the world after the operations `ops`. -/
structure Inv (ops : List Op) (w : World) : Prop where
  made : ∀ n p, (n, p) ∈ w.clusters → p.2 < w.fresh ∧ ∃ t, p = newKeypair n p.2 t
  names : (w.clusters.map (·.1)).Nodup
  keys : ∀ n p n' p', (n, p) ∈ w.clusters → (n', p') ∈ w.clusters → p.2 = p'.2 → n = n' ∧ p = p'
  old : ∀ q k, (q, k) ∈ w.holds → k < w.fresh
  certs : ∀ c ∈ w.certs, (∃ n p, (n, p) ∈ w.clusters ∧ p.1 = c) ∨
    ∃ p k c', Op.sign p k c' ∈ ops ∧ (p, k) ∈ w.holds ∧ c.signer = k
  got : ∀ n p q, (n, p) ∈ w.clusters → (q, p.2) ∈ w.holds →
    Op.hand n q ∈ ops ∨ ∃ p', Op.pass p' q p.2 ∈ ops ∧ (p', p.2) ∈ w.holds

theorem run_snoc (w : World) (ops : List Op) (op : Op) : w.run (ops ++ [op]) = (w.run ops).step op := by
  simp [World.run]

theorem mem_snoc_left {α : Type _} {x : α} {l : List α} (y : α) (h : x ∈ l) : x ∈ l ++ [y] :=
  List.mem_append_left _ h

theorem Inv.mono {ops : List Op} {w : World} (h : Inv ops w) (op : Op) : Inv (ops ++ [op]) w := by
  refine ⟨h.made, h.names, h.keys, h.old, ?_, ?_⟩
  · intro c hc
    rcases h.certs c hc with h' | ⟨p, k, c', h1, h2, h3⟩
    · exact Or.inl h'
    · exact Or.inr ⟨p, k, c', mem_snoc_left _ h1, h2, h3⟩
  · intro n p q hn hq
    rcases h.got n p q hn hq with h' | ⟨p', h1, h2⟩
    · exact Or.inl (mem_snoc_left _ h')
    · exact Or.inr ⟨p', mem_snoc_left _ h1, h2⟩

theorem inv_init : Inv [] World.init := by
  refine ⟨?_, by simp [World.init], ?_, ?_, ?_, ?_⟩ <;> intros <;> simp_all [World.init]

theorem inv_create {ops : List Op} {w : World} (h : Inv ops w) (name : Str) (now : Nat)
    (hn : lookup w.clusters name = none) :
    Inv (ops ++ [Op.create name now])
      { w with fresh := w.fresh + 1, clusters := w.clusters ++ [(name, newKeypair name w.fresh now)],
               certs := w.certs ++ [(newKeypair name w.fresh now).1] } := by
  have hm := h.mono (Op.create name now)
  have hnot : ∀ p, (name, p) ∉ w.clusters := by
    intro p hp
    have := lookup_eq_none.mp hn
    exact this (List.mem_map_of_mem (f := (·.1)) hp)
  refine ⟨?_, ?_, ?_, ?_, ?_, ?_⟩
  · intro n p hp
    rcases List.mem_append.mp hp with hp | hp
    · obtain ⟨h1, t, h2⟩ := h.made n p hp
      exact ⟨Nat.lt_succ_of_lt h1, t, h2⟩
    · simp only [List.mem_singleton, Prod.mk.injEq] at hp
      obtain ⟨rfl, rfl⟩ := hp
      exact ⟨Nat.lt_succ_self _, now, rfl⟩
  · show ((w.clusters ++ _).map (·.1)).Nodup
    rw [List.map_append, List.nodup_append]
    refine ⟨h.names, by simp, ?_⟩
    intro a ha b hb
    simp only [List.map_cons, List.map_nil, List.mem_singleton] at hb
    subst hb
    intro hab
    obtain ⟨x, hx, hxa⟩ := List.mem_map.mp ha
    exact hnot x.2 (by rw [← hab, ← hxa]; exact hx)
  · intro n p n' p' hp hp' hk
    rcases List.mem_append.mp hp with h1 | h1 <;> rcases List.mem_append.mp hp' with h2 | h2
    · exact h.keys n p n' p' h1 h2 hk
    · have h3 := (h.made n p h1).1
      have h4 : p'.2 = w.fresh := by rw [(Prod.mk.inj (List.mem_singleton.mp h2)).2]; rfl
      exact absurd (hk.trans h4) (Nat.ne_of_lt h3)
    · have h3 := (h.made n' p' h2).1
      have h4 : p.2 = w.fresh := by rw [(Prod.mk.inj (List.mem_singleton.mp h1)).2]; rfl
      exact absurd (hk.symm.trans h4) (Nat.ne_of_lt h3)
    · simp only [List.mem_singleton, Prod.mk.injEq] at h1 h2
      exact ⟨h1.1.trans h2.1.symm, h1.2.trans h2.2.symm⟩
  · intro q k hq
    exact Nat.lt_succ_of_lt (h.old q k hq)
  · intro c hc
    rcases List.mem_append.mp hc with hc | hc
    · rcases hm.certs c hc with ⟨n, p, h1, h2⟩ | h'
      · exact Or.inl ⟨n, p, List.mem_append_left _ h1, h2⟩
      · exact Or.inr h'
    · simp only [List.mem_singleton] at hc
      exact Or.inl ⟨name, newKeypair name w.fresh now, List.mem_append_right _ (by simp), hc.symm⟩
  · intro n p q hp hq
    rcases List.mem_append.mp hp with hp | hp
    · exact hm.got n p q hp hq
    · simp only [List.mem_singleton, Prod.mk.injEq] at hp
      obtain ⟨rfl, rfl⟩ := hp
      exact absurd (h.old q w.fresh hq) (Nat.lt_irrefl _)

theorem inv_hand {ops : List Op} {w : World} (h : Inv ops w) (name : Str) (q : Party) (p : Cert × Key)
    (hn : lookup w.clusters name = some p) :
    Inv (ops ++ [Op.hand name q]) { w with holds := w.holds ++ [(q, p.2)] } := by
  have hm := h.mono (Op.hand name q)
  have hp := mem_of_lookup hn
  refine ⟨hm.made, hm.names, hm.keys, ?_, ?_, ?_⟩
  · intro q' k hq
    rcases List.mem_append.mp hq with hq | hq
    · exact h.old q' k hq
    · simp only [List.mem_singleton, Prod.mk.injEq] at hq
      rw [hq.2]; exact (h.made name p hp).1
  · intro c hc
    rcases hm.certs c hc with h' | ⟨p', k, c', h1, h2, h3⟩
    · exact Or.inl h'
    · exact Or.inr ⟨p', k, c', h1, List.mem_append_left _ h2, h3⟩
  · intro n p' q' hp' hq
    rcases List.mem_append.mp hq with hq | hq
    · rcases hm.got n p' q' hp' hq with h' | ⟨p'', h1, h2⟩
      · exact Or.inl h'
      · exact Or.inr ⟨p'', h1, List.mem_append_left _ h2⟩
    · simp only [List.mem_singleton, Prod.mk.injEq] at hq
      obtain ⟨h1, h2⟩ := h.keys n p' name p hp' hp hq.2
      rw [h1, hq.1]
      exact Or.inl (by simp)

theorem inv_own {ops : List Op} {w : World} (h : Inv ops w) (q : Party) :
    Inv (ops ++ [Op.own q]) { w with fresh := w.fresh + 1, holds := w.holds ++ [(q, w.fresh)] } := by
  have hm := h.mono (Op.own q)
  refine ⟨?_, hm.names, hm.keys, ?_, ?_, ?_⟩
  · intro n p hp
    obtain ⟨h1, t, h2⟩ := h.made n p hp
    exact ⟨Nat.lt_succ_of_lt h1, t, h2⟩
  · intro q' k hq
    rcases List.mem_append.mp hq with hq | hq
    · exact Nat.lt_succ_of_lt (h.old q' k hq)
    · simp only [List.mem_singleton, Prod.mk.injEq] at hq
      rw [hq.2]; exact Nat.lt_succ_self _
  · intro c hc
    rcases hm.certs c hc with h' | ⟨p', k, c', h1, h2, h3⟩
    · exact Or.inl h'
    · exact Or.inr ⟨p', k, c', h1, List.mem_append_left _ h2, h3⟩
  · intro n p' q' hp' hq
    rcases List.mem_append.mp hq with hq | hq
    · rcases hm.got n p' q' hp' hq with h' | ⟨p'', h1, h2⟩
      · exact Or.inl h'
      · exact Or.inr ⟨p'', h1, List.mem_append_left _ h2⟩
    · simp only [List.mem_singleton, Prod.mk.injEq] at hq
      have := (h.made n p' hp').1
      rw [hq.2] at this
      exact absurd this (Nat.lt_irrefl _)

theorem inv_pass {ops : List Op} {w : World} (h : Inv ops w) (p q : Party) (k : Key) (hk : (p, k) ∈ w.holds) :
    Inv (ops ++ [Op.pass p q k]) { w with holds := w.holds ++ [(q, k)] } := by
  have hm := h.mono (Op.pass p q k)
  refine ⟨hm.made, hm.names, hm.keys, ?_, ?_, ?_⟩
  · intro q' k' hq
    rcases List.mem_append.mp hq with hq | hq
    · exact h.old q' k' hq
    · simp only [List.mem_singleton, Prod.mk.injEq] at hq
      rw [hq.2]; exact h.old p k hk
  · intro c hc
    rcases hm.certs c hc with h' | ⟨p', k', c', h1, h2, h3⟩
    · exact Or.inl h'
    · exact Or.inr ⟨p', k', c', h1, List.mem_append_left _ h2, h3⟩
  · intro n p' q' hp' hq
    rcases List.mem_append.mp hq with hq | hq
    · rcases hm.got n p' q' hp' hq with h' | ⟨p'', h1, h2⟩
      · exact Or.inl h'
      · exact Or.inr ⟨p'', h1, List.mem_append_left _ h2⟩
    · simp only [List.mem_singleton, Prod.mk.injEq] at hq
      right
      refine ⟨p, ?_, ?_⟩
      · rw [hq.1, hq.2]; simp
      · rw [hq.2]; exact List.mem_append_left _ hk

theorem inv_sign {ops : List Op} {w : World} (h : Inv ops w) (p : Party) (k : Key) (c : Cert) (hk : (p, k) ∈ w.holds) :
    Inv (ops ++ [Op.sign p k c]) { w with certs := w.certs ++ [{ c with signer := k }] } := by
  have hm := h.mono (Op.sign p k c)
  refine ⟨hm.made, hm.names, hm.keys, hm.old, ?_, hm.got⟩
  intro c' hc
  rcases List.mem_append.mp hc with hc | hc
  · exact hm.certs c' hc
  · simp only [List.mem_singleton] at hc
    exact Or.inr ⟨p, k, c, by simp, hk, by rw [hc]⟩

theorem inv_step {ops : List Op} {w : World} (h : Inv ops w) (op : Op) : Inv (ops ++ [op]) (w.step op) := by
  cases op with
  | create name now =>
    cases hn : lookup w.clusters name with
    | some p => simp only [World.step, hn]; exact h.mono _
    | none => simp only [World.step, hn]; exact inv_create h name now hn
  | hand name q =>
    cases hn : lookup w.clusters name with
    | some p => simp only [World.step, hn]; exact inv_hand h name q p hn
    | none => simp only [World.step, hn]; exact h.mono _
  | own q => exact inv_own h q
  | pass p q k =>
    by_cases hk : (p, k) ∈ w.holds
    · simp only [World.step, if_pos hk]; exact inv_pass h p q k hk
    · simp only [World.step, if_neg hk]; exact h.mono _
  | sign p k c =>
    by_cases hk : (p, k) ∈ w.holds
    · simp only [World.step, if_pos hk]; exact inv_sign h p k c hk
    · simp only [World.step, if_neg hk]; exact h.mono _

theorem inv_run (ops : List Op) : Inv ops (World.init.run ops) := by
  induction ops using Router.snoc_induction with
  | nil => exact inv_init
  | snoc ops op ih => rw [run_snoc]; exact inv_step ih op

/-! ### C138 -/

/-- All certificates of an accepted chain belong to the key of the cluster, unless somebody signed with it. -/
theorem chain_keys {ops : List Op} {w : World} (h : Inv ops w) {name : Str} {cert : Cert} {key : Key}
    (hc : (name, (cert, key)) ∈ w.clusters) (now : Nat) :
    ∀ chain : List Cert, chainOk cert now chain = true → (∀ c ∈ chain, c ∈ w.certs) →
      (∃ p c, Op.sign p key c ∈ ops ∧ (p, key) ∈ w.holds) ∨ ∀ c ∈ chain, c.key = key := by
  have hkey : cert.key = key := by
    obtain ⟨_, t, h2⟩ := h.made _ _ hc
    have := congrArg (fun p : Cert × Key => p.1.key) h2
    exact this
  intro chain
  induction chain with
  | nil => intro _ _; exact Or.inr (by intro c hc; cases hc)
  | cons c rest ih =>
    intro hok hin
    simp only [chainOk, Bool.and_eq_true] at hok
    rcases ih hok.2 (fun x hx => hin x (List.mem_cons_of_mem _ hx)) with hs | hall
    · exact Or.inl hs
    · have hsig : c.signer = key := by
        have h1 := hok.1.2
        simp only [issuedBy, Bool.and_eq_true, decide_eq_true_eq] at h1
        rw [h1.2]
        cases rest with
        | nil => exact hkey
        | cons d r => exact hall d (by simp)
      rcases h.certs c (hin c (by simp)) with ⟨n, p, h1, h2⟩ | ⟨p, k, c', h1, h2, h3⟩
      · obtain ⟨_, t, h4⟩ := h.made n p h1
        have h5 : p.1.signer = p.2 := by
          have := congrArg (fun p : Cert × Key => p.1.signer) h4; exact this
        have h6 : p.1.key = p.2 := by
          have := congrArg (fun p : Cert × Key => p.1.key) h4; exact this
        right
        intro x hx
        rcases List.mem_cons.mp hx with rfl | hx
        · rw [← h2, h6, ← h5, h2, hsig]
        · exact hall x hx
      · left
        rw [hsig] at h3
        subst h3
        exact ⟨p, c', h1, h2⟩

theorem args_some {cert : Cert} {key : Key} {ctx : Context} (h : connectionArgs cert key = some ctx) :
    ctx = ⟨cert, cert, key, true, false⟩ ∧ cert.key = key := by
  simp only [connectionArgs, loadCertChain] at h
  by_cases hk : cert.key = key
  · rw [if_pos hk] at h; exact ⟨(Option.some.inj h).symm, hk⟩
  · rw [if_neg hk] at h; cases h

theorem accepts_verified {cert : Cert} {key : Key} {asked : Option Str} {now : Nat} {o : Offer}
    (h : accepts ⟨cert, cert, key, true, false⟩ asked now o = true) :
    ∃ leaf rest, o.chain = leaf :: rest ∧ o.key = leaf.key ∧ chainOk cert now o.chain = true := by
  unfold accepts at h
  cases hch : o.chain with
  | nil => rw [hch] at h; cases h
  | cons leaf rest =>
    rw [hch] at h
    simp only [Bool.not_true, Bool.false_or, Bool.not_false, Bool.true_or, Bool.and_true, Bool.and_eq_true,
      decide_eq_true_eq] at h
    exact ⟨leaf, rest, rfl, h.1, h.2⟩

/-- C138: whoever an end with the credentials of a cluster accepts holds the key of the cluster, or somebody who holds
it has signed a certificate with it. This is so for everything that clusters, users and others may have done
before, and whatever they show. -/
theorem C138_peer (ops : List Op) (name : Str) (cert : Cert) (key : Key) (ctx : Context)
    (hc : lookup (World.init.run ops).clusters name = some (cert, key))
    (hctx : connectionArgs cert key = some ctx)
    (q : Party) (o : Offer) (hq : (World.init.run ops).canShow q o) (asked : Option Str) (now : Nat)
    (ha : accepts ctx asked now o = true) :
    (q, key) ∈ (World.init.run ops).holds ∨
      ∃ p c, Op.sign p key c ∈ ops ∧ (p, key) ∈ (World.init.run ops).holds := by
  obtain ⟨rfl, _⟩ := args_some hctx
  obtain ⟨leaf, rest, h1, h2, h3⟩ := accepts_verified ha
  rcases chain_keys (inv_run ops) (mem_of_lookup hc) now o.chain h3 hq.1 with h | h
  · exact Or.inr h
  · left
    have := h leaf (by rw [h1]; simp)
    rw [← this, ← h2]
    exact hq.2

/-- C138: whoever holds the key of a cluster was handed it by the gateway, or got it from somebody who holds it. -/
theorem C138_holders (ops : List Op) (name : Str) (cert : Cert) (key : Key)
    (hc : lookup (World.init.run ops).clusters name = some (cert, key))
    (q : Party) (hq : (q, key) ∈ (World.init.run ops).holds) :
    Op.hand name q ∈ ops ∨ ∃ p, Op.pass p q key ∈ ops ∧ (p, key) ∈ (World.init.run ops).holds :=
  (inv_run ops).got name (cert, key) q (mem_of_lookup hc) hq

/-- C138: as long as those who were handed the credentials of a cluster neither pass on its key nor sign with it, every
connection of an end with these credentials, through `connect` of the client, is with somebody to whom the gateway
handed the credentials of this very cluster, wherever the proxy or anyone on the way has led it. -/
theorem C138_strangers (ops : List Op) (name : Str) (cert : Cert) (key : Key)
    (hc : lookup (World.init.run ops).clusters name = some (cert, key))
    (hsign : ∀ p c, Op.sign p key c ∉ ops) (hpass : ∀ p q, Op.pass p q key ∉ ops)
    (q : Party) (o : Offer) (hq : (World.init.run ops).canShow q o) (path : Str) (now : Nat) (back : Offer → Bool)
    (h : connect (reportArgs (some (cert, key))) path now o back = .connected) :
    Op.hand name q ∈ ops := by
  change connect (connectionArgs cert key) path now o back = .connected at h
  cases hctx : connectionArgs cert key with
  | none => rw [hctx] at h; cases h
  | some ctx =>
    rw [hctx] at h
    simp only [connect] at h
    by_cases ha : accepts ctx (some ("daskgateway-".toList ++ path)) now o = true
    · rcases C138_peer ops name cert key ctx hc hctx q o hq _ now ha with hk | ⟨p, c, hk, _⟩
      · rcases C138_holders ops name cert key hc q hk with hh | ⟨p, hh, _⟩
        · exact hh
        · exact absurd hh (hpass p q)
      · exact absurd hk (hsign p c)
    · rw [Bool.not_eq_true] at ha
      rw [ha] at h
      simp at h

/-- C138: the credentials of another cluster are of no use: an end of one cluster does not accept an end of another. -/
theorem C138_apart (ops : List Op) (n n' : Str) (cert cert' : Cert) (key key' : Key) (ctx ctx' : Context)
    (hc : lookup (World.init.run ops).clusters n = some (cert, key))
    (hc' : lookup (World.init.run ops).clusters n' = some (cert', key')) (hn : n ≠ n')
    (hctx : connectionArgs cert key = some ctx) (hctx' : connectionArgs cert' key' = some ctx')
    (asked : Option Str) (now : Nat) :
    accepts ctx asked now ctx'.offer = false := by
  obtain ⟨rfl, hk⟩ := args_some hctx
  obtain ⟨rfl, hk'⟩ := args_some hctx'
  rw [← Bool.not_eq_true]
  intro ha
  obtain ⟨leaf, rest, h1, h2, h3⟩ := accepts_verified ha
  simp only [Context.offer, chainOk, List.headD_nil, issuedBy, Bool.and_eq_true, decide_eq_true_eq] at h3
  have hi := inv_run ops
  obtain ⟨_, t, h4⟩ := hi.made n' (cert', key') (mem_of_lookup hc')
  have h5 : cert'.signer = key' := congrArg (fun p : Cert × Key => p.1.signer) h4
  have h7 : cert'.signer = cert.key := by
    have := h3.1.2.2
    first | exact this | exact of_decide_eq_true this
  have h6 : key' = key := h5.symm.trans (h7.trans hk)
  exact hn (hi.keys n (cert, key) n' (cert', key') (mem_of_lookup hc) (mem_of_lookup hc') h6.symm).1

/-! ### C139 -/

theorem lookup_step (w : World) (op : Op) (name : Str) (p : Cert × Key) (h : lookup w.clusters name = some p) :
    lookup (w.step op).clusters name = some p := by
  cases op with
  | create n now =>
    cases hn : lookup w.clusters n with
    | some p' => simp only [World.step, hn]; exact h
    | none =>
      simp only [World.step, hn]
      have hne : name ≠ n := by intro e; rw [e, hn] at h; cases h
      have : ∀ (l : List (Str × (Cert × Key))) (x : Str × (Cert × Key)), lookup l name = some p →
          lookup (l ++ [x]) name = some p := by
        intro l x
        induction l with
        | nil => intro h; cases h
        | cons y l ih =>
          intro h
          rw [List.cons_append, lookup_cons]
          rw [lookup_cons] at h
          by_cases hy : y.1 = name
          · rw [if_pos hy] at h ⊢; exact h
          · rw [if_neg hy] at h ⊢; exact ih h
      exact this _ _ h
  | hand n q =>
    cases hn : lookup w.clusters n <;> simp only [World.step, hn] <;> exact h
  | own q => exact h
  | pass a b k => simp only [World.step]; by_cases hk : (a, k) ∈ w.holds <;> simp only [hk, if_true, if_false] <;> exact h
  | sign a k c => simp only [World.step]; by_cases hk : (a, k) ∈ w.holds <;> simp only [hk, if_true, if_false] <;> exact h

theorem lookup_run (ops : List Op) : ∀ (w : World) (name : Str) (p : Cert × Key), lookup w.clusters name = some p →
    lookup (w.run ops).clusters name = some p := by
  induction ops with
  | nil => intro w name p h; exact h
  | cons op ops ih => intro w name p h; exact ih _ name p (lookup_step w op name p h)

theorem lookup_snoc {l : List (Str × (Cert × Key))} {name : Str} (p : Cert × Key) (h : lookup l name = none) :
    lookup (l ++ [(name, p)]) name = some p := by
  induction l with
  | nil => simp [lookup_cons]
  | cons y l ih =>
    rw [lookup_cons] at h
    rw [List.cons_append, lookup_cons]
    by_cases hy : y.1 = name
    · rw [if_pos hy] at h; cases h
    · rw [if_neg hy] at h ⊢; exact ih h

/-- The pair of a cluster that was created at the time `t`. -/
theorem created (before after : List Op) (name : Str) (t : Nat)
    (hn : lookup (World.init.run before).clusters name = none) :
    ∃ key, lookup (World.init.run (before ++ Op.create name t :: after)).clusters name = some (newKeypair name key t) := by
  refine ⟨(World.init.run before).fresh, ?_⟩
  have : World.init.run (before ++ Op.create name t :: after) = ((World.init.run before).step (.create name t)).run after := by
    simp [World.run]
  rw [this]
  apply lookup_run
  simp only [World.step, hn]
  exact lookup_snoc _ hn

theorem args_new (name : Str) (key t : Nat) :
    connectionArgs (newKeypair name key t).1 (newKeypair name key t).2 =
      some ⟨(newKeypair name key t).1, (newKeypair name key t).1, key, true, false⟩ := by
  unfold connectionArgs loadCertChain
  rw [if_pos (show (newKeypair name key t).1.key = (newKeypair name key t).2 from rfl)]
  rfl

theorem accepts_own (c : Cert) (h1 : c.issuer = c.subject) (h2 : c.signer = c.key) (asked : Option Str) (now : Nat) :
    accepts ⟨c, c, c.key, true, false⟩ asked now (Context.offer ⟨c, c, c.key, true, false⟩) = true ↔
      c.notBefore ≤ now ∧ now ≤ c.notAfter := by
  simp [accepts, Context.offer, chainOk, inPeriod, issuedBy, h1, h2]

theorem accepts_self (name : Str) (key t : Nat) (asked : Option Str) (now : Nat) :
    accepts ⟨(newKeypair name key t).1, (newKeypair name key t).1, key, true, false⟩ asked now
      (Context.offer ⟨(newKeypair name key t).1, (newKeypair name key t).1, key, true, false⟩) = true ↔
      t ≤ now ∧ now ≤ t + 365 * 86400 := by
  exact accepts_own (newKeypair name key t).1 rfl rfl asked now

/-- Two different paths for the two files. -/
def Apart (paths : Str × Str) : Prop := paths.1 ≠ paths.2

theorem apart_local (w : Str) : Apart (localPaths w) := by
  intro h
  exact absurd (List.append_cancel_left h) (by decide)

theorem apart_staged (d : Str) : Apart (stagedPaths d) := by
  intro h
  exact absurd (List.append_cancel_left h) (by decide)

theorem apart_plain : Apart plainPaths := by
  intro h
  exact absurd h (by decide)

theorem read_cert (files : List (Str × Content)) (paths : Str × Str) (h : Apart paths) (p : Cert × Key) :
    readCert (writePair files paths p) (some paths.1) = some p.1 := by
  have : lookup (writePair files paths p) paths.1 = some (.cert p.1) := by
    unfold writePair
    rw [lookup_set, lookup_set]
    have h' : paths.2 ≠ paths.1 := fun e => h e.symm
    simp [h, h']
  simp [readCert, this]

theorem read_key (files : List (Str × Content)) (paths : Str × Str) (p : Cert × Key) :
    readKey (writePair files paths p) (some paths.2) = some p.2 := by
  have : lookup (writePair files paths p) paths.2 = some (.key p.2) := by
    unfold writePair
    rw [lookup_set]
    simp
  simp [readKey, this]

theorem vars3 (d : List (Str × Str)) (ca kv cv a b : Str) (h1 : kv ≠ ca) (h2 : cv ≠ ca) (h3 : cv ≠ kv) :
    lookup (Dict.update d [(ca, a), (kv, b), (cv, a)]) ca = some a ∧
    lookup (Dict.update d [(ca, a), (kv, b), (cv, a)]) cv = some a ∧
    lookup (Dict.update d [(ca, a), (kv, b), (cv, a)]) kv = some b := by
  simp only [update_cons, update_nil, lookup_set]
  refine ⟨?_, ?_, ?_⟩
  · rw [if_neg h2, if_neg h1, if_pos trivial]
  · rw [if_pos trivial]
  · rw [if_neg h3, if_pos trivial]

theorem env_vars (r : Role) (env : List (Str × Str)) (a b : Str) :
    lookup (r.env env a b) "DASK_DISTRIBUTED__COMM__TLS__CA_FILE".toList = some a ∧
    lookup (r.env env a b) r.certVar = some a ∧ lookup (r.env env a b) r.keyVar = some b := by
  cases r
  · exact vars3 env _ _ _ a b (by decide +kernel) (by decide +kernel) (by decide +kernel)
  · exact vars3 env _ _ _ a b (by decide +kernel) (by decide +kernel) (by decide +kernel)

/-- C139: schedulers and workers, started with the environment and the files that the gateway sets up for them, use
the same credentials as the clients of the cluster, whatever other variables and files there are. -/
theorem C139_processes (r : Role) (env : List (Str × Str)) (files : List (Str × Content)) (paths : Str × Str)
    (hp : Apart paths) (cert : Cert) (key : Key) :
    processContext r (r.env env paths.1 paths.2) (writePair files paths (cert, key)) = connectionArgs cert key := by
  obtain ⟨h1, h2, h3⟩ := env_vars r env paths.1 paths.2
  unfold processContext
  rw [h1, h2, h3, read_cert files paths hp, read_key]
  rfl

/-- C139: the paths that the backends use for the two files are different ones. -/
theorem C139_paths : (∀ w, Apart (localPaths w)) ∧ (∀ d, Apart (stagedPaths d)) ∧ Apart plainPaths :=
  ⟨apart_local, apart_staged, apart_plain⟩

/-- C139: a client with the report of a cluster connects to a scheduler of this cluster, and so do its workers, whatever
else has happened, within 365 days of the creation of the cluster, and at no other time. -/
theorem C139_connect_partial (before after : List Op) (name : Str) (t : Nat)
    (hn : lookup (World.init.run before).clusters name = none)
    (env : List (Str × Str)) (files : List (Str × Content)) (paths : Str × Str) (hp : Apart paths) :
    ∃ cert key ctx,
      lookup (World.init.run (before ++ Op.create name t :: after)).clusters name = some (cert, key) ∧
      processContext .scheduler (Role.scheduler.env env paths.1 paths.2) (writePair files paths (cert, key)) = some ctx ∧
      (∀ path now, connect (reportArgs (some (cert, key))) path now ctx.offer (accepts ctx none now) = .connected ↔
        t ≤ now ∧ now ≤ t + 365 * 86400) ∧
      (∀ env' files' paths' ctx' now, Apart paths' →
        processContext .worker (Role.worker.env env' paths'.1 paths'.2) (writePair files' paths' (cert, key)) = some ctx' →
        ((accepts ctx' none now ctx.offer = true ∧ accepts ctx none now ctx'.offer = true) ↔
          t ≤ now ∧ now ≤ t + 365 * 86400)) := by
  obtain ⟨key, hk⟩ := created before after name t hn
  refine ⟨(newKeypair name key t).1, key,
    ⟨(newKeypair name key t).1, (newKeypair name key t).1, key, true, false⟩, hk, ?_, ?_, ?_⟩
  · rw [C139_processes _ _ _ _ hp]; exact args_new name key t
  · intro path now
    have : reportArgs (some ((newKeypair name key t).1, key)) =
        some ⟨(newKeypair name key t).1, (newKeypair name key t).1, key, true, false⟩ := args_new name key t
    rw [this]
    simp only [connect]
    by_cases h : t ≤ now ∧ now ≤ t + 365 * 86400
    · rw [if_pos]
      · exact ⟨fun _ => h, fun _ => rfl⟩
      · rw [Bool.and_eq_true]
        exact ⟨(accepts_self name key t _ now).mpr h, (accepts_self name key t none now).mpr h⟩
    · rw [if_neg]
      · exact ⟨fun e => (by cases e), fun e => absurd e h⟩
      · rw [Bool.and_eq_true]
        intro e
        exact h ((accepts_self name key t _ now).mp e.1)
  · intro env' files' paths' ctx' now hp' hw
    rw [C139_processes _ _ _ _ hp'] at hw
    have hw' := (args_new name key t).symm.trans hw
    cases hw'
    exact ⟨fun h => (accepts_self name key t none now).mp h.1,
      fun h => ⟨(accepts_self name key t none now).mpr h, (accepts_self name key t none now).mpr h⟩⟩

/-- C139: after 365 days nobody can connect to the scheduler of a cluster any more, although it may run for longer: there
is no other pair for the cluster. -/
theorem C139_year_violated :
    ∃ ops name cert key ctx now,
      lookup (World.init.run ops).clusters name = some (cert, key) ∧ connectionArgs cert key = some ctx ∧
      ∀ path, connect (some ctx) path now ctx.offer (accepts ctx none now) = .refused := by
  refine ⟨[.create "a".toList 0], "a".toList, (newKeypair "a".toList 0 0).1, 0,
    ⟨(newKeypair "a".toList 0 0).1, (newKeypair "a".toList 0 0).1, 0, true, false⟩, 365 * 86400 + 1, rfl, rfl, ?_⟩
  intro path
  rfl

/-- C139: without credentials `connect` gives up before it opens a connection. -/
theorem C139_none (path : Str) (now : Nat) (o : Offer) (back : Offer → Bool) :
    connect (reportArgs none) path now o back = .typeError := rfl

/-! ### C140 -/

theorem write_new (disk : List File) (dir : Str) (cert : Cert) (key : Key) (s : FileStep) :
    ∃ new, writeFile disk dir cert key s = disk ++ new ∧ ∀ f ∈ new, f.dir = dir ∧ f.priv = true := by
  cases s
  · exact ⟨[], by simp [writeFile], by simp⟩
  · exact ⟨_, rfl, by simp⟩
  · exact ⟨_, rfl, by simp⟩
  · exact ⟨[], by simp [writeFile], by simp⟩
  · exact ⟨[], by simp [writeFile], by simp⟩

theorem body_files (dir : Str) (cert : Cert) (key : Key) (fails : Option FileStep) :
    ∀ (steps : List FileStep) (disk : List File), ∀ d ∈ bodyTrace disk dir cert key steps fails,
      (∃ more, d = disk ++ more ∧ ∀ f ∈ more, f.dir = dir ∧ f.priv = true) := by
  intro steps
  induction steps with
  | nil => intro disk d hd; cases hd
  | cons s rest ih =>
    intro disk d hd
    unfold bodyTrace at hd
    by_cases hf : fails = some s
    · rw [if_pos hf] at hd; cases hd
    · rw [if_neg hf] at hd
      obtain ⟨new, h3, h4⟩ := write_new disk dir cert key s
      rcases List.mem_cons.mp hd with rfl | hd
      · exact ⟨new, h3, h4⟩
      · obtain ⟨more, h1, h2⟩ := ih _ d hd
        refine ⟨new ++ more, by rw [h1, h3, List.append_assoc], ?_⟩
        intro f hf
        rcases List.mem_append.mp hf with hf | hf
        · exact h4 f hf
        · exact h2 f hf

theorem getLastD_mem {α : Type _} (l : List α) (a : α) : l.getLastD a = a ∨ l.getLastD a ∈ l := by
  rcases List.eq_nil_or_concat l with rfl | ⟨l', x, rfl⟩
  · exact Or.inl rfl
  · right; simp

theorem removeDir_append (disk more : List File) (dir : Str) (hd : ∀ f ∈ disk, f.dir ≠ dir)
    (hm : ∀ f ∈ more, f.dir = dir) : removeDir (disk ++ more) dir = disk := by
  unfold removeDir
  rw [List.filter_append]
  have h1 : disk.filter (fun f => f.dir != dir) = disk := by
    rw [List.filter_eq_self]
    intro f hf
    simpa using hd f hf
  have h2 : more.filter (fun f => f.dir != dir) = [] := by
    rw [List.filter_eq_nil_iff]
    intro f hf
    simpa using hm f hf
  rw [h1, h2, List.append_nil]

/-- C140: when the client has made its context, or failed to at any step, the disk is as it was before. -/
theorem C140_nothing_left (disk : List File) (dir : Str) (hd : ∀ f ∈ disk, f.dir ≠ dir) (cert : Cert) (key : Key)
    (fails : Option FileStep) : (argsTrace disk dir cert key fails).getLast? = some disk := by
  unfold argsTrace
  by_cases hf : fails = some .mkdir
  · rw [if_pos hf]; rfl
  · rw [if_neg hf]
    simp only [List.getLast?_append, List.getLast?_singleton, Option.some_or]
    congr 1
    rcases getLastD_mem (bodyTrace disk dir cert key [.writeKey, .writeCert, .context, .load] fails) disk with h | h
    · rw [h]
      have := removeDir_append disk [] dir hd (by simp)
      rwa [List.append_nil] at this
    · obtain ⟨more, h1, h2⟩ := body_files dir cert key fails _ disk _ h
      rw [h1]
      exact removeDir_append disk more dir hd (fun f hf => (h2 f hf).1)

/-- C140: at every moment in between, also if the client is killed then, all files that were not there before are in a
directory that only the user may enter. -/
theorem C140_private (disk : List File) (dir : Str) (hd : ∀ f ∈ disk, f.dir ≠ dir) (cert : Cert) (key : Key)
    (fails : Option FileStep) (d : List File) (h : d ∈ argsTrace disk dir cert key fails) :
    ∀ f ∈ d, f ∈ disk ∨ (f.dir = dir ∧ f.priv = true) := by
  unfold argsTrace at h
  by_cases hf : fails = some .mkdir
  · rw [if_pos hf] at h
    rw [List.mem_singleton.mp h]
    exact fun f hf => Or.inl hf
  · rw [if_neg hf] at h
    have hbody : ∀ d ∈ bodyTrace disk dir cert key [.writeKey, .writeCert, .context, .load] fails, ∀ f ∈ d, f ∈ disk ∨ (f.dir = dir ∧ f.priv = true) := by
      intro d hd f hfd
      obtain ⟨more, h1, h2⟩ := body_files dir cert key fails _ disk _ hd
      rw [h1] at hfd
      rcases List.mem_append.mp hfd with h' | h'
      · exact Or.inl h'
      · exact Or.inr (h2 f h')
    rcases List.mem_append.mp h with h | h
    · rcases List.mem_cons.mp h with rfl | h
      · exact fun f hf => Or.inl hf
      · exact hbody d h
    · intro f hf
      rw [List.mem_singleton.mp h] at hf
      have hf' := (List.mem_filter.mp hf).1
      rcases getLastD_mem (bodyTrace disk dir cert key [.writeKey, .writeCert, .context, .load] fails) disk with h' | h'
      · rw [h'] at hf'; exact Or.inl hf'
      · exact hbody _ h' f hf'

/-- C140: when no step fails, both files are complete when OpenSSL reads them, the certificate before it is used as
`cafile` and both before the pair is loaded. -/
theorem C140_complete (disk : List File) (dir : Str) (cert : Cert) (key : Key) :
    ∃ d, (argsTrace disk dir cert key none)[3]? = some d ∧ (argsTrace disk dir cert key none)[2]? = some d ∧
      (⟨dir, "dask.crt".toList, .cert cert, true⟩ : File) ∈ d ∧ (⟨dir, "dask.pem".toList, .key key, true⟩ : File) ∈ d := by
  refine ⟨_, rfl, rfl, ?_, ?_⟩ <;> simp [writeFile]

/-! ### Examples -/

/-- Two clusters; 1 is the user of the first, 2 of the second, 3 has a key of their own and signs with it. -/
def demo : List Op :=
  [.create "a".toList 100, .create "b".toList 200, .hand "a".toList 1, .hand "b".toList 2, .own 3,
   .sign 3 2 { (newKeypair "a".toList 0 100).1 with key := 2 }]

example : (World.init.run demo).holds = [(1, 0), (2, 1), (3, 2)] := by decide
example : lookup (World.init.run demo).clusters "a".toList = some (newKeypair "a".toList 0 100) := by decide
example : ∃ o, (World.init.run demo).canShow 3 o ∧ o.chain ≠ [] :=
  ⟨⟨[{ (newKeypair "a".toList 0 100).1 with key := 2, signer := 2 }], 2⟩,
    ⟨by decide, by decide⟩, by decide⟩
example : ∃ o, (World.init.run demo).canShow 1 o ∧
    connect (reportArgs (some (newKeypair "a".toList 0 100))) "a".toList 150 o (fun _ => true) = .connected :=
  ⟨⟨[(newKeypair "a".toList 0 100).1], 0⟩, ⟨by decide, by decide⟩, by decide⟩
example : connect (reportArgs (some (newKeypair "a".toList 0 100))) "a".toList 150
    ⟨[{ (newKeypair "a".toList 0 100).1 with key := 2, signer := 2 }], 2⟩ (fun _ => true) = .refused := by decide
example : connect (reportArgs (some (newKeypair "a".toList 0 100))) "a".toList 150
    ⟨[(newKeypair "b".toList 1 200).1], 1⟩ (fun _ => true) = .refused := by decide
example : (argsTrace [] "t".toList (newKeypair "a".toList 0 100).1 0 (some .load)).length = 5 := by decide
example : lookup (World.init.run []).clusters "a".toList = none := rfl

end Verif.Handshake

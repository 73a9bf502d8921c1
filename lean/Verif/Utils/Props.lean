import Verif.Utils.Model
/-! Properties C45-C47: rate limiter, LRU cache, stored credentials. -/
set_option linter.unusedSimpArgs false
namespace Verif.Utils

/-! ### C45 -/

private theorem minQ_le (a b : Rat) : minQ a b ≤ a ∧ minQ a b ≤ b := by
  unfold minQ; split <;> grind

private theorem mul_mono {a b r : Rat} (h : a ≤ b) (hr : 0 < r) : a * r ≤ b * r :=
  Rat.mul_le_mul_of_nonneg_right h (by grind)

/-- `rate` times the earliest time at which the acquisition could proceed. -/
private def level (l : Limiter) : Rat := l.rate * l.last - l.tokens

private theorem delay_level (l : Limiter) (now : Rat) (hr : 0 < l.rate) (hb : 1 ≤ l.burst) :
    level l + 1 ≤ level (l.delay now).2 ∧
    level (l.delay now).2 ≤ l.rate * (now + (l.delay now).1) ∧
    l.rate * (now + (l.delay now).1) ≤ level (l.delay now).2 + (l.burst - 1) := by
  have h1 := minQ_le (now - l.last) (l.burst / l.rate)
  have h2 := minQ_le (l.tokens + minQ (now - l.last) (l.burst / l.rate) * l.rate) l.burst
  have h3 := mul_mono h1.1 hr
  have h4 : l.left now ≤ l.burst - 1 := by unfold Limiter.left; grind
  have h5 : l.left now ≤ l.tokens + (now - l.last) * l.rate - 1 := by unfold Limiter.left; grind
  have h6 : l.rate ≠ 0 := by grind
  have h7 : l.rate * (-(l.left now) / l.rate) = -(l.left now) := by
    rw [Rat.mul_comm, Rat.div_mul_cancel h6]
  unfold Limiter.delay level
  dsimp only
  refine ⟨by grind, ?_, ?_⟩
  · split
    · rw [Rat.mul_add, h7]; grind
    · grind
  · split
    · rw [Rat.mul_add, h7]; grind
    · grind

/-- The acquisitions with the level after each. -/
private def trace (l : Limiter) : List Rat → List (Rat × Rat)
  | [] => []
  | now :: times => (level (l.delay now).2, now + (l.delay now).1) :: trace (l.delay now).2 times

private theorem trace_snd (l : Limiter) (times : List Rat) :
    (trace l times).map (·.2) = l.acquires times := by
  induction times generalizing l with
  | nil => rfl
  | cons now times ih => simp [trace, Limiter.acquires, ih]

private theorem trace_spec (l : Limiter) (times : List Rat) (hr : 0 < l.rate) (hb : 1 ≤ l.burst) :
    (∀ p ∈ trace l times, level l + 1 ≤ p.1 ∧ p.1 ≤ l.rate * p.2 ∧
      l.rate * p.2 ≤ p.1 + (l.burst - 1)) ∧
    (trace l times).Pairwise (fun p q => p.1 + 1 ≤ q.1) := by
  induction times generalizing l with
  | nil => simp [trace]
  | cons now times ih =>
    obtain ⟨h1, h2, h3⟩ := delay_level l now hr hb
    obtain ⟨i1, i2⟩ := ih (l.delay now).2 hr hb
    constructor
    · intro p hp
      rcases List.mem_cons.1 hp with rfl | hp
      · exact ⟨h1, h2, h3⟩
      · obtain ⟨j1, j2, j3⟩ := i1 p hp
        exact ⟨by grind, j2, j3⟩
    · exact List.pairwise_cons.2 ⟨fun p hp => (i1 p hp).1, i2⟩

private theorem spaced {l : List (Rat × Rat)} {hi lo : Rat}
    (h : l.Pairwise (fun p q => p.1 + 1 ≤ q.1)) (h1 : ∀ p ∈ l, lo ≤ p.1) (h2 : ∀ p ∈ l, p.1 ≤ hi) :
    l = [] ∨ (l.length : Rat) ≤ hi - lo + 1 := by
  induction l generalizing lo with
  | nil => simp
  | cons p l ih =>
    right
    rw [List.pairwise_cons] at h
    have hp := h1 p (by simp)
    have hq := h2 p (by simp)
    rcases ih (lo := p.1 + 1) h.2 h.1 (fun q hq => h2 q (by simp [hq])) with rfl | h3
    · simp only [List.length_cons, List.length_nil]; grind
    · simp only [List.length_cons, Rat.natCast_add]; grind

private theorem filter_trace {l : Limiter} {times : List Rat} (f : Rat → Bool) :
    ((l.acquires times).filter f).length = ((trace l times).filter (fun p => f p.2)).length := by
  rw [← trace_snd, List.filter_map, List.length_map]; rfl

/-- C45: in any window of length `t` at most `burst + rate * t` acquisitions proceed, if each
proceeds when its sleep is over. -/
theorem C45_window (rate burst start : Rat) (l : Limiter) (h : Limiter.new rate burst start = some l)
    (hr : 0 < rate) (hb : 1 ≤ burst) (times : List Rat) (s t : Rat) (ht : 0 ≤ t) :
    (((l.acquires times).filter (fun g => decide (s ≤ g ∧ g ≤ s + t))).length : Rat) ≤
      burst + rate * t := by
  unfold Limiter.new at h
  rw [if_neg (by grind)] at h
  cases h
  rw [filter_trace]
  obtain ⟨h1, h2⟩ := trace_spec { rate, burst, tokens := burst, last := start } times hr hb
  have hm : ∀ {a b : Rat}, a ≤ b → rate * a ≤ rate * b := fun hab =>
    Rat.mul_le_mul_of_nonneg_left hab (by grind)
  have := spaced (hi := rate * (s + t)) (lo := rate * s - (burst - 1))
    (h2.filter (fun p => decide (s ≤ p.2 ∧ p.2 ≤ s + t)))
    (fun p hp => by
      obtain ⟨hp1, hp2⟩ := List.mem_filter.1 hp
      have := of_decide_eq_true hp2
      have h3 := hm this.1
      have h4 := (h1 p hp1).2.2
      dsimp only at h4
      grind)
    (fun p hp => by
      obtain ⟨hp1, hp2⟩ := List.mem_filter.1 hp
      have := of_decide_eq_true hp2
      have h3 := hm this.2
      have h4 := (h1 p hp1).2.1
      dsimp only at h4
      grind)
  rcases this with h3 | h3
  · rw [h3]
    have := hm ht
    simp only [List.length_nil]
    grind
  · grind

/-- C45, also if sleeps last longer than asked for: up to any time `t` after the start at most
`burst + rate * t` acquisitions have proceeded. `late i` is how late the `i`-th one wakes up. -/
theorem C45_since_start (rate burst start : Rat) (l : Limiter)
    (h : Limiter.new rate burst start = some l) (hr : 0 < rate) (hb : 1 ≤ burst)
    (times late : List Rat) (hl : ∀ d ∈ late, 0 ≤ d) (t : Rat) (ht : 0 ≤ t) :
    (((List.zipWith (· + ·) (l.acquires times) late).filter
      (fun p => decide (p ≤ start + t))).length : Rat) ≤ burst + rate * t := by
  unfold Limiter.new at h
  rw [if_neg (by grind)] at h
  cases h
  obtain ⟨h1, h2⟩ := trace_spec { rate, burst, tokens := burst, last := start } times hr hb
  have hm : ∀ {a b : Rat}, a ≤ b → rate * a ≤ rate * b := fun hab =>
    Rat.mul_le_mul_of_nonneg_left hab (by grind)
  have key : ∀ (tr : List (Rat × Rat)) (late : List Rat), (∀ d ∈ late, 0 ≤ d) →
      ((List.zipWith (· + ·) (tr.map (·.2)) late).filter (fun p => decide (p ≤ start + t))).length
        ≤ (tr.filter (fun p => decide (p.2 ≤ start + t))).length := by
    intro tr
    induction tr with
    | nil => simp
    | cons p tr ih =>
      intro late hl
      cases late with
      | nil => simp
      | cons d late =>
        have h3 := ih late (fun e he => hl e (by simp [he]))
        have h4 := hl d (by simp)
        simp only [List.map_cons, List.zipWith_cons_cons, List.filter_cons]
        by_cases h5 : p.2 + d ≤ start + t
        · have h6 : p.2 ≤ start + t := by grind
          simp only [h5, h6, decide_true, if_true, List.length_cons]
          omega
        · simp only [h5, decide_false, Bool.false_eq_true, if_false]
          split
          · simp only [List.length_cons]; omega
          · exact h3
  have h7 := key (trace { rate, burst, tokens := burst, last := start } times) late hl
  rw [trace_snd] at h7
  have h8 := spaced (hi := rate * (start + t)) (lo := rate * start - burst + 1)
    (h2.filter (fun p => decide (p.2 ≤ start + t)))
    (fun p hp => by
      have h4 := (h1 p (List.mem_filter.1 hp).1).1
      unfold level at h4
      dsimp only at h4
      grind)
    (fun p hp => by
      obtain ⟨hp1, hp2⟩ := List.mem_filter.1 hp
      have h3 := hm (of_decide_eq_true hp2)
      have h4 := (h1 p hp1).2.1
      dsimp only at h4
      grind)
  have h9 : ((List.filter (fun p => decide (p ≤ start + t)) (List.zipWith (fun x1 x2 => x1 + x2)
      (Limiter.acquires { rate := rate, burst := burst, tokens := burst, last := start } times)
      late)).length : Rat) ≤ ((List.filter (fun p => decide (p.2 ≤ start + t))
        (trace { rate := rate, burst := burst, tokens := burst, last := start } times)).length : Rat) :=
    Rat.natCast_le_natCast.2 h7
  rcases h8 with h8 | h8
  · rw [h8] at h9
    have := hm ht
    simp only [List.length_nil] at h9
    grind
  · grind

/-- Times that themselves keep to the rate: no run of them is longer than `burst + rate * t`, with
`t` the time between its first and its last. -/
def Conforms (rate burst : Rat) (times : List Rat) : Prop :=
  ∀ before a mid after, times = before ++ a :: (mid ++ after) →
    ((mid.length + 1 : Nat) : Rat) ≤ burst + rate * ((a :: mid).getLast (by simp) - a)

private theorem undelayed (l : Limiter) (times : List Rat) (hr : 0 < l.rate) (hb : 1 ≤ l.burst)
    (h0 : 0 ≤ l.tokens) (hc : Conforms l.rate l.burst times)
    (hq : ∀ a mid after, times = a :: (mid ++ after) →
      ((mid.length + 1 : Nat) : Rat) ≤ l.tokens + l.rate * ((a :: mid).getLast (by simp) - l.last)) :
    l.acquires times = times := by
  induction times generalizing l with
  | nil => rfl
  | cons now times ih =>
    have h1 := hq now [] times rfl
    simp only [List.length_nil, List.getLast_singleton] at h1
    have h6 : l.rate ≠ 0 := by grind
    have h7 : l.burst / l.rate * l.rate = l.burst := Rat.div_mul_cancel h6
    -- the cap on the elapsed time does not matter
    have e : l.left now = minQ (l.tokens + (now - l.last) * l.rate) l.burst - 1 := by
      unfold Limiter.left
      congr 1
      by_cases hcap : l.burst / l.rate < now - l.last
      · have h8 : l.burst / l.rate * l.rate < (now - l.last) * l.rate :=
          Rat.mul_lt_mul_of_pos_right hcap hr
        have : minQ (now - l.last) (l.burst / l.rate) = l.burst / l.rate := by
          unfold minQ; rw [if_pos hcap]
        rw [this, h7]
        unfold minQ
        split <;> split <;> grind
      · have : minQ (now - l.last) (l.burst / l.rate) = now - l.last := by
          unfold minQ; rw [if_neg hcap]
        rw [this]
    have h2 : 0 ≤ l.left now := by
      rw [e]; unfold minQ
      have : ((0 + 1 : Nat) : Rat) = 1 := rfl
      split <;> grind
    have hd : (l.delay now).1 = 0 := by
      unfold Limiter.delay; dsimp only; rw [if_neg (by grind)]
    unfold Limiter.acquires
    rw [hd]
    have := ih (l.delay now).2 hr hb h2 (fun b a m f hf => hc (now :: b) a m f (by rw [hf]; rfl)) ?_
    · rw [this, Rat.add_zero]
    · intro a mid after hf
      have q1 := hq now (a :: mid) after (by rw [hf]; rfl)
      have q2 := hc [] now (a :: mid) after (by rw [hf]; rfl)
      rw [List.getLast_cons (by simp)] at q1 q2
      have ht : (l.delay now).2.tokens = l.left now := rfl
      have hl : (l.delay now).2.last = now := rfl
      have hrr : (l.delay now).2.rate = l.rate := rfl
      rw [ht, hl, hrr, e]
      generalize (a :: mid).getLast _ = z at q1 q2 ⊢
      have c1 : ((mid.length + 1 + 1 : Nat) : Rat) = ((mid.length + 1 : Nat) : Rat) + 1 := by
        rw [Rat.natCast_add]; rfl
      simp only [List.length_cons] at q1 q2
      rw [c1] at q1 q2
      generalize ((mid.length + 1 : Nat) : Rat) = m at q1 q2 ⊢
      unfold minQ
      split <;> grind

/-- C45: the limiter delays nothing that keeps to the rate by itself. -/
theorem C45_no_needless_delay (rate burst start : Rat) (l : Limiter)
    (h : Limiter.new rate burst start = some l) (hr : 0 < rate) (hb : 1 ≤ burst) (times : List Rat)
    (hs : ∀ a ∈ times, start ≤ a) (hc : Conforms rate burst times) : l.acquires times = times := by
  unfold Limiter.new at h
  rw [if_neg (by grind)] at h
  cases h
  refine undelayed _ times hr hb (by dsimp only; grind) hc ?_
  intro a mid after hf
  have h1 := hc [] a mid after hf
  have h2 : rate * start ≤ rate * a :=
    Rat.mul_le_mul_of_nonneg_left (hs a (by rw [hf]; simp)) (by grind)
  dsimp only
  generalize (a :: mid).getLast _ = z at *
  grind

/-- Two per second, three at once: the fourth and fifth call have to wait. -/
example : ((Limiter.new 2 3 0).map (fun l => l.acquires [0, 0, 0, 0, 0, 10])) =
    some [0, 0, 0, 1/2, 1, 10] := by decide +kernel

/-- The bound is reached: four acquisitions in half a second. -/
example : ((Limiter.new 2 3 0).map (fun l =>
    ((l.acquires [0, 0, 0, 0, 0, 10]).filter (fun g => decide (0 ≤ g ∧ g ≤ 0 + 1/2))).length)) =
    some 4 := by decide +kernel

/-! ### C46 -/

section
variable {α β : Type} [DecidableEq α]

/-- What a key was last set to in a history, if it was not discarded since. -/
def latest (k : α) (h : List (Op α β)) : Option β :=
  h.foldl (fun acc o => match o with
    | .get _ => acc
    | .put k' v => if k' = k then some v else acc
    | .discard k' => if k' = k then none else acc) none

/-- The operation reads or writes the key. -/
def Op.uses (k : α) : Op α β → Bool
  | .get k' => decide (k' = k)
  | .put k' _ => decide (k' = k)
  | .discard _ => false

/-- The position (from 1) of the last operation that uses the key, 0 if none does. -/
def lastUse (k : α) (h : List (Op α β)) : Nat :=
  h.length - h.reverse.findIdx (Op.uses k)

/-- The keys in the cache. -/
def Lru.keys (c : Lru α β) : List α := c.cache.map (·.1)

private theorem latest_snoc (k : α) (h : List (Op α β)) (o : Op α β) :
    latest k (h ++ [o]) = match o with
      | .get _ => latest k h
      | .put k' v => if k' = k then some v else latest k h
      | .discard k' => if k' = k then none else latest k h := by
  unfold latest; rw [List.foldl_append]; rfl

private theorem lastUse_snoc (k : α) (h : List (Op α β)) (o : Op α β) :
    lastUse k (h ++ [o]) = if o.uses k then h.length + 1 else lastUse k h := by
  unfold lastUse
  rw [List.reverse_append]
  simp only [List.reverse_cons, List.reverse_nil, List.nil_append, List.singleton_append,
    List.findIdx_cons, List.length_append, List.length_cons, List.length_nil]
  cases o.uses k <;> simp

private theorem lastUse_le (k : α) (h : List (Op α β)) : lastUse k h ≤ h.length := by
  unfold lastUse; omega

private theorem run_snoc (n : Nat) (h : List (Op α β)) (o : Op α β) :
    Lru.run n (h ++ [o]) = (Lru.run n h).step o := by
  unfold Lru.run; rw [List.foldl_append]; rfl

private theorem snoc_ind {γ : Type} {P : List γ → Prop} (h0 : P []) (hs : ∀ l a, P l → P (l ++ [a])) :
    ∀ l, P l := by
  intro l
  rw [← List.reverse_reverse l]
  generalize l.reverse = r
  induction r with
  | nil => exact h0
  | cons a r ih => rw [List.reverse_cons]; exact hs _ _ ih

private theorem find_some {d : List (α × β)} {k : α} {v : β} (h : find d k = some v) : (k, v) ∈ d := by
  unfold find at h
  cases hf : d.find? (fun e => e.1 = k) with
  | none => rw [hf] at h; cases h
  | some e =>
    rw [hf] at h
    cases h
    have h1 := List.find?_some hf
    have h2 := List.mem_of_find?_eq_some hf
    simp only [decide_eq_true_eq] at h1
    rw [← h1]; exact h2

private theorem find_none {d : List (α × β)} {k : α} (h : find d k = none) : k ∉ d.map (·.1) := by
  unfold find at h
  simp only [Option.map_eq_none_iff, List.find?_eq_none, decide_eq_true_eq] at h
  intro hm
  obtain ⟨e, he, rfl⟩ := List.mem_map.1 hm
  exact h e he rfl

private theorem find_isSome {d : List (α × β)} {k : α} : (find d k).isSome ↔ k ∈ d.map (·.1) := by
  cases h : find d k with
  | none => simp [find_none h]
  | some v => simp only [Option.isSome_some, true_iff]; exact List.mem_map.2 ⟨_, find_some h, rfl⟩

private theorem find_of_mem {d : List (α × β)} {k : α} {v : β} (hn : (d.map (·.1)).Nodup)
    (h : (k, v) ∈ d) : find d k = some v := by
  induction d with
  | nil => cases h
  | cons e d ih =>
    unfold find
    rw [List.map_cons, List.nodup_cons] at hn
    rw [List.find?_cons]
    rcases List.mem_cons.1 h with rfl | h
    · simp
    · have : e.1 ≠ k := by
        rintro rfl
        exact hn.1 (List.mem_map.2 ⟨_, h, rfl⟩)
      simp only [this, decide_false]
      exact ih hn.2 h

private theorem erase_keys (d : List (α × β)) (k : α) :
    (erase d k).map (·.1) = (d.map (·.1)).filter (fun x => x ≠ k) := by
  unfold erase; rw [List.filter_map]; rfl

private theorem erase_nodup {d : List (α × β)} (k : α) (h : (d.map (·.1)).Nodup) :
    ((erase d k).map (·.1)).Nodup := by rw [erase_keys]; exact h.filter _

private theorem mem_erase {d : List (α × β)} {k : α} {e : α × β} :
    e ∈ erase d k ↔ e ∈ d ∧ e.1 ≠ k := by unfold erase; simp [List.mem_filter]

private theorem erase_length {d : List (α × β)} {k : α} (hn : (d.map (·.1)).Nodup)
    (hk : k ∈ d.map (·.1)) : (erase d k).length + 1 = d.length := by
  induction d with
  | nil => cases hk
  | cons e d ih =>
    rw [List.map_cons, List.nodup_cons] at hn
    unfold erase
    rw [List.filter_cons]
    by_cases he : e.1 = k
    · subst he
      simp only [ne_eq, not_true_eq_false, decide_false, Bool.false_eq_true, if_false,
        List.length_cons]
      congr 2
      rw [List.filter_eq_self]
      intro x hx
      simp only [decide_eq_true_eq]
      rintro h
      exact hn.1 (h ▸ List.mem_map.2 ⟨x, hx, rfl⟩)
    · have : k ∈ d.map (·.1) := by
        rcases List.mem_cons.1 hk with h | h
        · exact absurd h.symm he
        · exact h
      simp only [ne_eq, he, not_false_eq_true, decide_true, if_true, List.length_cons]
      exact congrArg (· + 1) (ih hn.2 this)

private theorem assign_old {d : List (α × β)} {k : α} (v : β) (h : k ∈ d.map (·.1)) :
    assign d k v = d.map (fun e => if e.1 = k then (k, v) else e) := by
  unfold assign; rw [if_pos (find_isSome.2 h)]

private theorem assign_new {d : List (α × β)} {k : α} (v : β) (h : k ∉ d.map (·.1)) :
    assign d k v = d ++ [(k, v)] := by
  unfold assign; rw [if_neg (by rw [find_isSome]; exact h)]

private theorem assign_old_keys {d : List (α × β)} {k : α} (v : β) (h : k ∈ d.map (·.1)) :
    (assign d k v).map (·.1) = d.map (·.1) := by
  rw [assign_old v h, List.map_map]
  apply List.map_congr_left
  intro e _
  simp only [Function.comp]
  split
  · rename_i h; exact h.symm
  · rfl

/-- What holds after every history. -/
private structure Inv (n : Nat) (h : List (Op α β)) (c : Lru α β) : Prop where
  size : c.maxSize = n
  bound : c.cache.length ≤ n
  nodup : c.keys.Nodup
  vals : ∀ e ∈ c.cache, latest e.1 h = some e.2

private theorem put_cases (c : Lru α β) (k : α) (v : β) (hb : c.cache.length ≤ c.maxSize) :
    (k ∈ c.keys ∧ c.put k v = { c with cache := c.cache.map (fun e => if e.1 = k then (k, v) else e) }) ∨
    (k ∉ c.keys ∧ c.cache.length < c.maxSize ∧ c.put k v = { c with cache := c.cache ++ [(k, v)] }) ∨
    (k ∉ c.keys ∧ c.cache.length = c.maxSize ∧
      c.put k v = { c with cache := (c.cache ++ [(k, v)]).tail }) := by
  unfold Lru.put
  by_cases hk : k ∈ c.keys
  · left
    refine ⟨hk, ?_⟩
    rw [assign_old v hk, List.length_map, if_neg (by omega)]
  · right
    rw [assign_new v hk, List.length_append, List.length_singleton]
    by_cases hl : c.cache.length < c.maxSize
    · exact Or.inl ⟨hk, hl, by rw [if_neg (by omega)]⟩
    · exact Or.inr ⟨hk, by omega, by rw [if_pos (by omega)]⟩

private theorem inv_run (n : Nat) (h : List (Op α β)) : Inv n h (Lru.run n h) := by
  induction h using snoc_ind with
  | h0 => exact ⟨rfl, Nat.zero_le _, List.nodup_nil, by intro e he; cases he⟩
  | hs h o ih =>
    rw [run_snoc]
    generalize Lru.run n h = c at ih
    obtain ⟨h1, h2, h3, h4⟩ := ih
    cases o with
    | get k =>
      simp only [Lru.step, Lru.get]
      cases hf : find c.cache k with
      | none => exact ⟨h1, h2, h3, fun e he => by rw [latest_snoc]; exact h4 e he⟩
      | some v =>
        have hk : k ∈ c.keys := find_isSome.1 (by rw [hf]; rfl)
        refine ⟨h1, ?_, ?_, ?_⟩
        · have := erase_length h3 hk
          simp only [List.length_append, List.length_singleton]; omega
        · unfold Lru.keys
          rw [List.map_append, List.nodup_append]
          refine ⟨erase_nodup k h3, by simp, ?_⟩
          intro a ha b hb
          rw [erase_keys] at ha
          simp only [List.map_cons, List.map_nil, List.mem_singleton] at hb
          have := (List.mem_filter.1 ha).2
          simp only [decide_eq_true_eq] at this
          rw [hb]; exact this
        · intro e he
          rw [latest_snoc]
          rcases List.mem_append.1 he with he | he
          · exact h4 e (mem_erase.1 he).1
          · rw [List.mem_singleton.1 he]; exact h4 _ (find_some hf)
    | put k v =>
      rcases put_cases c k v (by omega) with ⟨hk, e⟩ | ⟨hk, hl, e⟩ | ⟨hk, hl, e⟩
      · simp only [Lru.step]; rw [e]
        refine ⟨h1, by simpa using h2, ?_, ?_⟩
        · have := assign_old_keys v hk
          rw [assign_old v hk] at this
          unfold Lru.keys
          rw [this]; exact h3
        · intro x hx
          obtain ⟨y, hy, rfl⟩ := List.mem_map.1 hx
          rw [latest_snoc]
          by_cases hyk : y.1 = k
          · simp [hyk]
          · simp only [if_neg hyk, if_neg (Ne.symm hyk)]; exact h4 y hy
      all_goals
        simp only [Lru.step]; rw [e]
        have hn : (((c.cache ++ [(k, v)]) : List (α × β)).map (·.1)).Nodup := by
          rw [List.map_append, List.nodup_append]
          refine ⟨h3, by simp, ?_⟩
          rintro a ha b hb rfl
          simp only [List.map_cons, List.map_nil, List.mem_singleton] at hb
          exact hk (hb ▸ ha)
        have hv : ∀ x ∈ c.cache ++ [(k, v)], latest x.1 (h ++ [.put k v]) = some x.2 := by
          intro x hx
          rw [latest_snoc]
          rcases List.mem_append.1 hx with hx | hx
          · have : k ≠ x.1 := fun hkx => hk (List.mem_map.2 ⟨x, hx, hkx.symm⟩)
            simp only [if_neg this]; exact h4 x hx
          · rw [List.mem_singleton.1 hx]; simp
      · exact ⟨h1, by simp; omega, hn, hv⟩
      · refine ⟨h1, by simp; omega, ?_, fun x hx => hv x (List.mem_of_mem_tail hx)⟩
        unfold Lru.keys
        rw [List.map_tail]
        exact hn.sublist (List.tail_sublist _)
    | discard k =>
      refine ⟨h1, ?_, erase_nodup k h3, ?_⟩
      · exact Nat.le_trans (List.length_filter_le _ _) h2
      · intro e he
        obtain ⟨he1, he2⟩ := mem_erase.1 he
        rw [latest_snoc]
        simp only [if_neg (Ne.symm he2)]
        exact h4 e he1

/-- C46: the cache never holds more than `maxSize` entries, and never two for one key. -/
theorem C46_bounded (maxSize : Nat) (h : List (Op α β)) :
    (Lru.run maxSize h).cache.length ≤ maxSize ∧ (Lru.run maxSize h).keys.Nodup :=
  ⟨(inv_run maxSize h).bound, (inv_run maxSize h).nodup⟩

/-- C46: a look-up returns the value last put under the key, or nothing. -/
theorem C46_latest (maxSize : Nat) (h : List (Op α β)) (k : α) (v : β)
    (hv : ((Lru.run maxSize h).get k).1 = some v) : latest k h = some v := by
  unfold Lru.get at hv
  cases hf : find (Lru.run maxSize h).cache k with
  | none => rw [hf] at hv; cases hv
  | some w =>
    rw [hf] at hv
    cases hv
    exact (inv_run maxSize h).vals _ (find_some hf)

/-- C46: a look-up finds every key in the cache. -/
theorem C46_hit (maxSize : Nat) (h : List (Op α β)) (k : α) :
    ((Lru.run maxSize h).get k).1.isSome ↔ k ∈ (Lru.run maxSize h).keys := by
  unfold Lru.get Lru.keys
  rw [← find_isSome]
  cases find (Lru.run maxSize h).cache k <;> simp

/-- C46: what was just put is in the cache (if it has room for anything). -/
theorem C46_stored (maxSize : Nat) (h1 : 1 ≤ maxSize) (h : List (Op α β)) (k : α) (v : β) :
    ((Lru.run maxSize (h ++ [.put k v])).get k).1 = some v := by
  have hk : k ∈ (Lru.run maxSize (h ++ [.put k v])).keys := by
    have hi := inv_run maxSize h
    rw [run_snoc]
    generalize Lru.run maxSize h = c at hi
    rcases put_cases c k v (by rw [hi.size]; exact hi.bound) with ⟨hk, e⟩ | ⟨hk, hl, e⟩ | ⟨hk, hl, e⟩
    · simp only [Lru.step]; rw [e]
      have := assign_old_keys v hk
      rw [assign_old v hk] at this
      unfold Lru.keys
      rw [this]; exact hk
    · simp only [Lru.step]; rw [e]; simp [Lru.keys]
    · simp only [Lru.step]; rw [e]
      cases hc : c.cache with
      | nil => rw [hc, hi.size] at hl; simp at hl; omega
      | cons x l => simp [Lru.keys]
  obtain ⟨w, hw⟩ := Option.isSome_iff_exists.1 ((C46_hit maxSize _ k).2 hk)
  have := C46_latest maxSize _ k w hw
  rw [latest_snoc] at this
  simp only [if_true, Option.some.injEq] at this
  rw [hw, this]

/-- C46: an entry leaves the cache only if it is discarded, or if another key is put into a full
cache; and then no other entry leaves. -/
theorem C46_kept (maxSize : Nat) (h : List (Op α β)) (o : Op α β) (k : α)
    (h1 : k ∈ (Lru.run maxSize h).keys) (h2 : k ∉ (Lru.run maxSize (h ++ [o])).keys) :
    o = .discard k ∨ ∃ k' v, o = .put k' v ∧ k' ∉ (Lru.run maxSize h).keys ∧
      (Lru.run maxSize h).cache.length = maxSize ∧
      ∀ k'' ∈ (Lru.run maxSize h).keys, k'' ≠ k → k'' ∈ (Lru.run maxSize (h ++ [o])).keys := by
  have hi := inv_run maxSize h
  rw [run_snoc] at h2 ⊢
  generalize Lru.run maxSize h = c at hi h1 h2
  cases o with
  | get k' =>
    exfalso
    apply h2
    simp only [Lru.step, Lru.get]
    cases hf : find c.cache k' with
    | none => exact h1
    | some v =>
      unfold Lru.keys
      rw [List.map_append, erase_keys]
      by_cases e : k = k'
      · simp [e]
      · exact List.mem_append.2 (Or.inl (List.mem_filter.2 ⟨h1, by simpa using e⟩))
  | put k' v =>
    right
    rcases put_cases c k' v (by rw [hi.size]; exact hi.bound) with ⟨hk, e⟩ | ⟨hk, hl, e⟩ | ⟨hk, hl, e⟩
    · exfalso
      apply h2
      simp only [Lru.step]; rw [e]
      have := assign_old_keys v hk
      rw [assign_old v hk] at this
      unfold Lru.keys
      rw [this]; exact h1
    · exfalso
      apply h2
      simp only [Lru.step]; rw [e]
      unfold Lru.keys
      rw [List.map_append]
      exact List.mem_append.2 (Or.inl h1)
    · refine ⟨k', v, rfl, hk, by rw [hl, hi.size], ?_⟩
      simp only [Lru.step] at h2 ⊢
      rw [e] at h2 ⊢
      unfold Lru.keys at h1 h2 ⊢
      intro k'' hk'' hne
      cases hc : c.cache with
      | nil => rw [hc] at h1; cases h1
      | cons x l =>
        rw [hc] at h1 h2 hk''
        simp only [List.cons_append, List.tail_cons, List.map_append, List.mem_append, not_or,
          List.map_cons, List.mem_cons] at h1 h2 hk'' ⊢
        rcases h1 with rfl | h1
        · rcases hk'' with rfl | hk''
          · exact absurd rfl hne
          · exact Or.inl hk''
        · exact absurd h1 h2.1
  | discard k' =>
    left
    simp only [Lru.step, Lru.discard, Lru.keys] at h2
    rw [erase_keys] at h2
    by_cases e : k = k'
    · rw [e]
    · exact absurd (List.mem_filter.2 ⟨h1, by simpa using e⟩) h2

/-- C46 in full, on eviction: if putting a key makes another one leave, that one was used less
recently than all that stay. -/
def C46_lru_full : Prop := ∀ (maxSize : Nat) (h : List (Op Nat Nat)) (k v k' : Nat),
  k' ∈ (Lru.run maxSize h).keys → k' ∉ (Lru.run maxSize (h ++ [.put k v])).keys →
  ∀ k'' ∈ (Lru.run maxSize (h ++ [.put k v])).keys,
    lastUse k' (h ++ [.put k v]) < lastUse k'' (h ++ [.put k v])

/-- C46 is false of the code on eviction: putting a key that is present does not count as a use. -/
theorem C46_lru_violated : ¬ C46_lru_full := by
  intro h
  have := h 2 [.put 1 10, .put 2 20, .put 1 11] 3 30 1 (by decide) (by decide) 2 (by decide)
  revert this
  decide

/-- A history in which only absent keys are put. -/
def FreshPuts (maxSize : Nat) (h : List (Op α β)) : Prop :=
  ∀ before k v after, h = before ++ .put k v :: after → k ∉ (Lru.run maxSize before).keys

private theorem fresh_prefix {maxSize : Nat} {h : List (Op α β)} {o : Op α β}
    (hf : FreshPuts maxSize (h ++ [o])) : FreshPuts maxSize h := by
  intro b k v a e
  exact hf b k v (a ++ [o]) (by rw [e]; simp)

private theorem sorted_run (n : Nat) (h : List (Op α β)) (hf : FreshPuts n h) :
    (Lru.run n h).keys.Pairwise (fun a b => lastUse a h < lastUse b h) := by
  induction h using snoc_ind with
  | h0 => exact List.Pairwise.nil
  | hs h o ih =>
    have ih := ih (fresh_prefix hf)
    have hi := inv_run n h
    rw [run_snoc]
    cases o with
    | get k =>
      simp only [Lru.step, Lru.get]
      have other : ∀ x, x ≠ k → lastUse x (h ++ [.get k]) = lastUse x h := fun x hx => by
        rw [lastUse_snoc]; simp [Op.uses, Ne.symm hx]
      cases hk : find (Lru.run n h).cache k with
      | none =>
        refine ih.imp_of_mem ?_
        intro a b ha hb hab
        rw [other a, other b]
        · exact hab
        · rintro rfl; exact find_none hk hb
        · rintro rfl; exact find_none hk ha
      | some v =>
        unfold Lru.keys
        rw [List.map_append, erase_keys, List.pairwise_append]
        refine ⟨(ih.filter _).imp_of_mem ?_, by simp, ?_⟩
        · intro a b ha hb hab
          have h1 := (List.mem_filter.1 ha).2
          have h2 := (List.mem_filter.1 hb).2
          simp only [decide_eq_true_eq] at h1 h2
          rw [other a h1, other b h2]; exact hab
        · intro a ha b hb
          have h1 := (List.mem_filter.1 ha).2
          simp only [decide_eq_true_eq] at h1
          simp only [List.map_cons, List.map_nil, List.mem_singleton] at hb
          rw [other a h1, hb, lastUse_snoc]
          simp only [Op.uses, decide_true, if_true]
          exact Nat.lt_succ_of_le (lastUse_le a h)
    | put k v =>
      have hk := hf h k v [] rfl
      have other : ∀ x, x ≠ k → lastUse x (h ++ [.put k v]) = lastUse x h := fun x hx => by
        rw [lastUse_snoc]; simp [Op.uses, Ne.symm hx]
      have hp : ((Lru.run n h).cache ++ [(k, v)]).map (·.1) |>.Pairwise
          (fun a b => lastUse a (h ++ [.put k v]) < lastUse b (h ++ [.put k v])) := by
        rw [List.map_append, List.pairwise_append]
        refine ⟨List.Pairwise.imp_of_mem ?_ ih, by simp, ?_⟩
        · intro a b ha hb hab
          rw [other a (by rintro rfl; exact hk ha), other b (by rintro rfl; exact hk hb)]
          exact hab
        · intro a ha b hb
          simp only [List.map_cons, List.map_nil, List.mem_singleton] at hb
          rw [other a (by rintro rfl; exact hk ha), hb, lastUse_snoc]
          simp only [Op.uses, decide_true, if_true]
          exact Nat.lt_succ_of_le (lastUse_le a h)
      rcases put_cases (Lru.run n h) k v (by rw [hi.size]; exact hi.bound) with
        ⟨hk', e⟩ | ⟨_, hl, e⟩ | ⟨_, hl, e⟩
      · exact absurd hk' hk
      · simp only [Lru.step]; rw [e]; exact hp
      · simp only [Lru.step]; rw [e]
        unfold Lru.keys
        rw [List.map_tail]
        exact hp.sublist (List.tail_sublist _)
    | discard k =>
      simp only [Lru.step, Lru.discard, Lru.keys]
      rw [erase_keys]
      refine List.Pairwise.imp ?_ (ih.filter _)
      intro a b hab
      rw [lastUse_snoc, lastUse_snoc]
      exact hab

/-- C46 on eviction, the part that holds: if only absent keys are put (as the gateway does, which
looks up a key before it puts it), the entry that leaves was used less recently than all that stay.
Missing: histories that put a key that is present. -/
theorem C46_lru_partial (maxSize : Nat) (h : List (Op α β)) (k : α) (v : β) (k' : α)
    (hf : FreshPuts maxSize (h ++ [.put k v]))
    (h1 : k' ∈ (Lru.run maxSize h).keys) (h2 : k' ∉ (Lru.run maxSize (h ++ [.put k v])).keys) :
    ∀ k'' ∈ (Lru.run maxSize (h ++ [.put k v])).keys,
      lastUse k' (h ++ [.put k v]) < lastUse k'' (h ++ [.put k v]) := by
  have hk := hf h k v [] rfl
  have hs := sorted_run maxSize h (fresh_prefix hf)
  have hi := inv_run maxSize h
  rw [run_snoc] at h2 ⊢
  generalize Lru.run maxSize h = c at hi hs h1 h2 hk
  rcases put_cases c k v (by rw [hi.size]; exact hi.bound) with ⟨hk', e⟩ | ⟨_, hl, e⟩ | ⟨_, hl, e⟩
  · exact absurd hk' hk
  · exfalso
    apply h2
    simp only [Lru.step]; rw [e]
    unfold Lru.keys
    rw [List.map_append]
    exact List.mem_append.2 (Or.inl h1)
  · simp only [Lru.step] at h2 ⊢
    rw [e] at h2 ⊢
    have hne : k' ≠ k := by rintro rfl; exact hk h1
    intro k'' hk''
    unfold Lru.keys at h1 h2 hs hk hk''
    cases hc : c.cache with
    | nil => rw [hc] at h1; cases h1
    | cons x l =>
      rw [hc] at h1 h2 hs hk hk''
      simp only [List.cons_append, List.tail_cons, List.map_append, List.mem_append, not_or,
        List.map_cons, List.mem_cons, List.pairwise_cons, List.map_nil, List.not_mem_nil,
        or_false] at h1 h2 hs hk hk''
      rcases h1 with rfl | h1
      · rw [lastUse_snoc x.1]
        simp only [Op.uses, Ne.symm hne, decide_false, Bool.false_eq_true, if_false]
        rcases hk'' with hk'' | rfl
        · rw [lastUse_snoc k'']
          have : k ≠ k'' := by rintro rfl; exact hk.2 hk''
          simp only [Op.uses, this, decide_false, Bool.false_eq_true, if_false]
          exact hs.1 _ hk''
        · rw [lastUse_snoc]
          simp only [Op.uses, decide_true, if_true]
          exact Nat.lt_succ_of_le (lastUse_le _ h)
      · exact absurd h1 h2.1
end

/-- After looking up 1, putting 3 evicts 2. -/
example : (Lru.run 2 [.put 1 10, .put 2 20, .get 1, .put 3 30] : Lru Nat Nat).cache =
    [(1, 10), (3, 30)] := by decide

/-! ### C47 -/

private theorem split_clean {sep : UInt8} {l : List UInt8} (h : sep ∉ l) : split sep l = [l] := by
  induction l with
  | nil => rfl
  | cons b l ih =>
    simp only [List.mem_cons, not_or] at h
    unfold split
    rw [if_neg (Ne.symm h.1), ih h.2]

private theorem split_append {sep : UInt8} {a : List UInt8} (h : sep ∉ a) (b : List UInt8) :
    split sep (a ++ sep :: b) = a :: split sep b := by
  induction a with
  | nil => simp [split]
  | cons x a ih =>
    simp only [List.mem_cons, not_or] at h
    rw [List.cons_append]
    conv => lhs; unfold split
    rw [if_neg (Ne.symm h.1), ih h.2]

private theorem split_length (sep : UInt8) (l : List UInt8) :
    (split sep l).length = l.count sep + 1 := by
  induction l with
  | nil => rfl
  | cons b l ih =>
    unfold split
    by_cases h : b = sep
    · subst h; simp [ih]
    · rw [if_neg h, List.count_cons_of_ne (by simpa using h), ← ih]
      cases hs : split sep l with
      | nil => rw [hs] at ih; simp at ih
      | cons w ws => rfl

/-- C47: the certificate and key read back are the ones stored, exactly if neither contains the
separator; otherwise reading them fails. -/
theorem C47_round_trip (c : Cipher) (hc : ∀ b, c.decrypt (c.encrypt b) = b)
    (cert key : List UInt8) :
    (semicolon ∉ cert → semicolon ∉ key → loadTls c (encodeTls c cert key) = some (cert, key)) ∧
    (semicolon ∈ cert ∨ semicolon ∈ key → loadTls c (encodeTls c cert key) = none) := by
  unfold loadTls decodeTls encodeTls
  rw [hc]
  constructor
  · intro h1 h2
    rw [split_append h1, split_clean h2]
  · intro h
    have hl := split_length semicolon (cert ++ semicolon :: key)
    rw [List.count_append, List.count_cons_self] at hl
    have : 0 < cert.count semicolon ∨ 0 < key.count semicolon :=
      h.imp List.count_pos_iff.2 List.count_pos_iff.2
    match hs : split semicolon (cert ++ semicolon :: key) with
    | [] => rfl
    | [_] => rfl
    | [_, _] => rw [hs] at hl; simp only [List.length_cons, List.length_nil] at hl; omega
    | _ :: _ :: _ :: _ => rfl

/-- The bytes of PEM data (RFC 7468): letters, digits, `+`, `/`, `=`, `-`, space and newlines. -/
def PemByte (b : UInt8) : Prop :=
  (65 ≤ b ∧ b ≤ 90) ∨ (97 ≤ b ∧ b ≤ 122) ∨ (48 ≤ b ∧ b ≤ 57) ∨ b = 43 ∨ b = 47 ∨ b = 61 ∨ b = 45 ∨
    b = 32 ∨ b = 10 ∨ b = 13

/-- C47: PEM-encoded credentials, which is what the gateway generates, are read back as stored. -/
theorem C47_pem (c : Cipher) (hc : ∀ b, c.decrypt (c.encrypt b) = b) (cert key : List UInt8)
    (h1 : ∀ b ∈ cert, PemByte b) (h2 : ∀ b ∈ key, PemByte b) :
    loadTls c (encodeTls c cert key) = some (cert, key) := by
  have no : ¬ PemByte semicolon := by unfold PemByte semicolon; decide
  exact (C47_round_trip c hc cert key).1 (fun h => no (h1 _ h)) (fun h => no (h2 _ h))

/-- Encryption switched off. -/
example : loadTls ⟨id, id⟩ (encodeTls ⟨id, id⟩ [45, 66] [45, 75]) = some ([45, 66], [45, 75]) := by
  decide

example : loadTls ⟨id, id⟩ (encodeTls ⟨id, id⟩ [45, 59] [45, 75]) = none := by decide

end Verif.Utils

import Verif.Sched.Workers
import Verif.Sched.AdaptProps
/-! Properties C55, C56, C72 and C74: what the scheduler reports and when. -/
set_option linter.unusedSimpArgs false
set_option linter.unusedVariables false
namespace Verif.Sched

private theorem snoc_ind {α : Type} {P : List α → Prop} (h0 : P []) (hs : ∀ l a, P l → P (l ++ [a]))
    (l : List α) : P l := by
  rw [← List.reverse_reverse l]
  induction l.reverse with
  | nil => exact h0
  | cons a r ih => rw [List.reverse_cons]; exact hs _ _ ih

/-! ### C55: specification -/

/-- The workers connected after a history: address and name, as the scheduler has them. -/
def connected (ops : List WOp) : List (Str × Str) :=
  ops.foldl (fun ws op => match op with
    | .added addr name => ws ++ [(addr, name)]
    | .removed addr => ws.filter (fun w => w.1 ≠ addr)
    | _ => ws) []

/-- A worker of that name has been connected. -/
def Known (ops : List WOp) (name : Str) : Prop := ∃ addr, WOp.added addr name ∈ ops

/-- A history in which the scheduler never has two workers of the same address or the same name, which
it refuses. -/
def Proper (ops : List WOp) : Prop :=
  ∀ pre addr name post, ops = pre ++ WOp.added addr name :: post →
    ∀ w ∈ connected pre, w.1 ≠ addr ∧ w.2 ≠ name

/-! ### C55: lemmas -/

private theorem mem_setAdd {s : List Str} {x y : Str} : y ∈ setAdd s x ↔ y = x ∨ y ∈ s := by
  unfold setAdd
  split
  · rename_i h
    constructor
    · exact Or.inr
    · rintro (rfl | h') <;> assumption
  · simp only [List.mem_append, List.mem_singleton]; exact Or.comm

private theorem mem_setDel {s : List Str} {x y : Str} : y ∈ setDel s x ↔ y ≠ x ∧ y ∈ s := by
  unfold setDel
  simp only [List.mem_filter, decide_eq_true_eq]; exact And.comm

private theorem mem_setMinus {s t : List Str} {y : Str} : y ∈ setMinus s t ↔ y ∈ s ∧ y ∉ t := by
  unfold setMinus
  simp only [List.mem_filter, decide_eq_true_eq]

private theorem run_snoc (ops : List WOp) (op : WOp) : Svc.run (ops ++ [op]) = (Svc.run ops).step op := by
  unfold Svc.run; rw [List.foldl_append]; rfl

private theorem connected_snoc (ops : List WOp) (op : WOp) :
    connected (ops ++ [op]) = match op with
      | .added addr name => connected ops ++ [(addr, name)]
      | .removed addr => (connected ops).filter (fun w => w.1 ≠ addr)
      | _ => connected ops := by
  unfold connected; rw [List.foldl_append]; rfl

private theorem known_snoc (ops : List WOp) (op : WOp) (name : Str) :
    Known (ops ++ [op]) name ↔ Known ops name ∨ ∃ addr, op = .added addr name := by
  unfold Known
  constructor
  · rintro ⟨a, h⟩
    rcases List.mem_append.1 h with h | h
    · exact Or.inl ⟨a, h⟩
    · exact Or.inr ⟨a, (List.mem_singleton.1 h).symm⟩
  · rintro (⟨a, h⟩ | ⟨a, rfl⟩)
    · exact ⟨a, List.mem_append.2 (Or.inl h)⟩
    · exact ⟨a, by simp⟩

private theorem proper_prefix {ops : List WOp} {op : WOp} (h : Proper (ops ++ [op])) : Proper ops := by
  intro pre addr name post e
  exact h pre addr name (post ++ [op]) (by rw [e]; simp)

private theorem set_fresh {l : List (Str × Str)} {a n : Str} (h : ∀ w ∈ l, w.1 ≠ a) :
    Dict.set l a n = l ++ [(a, n)] := by
  induction l with
  | nil => rfl
  | cons w l ih =>
    obtain ⟨k, v⟩ := w
    have hk : k ≠ a := h (k, v) List.mem_cons_self
    unfold Dict.set
    rw [if_neg hk, ih (fun w hw => h w (List.mem_cons_of_mem _ hw))]
    rfl

private structure WInv (ops : List WOp) : Prop where
  workers : (Svc.run ops).workers = connected ops
  nodup : ((connected ops).map Prod.fst).Nodup
  names : ((connected ops).map Prod.snd).Nodup
  active : ∀ n, n ∈ (Svc.run ops).active ↔ n ∈ (connected ops).map Prod.snd
  closed : ∀ n, n ∈ (Svc.run ops).closed ↔ Known ops n ∧ n ∉ (connected ops).map Prod.snd

private theorem lookup_iff {l : List (Str × Str)} (h : (l.map Prod.fst).Nodup) {a n : Str} :
    lookup l a = some n ↔ (a, n) ∈ l :=
  ⟨mem_of_lookup, lookup_of_mem h⟩

private theorem other_name {l : List (Str × Str)} (h1 : (l.map Prod.fst).Nodup)
    (h2 : (l.map Prod.snd).Nodup) {a n : Str} (hm : (a, n) ∈ l) (m : Str) :
    m ∈ (l.filter (fun w => w.1 ≠ a)).map Prod.snd ↔ m ≠ n ∧ m ∈ l.map Prod.snd := by
  induction l with
  | nil => cases hm
  | cons w l ih =>
    obtain ⟨b, k⟩ := w
    simp only [List.map_cons, List.nodup_cons] at h1 h2
    rcases List.mem_cons.1 hm with e | hm
    · cases e
      have hf : l.filter (fun w => decide (w.1 ≠ a)) = l := by
        rw [List.filter_eq_self]
        intro w hw
        rw [decide_eq_true_eq]
        intro e
        exact h1.1 (List.mem_map.2 ⟨w, hw, e⟩)
      rw [List.filter_cons_of_neg (by simp), hf, List.map_cons, List.mem_cons]
      constructor
      · intro hm'
        exact ⟨fun e => h2.1 (e ▸ hm'), Or.inr hm'⟩
      · rintro ⟨hne, rfl | hm'⟩
        · exact absurd rfl hne
        · exact hm'
    · have hb : b ≠ a := fun e => h1.1 (List.mem_map.2 ⟨(a, n), hm, e.symm⟩)
      have hk : k ≠ n := fun e => h2.1 (List.mem_map.2 ⟨(a, n), hm, e.symm⟩)
      rw [List.filter_cons_of_pos (by simp [hb]), List.map_cons, List.mem_cons, ih h1.2 h2.2 hm,
        List.map_cons, List.mem_cons]
      constructor
      · rintro (rfl | ⟨h, h'⟩)
        · exact ⟨hk, Or.inl rfl⟩
        · exact ⟨h, Or.inr h'⟩
      · rintro ⟨h, rfl | h'⟩
        · exact Or.inl rfl
        · exact Or.inr ⟨h, h'⟩

private theorem winv {ops : List WOp} (h : Proper ops) : WInv ops := by
  induction ops using snoc_ind with
  | h0 =>
    refine ⟨rfl, by simp [connected], by simp [connected], ?_, ?_⟩
    · intro n; simp [Svc.run, Svc.init, connected]
    · intro n; simp [Svc.run, Svc.init, connected, Known]
  | hs ops op ih =>
    obtain ⟨i1, i2, i3, i4, i5⟩ := ih (proper_prefix h)
    cases op with
    | added a n =>
      have hf := h ops a n [] rfl
      have hn : n ∉ (connected ops).map Prod.snd := by
        intro hn
        obtain ⟨w, hw, e⟩ := List.mem_map.1 hn
        exact (hf w hw).2 e
      have ha : a ∉ (connected ops).map Prod.fst := by
        intro ha
        obtain ⟨w, hw, e⟩ := List.mem_map.1 ha
        exact (hf w hw).1 e
      constructor
      · rw [run_snoc, connected_snoc]
        change Dict.set (Svc.run ops).workers a n = _
        rw [i1, set_fresh (fun w hw => (hf w hw).1)]
      · rw [connected_snoc]
        dsimp only
        rw [List.map_append]
        refine List.nodup_append.2 ⟨i2, by simp, ?_⟩
        intro x hx y hy e
        simp only [List.map_cons, List.map_nil, List.mem_singleton] at hy
        exact ha (hy ▸ e ▸ hx)
      · rw [connected_snoc]
        dsimp only
        rw [List.map_append]
        refine List.nodup_append.2 ⟨i3, by simp, ?_⟩
        intro x hx y hy e
        simp only [List.map_cons, List.map_nil, List.mem_singleton] at hy
        exact hn (hy ▸ e ▸ hx)
      · intro m
        rw [run_snoc, connected_snoc]
        change m ∈ setAdd (Svc.run ops).active n ↔ _
        rw [mem_setAdd, i4, List.map_append, List.mem_append]
        simp only [List.map_cons, List.map_nil, List.mem_singleton]
        exact Or.comm
      · intro m
        rw [run_snoc, connected_snoc, known_snoc]
        change m ∈ setDel (Svc.run ops).closed n ↔ _
        rw [mem_setDel, i5, List.map_append, List.mem_append]
        simp only [List.map_cons, List.map_nil, List.mem_singleton, WOp.added.injEq, not_or]
        constructor
        · rintro ⟨h1, h2, h3⟩
          exact ⟨Or.inl h2, h3, h1⟩
        · rintro ⟨h1 | ⟨_, _, e⟩, h2, h3⟩
          · exact ⟨h3, h1, h2⟩
          · exact absurd e.symm h3
    | removed a =>
      have e : Svc.run (ops ++ [.removed a]) = (Svc.run ops).removed a := run_snoc ops _
      have hk : ∀ m, Known (ops ++ [.removed a]) m ↔ Known ops m := by
        intro m
        rw [known_snoc]
        constructor
        · rintro (h | ⟨_, h⟩)
          · exact h
          · cases h
        · exact Or.inl
      have hc : connected (ops ++ [.removed a]) = (connected ops).filter (fun w => w.1 ≠ a) :=
        connected_snoc ops _
      have hs : ((connected ops).filter (fun w => w.1 ≠ a)).Sublist (connected ops) :=
        List.filter_sublist
      unfold Svc.removed at e
      rw [i1] at e
      cases hl : lookup (connected ops) a with
      | none =>
        rw [hl] at e
        have hf : (connected ops).filter (fun w => decide (w.1 ≠ a)) = connected ops := by
          rw [List.filter_eq_self]
          intro w hw
          rw [decide_eq_true_eq]
          intro e
          have := lookup_of_mem i2 (show (a, w.2) ∈ connected ops from e ▸ hw)
          rw [hl] at this
          cases this
        rw [hf] at hc
        exact ⟨by rw [e, hc]; exact i1, by rw [hc]; exact i2, by rw [hc]; exact i3,
          fun m => by rw [e, hc]; exact i4 m, fun m => by rw [e, hc, hk]; exact i5 m⟩
      | some n =>
        rw [hl] at e
        have hm := mem_of_lookup hl
        refine ⟨by rw [e, hc], ?_, ?_, ?_, ?_⟩
        · rw [hc]; exact (hs.map _).nodup i2
        · rw [hc]; exact (hs.map _).nodup i3
        · intro m
          rw [e, hc, other_name i2 i3 hm]
          change m ∈ setDel (Svc.run ops).active n ↔ _
          rw [mem_setDel, i4]
        · intro m
          rw [e, hc, hk, other_name i2 i3 hm]
          change m ∈ setAdd (Svc.run ops).closed n ↔ _
          rw [mem_setAdd, i5]
          constructor
          · rintro (rfl | ⟨h1, h2⟩)
            · refine ⟨?_, fun h => h.1 rfl⟩
              -- a connected worker is known
              exact (known_of_connected (List.mem_map.2 ⟨_, hm, rfl⟩))
            · exact ⟨h1, fun h => h2 h.2⟩
          · rintro ⟨h1, h2⟩
            by_cases e : m = n
            · exact Or.inl e
            · exact Or.inr ⟨h1, fun h => h2 ⟨e, h⟩⟩
    | retiring names =>
      have hk : ∀ m, Known (ops ++ [.retiring names]) m ↔ Known ops m := by
        intro m
        rw [known_snoc]
        constructor
        · rintro (h | ⟨_, h⟩)
          · exact h
          · cases h
        · exact Or.inl
      have hc : connected (ops ++ [.retiring names]) = connected ops := connected_snoc ops _
      have e : Svc.run (ops ++ [.retiring names]) = (Svc.run ops).retiring names := run_snoc ops _
      exact ⟨by rw [e, hc]; exact i1, by rw [hc]; exact i2, by rw [hc]; exact i3,
          fun m => by rw [e, hc]; exact i4 m, fun m => by rw [e, hc, hk]; exact i5 m⟩
    | retireFailed names =>
      have hk : ∀ m, Known (ops ++ [.retireFailed names]) m ↔ Known ops m := by
        intro m
        rw [known_snoc]
        constructor
        · rintro (h | ⟨_, h⟩)
          · exact h
          · cases h
        · exact Or.inl
      have hc : connected (ops ++ [.retireFailed names]) = connected ops := connected_snoc ops _
      have e : Svc.run (ops ++ [.retireFailed names]) = (Svc.run ops).retireFailed names := run_snoc ops _
      exact ⟨by rw [e, hc]; exact i1, by rw [hc]; exact i2, by rw [hc]; exact i3,
          fun m => by rw [e, hc]; exact i4 m, fun m => by rw [e, hc, hk]; exact i5 m⟩
where
  known_of_connected {ops : List WOp} {n : Str} (h : n ∈ (connected ops).map Prod.snd) : Known ops n := by
    induction ops using snoc_ind with
    | h0 => simp [connected] at h
    | hs ops op ih =>
      rw [connected_snoc] at h
      rw [known_snoc]
      cases op with
      | added a m =>
        dsimp only at h
        rw [List.map_append, List.mem_append] at h
        rcases h with h | h
        · exact Or.inl (ih h)
        · simp only [List.map_cons, List.map_nil, List.mem_singleton] at h
          subst h
          exact Or.inr ⟨a, rfl⟩
      | removed a =>
        dsimp only at h
        obtain ⟨w, hw, e⟩ := List.mem_map.1 h
        exact Or.inl (ih (List.mem_map.2 ⟨w, (List.mem_filter.1 hw).1, e⟩))
      | retiring _ => exact Or.inl (ih h)
      | retireFailed _ => exact Or.inl (ih h)

private theorem active_nodup (ops : List WOp) : (Svc.run ops).active.Nodup := by
  induction ops using snoc_ind with
  | h0 => exact List.nodup_nil
  | hs l op ih =>
    rw [run_snoc]
    cases op with
    | added a n =>
      change (setAdd (Svc.run l).active n).Nodup
      unfold setAdd
      split
      · exact ih
      · rename_i hx
        refine List.nodup_append.2 ⟨ih, by simp, ?_⟩
        intro a ha b hb e
        rw [List.mem_singleton.1 hb] at e
        exact hx (e ▸ ha)
    | removed a =>
      change ((Svc.run l).removed a).active.Nodup
      unfold Svc.removed
      split
      · exact ih
      · exact ih.filter _
    | retiring _ => exact ih
    | retireFailed _ => exact ih

private theorem mem_foldl_setAdd {l s : List Str} {x : Str} : x ∈ l.foldl setAdd s ↔ x ∈ s ∨ x ∈ l := by
  induction l generalizing s with
  | nil => simp
  | cons a l ih =>
    rw [List.foldl_cons, ih, mem_setAdd, List.mem_cons]
    constructor
    · rintro ((h | h) | h)
      · exact Or.inr (Or.inl h)
      · exact Or.inl h
      · exact Or.inr (Or.inr h)
    · rintro (h | h | h)
      · exact Or.inl (Or.inr h)
      · exact Or.inl (Or.inl h)
      · exact Or.inr h

/-! ### C55 -/

/-- C55: a heartbeat lists the connected workers as active or closing, and those that are gone as
closed; so it lists every known worker exactly once, and no other. The scheduler proposes only
connected workers to close. -/
theorem C55_categories (ops : List WOp) (h : Proper ops) (count : Int) (toClose : List Str)
    (ht : ∀ n ∈ toClose, n ∈ (connected ops).map Prod.snd) (n : Str) :
    let m := (Svc.run ops).message count toClose
    (n ∈ (connected ops).map Prod.snd → (n ∈ m.active ∧ n ∉ m.closing ∨ n ∉ m.active ∧ n ∈ m.closing) ∧
      n ∉ m.closed) ∧
    (Known ops n → n ∉ (connected ops).map Prod.snd →
      n ∈ m.closed ∧ n ∉ m.active ∧ n ∉ m.closing) ∧
    (¬ Known ops n → n ∉ m.active ∧ n ∉ m.closing ∧ n ∉ m.closed) := by
  have hi := winv h
  have hkn : n ∈ (connected ops).map Prod.snd → Known ops n := winv.known_of_connected
  unfold Svc.message
  dsimp only
  split
  · simp only [mem_setMinus, hi.active, hi.closed]
    refine ⟨fun hc => ⟨?_, fun h' => h'.2 hc⟩, fun hk hc => ⟨⟨hk, hc⟩, fun h' => hc h'.1, fun h' => hc (ht n h')⟩,
      fun hk => ⟨fun h' => hk (hkn h'.1), fun h' => hk (hkn (ht n h')), fun h' => hk h'.1⟩⟩
    by_cases hcl : n ∈ toClose
    · exact Or.inr ⟨fun h' => h'.2 hcl, hcl⟩
    · exact Or.inl ⟨⟨hc, hcl⟩, hcl⟩
  · simp only [hi.active, hi.closed, List.not_mem_nil]
    exact ⟨fun hc => ⟨Or.inl ⟨hc, not_false⟩, fun h' => h'.2 hc⟩,
      fun hk hc => ⟨⟨hk, hc⟩, hc, not_false⟩, fun hk => ⟨fun h' => hk (hkn h'), not_false, fun h' => hk h'.1⟩⟩

/-- C55: a worker that has gone is in every heartbeat from then on until one of its name connects
again. -/
theorem C55_reported (ops more : List WOp) (addr name : Str) (hm : (addr, name) ∈ connected ops)
    (h : Proper (ops ++ [.removed addr] ++ more)) (hn : ∀ a, WOp.added a name ∉ more) (count : Int)
    (toClose : List Str) :
    name ∈ ((Svc.run (ops ++ [.removed addr] ++ more)).message count toClose).closed := by
  have key : name ∈ (Svc.run (ops ++ [.removed addr] ++ more)).closed := by
    induction more using snoc_ind with
    | h0 =>
      rw [List.append_nil] at h ⊢
      have hi := winv (proper_prefix h)
      have e : Svc.run (ops ++ [.removed addr]) = (Svc.run ops).removed addr := run_snoc ops _
      unfold Svc.removed at e
      rw [hi.workers, lookup_of_mem hi.nodup hm] at e
      rw [e]
      exact mem_setAdd.2 (Or.inl rfl)
    | hs l op ih =>
      rw [← List.append_assoc] at h
      have ih := ih (proper_prefix h) (fun a ha => hn a (List.mem_append.2 (Or.inl ha)))
      rw [← List.append_assoc, run_snoc]
      cases op with
      | added a n =>
        have hne : n ≠ name := by
          rintro rfl
          exact hn a (by simp)
        exact mem_setDel.2 ⟨Ne.symm hne, ih⟩
      | removed a =>
        change name ∈ ((Svc.run (ops ++ [.removed addr] ++ l)).removed a).closed
        unfold Svc.removed
        split
        · exact ih
        · exact mem_setAdd.2 (Or.inr ih)
      | retiring _ => exact ih
      | retireFailed _ => exact ih
  unfold Svc.message
  split <;> exact key

/-- C55: no worker is to be closed unless there are more than requested. -/
theorem C55_closing_only_surplus (ops : List WOp) (h : Proper ops) (count : Int) (toClose : List Str)
    (hc : (connected ops).length ≤ count) : ((Svc.run ops).message count toClose).closing = [] := by
  have hlen : (Svc.run ops).active.length ≤ (connected ops).length := by
    have hn := active_nodup ops
    have hsub : (Svc.run ops).active ⊆ (connected ops).map Prod.snd :=
      fun n hn => ((winv h).active n).1 hn
    have := hn.length_le_of_subset hsub
    rwa [List.length_map] at this
  unfold Svc.message
  rw [if_neg (by omega)]

/-- Three workers; one leaves, and one of the others is to be closed. -/
example :
    let ops : List WOp := [.added ['1'] ['a'], .added ['2'] ['b'], .added ['3'] ['c'], .removed ['2']]
    (Svc.run ops).message 1 [['c']] = { active := [['a']], closing := [['c']], closed := [['b']] } ∧
    connected ops = [(['1'], ['a']), (['3'], ['c'])] := by decide

/-- That history is proper. -/
example : Proper [.added ['1'] ['a'], .added ['2'] ['b'], .removed ['2'], .added ['3'] ['b']] := by
  intro pre addr name post e
  match pre, e with
  | [], e => intro w hw; simp [connected] at hw
  | [_], e =>
    simp only [List.cons_append, List.nil_append, List.cons.injEq, WOp.added.injEq] at e
    obtain ⟨rfl, ⟨rfl, rfl⟩, _⟩ := e
    decide
  | [_, _], e => simp at e
  | [_, _, _], e =>
    simp only [List.cons_append, List.nil_append, List.cons.injEq, WOp.added.injEq] at e
    obtain ⟨rfl, rfl, rfl, ⟨rfl, rfl⟩, _⟩ := e
    decide
  | _ :: _ :: _ :: _ :: _, e => simp at e

/-! ### C56 -/

/-- An entry of the scheduler's transition log: when, and the tasks being processed and without a worker
from then on. -/
structure Activity where
  time : Rat
  processing : Nat
  unrunnable : Nat

/-- The tasks there is work on at a time: those of the last entry that is not later. A scheduler starts
without tasks. -/
def workAt (h : List Activity) (t : Rat) : Nat :=
  h.foldl (fun w a => if a.time ≤ t then a.processing + a.unrunnable else w) 0

/-- What the idle check reads after some activity, with a log that keeps the last `keep` entries. -/
def viewAfter (keep : Nat) (started : Rat) (h : List Activity) : SchedView :=
  { processing := (h.getLast?.map Activity.processing).getD 0
    unrunnable := (h.getLast?.map Activity.unrunnable).getD 0
    log := (h.map Activity.time).drop (h.length - keep)
    started := started }

private theorem workAt_late {h : List Activity} {t : Rat} (ht : ∀ a ∈ h, a.time ≤ t) :
    workAt h t = (h.getLast?.map (fun a => a.processing + a.unrunnable)).getD 0 := by
  induction h using snoc_ind with
  | h0 => rfl
  | hs l a ih =>
    unfold workAt
    rw [List.foldl_append]
    simp only [List.foldl_cons, List.foldl_nil, List.getLast?_append, List.getLast?_singleton]
    rw [if_pos (ht a (by simp))]
    rfl

private theorem drop_last {α : Type} (l : List α) (a : α) (k : Nat) (hk : 0 < k) :
    ((l ++ [a]).drop ((l ++ [a]).length - k)).getLast? = some a := by
  rw [List.drop_append_of_le_length (by simp only [List.length_append, List.length_singleton]; omega)]
  simp

private theorem last_log (keep : Nat) (hk : 0 < keep) (started : Rat) (l : List Activity) (a : Activity) :
    (viewAfter keep started (l ++ [a])).log.getLast? = some a.time := by
  unfold viewAfter
  simp only [List.map_append, List.map_cons, List.map_nil]
  have := drop_last (l.map Activity.time) a.time keep hk
  simp only [List.length_append, List.length_map, List.length_singleton] at this ⊢
  exact this

/-- C56: if a check asks for the shutdown of the cluster then there has been no work on any task for the
whole of the idle timeout. The log keeps at least one entry, its times are in order and the clock does
not run backwards. -/
theorem C56_idle (timeout : Rat) (keep : Nat) (hk : 0 < keep) (started now : Rat) (h : List Activity)
    (ho : (h.map Activity.time).Pairwise (· ≤ ·)) (hn : ∀ a ∈ h, started ≤ a.time)
    (hi : idle timeout (viewAfter keep started h) now = true) (t : Rat) (h1 : now - timeout ≤ t) :
    started < t ∧ (∀ a ∈ h, a.time < t) ∧ workAt h t = 0 := by
  unfold idle at hi
  split at hi
  · cases hi
  · split at hi
    · cases hi
    · rename_i hp hu
      rw [decide_eq_true_eq] at hi
      have hp : (viewAfter keep started h).processing = 0 := Classical.not_not.1 hp
      have hu : (viewAfter keep started h).unrunnable = 0 := Classical.not_not.1 hu
      revert ho hn hi hp hu
      induction h using snoc_ind with
      | h0 =>
        intro _ _ hi _ _
        have : now - started > timeout := by simpa [viewAfter] using hi
        exact ⟨by grind, fun a ha => (by cases ha), rfl⟩
      | hs l a _ =>
        intro ho hn hi hp hu
        rw [last_log keep hk] at hi
        have hi : now - a.time > timeout := hi
        have hle : ∀ b ∈ l ++ [a], b.time ≤ a.time := by
          intro b hb
          rcases List.mem_append.1 hb with hb | hb
          · rw [List.map_append, List.pairwise_append] at ho
            exact ho.2.2 b.time (List.mem_map_of_mem hb) a.time (by simp)
          · rw [List.mem_singleton.1 hb]; exact Rat.le_refl
        have hlt : a.time < t := by grind
        have hall : ∀ b ∈ l ++ [a], b.time < t := fun b hb => by have := hle b hb; grind
        refine ⟨by have := hn a (by simp); grind, hall, ?_⟩
        rw [workAt_late (fun b hb => Rat.le_of_lt (hall b hb))]
        simp only [viewAfter, List.getLast?_append, List.getLast?_singleton] at hp hu ⊢
        simp only [Option.or_some, Option.map_some, Option.getD_some, Option.some_or] at hp hu ⊢
        omega

/-- C56: a cluster that has been without work for longer than the timeout is shut down at the next
check. -/
theorem C56_prompt (timeout : Rat) (keep : Nat) (started now : Rat) (h : List Activity)
    (hw : workAt h now = 0) (ha : ∀ a ∈ h, a.time < now - timeout) (h0 : 0 ≤ timeout)
    (hs : started < now - timeout) : idle timeout (viewAfter keep started h) now = true := by
  have hlate : ∀ a ∈ h, a.time ≤ now := fun a h' => by have := ha a h'; grind
  rw [workAt_late hlate] at hw
  unfold idle
  have hp : (viewAfter keep started h).processing = 0 ∧ (viewAfter keep started h).unrunnable = 0 := by
    unfold viewAfter
    cases hl : h.getLast? with
    | none => exact ⟨rfl, rfl⟩
    | some a =>
      rw [hl] at hw
      simp only [Option.map_some, Option.getD_some] at hw ⊢
      omega
  rw [if_neg (not_not_intro hp.1), if_neg (not_not_intro hp.2), decide_eq_true_eq]
  have : ∀ x, (viewAfter keep started h).log.getLast? = some x → x < now - timeout := by
    intro x hx
    have hx := List.mem_of_getLast? hx
    unfold viewAfter at hx
    obtain ⟨a, h', e⟩ := List.mem_map.1 (List.mem_of_mem_drop hx)
    rw [← e]; exact ha a h'
  cases hl : (viewAfter keep started h).log.getLast? with
  | none =>
    change now - started > timeout
    grind
  | some x =>
    have := this x hl
    change now - x > timeout
    grind

/-- C56 needs a log that keeps entries: without one a cluster that has just finished its work is shut
down. -/
theorem C56_no_log_violated : ¬ ∀ (timeout : Rat) (started now : Rat) (h : List Activity),
    (h.map Activity.time).Pairwise (· ≤ ·) → (∀ a ∈ h, started ≤ a.time) →
    idle timeout (viewAfter 0 started h) now = true → workAt h (now - timeout) = 0 := by
  intro h
  have := h 10 0 20 [⟨1, 1, 0⟩, ⟨19, 0, 0⟩] (by decide +kernel) (by decide +kernel) (by decide +kernel)
  revert this
  decide +kernel

/-- After work at time 5 a cluster with a timeout of 10 is shut down by a check at 16 and not at 15. -/
example :
    let h : List Activity := [⟨1, 2, 1⟩, ⟨5, 0, 0⟩]
    idle 10 (viewAfter 100 0 h) 15 = false ∧ idle 10 (viewAfter 100 0 h) 16 = true ∧
    workAt h 3 = 3 := by decide +kernel

/-! ### C72 -/

private theorem beat_snoc (period : Rat) (ops : List BOp) (op : BOp) :
    Beat.run period (ops ++ [op]) = (Beat.run period ops).step period op := by
  unfold Beat.run; rw [List.foldl_append]; rfl

/-- Specification: a request changes the count while a heartbeat is under way. -/
def Meanwhile (period : Rat) (ops : List BOp) : Prop :=
  ∃ pre n post, ops = pre ++ BOp.scale n :: post ∧ (Beat.run period pre).stage = .sending ∧
    n ≠ (Beat.run period pre).count

private theorem not_meanwhile {period : Rat} {ops : List BOp} {op : BOp}
    (h : ¬ Meanwhile period (ops ++ [op])) : ¬ Meanwhile period ops := by
  rintro ⟨pre, n, post, e, h'⟩
  exact h ⟨pre, n, post ++ [op], by rw [e]; simp, h'⟩

/-- C72, in part: whenever the service waits for the next heartbeat, the gateway has been told the
number of workers requested, if no request comes while a heartbeat is under way. Missing: requests that
do, see `C72_violated`. -/
theorem C72_told_partial (period : Rat) (ops : List BOp) (h : ¬ Meanwhile period ops) (p : Rat)
    (hw : (Beat.run period ops).stage = .waiting p) :
    (Beat.run period ops).sent.getLast?.getD 0 = (Beat.run period ops).count := by
  have : (Beat.run period ops).stage ≠ .woken →
      (Beat.run period ops).sent.getLast?.getD 0 = (Beat.run period ops).count := by
    clear hw p
    induction ops using snoc_ind with
    | h0 => intro _; rfl
    | hs l op ih =>
      have ih := ih (not_meanwhile h)
      rw [beat_snoc]
      cases op with
      | scale n =>
        change ((Beat.run period l).scale n).stage ≠ .woken →
          ((Beat.run period l).scale n).sent.getLast?.getD 0 = ((Beat.run period l).scale n).count
        unfold Beat.scale
        split
        · rename_i hn
          unfold Beat.interrupt
          dsimp only
          cases hs : (Beat.run period l).stage with
          | waiting p => intro h'; exact absurd rfl h'
          | woken => intro h'; exact absurd rfl h'
          | sending => exact absurd ⟨l, n, [], by simp, hs, hn⟩ h
        · exact ih
      | soon =>
        change (Beat.run period l).soon.stage ≠ .woken →
          (Beat.run period l).soon.sent.getLast?.getD 0 = (Beat.run period l).soon.count
        unfold Beat.soon
        split <;> exact ih
      | fire =>
        change (Beat.run period l).fire.stage ≠ .woken →
          (Beat.run period l).fire.sent.getLast?.getD 0 = (Beat.run period l).fire.count
        unfold Beat.fire
        split
        · unfold Beat.interrupt
          dsimp only
          split
          · intro h'; exact absurd rfl h'
          · exact ih
        · exact ih
      | timeUp =>
        change (Beat.run period l).interrupt.stage ≠ .woken →
          (Beat.run period l).interrupt.sent.getLast?.getD 0 = (Beat.run period l).interrupt.count
        unfold Beat.interrupt
        split
        · intro h'; exact absurd rfl h'
        · exact ih
      | start =>
        change (Beat.run period l).start.stage ≠ .woken →
          (Beat.run period l).start.sent.getLast?.getD 0 = (Beat.run period l).start.count
        unfold Beat.start
        split
        · intro _; simp
        · exact ih
      | ended ok =>
        change ((Beat.run period l).ended period ok).stage ≠ .woken →
          ((Beat.run period l).ended period ok).sent.getLast?.getD 0 =
            ((Beat.run period l).ended period ok).count
        unfold Beat.ended
        split
        · rename_i hs
          have := ih (by rw [hs]; exact fun h' => (by cases h'))
          split <;> exact fun _ => this
        · exact ih
  exact this (by rw [hw]; exact fun h' => (by cases h'))

/-- C72: a request during the wait ends it, and the next heartbeat carries the latest count. -/
theorem C72_interrupts (period : Rat) (ops : List BOp) (p : Rat) (n : Int)
    (hw : (Beat.run period ops).stage = .waiting p) (hn : n ≠ (Beat.run period ops).count) :
    (Beat.run period (ops ++ [.scale n])).stage = .woken ∧
    (Beat.run period (ops ++ [.scale n, .start])).sent = (Beat.run period ops).sent ++ [n] := by
  have e1 : Beat.run period (ops ++ [.scale n]) =
      { (Beat.run period ops) with count := n, stage := .woken } := by
    rw [beat_snoc]
    change (Beat.run period ops).scale n = _
    unfold Beat.scale Beat.interrupt
    rw [if_pos hn]
    dsimp only
    rw [hw]
  refine ⟨by rw [e1], ?_⟩
  rw [show ops ++ [BOp.scale n, .start] = (ops ++ [.scale n]) ++ [.start] by simp, beat_snoc, e1]
  rfl

/-- C72 does not hold in full: a request that comes while a heartbeat is under way (which includes the
retirement of workers) is not told to the gateway before the next regular heartbeat, and that is an hour
later if heartbeats are not used to track liveness. -/
theorem C72_violated : ¬ ∀ (ops : List BOp) (p : Rat), (Beat.run 0 ops).stage = .waiting p →
    (Beat.run 0 ops).sent.getLast?.getD 0 = (Beat.run 0 ops).count := by
  intro h
  have := h [.scale 2, .start, .scale 5, .ended true] 3600 (by decide +kernel)
  revert this
  decide +kernel

/-- Requests one after the other are told. -/
example :
    let ops : List BOp := [.scale 2, .start, .ended true, .scale 5, .scale 4, .start]
    (Beat.run 15 ops).sent = [2, 4] ∧ (Beat.run 15 ops).stage = .sending := by decide +kernel

/-! ### C74 -/

/-- C74: after heartbeats that failed in a row the next is tried after a time that doubles each time and
is at most the regular period. -/
theorem C74_backoff (period : Rat) (ops : List BOp) (k : Nat)
    (hw : (Beat.run period ops).stage = .sending) (hb : (Beat.run period ops).backoff = 1 / 4) :
    (Beat.run period (ops ++ ((List.replicate k [BOp.ended false, .timeUp, .start]).flatten ++
      [.ended false]))).stage = .waiting (min (1 / 4 * 2 ^ (k + 1)) (heartbeatMax period)) := by
  have hM : 0 ≤ heartbeatMax period := by
    unfold heartbeatMax
    split
    · decide +kernel
    · rename_i h
      rcases Rat.le_total (a := 0) (b := period) with h' | h'
      · exact h'
      · exfalso
        apply h
        show max (0 : Rat) period = 0
        grind
  have hp : ∀ k : Nat, (0 : Rat) ≤ 1 / 4 * 2 ^ k := by
    intro k
    have : (0 : Rat) ≤ 2 ^ k := by
      induction k with
      | zero => decide +kernel
      | succ k ih => rw [Rat.pow_succ]; grind
    grind
  have key : ∀ k : Nat,
      (Beat.run period (ops ++ (List.replicate k [BOp.ended false, .timeUp, .start]).flatten)).stage =
        .sending ∧
      min ((Beat.run period (ops ++ (List.replicate k [BOp.ended false, .timeUp, .start]).flatten)).backoff * 2)
        (heartbeatMax period) = min (1 / 4 * 2 ^ (k + 1)) (heartbeatMax period) := by
    intro k
    induction k with
    | zero =>
      rw [List.replicate_zero, List.flatten_nil, List.append_nil]
      refine ⟨hw, ?_⟩
      rw [hb, Rat.pow_succ, Rat.pow_zero]
      grind
    | succ k ih =>
      have e : ops ++ (List.replicate (k + 1) [BOp.ended false, .timeUp, .start]).flatten =
          ((ops ++ (List.replicate k [BOp.ended false, .timeUp, .start]).flatten ++ [.ended false]) ++
            [.timeUp]) ++ [.start] := by
        rw [List.replicate_succ', List.flatten_append]
        simp
      generalize ops ++ (List.replicate k [BOp.ended false, .timeUp, .start]).flatten = o at ih e
      have e1 : (Beat.run period (o ++ [.ended false])).stage =
            .waiting (min (1 / 4 * 2 ^ (k + 1)) (heartbeatMax period)) ∧
          (Beat.run period (o ++ [.ended false])).backoff =
            min (1 / 4 * 2 ^ (k + 1)) (heartbeatMax period) := by
        rw [beat_snoc, ← ih.2]
        change ((Beat.run period o).ended period false).stage = _ ∧
          ((Beat.run period o).ended period false).backoff = _
        unfold Beat.ended
        rw [ih.1]
        exact ⟨rfl, rfl⟩
      have e2 : (Beat.run period (o ++ [.ended false] ++ [.timeUp])).stage = .woken ∧
          (Beat.run period (o ++ [.ended false] ++ [.timeUp])).backoff =
            min (1 / 4 * 2 ^ (k + 1)) (heartbeatMax period) := by
        rw [beat_snoc]
        change (Beat.run period (o ++ [.ended false])).interrupt.stage = _ ∧
          (Beat.run period (o ++ [.ended false])).interrupt.backoff = _
        unfold Beat.interrupt
        rw [e1.1]
        exact ⟨rfl, e1.2⟩
      have e3 : (Beat.run period (o ++ [.ended false] ++ [.timeUp] ++ [.start])).stage = .sending ∧
          (Beat.run period (o ++ [.ended false] ++ [.timeUp] ++ [.start])).backoff =
            min (1 / 4 * 2 ^ (k + 1)) (heartbeatMax period) := by
        rw [beat_snoc]
        change (Beat.run period (o ++ [.ended false] ++ [.timeUp])).start.stage = _ ∧
          (Beat.run period (o ++ [.ended false] ++ [.timeUp])).start.backoff = _
        unfold Beat.start
        rw [e2.1]
        exact ⟨rfl, e2.2⟩
      rw [e]
      refine ⟨e3.1, ?_⟩
      rw [e3.2]
      have h1 := hp (k + 1)
      rw [Rat.pow_succ (2 : Rat) (k + 1)]
      generalize (2 : Rat) ^ (k + 1) = y at *
      grind
  rw [← List.append_assoc, beat_snoc]
  change ((Beat.run period (ops ++ _)).ended period false).stage = _
  unfold Beat.ended
  rw [(key k).1, ← (key k).2]
  rfl

/-- C74: after a heartbeat that succeeded the next comes after the regular period, and the backoff starts
anew. -/
theorem C74_success (period : Rat) (ops : List BOp) (hw : (Beat.run period ops).stage = .sending) :
    (Beat.run period (ops ++ [.ended true])).stage = .waiting (heartbeatMax period) ∧
    (Beat.run period (ops ++ [.ended true])).backoff = 1 / 4 := by
  rw [beat_snoc]
  change ((Beat.run period ops).ended period true).stage = _ ∧ _
  change _ ∧ ((Beat.run period ops).ended period true).backoff = _
  unfold Beat.ended
  rw [hw]
  exact ⟨rfl, rfl⟩

/-- Three failures. -/
example :
    (Beat.run 15 [.timeUp, .start, .ended false, .timeUp, .start, .ended false, .timeUp, .start,
      .ended false]).stage = .waiting 2 := by decide +kernel

/-! ### C75 -/

/-- Specification: since the last message was made the gateway was to be told something soon. -/
def untold (ops : List BOp) (period : Rat) : Bool :=
  (ops.foldl (fun (s : Beat × Bool) op => (s.1.step period op, match op with
    | .soon => true
    | .start => if s.1.stage = .woken then false else s.2
    | _ => s.2)) (.init period, false)).2

/-- Specification: a timer fires while a heartbeat is under way. -/
def FiresMeanwhile (period : Rat) (ops : List BOp) : Prop :=
  ∃ pre post, ops = pre ++ BOp.fire :: post ∧ (Beat.run period pre).stage = .sending

private theorem not_fires {period : Rat} {ops : List BOp} {op : BOp}
    (h : ¬ FiresMeanwhile period (ops ++ [op])) : ¬ FiresMeanwhile period ops := by
  rintro ⟨pre, post, e, h'⟩
  exact h ⟨pre, post ++ [op], by rw [e]; simp, h'⟩

private theorem untold_fst (period : Rat) (ops : List BOp) :
    (ops.foldl (fun (s : Beat × Bool) op => (s.1.step period op, match op with
    | .soon => true
    | .start => if s.1.stage = .woken then false else s.2
    | _ => s.2)) (.init period, false)).1 = Beat.run period ops := by
  induction ops using snoc_ind with
  | h0 => rfl
  | hs l op ih =>
    rw [List.foldl_append, beat_snoc, ← ih]
    rfl

private theorem untold_snoc (period : Rat) (ops : List BOp) (op : BOp) :
    untold (ops ++ [op]) period = match op with
    | .soon => true
    | .start => if (Beat.run period ops).stage = .woken then false else untold ops period
    | _ => untold ops period := by
  rw [← untold_fst]
  unfold untold
  rw [List.foldl_append]
  rfl

/-- C75, in part: whenever the service waits although there is something to be told soon, a timer is
running that makes it tell within three seconds, if no timer fires while a heartbeat is under way.
Missing: timers that do, see `C75_violated`. -/
theorem C75_soon_partial (period : Rat) (ops : List BOp) (h : ¬ FiresMeanwhile period ops) (p : Rat)
    (hw : (Beat.run period ops).stage = .waiting p) (hu : untold ops period = true) :
    (Beat.run period ops).timer = .pending := by
  have : (Beat.run period ops).stage ≠ .woken → (Beat.run period ops).timer ≠ .spent ∧
      (untold ops period = true → (Beat.run period ops).timer = .pending) := by
    clear hw hu p
    induction ops using snoc_ind with
    | h0 => exact fun _ => ⟨fun h' => (by cases h'), fun h' => (by cases h')⟩
    | hs l op ih =>
      have ih := ih (not_fires h)
      have hint : ∀ b : Beat, (b.stage ≠ .woken → b.timer ≠ .spent ∧ (untold l period = true →
          b.timer = .pending)) → b.interrupt.stage ≠ .woken → b.interrupt.timer ≠ .spent ∧
          (untold l period = true → b.interrupt.timer = .pending) := by
        intro b h1
        unfold Beat.interrupt
        split
        · exact fun h' => absurd rfl h'
        · exact h1
      rw [beat_snoc, untold_snoc]
      cases op with
      | scale n =>
        change ((Beat.run period l).scale n).stage ≠ .woken → ((Beat.run period l).scale n).timer ≠ .spent ∧
          (untold l period = true → ((Beat.run period l).scale n).timer = .pending)
        unfold Beat.scale
        split
        · exact hint _ ih
        · exact ih
      | soon =>
        change (Beat.run period l).soon.stage ≠ .woken → (Beat.run period l).soon.timer ≠ .spent ∧
          (true = true → (Beat.run period l).soon.timer = .pending)
        unfold Beat.soon
        split
        · exact fun _ => ⟨fun h' => (by cases h'), fun _ => rfl⟩
        · rename_i hn
          intro hs
          cases ht : (Beat.run period l).timer with
          | none => exact absurd ht hn
          | pending => exact ⟨fun h' => (by cases h'), fun _ => rfl⟩
          | spent => exact absurd ht (ih hs).1
      | fire =>
        change (Beat.run period l).fire.stage ≠ .woken → (Beat.run period l).fire.timer ≠ .spent ∧
          (untold l period = true → (Beat.run period l).fire.timer = .pending)
        have hs : (Beat.run period l).stage ≠ .sending := fun hs => h ⟨l, [], by simp, hs⟩
        unfold Beat.fire
        split
        · unfold Beat.interrupt
          cases hst : (Beat.run period l).stage with
          | waiting p => simp only [hst]; exact fun h' => absurd rfl h'
          | woken => simp only [hst]; exact fun h' => absurd rfl h'
          | sending => exact absurd hst hs
        · exact ih
      | timeUp => exact hint _ ih
      | start =>
        change (Beat.run period l).start.stage ≠ .woken → (Beat.run period l).start.timer ≠ .spent ∧
          ((if (Beat.run period l).stage = .woken then false else untold l period) = true →
          (Beat.run period l).start.timer = .pending)
        unfold Beat.start
        split
        · rename_i hs
          exact fun _ => ⟨fun h' => (by cases h'), fun h' => by rw [if_pos hs] at h'; cases h'⟩
        · rename_i hs
          rw [if_neg hs]
          exact ih
      | ended ok =>
        change ((Beat.run period l).ended period ok).stage ≠ .woken →
          ((Beat.run period l).ended period ok).timer ≠ .spent ∧ (untold l period = true →
          ((Beat.run period l).ended period ok).timer = .pending)
        unfold Beat.ended
        split
        · rename_i hs
          have := ih (by rw [hs]; exact fun h' => (by cases h'))
          split <;> exact fun _ => this
        · exact ih
  exact (this (by rw [hw]; exact fun h' => (by cases h'))).2 hu

/-- C75: a timer that fires during the wait ends it, so that the next message is made. -/
theorem C75_fires (period : Rat) (ops : List BOp) (p : Rat)
    (hw : (Beat.run period ops).stage = .waiting p) (ht : (Beat.run period ops).timer = .pending) :
    (Beat.run period (ops ++ [.fire])).stage = .woken ∧
    (Beat.run period (ops ++ [.fire, .start])).sent =
      (Beat.run period ops).sent ++ [(Beat.run period ops).count] := by
  have e1 : Beat.run period (ops ++ [.fire]) =
      { (Beat.run period ops) with stage := .woken, timer := .spent } := by
    rw [beat_snoc]
    change (Beat.run period ops).fire = _
    unfold Beat.fire
    rw [ht]
    dsimp only
    unfold Beat.interrupt
    dsimp only
    rw [hw]
  refine ⟨by rw [e1], ?_⟩
  rw [show ops ++ [BOp.fire, .start] = (ops ++ [.fire]) ++ [.start] by simp, beat_snoc, e1]
  rfl

/-- C75 does not hold in full: if the timer fires while a heartbeat is under way (for instance while
workers are being retired) then nothing more is told before the next regular heartbeat, not even what
happens during the wait for it. -/
theorem C75_violated : ¬ ∀ (ops : List BOp) (p : Rat), (Beat.run 15 ops).stage = .waiting p →
    untold ops 15 = true → (Beat.run 15 ops).timer = .pending := by
  intro h
  have := h [.timeUp, .start, .soon, .fire, .ended true, .soon] 15 (by decide +kernel) (by decide +kernel)
  revert this
  decide +kernel

/-- C75: the service wants to tell soon of every worker that is gone and was not to be retired, if
liveness is tracked by heartbeats. -/
theorem C75_lost (ops : List WOp) (h : Proper ops) (addr name : Str) (hm : (addr, name) ∈ connected ops)
    (hr : ∀ names, WOp.retiring names ∈ ops → name ∉ names) (tracked : Bool) :
    (Svc.run ops).lost tracked addr = tracked := by
  have hi := winv h
  unfold Svc.lost
  rw [hi.workers, lookup_of_mem hi.nodup hm]
  have : name ∉ (Svc.run ops).closing := by
    clear hi hm h
    induction ops using snoc_ind with
    | h0 => exact List.not_mem_nil
    | hs l op ih =>
      have ih := ih (fun names hn => hr names (List.mem_append.2 (Or.inl hn)))
      rw [run_snoc]
      cases op with
      | added a n => exact fun h' => ih (mem_setDel.1 h').2
      | removed a =>
        change name ∉ ((Svc.run l).removed a).closing
        unfold Svc.removed
        split
        · exact ih
        · exact fun h' => ih (mem_setDel.1 h').2
      | retiring names =>
        have hn := hr names (by simp)
        change name ∉ names.foldl setAdd (Svc.run l).closing
        exact fun h' => (mem_foldl_setAdd.1 h').elim ih hn
      | retireFailed names => exact fun h' => ih (mem_setMinus.1 h').1
  simp [this]

/-- C75: and not of a worker that is being retired. -/
theorem C75_retired (pre post : List WOp) (names : List Str) (addr name : Str)
    (h : Proper (pre ++ [.retiring names] ++ post))
    (hm : (addr, name) ∈ connected (pre ++ [.retiring names] ++ post)) (hn : name ∈ names)
    (ha : ∀ a, WOp.added a name ∉ post) (hf : ∀ ns, WOp.retireFailed ns ∈ post → name ∉ ns)
    (tracked : Bool) :
    (Svc.run (pre ++ [.retiring names] ++ post)).lost tracked addr = false := by
  have hi := winv h
  unfold Svc.lost
  rw [hi.workers, lookup_of_mem hi.nodup hm]
  have : name ∈ (Svc.run (pre ++ [.retiring names] ++ post)).closing := by
    clear hi
    induction post using snoc_ind with
    | h0 =>
      rw [List.append_nil, run_snoc]
      exact mem_foldl_setAdd.2 (Or.inr hn)
    | hs l op ih =>
      rw [← List.append_assoc] at h hm
      have hi := winv (proper_prefix h)
      have ih := fun hm' => ih (proper_prefix h) hm' (fun a h' => ha a (List.mem_append.2 (Or.inl h')))
        (fun ns h' => hf ns (List.mem_append.2 (Or.inl h')))
      rw [connected_snoc] at hm
      rw [← List.append_assoc, run_snoc]
      cases op with
      | added a n =>
        have hne : n ≠ name := by
          rintro rfl
          exact ha a (by simp)
        refine mem_setDel.2 ⟨Ne.symm hne, ih ?_⟩
        rcases List.mem_append.1 hm with hm | hm
        · exact hm
        · rw [List.mem_singleton] at hm
          cases hm
          exact absurd rfl hne
      | removed a =>
        obtain ⟨hm, hne⟩ := List.mem_filter.1 hm
        rw [decide_eq_true_eq] at hne
        have ih := ih hm
        change name ∈ ((Svc.run (pre ++ [.retiring names] ++ l)).removed a).closing
        unfold Svc.removed
        split
        · exact ih
        · rename_i n hl
          refine mem_setDel.2 ⟨?_, ih⟩
          rintro rfl
          rw [hi.workers] at hl
          exact ((other_name hi.nodup hi.names (mem_of_lookup hl) name).1
            (List.mem_map.2 ⟨(addr, name), List.mem_filter.2 ⟨hm, decide_eq_true hne⟩, rfl⟩)).1 rfl
      | retiring ns => exact mem_foldl_setAdd.2 (Or.inl (ih hm))
      | retireFailed ns => exact mem_setMinus.2 ⟨ih hm, hf ns (by simp)⟩
  change (decide (name ∉ (Svc.run (pre ++ [.retiring names] ++ post)).closing) && tracked) = false
  rw [decide_eq_false (not_not_intro this)]
  rfl

/-- C75: a worker beyond the number requested is told of soon, too. -/
theorem C75_surplus (ops : List WOp) (h : Proper ops) (count : Int) :
    (Svc.run ops).surplus count = true ↔ count < (connected ops).length := by
  have hsub : (Svc.run ops).active ⊆ (connected ops).map Prod.snd :=
    fun n hn => ((winv h).active n).1 hn
  have hsup : (connected ops).map Prod.snd ⊆ (Svc.run ops).active :=
    fun n hn => ((winv h).active n).2 hn
  have h1 := (active_nodup ops).length_le_of_subset hsub
  have h2 := (winv h).names.length_le_of_subset hsup
  rw [List.length_map] at h1 h2
  unfold Svc.surplus
  rw [decide_eq_true_eq]
  omega

/-- A worker goes while the service waits; the timer fires and the next message is made. -/
example :
    let ops : List BOp := [.timeUp, .start, .ended true, .soon, .soon, .fire, .start]
    (Beat.run 15 ops).sent = [0, 0] ∧ (Beat.run 15 ops).timer = .none ∧ untold ops 15 = false ∧
    untold (ops.take 5) 15 = true := by decide +kernel

/-- One worker is being retired, another is lost. -/
example :
    let ops : List WOp := [.added ['1'] ['a'], .added ['2'] ['b'], .retiring [['a']]]
    (Svc.run ops).lost true ['1'] = false ∧ (Svc.run ops).lost true ['2'] = true ∧
    (Svc.run ops).surplus 1 = true := by decide

end Verif.Sched

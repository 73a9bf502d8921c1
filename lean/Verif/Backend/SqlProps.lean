import Verif.Backend.Sql
import Verif.Backend.GiveUp
/-
C175: what the gateway knows is what is in its database.
-/
set_option linter.unusedSimpArgs false
set_option linter.unusedVariables false
namespace Verif.Backend

/-! ### Lists -/

theorem fold_one {α β : Type} (p : α → Bool) (g : α → β → β) (x : α) : ∀ (l : List α) (r : β), l.Nodup → x ∈ l → p x = true →
    (∀ y ∈ l, p y = true → y ≠ x → ∀ r, g y r = r) → (l.filter p).foldl (fun r o => g o r) r = g x r := by
  have none : ∀ (l : List α) (r : β), (∀ y ∈ l, p y = true → ∀ r, g y r = r) →
      (l.filter p).foldl (fun r o => g o r) r = r := by
    intro l
    induction l with
    | nil => exact fun r _ => rfl
    | cons a l ih =>
      intro r h
      cases hp : p a
      · rw [List.filter_cons_of_neg (by simp [hp])]
        exact ih r (fun y hy => h y (by simp [hy]))
      · rw [List.filter_cons_of_pos hp, List.foldl_cons, h a (by simp) hp]
        exact ih r (fun y hy => h y (by simp [hy]))
  intro l
  induction l with
  | nil => intro r _ hx; cases hx
  | cons a l ih =>
    intro r hn hx hp h
    rw [List.nodup_cons] at hn
    rcases List.mem_cons.1 hx with rfl | hx
    · rw [List.filter_cons_of_pos hp, List.foldl_cons]
      exact none l _ (fun y hy hpy => h y (by simp [hy]) hpy (fun e => hn.1 (e ▸ hy)))
    · have hne : a ≠ x := fun e => hn.1 (e ▸ hx)
      cases hpa : p a
      · rw [List.filter_cons_of_neg (by simp [hpa])]
        exact ih r hn.2 hx hp (fun y hy => h y (by simp [hy]))
      · rw [List.filter_cons_of_pos hpa, List.foldl_cons, h a (by simp) hpa hne]
        exact ih r hn.2 hx hp (fun y hy => h y (by simp [hy]))

theorem nodup_of_map {α β : Type} {f : α → β} {l : List α} (h : (l.map f).Nodup) : l.Nodup := by
  have := List.pairwise_map.1 h
  exact this.imp (fun hab e => hab (by rw [e]))

theorem map_inj {α β : Type} {f : α → β} : ∀ {l : List α}, (l.map f).Nodup → ∀ {x y : α}, x ∈ l → y ∈ l → f x = f y → x = y := by
  intro l
  induction l with
  | nil => intro _ x y hx; cases hx
  | cons a l ih =>
    intro h x y hx hy e
    rw [List.map_cons, List.nodup_cons] at h
    rcases List.mem_cons.1 hx with ex | hx <;> rcases List.mem_cons.1 hy with ey | hy
    · rw [ex, ey]
    · exact absurd (ex ▸ e ▸ List.mem_map_of_mem hy) h.1
    · exact absurd (ey ▸ e ▸ List.mem_map_of_mem hx) h.1
    · exact ih h.2 hx hy e

theorem nodup_map_of {α β γ : Type} {f : α → β} {g : α → γ} {l : List α} (h : (l.map f).Nodup)
    (hg : ∀ x ∈ l, ∀ y ∈ l, g x = g y → f x = f y) : (l.map g).Nodup := by
  have h' := List.pairwise_map.1 h
  apply List.pairwise_map.2
  exact h'.imp_of_mem (fun hx hy hne e => hne (hg _ hx _ hy e))

theorem le_max {i : Nat} : ∀ {l : List Nat}, i ∈ l → i ≤ l.foldr max 0 := by
  intro l
  induction l with
  | nil => intro h; cases h
  | cons a l ih =>
    intro h
    rw [List.foldr_cons]
    rcases List.mem_cons.1 h with rfl | h
    · exact Nat.le_max_left _ _
    · exact Nat.le_trans (ih h) (Nat.le_max_right _ _)

theorem cupd_none (r : CRow) : ({} : CUpd).app r = r := rfl
theorem wupd_none (r : WRow) : ({} : WUpd).app r = r := rfl

/-! ### The tables and the gateway -/

/-- The rows of the workers of a cluster. -/
def Disk.rowsOf (d : Disk) (i : Nat) : List WRow := (d.workers.filter (fun w => decide (w.2.1 = i))).map (·.2.2)

structure Rel (seq : Bool) (d : Disk) (s : State) : Prop where
  view : s.db = d.clusters.map (fun e => (e.2, d.rowsOf e.1))
  idsC : (d.clusters.map (·.1)).Nodup
  idsW : (d.workers.map (·.1)).Nodup
  fk : ∀ w ∈ d.workers, ∃ e ∈ d.clusters, e.1 = w.2.1
  objC : ∀ e ∈ d.clusters, (e.2.name, e.1) ∈ d.cl
  objW : ∀ e ∈ d.clusters, ∀ w ∈ d.workers, w.2.1 = e.1 → (e.2.name, w.2.2.name, w.1) ∈ d.wk
  namesC : (d.cl.map (·.1)).Nodup
  namesW : (d.wk.map (·.2.1)).Nodup
  boundC : ∀ o ∈ d.cl, o.1 < s.next
  boundW : ∀ o ∈ d.wk, o.1 < s.next ∧ o.2.1 < s.next
  liveW : ∀ o ∈ d.wk, ∀ e ∈ d.clusters, e.2.name = o.1 → ∃ w ∈ d.workers, w.2.1 = e.1 ∧ w.2.2.name = o.2.1 ∧ w.1 = o.2.2
  seqC : seq = true → (d.cl.map (·.2)).Nodup ∧ ∀ o ∈ d.cl, o.2 ≤ d.lastC
  seqW : seq = true → (d.wk.map (·.2.2)).Nodup ∧ ∀ o ∈ d.wk, o.2.2 ≤ d.lastW

/-- The names of the clusters in the database. -/
def State.dbNames (s : State) : List Nat := s.db.map (fun e => e.1.name)

theorem Rel.names {seq : Bool} {d : Disk} {s : State} (h : Rel seq d s) : s.dbNames = d.clusters.map (fun e => e.2.name) := by
  unfold State.dbNames
  rw [h.view, List.map_map]
  rfl

/-- Rows with the same name are one row. -/
theorem Rel.row_inj {seq : Bool} {d : Disk} {s : State} (h : Rel seq d s) {e e' : Nat × CRow} (he : e ∈ d.clusters)
    (he' : e' ∈ d.clusters) (hn : e.2.name = e'.2.name) : e = e' := by
  have := map_inj h.namesC (h.objC e he) (h.objC e' he') hn
  exact map_inj h.idsC he he' (congrArg Prod.snd this)

/-- The micro-action concerns clusters that the gateway knows, unless numbers are never used again. -/
def OkAct (seq : Bool) (names : List Nat) : Act → Prop
  | .updC f => seq = true ∨ ∀ n, n ∉ names → ∀ r, (f n).app r = r
  | .updW f => seq = true ∨ ∀ n, n ∉ names → ∀ w r, (f n w).app r = r
  | .newW n _ => n ∈ names
  | _ => True

theorem Rel.setC {seq : Bool} {d : Disk} {s : State} (h : Rel seq d s) {f : Nat → CUpd} (ho : OkAct seq s.dbNames (.updC f))
    {e : Nat × CRow} (he : e ∈ d.clusters) : d.setC f e = (f e.2.name).app e.2 := by
  have key : ∀ y ∈ d.cl, decide (y.2 = e.1) = true → y ≠ (e.2.name, e.1) → ∀ r, (f y.1).app r = r := by
    intro y hy hp hne r
    have hp : y.2 = e.1 := of_decide_eq_true hp
    rcases ho with ho | ho
    · exact absurd (map_inj (h.seqC ho).1 hy (h.objC e he) hp) hne
    · apply ho
      intro hn
      rw [h.names] at hn
      obtain ⟨e', he', en⟩ := List.mem_map.1 hn
      have e1 : y = (e'.2.name, e'.1) := map_inj h.namesC hy (h.objC e' he') en.symm
      have e2 : e' = e := map_inj h.idsC he' he (by rw [← hp, e1])
      exact hne (e2 ▸ e1)
  exact fold_one (fun o : Nat × Nat => decide (o.2 = e.1)) (fun o r => (f o.1).app r) (e.2.name, e.1) d.cl e.2
    (nodup_of_map h.namesC) (h.objC e he) (by simp) key

theorem Rel.setW {seq : Bool} {d : Disk} {s : State} (h : Rel seq d s) {f : Nat → Nat → WUpd}
    (ho : OkAct seq s.dbNames (.updW f)) {e : Nat × CRow} (he : e ∈ d.clusters) {w : Nat × Nat × WRow} (hw : w ∈ d.workers)
    (hc : w.2.1 = e.1) : d.setW f w = (f e.2.name w.2.2.name).app w.2.2 := by
  have key : ∀ y ∈ d.wk, decide (y.2.2 = w.1) = true → y ≠ (e.2.name, w.2.2.name, w.1) → ∀ r, (f y.1 y.2.1).app r = r := by
    intro y hy hp hne r
    have hp : y.2.2 = w.1 := of_decide_eq_true hp
    rcases ho with ho | ho
    · exact absurd (map_inj (h.seqW ho).1 hy (h.objW e he w hw hc) hp) hne
    · apply ho
      intro hn
      rw [h.names] at hn
      obtain ⟨e', he', en⟩ := List.mem_map.1 hn
      obtain ⟨w', hw', c1, c2, c3⟩ := h.liveW y hy e' he' en
      have e1 : w' = w := map_inj h.idsW hw' hw (by rw [c3, hp])
      subst e1
      exact hne (map_inj h.namesW hy (h.objW e he w' hw' hc) c2.symm)
  exact fold_one (fun o : Nat × Nat × Nat => decide (o.2.2 = w.1)) (fun o r => (f o.1 o.2.1).app r) (e.2.name, w.2.2.name, w.1)
    d.wk w.2.2 (nodup_of_map h.namesW) (h.objW e he w hw hc) (by simp) key

theorem Rel.updC {seq : Bool} {d : Disk} {s : State} (h : Rel seq d s) {f : Nat → CUpd} (ho : OkAct seq s.dbNames (.updC f)) :
    Rel seq (d.apply seq (.updC f)) (s.apply (.updC f)) := by
  have hm : ∀ e ∈ d.clusters, (e.1, d.setC f e) = (e.1, (f e.2.name).app e.2) := fun e he => by rw [h.setC ho he]
  have hcl : (d.apply seq (.updC f)).clusters = d.clusters.map (fun e => (e.1, (f e.2.name).app e.2)) :=
    List.map_congr_left hm
  have hex : ∀ e' ∈ (d.apply seq (.updC f)).clusters, ∃ e ∈ d.clusters, e.1 = e'.1 ∧ e.2.name = e'.2.name := by
    intro e' he'
    rw [hcl] at he'
    obtain ⟨e, he, rfl⟩ := List.mem_map.1 he'
    exact ⟨e, he, rfl, rfl⟩
  refine ⟨?_, ?_, h.idsW, ?_, ?_, ?_, h.namesC, h.namesW, h.boundC, h.boundW, ?_, h.seqC, h.seqW⟩
  · show s.db.map (Act.updC f).onEntry = (d.apply seq (.updC f)).clusters.map _
    rw [h.view, hcl, List.map_map, List.map_map]
    rfl
  · rw [hcl, List.map_map]
    exact h.idsC
  · intro w hw
    obtain ⟨e, he, e1⟩ := h.fk w hw
    rw [hcl]
    exact ⟨_, List.mem_map_of_mem he, e1⟩
  · intro e' he'
    obtain ⟨e, he, e1, e2⟩ := hex e' he'
    rw [← e1, ← e2]
    exact h.objC e he
  · intro e' he' w hw hc
    obtain ⟨e, he, e1, e2⟩ := hex e' he'
    rw [← e2]
    exact h.objW e he w hw (hc.trans e1.symm)
  · intro o ho' e' he' en
    obtain ⟨e, he, e1, e2⟩ := hex e' he'
    rw [← e1]
    exact h.liveW o ho' e he (e2.trans en)

theorem Rel.updW {seq : Bool} {d : Disk} {s : State} (h : Rel seq d s) {f : Nat → Nat → WUpd}
    (ho : OkAct seq s.dbNames (.updW f)) : Rel seq (d.apply seq (.updW f)) (s.apply (.updW f)) := by
  have hwk : (d.apply seq (.updW f)).workers = d.workers.map (fun w => (w.1, w.2.1, d.setW f w)) := rfl
  have hname : ∀ w ∈ d.workers, (d.setW f w).name = w.2.2.name := by
    intro w hw
    obtain ⟨e, he, hc⟩ := h.fk w hw
    rw [h.setW ho he hw hc.symm]
    rfl
  have hex : ∀ w' ∈ (d.apply seq (.updW f)).workers, ∃ w ∈ d.workers, w.1 = w'.1 ∧ w.2.1 = w'.2.1 ∧ w.2.2.name = w'.2.2.name := by
    intro w' hw'
    rw [hwk] at hw'
    obtain ⟨w, hw, rfl⟩ := List.mem_map.1 hw'
    exact ⟨w, hw, rfl, rfl, (hname w hw).symm⟩
  refine ⟨?_, h.idsC, ?_, ?_, h.objC, ?_, h.namesC, h.namesW, h.boundC, h.boundW, ?_, h.seqC, h.seqW⟩
  · show s.db.map (Act.updW f).onEntry = d.clusters.map _
    rw [h.view, List.map_map]
    refine List.map_congr_left (fun e he => ?_)
    show (e.2, (d.rowsOf e.1).map (fun r => (f e.2.name r.name).app r)) = (e.2, (d.apply seq (.updW f)).rowsOf e.1)
    congr 1
    unfold Disk.rowsOf
    rw [hwk, List.filter_map, List.map_map, List.map_map]
    refine List.map_congr_left (fun w hw => ?_)
    obtain ⟨hw, hc⟩ := List.mem_filter.1 hw
    exact (h.setW ho he hw (by simpa using hc)).symm
  · rw [hwk, List.map_map]
    exact h.idsW
  · intro w' hw'
    obtain ⟨w, hw, -, e2, -⟩ := hex w' hw'
    rw [← e2]
    exact h.fk w hw
  · intro e he w' hw' hc
    obtain ⟨w, hw, e1, e2, e3⟩ := hex w' hw'
    rw [← e1, ← e3]
    exact h.objW e he w hw (e2.trans hc)
  · intro o ho' e he en
    obtain ⟨w, hw, c1, c2, c3⟩ := h.liveW o ho' e he en
    rw [hwk]
    exact ⟨_, List.mem_map_of_mem hw, c1, (hname w hw).trans c2, c3⟩

theorem newId_fresh {seq : Bool} {last : Nat} {ids : List Nat} (h : seq = true → ∀ i ∈ ids, i ≤ last) :
    newId seq last ids ∉ ids := by
  intro hm
  unfold newId at hm
  split at hm
  · rename_i hs
    have := h hs _ hm
    omega
  · have := le_max hm
    omega

theorem Rel.newC {seq : Bool} {d : Disk} {s : State} (h : Rel seq d s) {r : CRow} (hr : r.name = s.next) :
    Rel seq (d.apply seq (.newC r)) (s.apply (.newC r)) := by
  have hf : newId seq d.lastC (d.clusters.map (·.1)) ∉ d.clusters.map (·.1) := by
    refine newId_fresh (fun hs i hi => ?_)
    obtain ⟨e, he, rfl⟩ := List.mem_map.1 hi
    exact (h.seqC hs).2 _ (h.objC e he)
  have hcl : (d.apply seq (.newC r)).clusters = d.clusters ++ [(newId seq d.lastC (d.clusters.map (·.1)), r)] := rfl
  have hlast : (d.apply seq (.newC r)).lastC = newId seq d.lastC (d.clusters.map (·.1)) := rfl
  have hobj : (d.apply seq (.newC r)).cl = d.cl ++ [(r.name, newId seq d.lastC (d.clusters.map (·.1)))] := rfl
  generalize hi : newId seq d.lastC (d.clusters.map (·.1)) = i at *
  have hrows : (d.apply seq (.newC r)).rowsOf i = [] := by
    show (d.workers.filter (fun w => decide (w.2.1 = i))).map (·.2.2) = []
    rw [List.map_eq_nil_iff, List.filter_eq_nil_iff]
    intro w hw he
    obtain ⟨e, he', e1⟩ := h.fk w hw
    exact hf (List.mem_map.2 ⟨e, he', e1.trans (by simpa using he)⟩)
  refine ⟨?_, ?_, h.idsW, ?_, ?_, ?_, ?_, h.namesW, ?_, ?_, ?_, ?_, h.seqW⟩
  · show s.db ++ [(r, [])] = (d.apply seq (.newC r)).clusters.map _
    rw [hcl, List.map_append, h.view, List.map_cons, List.map_nil, hrows]
    rfl
  · rw [hcl, List.map_append, List.nodup_append]
    refine ⟨h.idsC, by simp, ?_⟩
    rintro a ha b hb rfl
    simp only [List.map_cons, List.map_nil, List.mem_singleton] at hb
    exact hf (hb ▸ ha)
  · intro w hw
    obtain ⟨e, he, e1⟩ := h.fk w hw
    exact ⟨e, by rw [hcl]; simp [he], e1⟩
  · intro e he
    rw [hobj]
    rw [hcl] at he
    rcases List.mem_append.1 he with he | he
    · exact List.mem_append.2 (.inl (h.objC e he))
    · rw [List.mem_singleton] at he
      subst he
      simp
  · intro e he w hw hc
    rw [hcl] at he
    rcases List.mem_append.1 he with he | he
    · exact h.objW e he w hw hc
    · rw [List.mem_singleton] at he
      subst he
      obtain ⟨e, he', e1⟩ := h.fk w hw
      exact absurd (List.mem_map.2 ⟨e, he', e1.trans hc⟩) hf
  · rw [hobj, List.map_append, List.nodup_append]
    refine ⟨h.namesC, by simp, ?_⟩
    rintro a ha b hb rfl
    simp only [List.map_cons, List.map_nil, List.mem_singleton] at hb
    obtain ⟨o, ho, rfl⟩ := List.mem_map.1 ha
    have := h.boundC o ho
    omega
  · intro o ho
    show o.1 < s.next + 1
    rw [hobj] at ho
    rcases List.mem_append.1 ho with ho | ho
    · have := h.boundC o ho
      omega
    · rw [List.mem_singleton] at ho
      subst ho
      show r.name < _
      omega
  · intro o ho
    have := h.boundW o ho
    exact ⟨Nat.lt_succ_of_lt this.1, Nat.lt_succ_of_lt this.2⟩
  · intro o ho e he en
    rw [hcl] at he
    rcases List.mem_append.1 he with he | he
    · exact h.liveW o ho e he en
    · rw [List.mem_singleton] at he
      subst he
      have := (h.boundW o ho).1
      have en : r.name = o.1 := en
      omega
  · intro hs
    have hlt : ∀ o ∈ d.cl, o.2 < i := by
      intro o ho
      have := (h.seqC hs).2 o ho
      rw [← hi]
      unfold newId
      rw [if_pos hs]
      omega
    rw [hobj, hlast]
    refine ⟨?_, ?_⟩
    · rw [List.map_append, List.nodup_append]
      refine ⟨(h.seqC hs).1, by simp, ?_⟩
      rintro a ha b hb rfl
      simp only [List.map_cons, List.map_nil, List.mem_singleton] at hb
      obtain ⟨o, ho, rfl⟩ := List.mem_map.1 ha
      have := hlt o ho
      omega
    · intro o ho
      rcases List.mem_append.1 ho with ho | ho
      · exact Nat.le_of_lt (hlt o ho)
      · rw [List.mem_singleton] at ho
        subst ho
        exact Nat.le_refl _

theorem Rel.idOf {seq : Bool} {d : Disk} {s : State} (h : Rel seq d s) {e : Nat × CRow} (he : e ∈ d.clusters) :
    d.idOf e.2.name = some e.1 := by
  unfold Disk.idOf
  have hm := h.objC e he
  cases hx : d.cl.find? (fun o => decide (o.1 = e.2.name)) with
  | none =>
    rw [List.find?_eq_none] at hx
    exact absurd (by simp) (hx _ hm)
  | some o =>
    have h1 := List.mem_of_find?_eq_some hx
    have h2 : o.1 = e.2.name := by simpa using List.find?_some hx
    rw [map_inj h.namesC h1 hm h2]
    rfl

theorem Rel.newW {seq : Bool} {d : Disk} {s : State} (h : Rel seq d s) {n : Nat} {r : WRow} (hr : r.name = s.next)
    (hn : n ∈ s.dbNames) : Rel seq (d.apply seq (.newW n r)) (s.apply (.newW n r)) := by
  rw [h.names] at hn
  obtain ⟨x, hx, rfl⟩ := List.mem_map.1 hn
  have hf : newId seq d.lastW (d.workers.map (·.1)) ∉ d.workers.map (·.1) := by
    refine newId_fresh (fun hs i hi => ?_)
    obtain ⟨w, hw, rfl⟩ := List.mem_map.1 hi
    obtain ⟨e, he, e1⟩ := h.fk w hw
    exact (h.seqW hs).2 _ (h.objW e he w hw e1.symm)
  generalize hi : newId seq d.lastW (d.workers.map (·.1)) = i at *
  have hd : d.apply seq (.newW x.2.name r) =
      { d with workers := d.workers ++ [(i, x.1, r)], lastW := i, wk := d.wk ++ [(x.2.name, r.name, i)] } := by
    show d.addW seq x.2.name r = _
    unfold Disk.addW
    rw [h.idOf hx]
    simp only
    rw [if_pos (List.mem_map_of_mem hx), hi]
  rw [hd]
  refine ⟨?_, h.idsC, ?_, ?_, h.objC, ?_, h.namesC, ?_, ?_, ?_, ?_, h.seqC, ?_⟩
  · show s.db.map (Act.newW x.2.name r).onEntry = d.clusters.map _
    rw [h.view, List.map_map]
    refine List.map_congr_left (fun e he => ?_)
    show (if x.2.name = e.2.name then (e.2, d.rowsOf e.1 ++ [r]) else (e.2, d.rowsOf e.1)) =
      (e.2, ((d.workers ++ [(i, x.1, r)]).filter (fun w => decide (w.2.1 = e.1))).map (·.2.2))
    rw [List.filter_append, List.map_append]
    by_cases hxe : x.2.name = e.2.name
    · have := h.row_inj hx he hxe
      subst this
      rw [if_pos rfl]
      simp [Disk.rowsOf]
    · rw [if_neg hxe]
      have : x.1 ≠ e.1 := fun e1 => hxe (by rw [map_inj h.idsC hx he e1])
      simp [Disk.rowsOf, this]
  · show ((d.workers ++ [(i, x.1, r)]).map (·.1)).Nodup
    rw [List.map_append, List.nodup_append]
    refine ⟨h.idsW, by simp, ?_⟩
    rintro a ha b hb rfl
    simp only [List.map_cons, List.map_nil, List.mem_singleton] at hb
    exact hf (hb ▸ ha)
  · intro w hw
    rcases List.mem_append.1 hw with hw | hw
    · exact h.fk w hw
    · rw [List.mem_singleton] at hw
      subst hw
      exact ⟨x, hx, rfl⟩
  · intro e he w hw hc
    refine List.mem_append.2 ?_
    rcases List.mem_append.1 hw with hw | hw
    · exact .inl (h.objW e he w hw hc)
    · rw [List.mem_singleton] at hw
      subst hw
      right
      rw [← map_inj h.idsC hx he hc]
      simp
  · show ((d.wk ++ [(x.2.name, r.name, i)]).map (·.2.1)).Nodup
    rw [List.map_append, List.nodup_append]
    refine ⟨h.namesW, by simp, ?_⟩
    rintro a ha b hb rfl
    simp only [List.map_cons, List.map_nil, List.mem_singleton] at hb
    obtain ⟨o, ho, rfl⟩ := List.mem_map.1 ha
    have := (h.boundW o ho).2
    omega
  · intro o ho
    exact Nat.lt_succ_of_lt (h.boundC o ho)
  · intro o ho
    show o.1 < s.next + 1 ∧ o.2.1 < s.next + 1
    rcases List.mem_append.1 ho with ho | ho
    · have := h.boundW o ho
      omega
    · rw [List.mem_singleton] at ho
      subst ho
      have := h.boundC _ (h.objC x hx)
      show x.2.name < _ ∧ r.name < _
      have : x.2.name < s.next := this
      omega
  · intro o ho e he en
    rcases List.mem_append.1 ho with ho | ho
    · obtain ⟨w, hw, c⟩ := h.liveW o ho e he en
      exact ⟨w, List.mem_append.2 (.inl hw), c⟩
    · rw [List.mem_singleton] at ho
      subst ho
      refine ⟨(i, x.1, r), by simp, ?_, rfl, rfl⟩
      rw [← h.row_inj he hx en]
  · intro hs
    have hlt : ∀ o ∈ d.wk, o.2.2 < i := by
      intro o ho
      have := (h.seqW hs).2 o ho
      rw [← hi]
      unfold newId
      rw [if_pos hs]
      omega
    refine ⟨?_, ?_⟩
    · show ((d.wk ++ [(x.2.name, r.name, i)]).map (·.2.2)).Nodup
      rw [List.map_append, List.nodup_append]
      refine ⟨(h.seqW hs).1, by simp, ?_⟩
      rintro a ha b hb rfl
      simp only [List.map_cons, List.map_nil, List.mem_singleton] at hb
      obtain ⟨o, ho, rfl⟩ := List.mem_map.1 ha
      have := hlt o ho
      omega
    · intro o ho
      rcases List.mem_append.1 ho with ho | ho
      · exact Nat.le_of_lt (hlt o ho)
      · rw [List.mem_singleton] at ho
        subst ho
        exact Nat.le_refl _

theorem Rel.purge {seq : Bool} {d : Disk} {s : State} (h : Rel seq d s) (p : Nat → Bool) :
    Rel seq (d.apply seq (.purge p)) (s.apply (.purge p)) := by
  have hdel : ∀ e ∈ d.clusters, decide (e.1 ∈ (d.clusters.filter (fun e => p e.2.name)).map (·.1)) = p e.2.name := by
    intro e he
    cases hp : p e.2.name
    · apply decide_eq_false
      intro hm
      obtain ⟨e', he', e1⟩ := List.mem_map.1 hm
      obtain ⟨he', hp'⟩ := List.mem_filter.1 he'
      rw [map_inj h.idsC he' he e1, hp] at hp'
      cases hp'
    · exact decide_eq_true (List.mem_map.2 ⟨e, List.mem_filter.2 ⟨he, hp⟩, rfl⟩)
  have hcl : (d.apply seq (.purge p)).clusters = d.clusters.filter (fun e => !p e.2.name) := by
    show d.clusters.filter (fun e => !decide (e.1 ∈ (d.clusters.filter (fun e => p e.2.name)).map (·.1))) = _
    exact List.filter_congr (fun e he => by rw [hdel e he])
  have hin : ∀ e ∈ (d.apply seq (.purge p)).clusters, e ∈ d.clusters ∧ p e.2.name = false := by
    intro e he
    rw [hcl] at he
    obtain ⟨he, hp⟩ := List.mem_filter.1 he
    exact ⟨he, by simpa using hp⟩
  have hwk : (d.apply seq (.purge p)).workers =
      d.workers.filter (fun w => !decide (w.2.1 ∈ (d.clusters.filter (fun e => p e.2.name)).map (·.1))) := rfl
  have hsub : ∀ w ∈ (d.apply seq (.purge p)).workers, w ∈ d.workers := by
    intro w hw
    rw [hwk] at hw
    exact (List.mem_filter.1 hw).1
  have hkeep : ∀ e ∈ (d.apply seq (.purge p)).clusters, ∀ w ∈ d.workers, w.2.1 = e.1 → w ∈ (d.apply seq (.purge p)).workers := by
    intro e he w hw hc
    obtain ⟨he, hp⟩ := hin e he
    rw [hwk]
    refine List.mem_filter.2 ⟨hw, ?_⟩
    rw [hc, hdel e he, hp]
    rfl
  refine ⟨?_, ?_, ?_, ?_, ?_, ?_, h.namesC, h.namesW, h.boundC, h.boundW, ?_, h.seqC, h.seqW⟩
  · show s.db.filter (fun e => !p e.1.name) = (d.apply seq (.purge p)).clusters.map _
    rw [hcl, h.view, List.filter_map]
    show (d.clusters.filter (fun e => !p e.2.name)).map _ = _
    refine List.map_congr_left (fun e he => ?_)
    show (e.2, d.rowsOf e.1) = (e.2, (d.apply seq (.purge p)).rowsOf e.1)
    congr 1
    unfold Disk.rowsOf
    rw [hwk, List.filter_filter]
    congr 1
    refine List.filter_congr (fun w hw => ?_)
    obtain ⟨he, hp⟩ := List.mem_filter.1 he
    by_cases hc : w.2.1 = e.1
    · rw [hc, hdel e he]
      simp at hp
      simp [hp]
    · simp [hc]
  · rw [hcl]
    exact (List.filter_sublist.map _).nodup h.idsC
  · rw [hwk]
    exact (List.filter_sublist.map _).nodup h.idsW
  · intro w hw
    obtain ⟨e, he, e1⟩ := h.fk w (hsub w hw)
    refine ⟨e, ?_, e1⟩
    rw [hcl]
    refine List.mem_filter.2 ⟨he, ?_⟩
    rw [hwk] at hw
    have := (List.mem_filter.1 hw).2
    rw [← e1, hdel e he] at this
    exact this
  · exact fun e he => h.objC e (hin e he).1
  · exact fun e he w hw hc => h.objW e (hin e he).1 w (hsub w hw) hc
  · intro o ho e he en
    obtain ⟨w, hw, c⟩ := h.liveW o ho e (hin e he).1 en
    exact ⟨w, hkeep e he w hw c.1, c⟩

theorem Rel.same {seq : Bool} {d : Disk} {s s' : State} (h : Rel seq d s) (hd : s'.db = s.db) (hn : s'.next = s.next) : Rel seq d s' :=
  ⟨hd ▸ h.view, h.idsC, h.idsW, h.fk, h.objC, h.objW, h.namesC, h.namesW, hn ▸ h.boundC, hn ▸ h.boundW, h.liveW, h.seqC, h.seqW⟩

/-- The new names of an action. -/
def NewName (s : State) : Act → Prop
  | .newC r => r.name = s.next
  | .newW _ r => r.name = s.next
  | _ => True

theorem Rel.act {seq : Bool} {d : Disk} {s : State} (h : Rel seq d s) {a : Act} (ho : OkAct seq s.dbNames a) (hf : NewName s a) :
    Rel seq (d.apply seq a) (s.apply a) := by
  have idle : ∀ {a : Act}, (s.apply a).db = s.db.map a.onEntry → (∀ e, a.onEntry e = e) → (s.apply a).next = s.next →
      d.apply seq a = d → Rel seq (d.apply seq a) (s.apply a) := by
    intro a h1 h2 h3 h4
    rw [h4]
    refine h.same ?_ h3
    rw [h1]
    conv => rhs; rw [← List.map_id s.db]
    exact List.map_congr_left (fun e _ => h2 e)
  cases a with
  | updC f => exact h.updC ho
  | updW f => exact h.updW ho
  | newC r => exact h.newC hf
  | newW n r => exact h.newW hf ho
  | purge p => exact h.purge p
  | putC f => exact idle rfl (fun _ => rfl) rfl rfl
  | putW f => exact idle rfl (fun _ => rfl) rfl rfl
  | volC n f => exact idle rfl (fun _ => rfl) rfl rfl
  | volW n w f => exact idle rfl (fun _ => rfl) rfl rfl

/-! ### Operations -/

theorem dbNames_plain {s : State} {a : Act} (ha : a.plain = true) : (s.apply a).dbNames = s.dbNames := by
  have h1 : (s.apply a).db = s.db.map a.onEntry := by
    cases a <;> first | rfl | (simp [Act.plain] at ha)
  unfold State.dbNames
  rw [h1, List.map_map]
  refine List.map_congr_left (fun e _ => ?_)
  cases a <;> try rfl
  simp only [Function.comp, Act.onEntry]
  split <;> rfl

theorem rel_list {seq : Bool} : ∀ (l : List Act) {d : Disk} {s : State}, Rel seq d s → (∀ a ∈ l, a.plain = true) → Fresh s.next l →
    (∀ a ∈ l, OkAct seq s.dbNames a) → Rel seq (d.applyAll seq l) (s.applyAll l) := by
  intro l
  induction l with
  | nil => exact fun h _ _ _ => h
  | cons a l ih =>
    intro d s h hp hf ho
    have hpa := hp a (by simp)
    have hname : NewName s a := by
      cases a with
      | newC r => exact hf.1
      | newW n r => exact hf.1
      | _ => trivial
    have hnext : Fresh (s.apply a).next l := by
      cases a with
      | newC r => exact hf.2
      | newW n r => exact hf.2
      | _ => exact hf
    refine ih (h.act (ho a (by simp)) hname) (fun b hb => hp b (by simp [hb])) hnext (fun b hb => ?_)
    rw [dbNames_plain hpa]
    exact ho b (by simp [hb])

theorem okAct_mono {seq : Bool} {names : List Nat} {a : Act} (h : OkAct false names a) : OkAct seq names a := by
  cases a with
  | updC f => exact .inr (h.resolve_left (by simp))
  | updW f => exact .inr (h.resolve_left (by simp))
  | newW n r => exact h
  | _ => trivial

theorem about_ok {n : Nat} {names : List Nat} (hn : n ∈ names) {a : Act} (h : a.about n) : OkAct false names a := by
  obtain ⟨hp, h⟩ := h
  have hne : ∀ m, m ∉ names → m ≠ n := fun m hm e => hm (e ▸ hn)
  cases a with
  | updC f =>
    refine .inr (fun m hm r => ?_)
    have := h { row := { r with name := m }, vol := CVol.init .created 0 [], workers := [] } (hne m hm)
    have e : (f m).app { r with name := m } = { r with name := m } := congrArg Cluster.row this
    have e2 : (f m).app r = { (f m).app { r with name := m } with name := r.name } := rfl
    rw [e2, e]
  | updW f =>
    refine .inr (fun m hm w r => ?_)
    have := h { row := newRow m "" none 0, vol := CVol.init .created 0 [], workers := [Worker.fresh { r with name := w }] } (hne m hm)
    have e : [({ (Worker.fresh { r with name := w }) with row := (f m w).app { r with name := w } } : Worker)] =
      [Worker.fresh { r with name := w }] := congrArg Cluster.workers this
    have e1 : (f m w).app { r with name := w } = { r with name := w } := by
      have := congrArg Worker.row (List.head_eq_of_cons_eq e)
      exact this
    have e2 : (f m w).app r = { (f m w).app { r with name := w } with name := r.name } := rfl
    rw [e2, e1]
  | newW m r =>
    by_cases e : m = n
    · exact e ▸ hn
    · have := h { row := newRow m "" none 0, vol := CVol.init .created 0 [], workers := [] } e
      have := congrArg (fun c => c.workers.length) this
      simp [Act.onCluster, newRow] at this
  | newC r => simp [Act.plain] at hp
  | purge p => simp [Act.plain] at hp
  | _ => trivial

/-- A status check does not report the failure of clusters that were removed since it began. -/
def Timely (s : State) : Op → Prop
  | .checkClustersEnd sts => ∀ l, s.chkC = some l → ∀ n ∈ bad l sts, ∃ c ∈ s.clusters, c.row.name = n
  | .checkWorkersEnd sts => ∀ l, s.chkW = some l → ∀ p ∈ bad l sts, ∃ c ∈ s.clusters, c.row.name = p.1
  | _ => True

theorem mem_dbNames {s : State} (h : Synced s) {n : Nat} : n ∈ s.dbNames ↔ ∃ c ∈ s.clusters, c.row.name = n := by
  unfold State.dbNames
  rw [h, List.map_map, List.mem_map]
  rfl

theorem acts_fine {cfg : Cfg} {s : State} (h : SInv cfg s) (seq : Bool) (o : Op) (ho : o.plain = true) (ht : seq = true ∨ Timely s o) :
    Fresh s.next (acts cfg s o) ∧ ∀ a ∈ acts cfg s o, OkAct seq s.dbNames a := by
  have nil : Fresh s.next ([] : List Act) ∧ ∀ a ∈ ([] : List Act), OkAct seq s.dbNames a := ⟨trivial, by simp⟩
  have loc {n : Nat} {c : Cluster} (hc : s.find n = some c) {l : List Act} (hl : Local n l) (hf : Fresh s.next l) :
      Fresh s.next l ∧ ∀ a ∈ l, OkAct seq s.dbNames a :=
    ⟨hf, fun a ha => okAct_mono (about_ok ((mem_dbNames h.synced).2 ⟨c, sfind_spec hc⟩) (hl a ha))⟩
  have some_name {n : Nat} (hn : n ∉ s.dbNames) : ∀ c ∈ s.clusters, c.row.name ≠ n :=
    fun c hc e => hn ((mem_dbNames h.synced).2 ⟨c, hc, e⟩)
  cases o with
  | startCluster u m n => simp [Op.plain] at ho
  | cleanup n => simp [Op.plain] at ho
  | checkClusters => exact nil
  | checkWorkers => exact nil
  | stopCluster n f =>
    simp only [acts]
    split
    · exact nil
    · rename_i c hc
      obtain ⟨hm, rfl⟩ := sfind_spec hc
      exact loc hc (stop_local c f) (.of_quiet (stop_quiet c f))
  | heartbeat n m now =>
    simp only [acts]
    split
    · exact nil
    · rename_i c hc
      obtain ⟨hm, rfl⟩ := sfind_spec hc
      exact loc hc (hb_local c m now) (.of_quiet (hb_quiet c m now))
  | shutdown =>
    simp only [acts, shutdownActs]
    refine ⟨.of_quiet (.cons (quiet_updC _) (.cons (quiet_putC _) .nil)), ?_⟩
    intro a ha
    simp only [List.mem_cons, List.not_mem_nil, or_false] at ha
    rcases ha with rfl | rfl
    · refine .inr (fun n hn r => ?_)
      simp only []
      rw [if_neg]
      · rfl
      · intro hm
        obtain ⟨c, hc, e⟩ := List.mem_map.1 hm
        exact some_name hn c (List.mem_filter.1 hc).1 e
    · trivial
  | checkTimeouts now =>
    simp only [acts, timeoutActs]
    split
    · exact nil
    · refine ⟨.of_quiet (.cons (quiet_updC _) (.cons (quiet_putC _) (.cons (quiet_updW _) (.cons (quiet_putW _) .nil)))), ?_⟩
      intro a ha
      simp only [List.mem_cons, List.not_mem_nil, or_false] at ha
      rcases ha with rfl | rfl | rfl | rfl
      · refine .inr (fun n hn r => ?_)
        simp only []
        rw [if_neg]
        · rfl
        · intro hm
          obtain ⟨c, hc, e⟩ := List.mem_map.1 hm
          exact some_name hn c (List.mem_filter.1 hc).1 e
      · trivial
      · refine .inr (fun n hn w r => ?_)
        simp only []
        rw [if_neg]
        · rfl
        · intro hm
          obtain ⟨c, hc, e⟩ := List.any_eq_true.1 hm
          simp only [Bool.and_eq_true, beq_iff_eq] at e
          exact some_name hn c hc e.1
      · trivial
  | checkClustersEnd sts =>
    simp only [acts]
    split
    · exact nil
    · rename_i l hl
      simp only [checkClustersActs]
      refine ⟨.of_quiet (.cons (quiet_updC _) (.cons (quiet_putC _) .nil)), ?_⟩
      intro a ha
      simp only [List.mem_cons, List.not_mem_nil, or_false] at ha
      rcases ha with rfl | rfl
      · refine ht.imp id (fun ht n hn r => ?_)
        simp only []
        rw [if_neg]
        · rfl
        · intro hm
          obtain ⟨c, hc, e⟩ := ht l hl n hm
          exact some_name hn c hc e
      · trivial
  | checkWorkersEnd sts =>
    simp only [acts]
    split
    · exact nil
    · rename_i l hl
      refine ⟨.of_quiet (checkWorkers_quiet l sts), ?_⟩
      intro a ha
      simp only [checkWorkersActs, List.mem_append, List.mem_singleton, List.mem_map] at ha
      rcases ha with (rfl | ⟨p, hp, rfl⟩) | rfl
      · refine ht.imp id (fun ht n hn w r => ?_)
        simp only []
        rw [if_neg]
        · rfl
        · intro hm
          obtain ⟨c, hc, e⟩ := ht l hl _ hm
          exact some_name hn c hc e
      · trivial
      · trivial
  | getC n now =>
    simp only [acts]
    split
    · exact nil
    · rename_i c hc
      obtain ⟨hm, rfl⟩ := sfind_spec hc
      split
      · exact loc hc (.cons (about_volC _ _) (reconcileC_local cfg s.next c now))
          (Fresh.append_quiet (l := [_]) (.cons (quiet_volC _ _) .nil) (reconcileC_fresh cfg s.next c now))
      · exact nil
  | getW n w now =>
    simp only [acts]
    split
    · exact nil
    · rename_i c hc
      obtain ⟨hm, rfl⟩ := sfind_spec hc
      split
      · exact nil
      · rename_i x hx
        obtain ⟨hxm, rfl⟩ := find_spec hx
        split
        · exact loc hc (.cons (about_volW _ _ _) (reconcileW_local cfg c x.row now))
            (.of_quiet (.cons (quiet_volW _ _ _) (reconcileW_quiet cfg c x.row now)))
        · exact nil
  | yieldC n st =>
    simp only [acts]
    split
    · exact nil
    · rename_i c hc
      split
      · exact loc hc (.cons (about_updC1 _ _) (.nil _)) (.of_quiet (.cons (quiet_updC1 _ _) .nil))
      · exact nil
  | yieldW n w st =>
    simp only [acts]
    split
    · exact nil
    · rename_i c hc
      split
      · exact nil
      · split
        · exact loc hc (.cons (about_updW1 _ _ _) (.nil _)) (.of_quiet (.cons (quiet_updW1 _ _ _) .nil))
        · exact nil
  | endStartC n ok =>
    simp only [acts]
    split
    · exact nil
    · rename_i c hc
      split
      · exact loc hc (endStartC_local _ ok) (.of_quiet (endStartC_quiet _ ok))
      · exact nil
  | endStopC n now =>
    simp only [acts]
    split
    · exact nil
    · rename_i c hc
      obtain ⟨hm, rfl⟩ := sfind_spec hc
      split
      · exact loc hc (endStopC_local _ now) (.of_quiet (endStopC_quiet _ now))
      · exact nil
  | endStartW n w ok =>
    simp only [acts]
    split
    · exact nil
    · rename_i c hc
      split
      · exact nil
      · split
        · exact loc hc (endStartW_local _ _ ok) (.of_quiet (endStartW_quiet _ _ ok))
        · exact nil
  | endStopW n w now =>
    simp only [acts]
    split
    · exact nil
    · rename_i c hc
      obtain ⟨hm, rfl⟩ := sfind_spec hc
      split
      · exact nil
      · rename_i x hx
        split
        · exact loc hc (endStopW_local cfg c x.row now) (.of_quiet (endStopW_quiet cfg c x.row now))
        · exact nil

theorem rel_prefix {cfg : Cfg} {seq : Bool} {d : Disk} {s : State} (hi : SInv cfg s) (h : Rel seq d s) (o : Op) (k : Nat)
    (ht : seq = true ∨ Timely s o) : Rel seq (d.applyAll seq ((acts cfg s o).take k)) (s.applyAll ((acts cfg s o).take k)) := by
  cases ho : o.plain
  · cases o with
    | startCluster user mx now =>
      have h1 : Rel seq (d.apply seq (.newC (newRow s.next user mx now))) (s.apply (.newC (newRow s.next user mx now))) := h.newC rfl
      match k with
      | 0 => exact h
      | 1 => exact h1
      | k + 2 =>
        have et : (acts cfg s (.startCluster user mx now)).take (k + 2) =
          [.newC (newRow s.next user mx now), putC1 s.next] := by simp [acts, startClusterActs]
        rw [et]
        exact h1.act (a := putC1 s.next) trivial trivial
    | cleanup now =>
      match k with
      | 0 => exact h
      | k + 1 =>
        have et : (acts cfg s (.cleanup now)).take (k + 1) = cleanupActs cfg s now := by simp [acts, cleanupActs]
        rw [et]
        simp only [cleanupActs]
        exact h.purge (fun k => decide (k ∈ List.map (fun e => e.fst.name) (List.filter (fun e => expired cfg now e.fst) s.db)))
    | _ => simp [Op.plain] at ho
  · obtain ⟨h1, h2⟩ := acts_fine hi seq o ho ht
    exact rel_list _ h ((prefix_sp hi o k).2 ho) (h1.take k) (fun a ha => h2 a (List.mem_of_mem_take ha))

theorem rel_step {cfg : Cfg} {seq : Bool} {d : Disk} {s : State} (hi : SInv cfg s) (h : Rel seq d s) (o : Op)
    (ht : seq = true ∨ Timely s o) : Rel seq (d.applyAll seq (acts cfg s o)) (s.step cfg o) := by
  have := rel_prefix hi h o (acts cfg s o).length ht
  rw [List.take_length] at this
  exact this.same rfl rfl

/-! ### Starting again -/

/-- A row of a worker put to its cluster. -/
def gets (w : Nat × Nat × WRow) (e : Nat × DbEntry) : Nat × DbEntry :=
  if e.1 = w.2.1 then (e.1, (e.2.1, e.2.2 ++ [w.2.2])) else e

theorem gets_id (w : Nat × Nat × WRow) (e : Nat × DbEntry) : (gets w e).1 = e.1 := by
  unfold gets; split <;> rfl

theorem putRow_eq (w : Nat × Nat × WRow) : ∀ (l : List (Nat × DbEntry)), (l.map (·.1)).Nodup → (∃ e ∈ l, e.1 = w.2.1) →
    putRow w l = some (l.map (gets w)) := by
  intro l
  induction l with
  | nil => rintro _ ⟨e, he, -⟩; cases he
  | cons a l ih =>
    intro hn he
    rw [List.map_cons, List.nodup_cons] at hn
    unfold putRow
    by_cases ha : a.1 = w.2.1
    · rw [if_pos ha, List.map_cons]
      have : l.map (gets w) = l := by
        conv => rhs; rw [← List.map_id l]
        refine List.map_congr_left (fun e he => ?_)
        unfold gets
        rw [if_neg]
        · rfl
        · intro e1
          exact hn.1 (by rw [ha, ← e1]; exact List.mem_map_of_mem he)
      rw [this]
      congr 2
      unfold gets
      rw [if_pos ha]
    · rw [if_neg ha]
      obtain ⟨e, he, e1⟩ := he
      rcases List.mem_cons.1 he with rfl | he
      · exact absurd e1 ha
      · rw [ih hn.2 ⟨e, he, e1⟩, List.map_cons]
        show some (a :: l.map (gets w)) = _
        congr 2
        unfold gets
        rw [if_neg ha]

theorem putRows_eq : ∀ (ws : List (Nat × Nat × WRow)) (l : List (Nat × DbEntry)), (l.map (·.1)).Nodup →
    (∀ w ∈ ws, ∃ e ∈ l, e.1 = w.2.1) → putRows ws l =
      some (l.map (fun e => (e.1, (e.2.1, e.2.2 ++ (ws.filter (fun w => decide (w.2.1 = e.1))).map (·.2.2))))) := by
  intro ws
  induction ws with
  | nil =>
    intro l _ _
    have : l.map (fun e => (e.1, (e.2.1, e.2.2 ++ (([] : List (Nat × Nat × WRow)).filter (fun w => decide (w.2.1 = e.1))).map (·.2.2)))) =
        l := by
      conv => rhs; rw [← List.map_id l]
      refine List.map_congr_left (fun e _ => ?_)
      simp
    rw [this]
    rfl
  | cons w ws ih =>
    intro l hn h
    unfold putRows
    rw [putRow_eq w l hn (h w (by simp))]
    have hids : (l.map (gets w)).map (·.1) = l.map (·.1) := by
      rw [List.map_map]
      exact List.map_congr_left (fun e _ => gets_id w e)
    show putRows ws (l.map (gets w)) = _
    rw [ih _ (by rw [hids]; exact hn) ?_]
    · rw [List.map_map]
      congr 1
      refine List.map_congr_left (fun e _ => ?_)
      by_cases he : e.1 = w.2.1
      · have hg : gets w e = (e.1, (e.2.1, e.2.2 ++ [w.2.2])) := if_pos he
        simp only [Function.comp, hg]
        simp [he.symm]
      · have hg : gets w e = e := if_neg he
        have : ¬ w.2.1 = e.1 := fun e1 => he e1.symm
        simp only [Function.comp, hg]
        simp [this]
    · intro x hx
      obtain ⟨e, he, e1⟩ := h x (by simp [hx])
      exact ⟨gets w e, List.mem_map_of_mem he, (gets_id w e).trans e1⟩

theorem Rel.load {seq : Bool} {d : Disk} {s : State} (h : Rel seq d s) : d.load = some s.db := by
  unfold Disk.load
  rw [putRows_eq]
  · rw [List.map_map, h.view, Option.map_some, List.map_map]
    exact congrArg some (List.map_congr_left (fun e _ => by simp [Disk.rowsOf]))
  · rw [List.map_map]
    exact h.idsC
  · intro w hw
    obtain ⟨e, he, e1⟩ := h.fk w hw
    exact ⟨_, List.mem_map_of_mem he, e1⟩

theorem Rel.nameOf {seq : Bool} {d : Disk} {s : State} (h : Rel seq d s) {e : Nat × CRow} (he : e ∈ d.clusters) :
    d.nameOf e.1 = e.2.name := by
  unfold Disk.nameOf
  cases hx : d.clusters.find? (fun o => decide (o.1 = e.1)) with
  | none =>
    rw [List.find?_eq_none] at hx
    exact absurd (by simp) (hx _ he)
  | some o =>
    have h1 := List.mem_of_find?_eq_some hx
    have h2 : o.1 = e.1 := by simpa using List.find?_some hx
    rw [map_inj h.idsC h1 he h2]
    rfl

theorem Rel.reload {seq : Bool} {d : Disk} {s : State} (h : Rel seq d s) (now : Int) : Rel seq d.reload (s.restart now) := by
  have hw : ∀ w ∈ d.workers, (d.nameOf w.2.1, w.2.2.name, w.1) ∈ d.wk ∧ ∃ e ∈ d.clusters, e.1 = w.2.1 := by
    intro w hw
    obtain ⟨e, he, e1⟩ := h.fk w hw
    rw [← e1, h.nameOf he]
    exact ⟨h.objW e he w hw e1.symm, e, he, rfl⟩
  refine ⟨h.view, h.idsC, h.idsW, h.fk, ?_, ?_, ?_, ?_, ?_, ?_, ?_, ?_, ?_⟩
  · exact fun e he => List.mem_map.2 ⟨e, he, rfl⟩
  · intro e he w hw' hc
    refine List.mem_map.2 ⟨w, hw', ?_⟩
    rw [hc, h.nameOf he]
  · show ((d.clusters.map (fun e => (e.2.name, e.1))).map (·.1)).Nodup
    rw [List.map_map]
    refine nodup_map_of (f := (·.1)) h.idsC (fun x hx y hy e => ?_)
    rw [h.row_inj hx hy e]
  · show ((d.workers.map (fun w => (d.nameOf w.2.1, w.2.2.name, w.1))).map (·.2.1)).Nodup
    rw [List.map_map]
    refine nodup_map_of (f := (·.1)) h.idsW (fun x hx y hy e => ?_)
    have := map_inj h.namesW (hw x hx).1 (hw y hy).1 e
    exact congrArg (fun o => o.2.2) this
  · intro o ho
    obtain ⟨e, he, rfl⟩ := List.mem_map.1 ho
    exact h.boundC _ (h.objC e he)
  · intro o ho
    obtain ⟨w, hw', rfl⟩ := List.mem_map.1 ho
    exact h.boundW _ (hw w hw').1
  · intro o ho e he en
    obtain ⟨w, hw', rfl⟩ := List.mem_map.1 ho
    refine ⟨w, hw', ?_, rfl, rfl⟩
    obtain ⟨e', he', e1⟩ := (hw w hw').2
    have : d.nameOf w.2.1 = e'.2.name := by rw [← e1, h.nameOf he']
    have en : e.2.name = d.nameOf w.2.1 := en
    rw [← e1, h.row_inj he he' (en.trans this)]
  · intro hs
    refine ⟨?_, ?_⟩
    · show ((d.clusters.map (fun e => (e.2.name, e.1))).map (·.2)).Nodup
      rw [List.map_map]
      exact h.idsC
    · intro o ho
      obtain ⟨e, he, rfl⟩ := List.mem_map.1 ho
      exact (h.seqC hs).2 _ (h.objC e he)
  · intro hs
    refine ⟨?_, ?_⟩
    · show ((d.workers.map (fun w => (d.nameOf w.2.1, w.2.2.name, w.1))).map (·.2.2)).Nodup
      rw [List.map_map]
      exact h.idsW
    · intro o ho
      obtain ⟨w, hw', rfl⟩ := List.mem_map.1 ho
      exact (h.seqW hs).2 _ (hw w hw').1

/-! ### Histories -/

/-- The events of the gateway in a history. -/
def DEv.gate : DEv → List Ev
  | .ev e => [e]
  | _ => []

/-- Nothing happens to the clusters that were removed: no status check fails them, no task updates them. -/
def Punctual (s : State) : DEv → Prop
  | .ev (.op o) => Timely s o
  | .ev (.crash o _ _) => Timely s o
  | .lateC n _ => (s.find n).isSome
  | .lateW n _ _ => (s.find n).isSome

theorem unknown {cfg : Cfg} {s : State} (hi : SInv cfg s) {n : Nat} (hn : ¬ (s.find n).isSome = true) : n ∉ s.dbNames := by
  intro h
  obtain ⟨c, hc, e⟩ := (mem_dbNames hi.synced).1 h
  rw [← e, sfind_mem hi.named.nodup hc] at hn
  exact hn rfl

theorem start_eq {seq : Bool} {d : Disk} {s : State} (h : Rel seq d s) (now : Int) : d.start s now = (d.reload, s.restart now) := by
  unfold Disk.start
  rw [h.load]
  rfl

theorem gate_ev {cfg : Cfg} {seq : Bool} {x : Disk × State} (hi : SInv cfg x.2) (h : Rel seq x.1 x.2) (e : DEv)
    (hp : seq = true ∨ Punctual x.2 e) : (diskEv seq cfg x e).2 = e.gate.foldl (State.ev cfg) x.2 := by
  cases e with
  | ev e =>
    cases e with
    | op o => rfl
    | crash o k now =>
      rw [diskEv, start_eq (rel_prefix hi h o k hp)]
      rfl
  | lateC n u => simp only [diskEv, DEv.gate]; split <;> rfl
  | lateW n w u => simp only [diskEv, DEv.gate]; split <;> rfl

theorem rel_ev {cfg : Cfg} {seq : Bool} {x : Disk × State} (hi : SInv cfg x.2) (h : Rel seq x.1 x.2) (e : DEv)
    (hp : seq = true ∨ Punctual x.2 e) : Rel seq (diskEv seq cfg x e).1 (diskEv seq cfg x e).2 := by
  cases e with
  | ev e =>
    cases e with
    | op o => exact rel_step hi h o hp
    | crash o k now =>
      have h1 := rel_prefix hi h o k hp
      rw [diskEv, start_eq h1]
      exact h1.reload now
  | lateC n u =>
    simp only [diskEv]
    split
    · exact h
    · rename_i hn
      have hs : seq = true := hp.resolve_right hn
      refine Rel.same (s := x.2.apply (updC1 n u)) (h.updC (.inl hs)) ?_ rfl
      show x.2.db = x.2.db.map (updC1 n u).onEntry
      conv => lhs; rw [← List.map_id x.2.db]
      refine List.map_congr_left (fun e he => ?_)
      have : ¬ e.1.name = n := fun e1 => unknown hi hn (e1 ▸ List.mem_map_of_mem he)
      simp only [updC1, Act.onEntry, if_neg this]
      rfl
  | lateW n w u =>
    simp only [diskEv]
    split
    · exact h
    · rename_i hn
      have hs : seq = true := hp.resolve_right hn
      refine Rel.same (s := x.2.apply (updW1 n w u)) (h.updW (.inl hs)) ?_ rfl
      show x.2.db = x.2.db.map (updW1 n w u).onEntry
      conv => lhs; rw [← List.map_id x.2.db]
      refine List.map_congr_left (fun e he => ?_)
      have : ¬ e.1.name = n := fun e1 => unknown hi hn (e1 ▸ List.mem_map_of_mem he)
      have h2 : ∀ x, ¬ (e.1.name = n ∧ x = w) := fun x e1 => this e1.1
      simp only [updW1, Act.onEntry, if_neg (h2 _), wupd_none, List.map_id', id]

/-- `Punctual` all along a history. -/
def Orderly (seq : Bool) (cfg : Cfg) : Disk × State → List DEv → Prop
  | _, [] => True
  | x, e :: evs => Punctual x.2 e ∧ Orderly seq cfg (diskEv seq cfg x e) evs

theorem fold_inv {cfg : Cfg} : ∀ (l : List Ev) {s : State}, SInv cfg s → SInv cfg (l.foldl (State.ev cfg) s) := by
  intro l
  induction l with
  | nil => exact fun h => h
  | cons e l ih => exact fun h => ih (ev_inv h e)

theorem rel_run {cfg : Cfg} {seq : Bool} : ∀ (evs : List DEv) {x : Disk × State}, SInv cfg x.2 → Rel seq x.1 x.2 →
    seq = true ∨ Orderly seq cfg x evs → Rel seq (evs.foldl (diskEv seq cfg) x).1 (evs.foldl (diskEv seq cfg) x).2 ∧
      (evs.foldl (diskEv seq cfg) x).2 = (evs.flatMap DEv.gate).foldl (State.ev cfg) x.2 := by
  intro evs
  induction evs with
  | nil => exact fun _ h _ => ⟨h, rfl⟩
  | cons e evs ih =>
    intro x hi h hp
    have hg := gate_ev hi h e (hp.imp id (·.1))
    rw [List.foldl_cons, List.flatMap_cons, List.foldl_append, ← hg]
    exact ih (by rw [hg]; exact fold_inv _ hi) (rel_ev hi h e (hp.imp id (·.1))) (hp.imp id (·.2))

theorem rel_init (seq : Bool) : Rel seq Disk.init State.init := by
  refine ⟨rfl, ?_, ?_, ?_, ?_, ?_, ?_, ?_, ?_, ?_, ?_, ?_, ?_⟩ <;> simp [Disk.init]

theorem loads {seq : Bool} {cfg : Cfg} {evs : List DEv} (hp : seq = true ∨ Orderly seq cfg (Disk.init, State.init) evs) :
    (diskRun seq cfg evs).1.load =
      some ((diskRun seq cfg evs).2.clusters.map (fun c => (c.row, c.workers.map (·.row)))) := by
  obtain ⟨h, hr⟩ : Rel seq (diskRun seq cfg evs).1 (diskRun seq cfg evs).2 ∧ (diskRun seq cfg evs).2 = run cfg (evs.flatMap DEv.gate) :=
    rel_run evs (run_inv cfg []) (rel_init seq) hp
  rw [h.load, hr, (run_inv cfg _).synced]
  rfl

/-! ## C175 -/

/-- C175 where the database never uses a number of a row twice (PostgreSQL): after every history of requests, reports,
reconciliation, checks and cleanups, with a crash of the gateway between any two writes, and with tasks that go on writing
about clusters which were removed, what a gateway would find in the database if it was started now is exactly what the
gateway knows: the same clusters with the same workers. -/
theorem C175_sequence (cfg : Cfg) (evs : List DEv) : (diskRun true cfg evs).1.load =
    some ((diskRun true cfg evs).2.clusters.map (fun c => (c.row, c.workers.map (·.row)))) :=
  loads (.inl rfl)

/-- C175 for SQLite, which gives the numbers of removed rows out again, as long as nothing is written about a cluster
after it was removed. Missing: a check of clusters that is answered after one of them was removed, and tasks that still
write about it; there the claim fails, see `C175_sqlite_violated`. -/
theorem C175_sqlite_partial (cfg : Cfg) (evs : List DEv) (h : Orderly false cfg (Disk.init, State.init) evs) :
    (diskRun false cfg evs).1.load =
      some ((diskRun false cfg evs).2.clusters.map (fun c => (c.row, c.workers.map (·.row)))) :=
  loads (.inr h)

/-- So with such a database the gateway with tables does what the gateway of the other properties does, which has no
numbers: they hold for it too, and what tasks still write about removed clusters changes nothing. -/
theorem C175_refines (cfg : Cfg) (evs : List DEv) : (diskRun true cfg evs).2 = run cfg (evs.flatMap DEv.gate) :=
  (rel_run evs (run_inv cfg []) (rel_init true) (.inl rfl)).2

/-- The statuses in the database are read as what was written. -/
theorem C175_status (s : JobStatus) (k : Nat) : JobStatus.ofStored k = some s ↔ s.stored = k := by
  constructor
  · intro h
    unfold JobStatus.ofStored at h
    split at h <;> cases h <;> rfl
  · rintro rfl
    cases s <;> rfl

/-- Ann's cluster is being checked when they stop it. It is gone an hour later, when Bob starts a cluster, and only then
the answer of the check comes, that Ann's is not there. -/
def staleCheck : List DEv :=
  [.ev (.op (.startCluster "ann" none 0)), .ev (.op (.getC 0 0)), .ev (.op (.endStartC 0 true)), .ev (.op .checkClusters),
   .ev (.op (.stopCluster 0 false)), .ev (.op (.getC 0 1)), .ev (.op (.getC 0 1)), .ev (.op (.endStopC 0 2)),
   .ev (.op (.cleanup 99999999)),
   .ev (.op (.startCluster "bob" none 99999999)), .ev (.op (.checkClustersEnd [false]))]

/-- C175 does not hold for SQLite: after the answer, the gateway knows that Bob's cluster shall run, but the database has
that it failed. -/
theorem C175_sqlite_violated : ∃ (cfg : Cfg) (evs : List DEv), (diskRun false cfg evs).1.load ≠
    some ((diskRun false cfg evs).2.clusters.map (fun c => (c.row, c.workers.map (·.row)))) := by
  refine ⟨cfgS, staleCheck, fun h => ?_⟩
  have h := congrArg (Option.map (List.map (fun e => e.1.target))) h
  revert h
  decide +kernel

/-- When the gateway is started again after that, Bob's cluster, which nobody asked to stop, is taken down. -/
def staleStart : List DEv := staleCheck ++ [.ev (.crash .checkClusters 0 100000000), .ev (.op (.getC 1 100000000))]

example : (diskRun false cfgS staleCheck).2.clusters.map (fun c => (c.row.name, c.row.user, c.row.target)) = [(1, "bob", .running)] ∧
    (diskRun false cfgS staleStart).2.clusters.map (fun c => (c.row.name, c.row.user, c.row.target)) = [(1, "bob", .failed)] ∧
    (diskRun true cfgS staleStart).2.clusters.map (fun c => (c.row.name, c.row.user, c.row.target)) = [(1, "bob", .running)] := by
  decide +kernel

/-- A history that is orderly, on SQLite, where a number is used again: two clusters, one with a worker, the newer one
removed, a third one, a crash. -/
def reused : List DEv :=
  [.ev (.op (.startCluster "ann" none 0)), .ev (.op (.getC 0 0)), .ev (.op (.endStartC 0 true)),
   .ev (.op (.startCluster "bob" none 1)), .ev (.op (.stopCluster 1 false)), .ev (.op (.getC 1 1)),
   .ev (.op (.getC 1 1)), .ev (.op (.endStopC 1 2)),
   .ev (.op (.heartbeat 0 (beat 1 [] [] []) 2)), .ev (.op (.getC 0 3)), .ev (.op (.cleanup 99999999)),
   .ev (.op (.startCluster "eve" none 99999999)), .ev (.crash (.getC 3 99999999) 1 100000000)]

example : Orderly false cfgS (Disk.init, State.init) reused := by
  unfold reused
  simp only [Orderly, Punctual, Timely, and_self]

example : (diskRun false cfgS reused).1.load.map (List.map (fun e => (e.1.name, e.1.user, e.2.length))) =
    some [(0, "ann", 1), (3, "eve", 0)] ∧
    (diskRun false cfgS reused).1.clusters.map (·.1) = [1, 2] ∧ (diskRun true cfgS reused).1.clusters.map (·.1) = [1, 3] := by
  decide +kernel

end Verif.Backend

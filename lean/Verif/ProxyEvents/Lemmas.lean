import Verif.ProxyEvents.Spec
import Verif.Router.Lemmas2
set_option linter.unusedSectionVars false
set_option linter.unusedSimpArgs false
set_option linter.unusedVariables false
namespace Verif.ProxyEvents
open Verif.Router (Str Router key walk look put_look delete_look)
variable {Url : Type}

/-! ### Dicts -/

theorem dictGet_nil (k : Key) : dictGet [] k = none := rfl

theorem dictGet_cons (e : Key × Str) (d : Dict) (k : Key) :
    dictGet (e :: d) k = if e.1 = k then some e.2 else dictGet d k := by
  unfold dictGet; rw [List.find?_cons]; by_cases h : e.1 = k <;> simp [h]

theorem dictGet_append (d d' : Dict) (k : Key) :
    dictGet (d ++ d') k = (dictGet d k).or (dictGet d' k) := by
  induction d with
  | nil => simp [dictGet_nil]
  | cons e d ih => rw [List.cons_append, dictGet_cons, dictGet_cons, ih]; split <;> simp

theorem dictGet_eq_none (d : Dict) (k : Key) : dictGet d k = none ↔ k ∉ d.map (·.1) := by
  induction d with
  | nil => simp [dictGet_nil]
  | cons e d ih =>
    rw [dictGet_cons]
    by_cases h : e.1 = k
    · simp [h]
    · simp only [h, if_false, ih, List.map_cons, List.mem_cons, not_or]
      exact ⟨fun x => ⟨fun e' => h e'.symm, x⟩, fun x => x.2⟩

theorem dictGet_dictSet (d : Dict) (k : Key) (v : Str) (k' : Key) :
    dictGet (dictSet d k v) k' = if k' = k then some v else dictGet d k' := by
  unfold dictSet
  split
  · rename_i h
    have hk : k ∈ d.map (·.1) := by
      simp only [List.any_eq_true, decide_eq_true_eq] at h
      obtain ⟨e, he, rfl⟩ := h
      exact List.mem_map.2 ⟨e, he, rfl⟩
    clear h
    induction d with
    | nil => simp at hk
    | cons e d ih =>
      rw [List.map_cons, dictGet_cons, dictGet_cons]
      by_cases he : e.1 = k
      · rw [if_pos he]
        by_cases hk' : k' = k
        · simp [hk']
        · have h1 : ¬ k = k' := fun x => hk' x.symm
          simp only [hk', h1, he, if_false]
          by_cases hm : k ∈ d.map (·.1)
          · rw [ih hm, if_neg hk']
          · congr 1
            conv => rhs; rw [← List.map_id d]
            apply List.map_congr_left
            intro x hx
            have : x.1 ≠ k := fun y => hm (List.mem_map.2 ⟨x, hx, y⟩)
            simp [this]
      · rw [if_neg he]
        have hm : k ∈ d.map (·.1) := by
          rw [List.map_cons, List.mem_cons] at hk
          rcases hk with h | h
          · exact absurd h.symm he
          · exact h
        rw [ih hm]
        by_cases hk' : k' = k
        · subst hk'; simp [he]
        · simp [hk']
  · rename_i h
    have hk : dictGet d k = none := by
      rw [dictGet_eq_none]
      intro hm
      obtain ⟨e, he, rfl⟩ := List.mem_map.1 hm
      apply h
      simp only [List.any_eq_true, decide_eq_true_eq]
      exact ⟨e, he, rfl⟩
    rw [dictGet_append, dictGet_cons, dictGet_nil]
    by_cases hk' : k' = k
    · subst hk'; simp [hk]
    · have h1 : ¬ k = k' := fun x => hk' x.symm
      simp [hk', h1]

theorem dictGet_dictPop (d : Dict) (k k' : Key) :
    dictGet (dictPop d k) k' = if k' = k then none else dictGet d k' := by
  unfold dictPop
  induction d with
  | nil => simp [dictGet_nil]
  | cons e d ih =>
    rw [List.filter_cons, dictGet_cons]
    by_cases he : e.1 = k
    · simp only [he, ne_eq, not_true_eq_false, decide_false, Bool.false_eq_true, if_false, ih]
      by_cases hk' : k' = k
      · simp [hk']
      · have h1 : ¬ k = k' := fun x => hk' x.symm
        simp [hk', h1]
    · simp only [he, ne_eq, not_false_eq_true, decide_true, if_true, dictGet_cons, ih]
      by_cases hk' : k' = k
      · subst hk'; simp [he]
      · simp [hk']

abbrev NodupKeys (d : Dict) : Prop := (d.map (·.1)).Nodup

theorem nodup_dictSet {d : Dict} (h : NodupKeys d) (k : Key) (v : Str) : NodupKeys (dictSet d k v) := by
  unfold dictSet
  split
  · have : (d.map (fun e => if e.1 = k then (k, v) else e)).map (·.1) = d.map (·.1) := by
      rw [List.map_map]
      apply List.map_congr_left
      intro x _
      by_cases hx : x.1 = k <;> simp [hx]
    unfold NodupKeys
    rw [this]; exact h
  · rename_i hk
    unfold NodupKeys
    rw [List.map_append, List.nodup_append]
    refine ⟨h, by simp, ?_⟩
    intro a ha b hb
    simp at hb; subst hb
    rintro rfl
    obtain ⟨e, he, rfl⟩ := List.mem_map.1 ha
    apply hk
    simp only [List.any_eq_true, decide_eq_true_eq]
    exact ⟨e, he, rfl⟩

theorem nodup_dictPop {d : Dict} (h : NodupKeys d) (k : Key) : NodupKeys (dictPop d k) :=
  List.Nodup.sublist (List.Sublist.map _ List.filter_sublist) h

/-! ### Abstract routes -/

abbrev RMap := Key → Option Str

/-- The effect of an event on the routes. -/
def absStep (m : RMap) (e : Event) : RMap :=
  match e.route.validKey, e.type with
  | some k, .put => fun k' => if k' = k then some e.route.target else m k'
  | some k, .delete => fun k' => if k' = k then none else m k'
  | _, _ => m

def absRun (m : RMap) (es : List Event) : RMap := es.foldl absStep m

def HoldsM (lib : UrlLib Url) (m : RMap) (t : Tables Url) : Prop :=
  (∀ s, sniGet t.sniRoutes s = (m (.sni, s)).map trimTls) ∧
  (∀ k u, look t.router k = some u ↔
    ∃ p v, m (.path, p) = some v ∧ key p = k ∧ lib.target v = some u)

theorem holds_iff (lib : UrlLib Url) (d : Dict) (t : Tables Url) :
    Holds lib d t ↔ HoldsM lib (dictGet d) t := Iff.rfl

variable (lib : UrlLib Url) (P : Str → Prop)

def OkKey (k : Key) : Prop := k.2 ≠ [] ∧ (k.1 = .path → P k.2)

def DomOk (m : RMap) : Prop := ∀ k v, m k = some v → OkKey P k ∧ ValidTarget lib k.1 v

/-- An event that comes from an allowed call. -/
def Fine (e : Event) : Prop :=
  ∃ k, OkKey P k ∧
    ((e.type = .put ∧ ∃ v, e.route = putRouteOf k v ∧ ValidTarget lib k.1 v) ∨
     (e.type = .delete ∧ e.route = delRouteOf k))

variable {lib P}

theorem validKey_putRouteOf {k : Key} (h : k.2 ≠ []) (v : Str) : (putRouteOf k v).validKey = some k := by
  obtain ⟨kind, s⟩ := k
  cases kind <;> simp_all [putRouteOf, Route.validKey]

theorem target_putRouteOf (k : Key) (v : Str) : (putRouteOf k v).target = v := by
  obtain ⟨kind, s⟩ := k
  cases kind <;> rfl

theorem sniGet_cons_filter (l : List (Str × Str)) (s v s' : Str) :
    sniGet ((s, v) :: l.filter (fun e => e.1 ≠ s)) s' = if s' = s then some v else sniGet l s' := by
  unfold sniGet
  rw [List.find?_cons]
  by_cases h : s' = s
  · subst h; simp
  · have h1 : ¬ s = s' := fun x => h x.symm
    simp only [h1, decide_false, h, if_false]
    congr 1
    induction l with
    | nil => rfl
    | cons e l ih =>
      rw [List.filter_cons]
      by_cases he : e.1 = s
      · simp only [he, ne_eq, not_true_eq_false, decide_false, Bool.false_eq_true, if_false]
        rw [ih, List.find?_cons]; simp [he, h1]
      · simp only [he, ne_eq, not_false_eq_true, decide_true, if_true, List.find?_cons]
        rw [ih]

theorem sniGet_filter (l : List (Str × Str)) (s s' : Str) :
    sniGet (l.filter (fun e => e.1 ≠ s)) s' = if s' = s then none else sniGet l s' := by
  have h0 := sniGet_cons_filter l s [] s'
  by_cases h : s' = s
  · subst h; simp [sniGet]
  · have h1 : ¬ s = s' := fun x => h x.symm
    rw [if_neg h] at h0 ⊢
    rw [← h0]
    unfold sniGet
    rw [List.find?_cons]; simp [h1]

/-- The proxy's tables follow an event. -/
theorem holds_step (hP : NoAlias P) {m : RMap} {t : Tables Url} {e : Event} (hd : DomOk lib P m)
    (h : HoldsM lib m t) (he : Fine lib P e) :
    DomOk lib P (absStep m e) ∧ HoldsM lib (absStep m e) (t.applyEvent lib e) := by
  obtain ⟨k, hk, ⟨ht, v, hr, hv⟩ | ⟨ht, hr⟩⟩ := he
  · have hvk : e.route.validKey = some k := by rw [hr]; exact validKey_putRouteOf hk.1 v
    have htg : e.route.target = v := by rw [hr]; exact target_putRouteOf k v
    have habs : absStep m e = fun k' => if k' = k then some v else m k' := by
      unfold absStep; rw [hvk, ht, htg]
    refine ⟨?_, ?_⟩
    · rw [habs]
      intro k' v' hm
      dsimp only at hm
      split at hm
      · rename_i e1; cases hm; rw [e1]; exact ⟨hk, hv⟩
      · exact hd k' v' hm
    · rw [habs]
      unfold Tables.applyEvent Tables.putRoute
      rw [ht, hvk, htg]
      obtain ⟨kind, s⟩ := k
      cases kind with
      | sni =>
        dsimp only
        rw [if_neg hv.1]
        refine ⟨?_, ?_⟩
        · intro s'
          dsimp only
          rw [sniGet_cons_filter, h.1]
          by_cases hs : s' = s
          · simp [hs]
          · simp [hs]
        · intro k' u
          dsimp only
          rw [h.2]
          simp
      | path =>
        dsimp only
        rw [if_neg hv.1]
        have := hv.2 rfl
        cases hu : lib.target v with
        | none => rw [hu] at this; simp at this
        | some u =>
          dsimp only
          refine ⟨?_, ?_⟩
          · intro s'; rw [h.1]; simp
          · intro k' u'
            dsimp only
            rw [put_look]
            by_cases hkk : k' = key s
            · rw [if_pos hkk]
              constructor
              · rintro h1
                refine ⟨s, v, by simp, hkk.symm, by rw [hu, h1]⟩
              · rintro ⟨p, v', h1, h2, h3⟩
                have hps : p = s := by
                  by_cases e1 : p = s
                  · exact e1
                  · simp [e1] at h1
                    exact hP p s ((hd _ _ h1).1.2 rfl) (hk.2 rfl) (by rw [h2, hkk])
                subst hps
                simp at h1; subst h1
                rw [← h3, hu]
            · rw [if_neg hkk, h.2]
              constructor
              · rintro ⟨p, v', h1, h2, h3⟩
                have hps : p ≠ s := by rintro rfl; exact hkk h2.symm
                exact ⟨p, v', by simp [hps, h1], h2, h3⟩
              · rintro ⟨p, v', h1, h2, h3⟩
                have hps : p ≠ s := by rintro rfl; exact hkk h2.symm
                simp [hps] at h1
                exact ⟨p, v', h1, h2, h3⟩
  · have hvk : e.route.validKey = some k := by rw [hr]; exact validKey_putRouteOf hk.1 []
    have habs : absStep m e = fun k' => if k' = k then none else m k' := by
      unfold absStep; rw [hvk, ht]
    refine ⟨?_, ?_⟩
    · rw [habs]
      intro k' v' hm
      dsimp only at hm
      split at hm
      · cases hm
      · exact hd k' v' hm
    · rw [habs]
      unfold Tables.applyEvent Tables.deleteRoute
      rw [ht, hvk]
      obtain ⟨kind, s⟩ := k
      cases kind with
      | sni =>
        dsimp only
        refine ⟨?_, ?_⟩
        · intro s'
          dsimp only
          rw [sniGet_filter, h.1]
          by_cases hs : s' = s
          · simp [hs]
          · simp [hs]
        · intro k' u
          dsimp only
          rw [h.2]
          simp
      | path =>
        dsimp only
        refine ⟨?_, ?_⟩
        · intro s'; rw [h.1]; simp
        · intro k' u'
          dsimp only
          rw [delete_look]
          by_cases hkk : k' = key s
          · rw [if_pos hkk]
            constructor
            · rintro h1; cases h1
            · rintro ⟨p, v', h1, h2, h3⟩
              by_cases e1 : p = s
              · simp [e1] at h1
              · simp [e1] at h1
                exact absurd (hP p s ((hd _ _ h1).1.2 rfl) (hk.2 rfl) (by rw [h2, hkk])) e1
          · rw [if_neg hkk, h.2]
            constructor
            · rintro ⟨p, v', h1, h2, h3⟩
              have hps : p ≠ s := by rintro rfl; exact hkk h2.symm
              exact ⟨p, v', by simp [hps, h1], h2, h3⟩
            · rintro ⟨p, v', h1, h2, h3⟩
              have hps : p ≠ s := by rintro rfl; exact hkk h2.symm
              simp [hps] at h1
              exact ⟨p, v', h1, h2, h3⟩

theorem holds_run (hP : NoAlias P) (es : List Event) : ∀ {m : RMap} {t : Tables Url},
    DomOk lib P m → HoldsM lib m t → (∀ e ∈ es, Fine lib P e) →
    DomOk lib P (absRun m es) ∧ HoldsM lib (absRun m es) (t.updateFromEvents lib es) := by
  induction es with
  | nil => intro m t hd h _; exact ⟨hd, h⟩
  | cons e es ih =>
    intro m t hd h he
    obtain ⟨h1, h2⟩ := holds_step hP hd h (he e (by simp))
    exact ih h1 h2 (fun x hx => he x (by simp [hx]))

theorem holds_empty : HoldsM lib (fun _ => none) (Tables.empty : Tables Url) := by
  refine ⟨fun s => rfl, ?_⟩
  intro k u
  simp [Tables.empty, Verif.Router.look_new]

theorem domOk_empty : DomOk lib P (fun _ => none) := by intro k v h; cases h

/-- Taking over a table is replaying it. -/
theorem updateFromRoutes_eq (d : Dict) : updateFromRoutes lib (d.map (fun e => putRouteOf e.1 e.2)) =
    Tables.empty.updateFromEvents lib (d.map (fun e => ⟨0, .put, putRouteOf e.1 e.2⟩)) := by
  unfold updateFromRoutes Tables.updateFromEvents
  rw [List.foldl_map, List.foldl_map]
  rfl

theorem absRun_dict (d : Dict) (hk : ∀ e ∈ d, e.1.2 ≠ []) (hn : NodupKeys d) : ∀ (m : RMap) (k : Key),
    absRun m (d.map (fun e => ⟨0, .put, putRouteOf e.1 e.2⟩)) k = (dictGet d k).or (m k) := by
  induction d with
  | nil => intro m k; rfl
  | cons e d ih =>
    intro m k
    have hn' : NodupKeys d ∧ e.1 ∉ d.map (·.1) := by
      unfold NodupKeys at hn; rw [List.map_cons, List.nodup_cons] at hn; exact ⟨hn.2, hn.1⟩
    rw [List.map_cons, absRun, List.foldl_cons]
    have := ih (fun x hx => hk x (by simp [hx])) hn'.1
      (absStep m ⟨0, .put, putRouteOf e.1 e.2⟩) k
    rw [absRun] at this
    rw [this, dictGet_cons]
    have hs : absStep m ⟨0, .put, putRouteOf e.1 e.2⟩ = fun k' => if k' = e.1 then some e.2 else m k' := by
      unfold absStep
      simp only [validKey_putRouteOf (hk e (by simp)), target_putRouteOf]
    rw [hs]
    by_cases h : e.1 = k
    · subst h
      rw [(dictGet_eq_none d e.1).2 hn'.2]; simp
    · have h1 : ¬ k = e.1 := fun x => h x.symm
      simp [h, h1]

theorem dictGet_mem {d : Dict} {e : Key × Str} (hn : NodupKeys d) (he : e ∈ d) :
    dictGet d e.1 = some e.2 := by
  induction d with
  | nil => simp at he
  | cons x d ih =>
    unfold NodupKeys at hn; rw [List.map_cons, List.nodup_cons] at hn
    rw [dictGet_cons]
    rcases List.mem_cons.1 he with rfl | h
    · simp
    · have : x.1 ≠ e.1 := fun y => hn.1 (by rw [y]; exact List.mem_map.2 ⟨e, h, rfl⟩)
      rw [if_neg this]; exact ih hn.2 h

/-- A table taken over is held. -/
theorem holds_table (hP : NoAlias P) {d : Dict} (hn : NodupKeys d) (hd : DomOk lib P (dictGet d)) :
    HoldsM lib (dictGet d) (updateFromRoutes lib (d.map (fun e => putRouteOf e.1 e.2))) := by
  have hok : ∀ e ∈ d, OkKey P e.1 ∧ ValidTarget lib e.1.1 e.2 :=
    fun e he => hd e.1 e.2 (dictGet_mem hn he)
  rw [updateFromRoutes_eq]
  have := holds_run hP (d.map (fun e => (⟨0, .put, putRouteOf e.1 e.2⟩ : Event)))
    (domOk_empty (lib := lib) (P := P)) holds_empty (by
      intro x hx
      obtain ⟨e, he, rfl⟩ := List.mem_map.1 hx
      exact ⟨e.1, (hok e he).1, Or.inl ⟨rfl, e.2, rfl, (hok e he).2⟩⟩)
  have heq : absRun (fun _ => none) (d.map (fun e => (⟨0, .put, putRouteOf e.1 e.2⟩ : Event))) =
      dictGet d := by
    funext k
    rw [absRun_dict d (fun e he => (hok e he).1.1) hn]
    cases dictGet d k <;> rfl
  rw [heq] at this
  exact this.2

end Verif.ProxyEvents

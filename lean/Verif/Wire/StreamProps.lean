import Verif.Wire.Props
/-! Property C137: the proxy applies the changes that the gateway wrote, whole batches in order, wherever the
connection breaks. -/
set_option linter.unusedSimpArgs false
set_option linter.unusedVariables false
namespace Verif.Wire
open Verif.ProxyEvents

/-! ### Specification -/

/-- A route as the gateway has them in its table. -/
def Listed (r : Route) : Prop := ∃ k t, r = putRouteOf k t

/-- An event as the gateway makes them: a route with its target was added, or one was removed. -/
def Sent (e : Event) : Prop :=
  e.id < 2 ^ 64 ∧ ((∃ k t, e.route = putRouteOf k t ∧ e.type = .put) ∨ (∃ k, e.route = delRouteOf k ∧ e.type = .delete))

/-! ### Decoding -/

/-- What arrives of a route. -/
def rawOf (full : Bool) (r : Route) : RawRoute :=
  ⟨kindText r.kind, if r.kind = some .sni then r.sni else [], if r.kind = some .path then r.path else [],
    if full then r.target else []⟩

theorem goRoute_json (full : Bool) (r : Route) : goRoute .zero (routeJson full r) = some (rawOf full r) := by
  obtain ⟨kind, sni, path, target⟩ := r
  rcases kind with _ | (_ | _) <;> cases full <;> rfl

theorem view_listed (k : Key) (t : Str) : (rawOf true (putRouteOf k t)).view = putRouteOf k t := by
  obtain ⟨kind, name⟩ := k
  cases kind <;> rfl

theorem view_removed (k : Key) : (rawOf false (delRouteOf k)).view = delRouteOf k := by
  obtain ⟨kind, name⟩ := k
  cases kind <;> rfl

theorem goUint_int (n : Nat) (h : n < 2 ^ 64) (old : Nat) : goUint old (.num (.int n)) = some n := by
  unfold goUint
  dsimp only
  rw [if_pos ⟨by omega, by omega⟩]
  rfl

theorem goEvent_json (e : Event) (h : e.id < 2 ^ 64) :
    goEvent (eventJson e) = some ⟨e.id, typeText e.type, rawOf (e.type == .put) e.route⟩ := by
  unfold goEvent eventJson
  dsimp only
  have f1 : goEventField .zero "id".toList (.num (.int e.id)) = some ⟨e.id, [], .zero⟩ := by
    unfold goEventField
    rw [if_pos (by decide), goUint_int _ h]
    rfl
  have f2 : goEventField ⟨e.id, [], .zero⟩ "type".toList (.str (typeText e.type)) = some ⟨e.id, typeText e.type, .zero⟩ := rfl
  have f3 : goEventField ⟨e.id, typeText e.type, .zero⟩ "route".toList (routeJson (e.type == .put) e.route) =
      some ⟨e.id, typeText e.type, rawOf (e.type == .put) e.route⟩ := by
    unfold goEventField
    rw [if_neg (by decide), if_neg (by decide), if_pos (by decide)]
    dsimp only
    rw [goRoute_json]
    rfl
  rw [goEventFields, f1]
  dsimp only
  rw [goEventFields, f2]
  dsimp only
  rw [goEventFields, f3]
  rfl

theorem view_event (e : Event) (h : Sent e) :
    (RawEvent.mk e.id (typeText e.type) (rawOf (e.type == .put) e.route)).view = e := by
  obtain ⟨id, type, route⟩ := e
  rcases h.2 with ⟨k, t, h1, h2⟩ | ⟨k, h1, h2⟩
  · dsimp only at h1 h2
    subst h1 h2
    show Event.mk id .put (rawOf true (putRouteOf k t)).view = _
    rw [view_listed]
  · dsimp only at h1 h2
    subst h1 h2
    show Event.mk id .delete (rawOf false (delRouteOf k)).view = _
    rw [view_removed]

theorem goItems_map {α β : Type} (f : Json → Option α) (g : β → Json) (h : β → α) (l : List β)
    (hl : ∀ b ∈ l, f (g b) = some (h b)) : goItems f (l.map g) = some (l.map h) := by
  induction l with
  | nil => rfl
  | cons b l ih =>
    rw [List.map_cons, goItems, hl b (List.mem_cons_self ..), ih (fun x hx => hl x (List.mem_cons_of_mem _ hx))]
    rfl

theorem map_self {α : Type} (f : α → α) (l : List α) (h : ∀ a ∈ l, f a = a) : l.map f = l := by
  induction l with
  | nil => rfl
  | cons a l ih => rw [List.map_cons, h a (List.mem_cons_self ..), ih (fun x hx => h x (List.mem_cons_of_mem _ hx))]

theorem goEventsMsg_json (es : List Event) (h : ∀ e ∈ es, Sent e) :
    (goEventsMsg (eventsMsg es)).map (List.map RawEvent.view) = some es := by
  have := goItems_map goEvent eventJson (fun e => ⟨e.id, typeText e.type, rawOf (e.type == .put) e.route⟩) es
    (fun e he => goEvent_json e (h e he).1)
  unfold goEventsMsg eventsMsg
  dsimp only
  rw [goEventsFields, if_pos (by decide)]
  unfold goSlice
  dsimp only
  rw [this]
  dsimp only
  rw [goEventsFields, Option.map_some, List.map_map]
  congr 1
  exact map_self _ _ (fun e he => view_event e (h e he))

theorem goTableMsg_json (t : List Route × Nat) (h : ∀ r ∈ t.1, Listed r) (hid : t.2 < 2 ^ 64) :
    (goTableMsg (tableMsg t)).map (fun t => (t.1.map RawRoute.view, t.2)) = some t := by
  have := goItems_map (goRoute .zero) (routeJson true) (rawOf true) t.1 (fun r _ => goRoute_json true r)
  unfold goTableMsg tableMsg
  dsimp only
  rw [goTableFields, if_pos (by decide)]
  unfold goSlice
  dsimp only
  rw [this]
  dsimp only
  rw [goTableFields, if_neg (by decide), if_pos (by decide), goUint_int _ hid]
  dsimp only
  rw [goTableFields, Option.map_some, List.map_map]
  obtain ⟨rs, id⟩ := t
  congr 2
  refine map_self _ _ (fun r hr => ?_)
  obtain ⟨k, t, rfl⟩ := h r hr
  exact view_listed k t

/-! ### The texts -/

theorem okL_map {β : Type} (F : Floats) (py : Bool) (g : β → Json) (l : List β) (h : ∀ b ∈ l, Ok F py (g b)) :
    OkL F py (l.map g) := by
  induction l with
  | nil => rw [List.map_nil, OkL]; trivial
  | cons b l ih =>
    rw [List.map_cons, OkL]
    exact ⟨h b (List.mem_cons_self ..), ih (fun x hx => h x (List.mem_cons_of_mem _ hx))⟩

theorem ok_route (F : Floats) (py full : Bool) (r : Route) : Ok F py (routeJson full r) := by
  obtain ⟨kind, sni, path, target⟩ := r
  rcases kind with _ | (_ | _) <;> cases full <;> simp [routeJson, Ok, OkO]

theorem ok_event (F : Floats) (py : Bool) (e : Event) : Ok F py (eventJson e) := by
  have := ok_route F py (e.type == .put) e.route
  unfold eventJson
  simp only [Ok, OkO]
  exact ⟨trivial, trivial, this, trivial⟩

theorem ok_events (F : Floats) (py : Bool) (es : List Event) : Ok F py (eventsMsg es) := by
  unfold eventsMsg
  simp only [Ok, OkO]
  exact ⟨okL_map F py _ _ (fun e _ => ok_event F py e), trivial⟩

theorem ok_table (F : Floats) (py : Bool) (t : List Route × Nat) : Ok F py (tableMsg t) := by
  unfold tableMsg
  simp only [Ok, OkO]
  exact ⟨okL_map F py _ _ (fun r _ => ok_route F py true r), trivial, trivial⟩

theorem readBatch_line (F : Floats) (es : List Event) (h : ∀ e ∈ es, Sent e) :
    readBatch F (dumps F (eventsMsg es)) = some es := by
  unfold readBatch
  rw [C136_go F _ (ok_events F false es)]
  exact goEventsMsg_json es h

theorem readBatch_cut (F : Floats) (es : List Event) (p x : Str) (hp : dumps F (eventsMsg es) = p ++ x) (hx : x ≠ []) :
    readBatch F p = none := by
  unfold readBatch
  rw [C136_cut F false _ (ok_events F false es) p x hp hx]

/-! ### Lines -/

theorem line_chars (F : Floats) (es : List Event) : ∀ c ∈ dumps F (eventsMsg es), c ≠ '\n' ∧ c ≠ '\r' := by
  intro c hc
  have := C136_one_line F false _ (ok_events F false es) c hc
  constructor <;> (rintro rfl; revert this; decide)

theorem dropCR_id {l : Str} (h : ∀ c ∈ l, c ≠ '\r') : dropCR l = l := by
  unfold dropCR
  rw [if_neg]
  intro e
  exact h '\r' (List.mem_of_getLast? e) rfl

theorem takeWhile_line {l : Str} (h : ∀ c ∈ l, c ≠ '\n') (r : Str) :
    (l ++ '\n' :: r).takeWhile (fun c => decide (c ≠ '\n')) = l := by
  induction l with
  | nil => rfl
  | cons c l ih =>
    rw [List.cons_append, List.takeWhile_cons, if_pos (by simpa using h c (List.mem_cons_self ..)),
      ih (fun x hx => h x (List.mem_cons_of_mem _ hx))]

theorem takeWhile_all {l : Str} (h : ∀ c ∈ l, c ≠ '\n') : l.takeWhile (fun c => decide (c ≠ '\n')) = l := by
  induction l with
  | nil => rfl
  | cons c l ih =>
    rw [List.takeWhile_cons, if_pos (by simpa using h c (List.mem_cons_self ..)),
      ih (fun x hx => h x (List.mem_cons_of_mem _ hx))]

theorem nextLine_full {l : Str} (h : ∀ c ∈ l, c ≠ '\n' ∧ c ≠ '\r') (hl : l.length < maxLine) (r : Str) :
    nextLine (l ++ '\n' :: r) = some (l, r) := by
  unfold nextLine
  rw [if_neg (by simp)]
  dsimp only
  rw [takeWhile_line (fun c hc => (h c hc).1), if_neg (by omega), dropCR_id (fun c hc => (h c hc).2)]
  simp

theorem nextLine_last {l : Str} (h : ∀ c ∈ l, c ≠ '\n' ∧ c ≠ '\r') (hl : l.length < maxLine) (hne : l ≠ []) :
    nextLine l = some (l, []) := by
  unfold nextLine
  rw [if_neg hne]
  dsimp only
  rw [takeWhile_all (fun c hc => (h c hc).1), if_neg (by omega), dropCR_id (fun c hc => (h c hc).2)]
  simp

theorem nextLine_long {l : Str} (h : ∀ c ∈ l, c ≠ '\n') (hl : maxLine ≤ l.length) (r : Str) :
    nextLine (l ++ '\n' :: r) = none := by
  unfold nextLine
  rw [if_neg (by simp)]
  dsimp only
  rw [takeWhile_line h, if_pos hl]

theorem dumps_events_ne (F : Floats) (es : List Event) : dumps F (eventsMsg es) ≠ [] := by
  obtain ⟨c, t, e, _⟩ := dumps_head F false _ (ok_events F false es)
  rw [e]; simp

theorem stream_cons (F : Floats) (b : List Event) (bs : List (List Event)) :
    streamOf F (b :: bs) = dumps F (eventsMsg b) ++ '\n' :: streamOf F bs := by
  unfold streamOf
  rw [List.flatMap_cons]
  unfold lineOf
  simp

theorem stream_nil (F : Floats) : streamOf F [] = [] := rfl

theorem followN_nil (F : Floats) (n : Nat) : followN F n [] = ([], .eof) := by
  cases n <;> rfl

theorem follow_prefix (F : Floats) (bs : List (List Event)) (hs : ∀ b ∈ bs, ∀ e ∈ b, Sent e)
    (hl : ∀ b ∈ bs, (dumps F (eventsMsg b)).length < maxLine) (p : Str) (hp : p <+: streamOf F bs) (n : Nat)
    (hn : p.length < n) :
    ∃ k en, k ≤ bs.length ∧ followN F n p = (bs.take k, en) ∧ streamOf F (bs.take k) <+: p ++ ['\n'] ∧
      (∀ j, j ≤ bs.length → streamOf F (bs.take j) <+: p ++ ['\n'] → j ≤ k) ∧
      (en = .eof ↔ p = streamOf F (bs.take k) ∨ p ++ ['\n'] = streamOf F (bs.take k)) := by
  induction bs generalizing p n with
  | nil =>
    obtain ⟨x, hx⟩ := hp
    rw [stream_nil, List.append_eq_nil_iff] at hx
    obtain ⟨rfl, rfl⟩ := hx
    exact ⟨0, .eof, Nat.le_refl _, by rw [followN_nil]; rfl, ⟨_, rfl⟩, fun j hj _ => hj, by simp [stream_nil]⟩
  | cons b bs ih =>
    have hD := dumps_events_ne F b
    have hch := line_chars F b
    have hlen := hl b (List.mem_cons_self ..)
    have hsent := hs b (List.mem_cons_self ..)
    obtain ⟨n, rfl⟩ : ∃ m, n = m + 1 := ⟨n - 1, by omega⟩
    obtain ⟨x, hx⟩ := hp
    rw [stream_cons] at hx
    -- the first line has not arrived completely
    have short : ∀ a : Str, dumps F (eventsMsg b) = p ++ a → a ≠ [] → ∀ j, j ≤ (b :: bs).length →
        streamOf F ((b :: bs).take j) <+: p ++ ['\n'] → j ≤ 0 := by
      intro a ha hne j hj hpre
      cases j with
      | zero => exact Nat.le_refl _
      | succ j =>
        rw [List.take_succ_cons, stream_cons, ha] at hpre
        have := hpre.length_le
        have h1 := List.length_pos_iff.2 hne
        simp at this
        omega
    -- the first line has arrived, perhaps without its end
    have whole : p = dumps F (eventsMsg b) → ∃ k en, k ≤ (b :: bs).length ∧
        followN F (n + 1) p = ((b :: bs).take k, en) ∧ streamOf F ((b :: bs).take k) <+: p ++ ['\n'] ∧
        (∀ j, j ≤ (b :: bs).length → streamOf F ((b :: bs).take j) <+: p ++ ['\n'] → j ≤ k) ∧
        (en = .eof ↔ p = streamOf F ((b :: bs).take k) ∨ p ++ ['\n'] = streamOf F ((b :: bs).take k)) := by
      intro e
      subst e
      refine ⟨1, .eof, by simp, ?_, ?_, ?_, ?_⟩
      · rw [followN, nextLine_last hch hlen hD]
        dsimp only
        rw [readBatch_line F b hsent]
        dsimp only
        rw [followN_nil]
        rfl
      · rw [List.take_succ_cons, List.take_zero, stream_cons, stream_nil]
        exact ⟨[], by simp⟩
      · intro j hj hpre
        rcases j with _ | _ | j
        · omega
        · omega
        · exfalso
          cases bs with
          | nil => simp at hj
          | cons c bs =>
            have h2 := List.length_pos_iff.2 (dumps_events_ne F c)
            rw [List.take_succ_cons, List.take_succ_cons, stream_cons, stream_cons] at hpre
            have := hpre.length_le
            simp at this
      · simp [stream_cons, stream_nil]
    rcases List.append_eq_append_iff.1 hx with ⟨a, ha, hb⟩ | ⟨c, hc, hd⟩
    · by_cases hne : a = []
      · subst hne
        exact whole (by rw [ha, List.append_nil])
      · by_cases hp0 : p = []
        · subst hp0
          refine ⟨0, .eof, Nat.zero_le _, ?_, ⟨['\n'], rfl⟩, short a ha hne, ?_⟩
          · rw [followN_nil]; rfl
          · simp [stream_nil]
        · refine ⟨0, .err, Nat.zero_le _, ?_, ⟨p ++ ['\n'], rfl⟩, short a ha hne, ?_⟩
          · have hpl : p.length < maxLine := by
              have := congrArg List.length ha
              simp at this
              omega
            have hpc : ∀ c ∈ p, c ≠ '\n' ∧ c ≠ '\r' := fun c hc => hch c (by rw [ha]; exact List.mem_append_left _ hc)
            rw [followN, nextLine_last hpc hpl hp0]
            dsimp only
            rw [readBatch_cut F b p a ha hne]
            rfl
          · simp [stream_nil, hp0]
    · cases c with
      | nil => exact whole (by rw [hc, List.append_nil])
      | cons y q =>
        rw [List.cons_append] at hd
        obtain ⟨rfl, hq⟩ := List.cons.inj hd
        subst hc
        obtain ⟨k, en, h1, h2, h3, h4, h5⟩ := ih (fun b hb => hs b (List.mem_cons_of_mem _ hb))
          (fun b hb => hl b (List.mem_cons_of_mem _ hb)) q ⟨x, hq.symm⟩ n (by simp at hn; omega)
        have cancel : ∀ (l : List (List Event)), streamOf F (b :: l) <+: dumps F (eventsMsg b) ++ '\n' :: q ++ ['\n'] ↔
            streamOf F l <+: q ++ ['\n'] := by
          intro l
          rw [stream_cons, List.append_assoc, List.cons_append, List.prefix_append_right_inj,
            List.cons_prefix_cons]
          simp
        refine ⟨k + 1, en, by simp; exact h1, ?_, ?_, ?_, ?_⟩
        · rw [followN, nextLine_full hch hlen]
          dsimp only
          rw [readBatch_line F b hsent]
          dsimp only
          rw [h2]
          rfl
        · rw [List.take_succ_cons, cancel]; exact h3
        · intro j hj hpre
          cases j with
          | zero => omega
          | succ j =>
            rw [List.take_succ_cons, cancel] at hpre
            have := h4 j (by simpa using hj) hpre
            omega
        · rw [h5, List.take_succ_cons, stream_cons]
          simp

/-- C137: wherever the connection breaks, the proxy takes over exactly the batches whose line has arrived whole: in
their order, each once and none in part. The rest is an error, and then the whole table is fetched again, or nothing. -/
theorem C137_stream (F : Floats) (bs : List (List Event)) (hs : ∀ b ∈ bs, ∀ e ∈ b, Sent e)
    (hl : ∀ b ∈ bs, (dumps F (eventsMsg b)).length < maxLine) (p : Str) (hp : p <+: streamOf F bs) :
    ∃ k, k ≤ bs.length ∧ (follow F p).1 = bs.take k ∧ streamOf F (bs.take k) <+: p ++ ['\n'] ∧
      (∀ j, j ≤ bs.length → streamOf F (bs.take j) <+: p ++ ['\n'] → j ≤ k) ∧
      ((follow F p).2 = .eof ↔ p = streamOf F (bs.take k) ∨ p ++ ['\n'] = streamOf F (bs.take k)) := by
  obtain ⟨k, en, h1, h2, h3, h4, h5⟩ := follow_prefix F bs hs hl p hp (p.length + 1) (by omega)
  refine ⟨k, h1, ?_, h3, h4, ?_⟩
  · unfold follow; rw [h2]
  · unfold follow; rw [h2]; exact h5

/-- C137: if nothing is lost, every batch is taken over. -/
theorem C137_whole (F : Floats) (bs : List (List Event)) (hs : ∀ b ∈ bs, ∀ e ∈ b, Sent e)
    (hl : ∀ b ∈ bs, (dumps F (eventsMsg b)).length < maxLine) : follow F (streamOf F bs) = (bs, .eof) := by
  obtain ⟨k, h1, h2, h3, h4, h5⟩ := C137_stream F bs hs hl _ (List.prefix_refl _)
  have hk : k = bs.length :=
    Nat.le_antisymm h1 (h4 bs.length (Nat.le_refl _) (by rw [List.take_length]; exact List.prefix_append _ _))
  subst hk
  rw [List.take_length] at h2 h5
  exact Prod.ext h2 (h5.2 (Or.inl rfl))

variable {Url : Type}

/-- C137, for the system of C10 to C14: what the proxy does with the text it gets, up to any point, is that some
batches of the channel are delivered and then the stream ends, with or without an error. -/
theorem C137_steps (lib : UrlLib Url) (cfg : Config) (F : Floats) (s : Sys Url) (bs : List (List Event))
    (hph : s.phase = .streaming bs) (hs : ∀ b ∈ bs, ∀ e ∈ b, Sent e)
    (hl : ∀ b ∈ bs, (dumps F (eventsMsg b)).length < maxLine) (p : Str) (hp : p <+: streamOf F bs) :
    ∃ k o, k ≤ bs.length ∧ (o = .eof ∨ o = .garbled) ∧
      s.receive lib F p = (List.replicate k Op.deliver ++ [o]).foldl (Sys.step lib cfg) s := by
  obtain ⟨k, h1, h2, -⟩ := C137_stream F bs hs hl p hp
  have key : ∀ k (bs : List (List Event)) (s : Sys Url), k ≤ bs.length → s.phase = .streaming bs →
      (List.replicate k Op.deliver).foldl (Sys.step lib cfg) s =
        { (bs.take k).foldl (Sys.processBatch lib) s with phase := .streaming (bs.drop k) } := by
    intro k
    induction k with
    | zero =>
      intro bs s _ h
      simp only [List.replicate_zero, List.foldl_nil, List.take_zero, List.drop_zero]
      rw [← h]
    | succ k ih =>
      intro bs s hk h
      cases bs with
      | nil => simp at hk
      | cons b bs =>
        rw [List.replicate_succ, List.foldl_cons, List.take_succ_cons, List.foldl_cons, List.drop_succ_cons]
        have hst : s.step lib cfg .deliver = { s.processBatch lib b with phase := .streaming bs } := by
          unfold Sys.step
          dsimp only
          rw [h]
        rw [hst, ih bs _ (by simpa using hk) rfl]
        have ph : ∀ (l : List (List Event)) (t : Sys Url) (f g : Phase),
            ({ l.foldl (Sys.processBatch lib) { t with phase := f } with phase := g } : Sys Url) =
              { l.foldl (Sys.processBatch lib) t with phase := g } := by
          intro l
          induction l with
          | nil => intro t f g; rfl
          | cons c l ihl =>
            intro t f g
            rw [List.foldl_cons, List.foldl_cons]
            have : Sys.processBatch lib { t with phase := f } c = { Sys.processBatch lib t c with phase := f } := by
              unfold Sys.processBatch
              split <;> rfl
            rw [this, ihl]
        exact ph _ _ _ _
  refine ⟨k, if (follow F p).2 = .eof then .eof else .garbled, h1, ?_, ?_⟩
  · by_cases he : (follow F p).2 = .eof
    · rw [if_pos he]; exact Or.inl rfl
    · rw [if_neg he]; exact Or.inr rfl
  · rw [List.foldl_append, key k bs s h1 hph]
    unfold Sys.receive
    rw [h2]
    cases he : (follow F p).2 <;> rfl

/-- C137: the proxy takes over the whole table or, if the answer is cut, nothing. -/
theorem C137_table (F : Floats) (t : List Route × Nat) (h : ∀ r ∈ t.1, Listed r) (hid : t.2 < 2 ^ 64) (p x : Str)
    (hp : dumps F (tableMsg t) = p ++ x) : readTable F p = if x = [] then some t else none := by
  have hok := ok_table F false t
  by_cases hx : x = []
  · rw [if_pos hx]
    subst hx
    rw [List.append_nil] at hp
    subst hp
    have e := skipWs_dumps hok []
    have := read_dumps F false _ hok [] (by intro c hc; cases hc) ((dumps F (tableMsg t)).length + 1) (by omega)
    rw [List.append_nil] at e this
    unfold readTable
    rw [e, this]
    exact goTableMsg_json t h hid
  · rw [if_neg hx]
    have hs : skipWs p = p := by
      cases p with
      | nil => rfl
      | cons c p =>
        obtain ⟨d, t, e, hd, _⟩ := dumps_head F false _ hok
        rw [e] at hp
        cases hp
        exact skipWs_cons hd p
    unfold readTable
    rw [hs, readVal_cut F false _ hok p x hp hx]

theorem goItems_bad {α : Type} (f : Json → Option α) (l : List Json) (v : Json) (hv : v ∈ l) (hf : f v = none) :
    goItems f l = none := by
  induction l with
  | nil => cases hv
  | cons w l ih =>
    rw [goItems]
    rcases List.mem_cons.1 hv with rfl | hv
    · rw [hf]
    · rw [ih hv]
      cases f w <;> rfl

/-- C137: a batch with an event that the proxy cannot make sense of is refused as a whole. -/
theorem C137_refused (F : Floats) (text : Str) (items : List Json)
    (ht : readAll F false text = some (.obj [("events".toList, .arr items)])) (v : Json) (hv : v ∈ items)
    (hbad : goEvent v = none) : readBatch F text = none := by
  unfold readBatch
  rw [ht]
  dsimp only
  unfold goEventsMsg
  dsimp only
  rw [goEventsFields, if_pos (by decide)]
  unfold goSlice
  dsimp only
  rw [goItems_bad goEvent items v hv hbad]
  rfl

/-! ### What the gateway sends is such -/

theorem sent_of_append {cfg : Config} {s : Server} {t : EventType} {r : Route} {s2 : Server} {e : Event}
    (h : s.appendEvent cfg t r = (s2, e)) : e = ⟨s.nextId, t, r⟩ ∧ s2.nextId = s.nextId + 1 ∧
      ∀ x ∈ s2.events, x ∈ s.events ∨ x = e := by
  unfold Server.appendEvent at h
  dsimp only at h
  cases h
  refine ⟨rfl, ?_, ?_⟩
  · by_cases hc : s.events.length ≥ cfg.maxEvents
    · simp only [hc, if_true]
    · simp only [hc, if_false]
  · intro x hx
    by_cases hc : s.events.length ≥ cfg.maxEvents
    · simp only [hc, if_true, List.mem_append, List.mem_singleton] at hx
      rcases hx with hx | hx
      · exact Or.inl (List.mem_of_mem_drop hx)
      · exact Or.inr hx
    · simp only [hc, if_false, List.mem_append, List.mem_singleton] at hx
      exact hx

/-- An event as the gateway makes them, among its first ones. -/
def Made (B : Nat) (e : Event) : Prop :=
  e.id < B ∧ ((∃ k t, e.route = putRouteOf k t ∧ e.type = .put) ∨ (∃ k, e.route = delRouteOf k ∧ e.type = .delete))

/-- What holds of everything that is under way. -/
structure OnTheWay (B : Nat) (s : Sys Url) : Prop where
  next : s.srv.nextId ≤ B
  log : ∀ e ∈ s.srv.events, Made B e
  channel : ∀ ch, s.phase = .streaming ch → ∀ b ∈ ch, ∀ e ∈ b, Made B e
  table : ∀ rs id, s.phase = .gotTable rs id → (∀ r ∈ rs, Listed r) ∧ id < B

theorem Made.mono {B B' : Nat} {e : Event} (h : Made B e) (hb : B ≤ B') : Made B' e := ⟨by have := h.1; omega, h.2⟩

theorem push_streaming {p : Phase} {e : Event} {ch : List (List Event)} (h : p.push e = .streaming ch) :
    ∃ c0, p = .streaming c0 ∧ ch = c0 ++ [[e]] := by
  cases p with
  | streaming c0 => unfold Phase.push at h; dsimp only at h; cases h; exact ⟨c0, rfl, rfl⟩
  | needFetch => cases h
  | needWatch => cases h
  | gotTable rs id => cases h

theorem push_table {p : Phase} {e : Event} {rs : List Route} {id : Nat} (h : p.push e = .gotTable rs id) :
    p = .gotTable rs id := by
  cases p with
  | streaming c0 => unfold Phase.push at h; dsimp only at h; cases h
  | needFetch => cases h
  | needWatch => cases h
  | gotTable rs id => exact h

theorem onTheWay_event {cfg : Config} {B : Nat} {s : Sys Url} (h : OnTheWay B s) (d : ProxyEvents.Dict) (t : EventType)
    (r : Route) (hm : (∃ k v, r = putRouteOf k v ∧ t = .put) ∨ (∃ k, r = delRouteOf k ∧ t = .delete)) {s2 : Server}
    {e : Event} (hs : ({ s.srv with routes := d } : Server).appendEvent cfg t r = (s2, e)) :
    OnTheWay (B + 1) { s with srv := s2, phase := s.phase.push e } := by
  obtain ⟨he, hn, hl⟩ := sent_of_append hs
  have hme : Made (B + 1) e := by
    rw [he]
    exact ⟨by have := h.next; simp; omega, hm⟩
  refine ⟨?_, ?_, ?_, ?_⟩
  · show s2.nextId ≤ B + 1
    rw [hn]
    exact Nat.succ_le_succ h.next
  · intro x hx
    rcases hl x hx with hx | rfl
    · exact (h.log x hx).mono (by omega)
    · exact hme
  · intro ch hch b hb x hx
    obtain ⟨c0, h0, rfl⟩ := push_streaming hch
    rcases List.mem_append.1 hb with hb | hb
    · exact (h.channel c0 h0 b hb x hx).mono (by omega)
    · rw [List.mem_singleton] at hb
      subst hb
      rw [List.mem_singleton] at hx
      subst hx
      exact hme
  · intro rs id hp
    obtain ⟨a, b⟩ := h.table rs id (push_table hp)
    exact ⟨a, by omega⟩

theorem OnTheWay.mono {B : Nat} {s : Sys Url} (h : OnTheWay B s) : OnTheWay (B + 1) s :=
  ⟨by have := h.next; omega, fun e he => (h.log e he).mono (by omega),
    fun ch hc b hb e he => (h.channel ch hc b hb e he).mono (by omega),
    fun rs id hp => ⟨(h.table rs id hp).1, by have := (h.table rs id hp).2; omega⟩⟩

theorem OnTheWay.idle {B : Nat} {s : Sys Url} (h : OnTheWay B s) (tb : Tables Url) (li : Nat) (ph : Phase)
    (h1 : ∀ ch, ph = .streaming ch → ∀ b ∈ ch, ∀ e ∈ b, Made B e)
    (h2 : ∀ rs id, ph = .gotTable rs id → (∀ r ∈ rs, Listed r) ∧ id < B) :
    OnTheWay (B + 1) (⟨s.srv, tb, li, ph⟩ : Sys Url) :=
  OnTheWay.mono ⟨h.next, h.log, h1, h2⟩

theorem setup_way (cfg : Config) (url : Str) : (Server.setup cfg url).1.nextId ≤ 2 ∧
    ∀ e ∈ (Server.setup cfg url).1.events, Made 2 e := by
  unfold Server.setup Server.addRoute callKey
  simp only [Option.map_some]
  generalize hs : Server.appendEvent cfg _ .put _ = q
  obtain ⟨s2, e⟩ := q
  obtain ⟨he, hn, hl⟩ := sent_of_append hs
  refine ⟨by dsimp only; rw [hn]; exact Nat.le_refl 2, ?_⟩
  intro x hx
  rcases hl x hx with hx | rfl
  · simp [Server.init] at hx
  · rw [he]
    exact ⟨Nat.lt_succ_self 1, Or.inl ⟨(.path, cfg.pfx ++ ['/']), url, rfl, rfl⟩⟩

theorem OnTheWay.step {lib : UrlLib Url} {cfg : Config} {B : Nat} (hB : 2 ≤ B) {s : Sys Url} (h : OnTheWay B s) (o : Op) :
    OnTheWay (B + 1) (s.step lib cfg o) := by
  have none1 : ∀ ch, Phase.needFetch = .streaming ch → ∀ b ∈ ch, ∀ e ∈ b, Made B e := by intro _ h; cases h
  have none2 : ∀ rs id, Phase.needFetch = .gotTable rs id → (∀ r ∈ rs, Listed r) ∧ id < B := by intro _ _ h; cases h
  have none3 : ∀ ch, Phase.needWatch = .streaming ch → ∀ b ∈ ch, ∀ e ∈ b, Made B e := by intro _ h; cases h
  have none4 : ∀ rs id, Phase.needWatch = .gotTable rs id → (∀ r ∈ rs, Listed r) ∧ id < B := by intro _ _ h; cases h
  cases o with
  | add kind sni path target =>
    unfold Sys.step Server.addRoute
    dsimp only
    cases target with
    | none => exact h.mono
    | some t =>
      dsimp only
      cases hk : callKey cfg kind sni path with
      | none => exact h.mono
      | some k =>
        dsimp only
        generalize hs : Server.appendEvent cfg _ .put _ = q
        obtain ⟨s2, e⟩ := q
        exact onTheWay_event h _ _ _ (Or.inl ⟨k, t, rfl, rfl⟩) hs
  | remove kind sni path =>
    unfold Sys.step Server.removeRoute
    dsimp only
    cases hk : callKey cfg kind sni path with
    | none => exact h.mono
    | some k =>
      dsimp only
      cases hg : dictGet s.srv.routes k with
      | none => exact h.mono
      | some v =>
        dsimp only
        generalize hs : Server.appendEvent cfg _ .delete _ = q
        obtain ⟨s2, e⟩ := q
        exact onTheWay_event h _ _ _ (Or.inr ⟨k, rfl, rfl⟩) hs
  | fetch =>
    unfold Sys.step
    dsimp only
    split
    · refine OnTheWay.idle h s.tables s.lastId _ (fun ch hc => by cases hc) ?_
      intro rs id hp
      cases hp
      refine ⟨?_, ?_⟩
      · intro r hr
        unfold Server.table at hr
        obtain ⟨e, _, rfl⟩ := List.mem_map.1 hr
        exact ⟨_, _, rfl⟩
      · show s.srv.nextId - 1 < B
        have := h.next
        omega
    · exact h.mono
  | fetchFail =>
    unfold Sys.step
    dsimp only
    split
    · exact OnTheWay.idle h s.tables s.lastId _ none1 none2
    · exact h.mono
  | applyTable =>
    unfold Sys.step
    dsimp only
    split
    · exact OnTheWay.idle h _ _ _ none3 none4
    · exact h.mono
  | watch =>
    unfold Sys.step
    dsimp only
    split
    · split
      · exact OnTheWay.idle h s.tables s.lastId _ none1 none2
      · rename_i es hes
        refine OnTheWay.idle h s.tables s.lastId _ ?_ (fun rs id hp => by cases hp)
        intro ch hc b hb e he
        cases hc
        have hsub : ∀ e ∈ es, e ∈ s.srv.events := by
          unfold Server.eventsAfter at hes
          dsimp only at hes
          split at hes
          · cases hes; intro e he; exact List.mem_of_mem_drop he
          · cases hes
        by_cases he0 : es = []
        · rw [if_pos he0] at hb; cases hb
        · rw [if_neg he0, List.mem_singleton] at hb
          subst hb
          exact h.log e (hsub e he)
    · exact h.mono
  | watchFail =>
    unfold Sys.step
    dsimp only
    split
    · exact OnTheWay.idle h s.tables s.lastId _ none1 none2
    · exact h.mono
  | deliver =>
    unfold Sys.step
    dsimp only
    split
    · rename_i es ch hp
      have hsrv : (s.processBatch lib es).srv = s.srv := by unfold Sys.processBatch; split <;> rfl
      refine OnTheWay.mono ⟨?_, ?_, ?_, ?_⟩
      · show (s.processBatch lib es).srv.nextId ≤ B
        rw [hsrv]; exact h.next
      · show ∀ e ∈ (s.processBatch lib es).srv.events, Made B e
        rw [hsrv]; exact h.log
      · intro c hc b hb e he
        cases hc
        exact h.channel _ hp b (List.mem_cons_of_mem _ hb) e he
      · intro rs id hp; cases hp
    · exact h.mono
  | eof =>
    unfold Sys.step
    dsimp only
    split
    · exact OnTheWay.idle h s.tables s.lastId _ none3 none4
    · exact h.mono
  | garbled =>
    unfold Sys.step
    dsimp only
    split
    · exact OnTheWay.idle h s.tables s.lastId _ none1 none2
    · exact h.mono
  | restart url noticed =>
    unfold Sys.step
    dsimp only
    obtain ⟨h1, h2⟩ := setup_way cfg url
    refine ⟨?_, ?_, ?_, ?_⟩
    · dsimp only; omega
    · intro e he; exact (h2 e he).mono (by omega)
    · intro ch hc
      dsimp only at hc
      cases noticed with
      | true => rw [if_pos rfl] at hc; cases hc
      | false =>
        rw [if_neg (by decide)] at hc
        split at hc
        · cases hc
        · rename_i hp
          exact absurd hc (hp ch)
    · intro rs id hc
      dsimp only at hc
      cases noticed with
      | true => rw [if_pos rfl] at hc; cases hc
      | false =>
        rw [if_neg (by decide)] at hc
        split at hc
        · cases hc
        · obtain ⟨a, b⟩ := h.table rs id hc
          exact ⟨a, by omega⟩

theorem way_run (lib : UrlLib Url) (cfg : Config) (url : Str) (ops : List Op) :
    OnTheWay (ops.length + 2) (Sys.run lib cfg url ops) := by
  induction ops using Router.snoc_induction with
  | nil =>
    obtain ⟨h1, h2⟩ := setup_way cfg url
    exact ⟨h1, h2, fun ch hc => (by cases hc), fun rs id hc => (by cases hc)⟩
  | snoc ops o ih =>
    rw [run_snoc, List.length_append, List.length_singleton]
    have := OnTheWay.step (lib := lib) (cfg := cfg) (by omega) ih o
    rw [show ops.length + 1 + 2 = ops.length + 2 + 1 by omega]
    exact this

/-- C137: what C137 asks of batches holds of every batch that the gateway sends, as long as it has made fewer than 2^64
changes. -/
theorem C137_sent (lib : UrlLib Url) (cfg : Config) (url : Str) (ops : List Op) (hn : ops.length + 2 ≤ 2 ^ 64)
    (bs : List (List Event)) (h : (Sys.run lib cfg url ops).phase = .streaming bs) : ∀ b ∈ bs, ∀ e ∈ b, Sent e := by
  intro b hb e he
  obtain ⟨h1, h2⟩ := (way_run lib cfg url ops).channel bs h b hb e he
  exact ⟨by omega, h2⟩

/-! ### Long lines -/

theorem follow_long (F : Floats) (b : List Event) (bs : List (List Event))
    (hb : maxLine ≤ (dumps F (eventsMsg b)).length) : follow F (streamOf F (b :: bs)) = ([], .eof) := by
  unfold follow
  rw [stream_cons, followN, nextLine_long (fun c hc => (line_chars F b c hc).1) hb]

/-- C137 is violated for long batches: nothing of a batch of 64 KiB and nothing after it arrives, and the proxy takes
it for the end of the stream. -/
theorem C137_long_violated (lib : UrlLib Url) (cfg : Config) (F : Floats) (s : Sys Url) (b : List Event)
    (bs : List (List Event)) (hph : s.phase = .streaming (b :: bs))
    (hb : maxLine ≤ (dumps F (eventsMsg b)).length) :
    s.receive lib F (streamOf F (b :: bs)) = { s with phase := .needWatch } := by
  unfold Sys.receive
  rw [follow_long F b bs hb]
  rfl

/-- What a round of the loop does with the text of the answer: the request, then the stream up to its end. -/
def watchText (lib : UrlLib Url) (cfg : Config) (F : Floats) (s : Sys Url) : Sys Url :=
  match (s.step lib cfg .watch).phase with
  | .streaming bs => (s.step lib cfg .watch).receive lib F (streamOf F bs)
  | _ => s.step lib cfg .watch

/-- C137, with C64: if the changes that the proxy has missed take 64 KiB it asks for them for ever. -/
theorem C137_stuck (lib : UrlLib Url) (cfg : Config) (F : Floats) (s : Sys Url) (es : List Event)
    (hph : s.phase = .needWatch) (hes : es ≠ []) (he : s.srv.eventsAfter s.lastId = some es)
    (hb : maxLine ≤ (dumps F (eventsMsg es)).length) (n : Nat) : iterate (watchText lib cfg F) n s = s := by
  have h1 : watchText lib cfg F s = s := by
    have hst : s.step lib cfg .watch = { s with phase := .streaming [es] } := by
      unfold Sys.step
      dsimp only
      rw [hph]
      dsimp only
      rw [he]
      dsimp only
      rw [if_neg hes]
    unfold watchText
    rw [hst]
    dsimp only
    rw [C137_long_violated lib cfg F _ es [] rfl hb]
    obtain ⟨a, b, c, d⟩ := s
    dsimp only at hph ⊢
    rw [hph]
  induction n with
  | zero => rfl
  | succ n ih => rw [iterate, h1]; exact ih

end Verif.Wire

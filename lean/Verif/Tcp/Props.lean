import Verif.Tcp.Model
/-! Properties C59, C81 and C82: the TCP side of the proxy. -/
set_option linter.unusedSimpArgs false
set_option linter.unusedVariables false
namespace Verif.Tcp

private theorem read_append (k : Nat) (c : Conn) :
    (Conn.read k c).1 ++ (Conn.read k c).2.flatten = c.flatten := by
  induction c with
  | nil => rfl
  | cons p cs ih =>
    cases p with
    | nil => exact ih
    | cons b c =>
      unfold Conn.read
      split
      · rfl
      · dsimp only
        rw [List.flatten_cons, ← List.append_assoc, List.take_append_drop]
        rfl

private theorem read_nil {k : Nat} (hk : 0 < k) {c : Conn} (h : (Conn.read k c).1 = []) : c.flatten = [] := by
  induction c with
  | nil => rfl
  | cons p cs ih =>
    cases p with
    | nil => exact ih h
    | cons b c =>
      unfold Conn.read at h
      split at h
      · cases h
      · cases k with
        | zero => cases hk
        | succ k => cases h

private theorem read_length (k : Nat) (c : Conn) : (Conn.read k c).1.length ≤ k := by
  induction c with
  | nil => exact Nat.zero_le _
  | cons p cs ih =>
    cases p with
    | nil => exact ih
    | cons b c =>
      unfold Conn.read
      split
      · assumption
      · dsimp only
        rw [List.length_take]
        exact Nat.min_le_left _ _

private theorem fill_inv (n fuel : Nat) (b : Buf) :
    (b.fill n fuel).1.buf ++ (b.fill n fuel).1.conn.flatten = b.buf ++ b.conn.flatten := by
  induction fuel generalizing b with
  | zero => rfl
  | succ f ih =>
    unfold Buf.fill
    split
    · rfl
    · split
      · rfl
      · have ha := read_append (bufSize - b.buf.length) b.conn
        split
        · rename_i conn hr
          rw [hr] at ha
          dsimp only at ha ⊢
          rw [← ha]
          rfl
        · rename_i bytes conn _ hr
          rw [hr] at ha
          dsimp only at ha
          rw [ih]
          dsimp only
          rw [List.append_assoc, ha]

private theorem fill_spec (n fuel : Nat) (b : Buf) (hf : bufSize ≤ b.buf.length + fuel)
    (hb : b.buf.length ≤ bufSize) :
    (b.fill n fuel).1.buf.length ≤ bufSize ∧
    (b.fill n fuel).2 = if n ≤ bufSize ∧ n ≤ (b.buf ++ b.conn.flatten).length
      then some ((b.buf ++ b.conn.flatten).take n) else none := by
  have hin : ∀ b : Buf, n ≤ b.buf.length → b.buf.length ≤ bufSize →
      (if n ≤ bufSize ∧ n ≤ (b.buf ++ b.conn.flatten).length
        then some ((b.buf ++ b.conn.flatten).take n) else none) = some (b.buf.take n) := by
    intro b h1 h2
    rw [if_pos ⟨Nat.le_trans h1 h2, by rw [List.length_append]; omega⟩, List.take_append_of_le_length h1]
  induction fuel generalizing b with
  | zero =>
    unfold Buf.fill
    refine ⟨hb, ?_⟩
    dsimp only
    split
    · rename_i h
      rw [hin b h hb]
    · rw [if_neg (by omega)]
  | succ f ih =>
    unfold Buf.fill
    split
    · rename_i h
      exact ⟨hb, (hin b h hb).symm⟩
    · rename_i h
      split
      · rename_i h2
        refine ⟨hb, ?_⟩
        dsimp only
        rw [if_neg (by omega)]
      · rename_i h2
        have ha := read_append (bufSize - b.buf.length) b.conn
        have hl := read_length (bufSize - b.buf.length) b.conn
        split
        · rename_i conn hr
          refine ⟨hb, ?_⟩
          dsimp only
          have := read_nil (k := bufSize - b.buf.length) (by omega) (c := b.conn) (by rw [hr])
          rw [if_neg (by rw [this, List.append_nil]; omega)]
        · rename_i bytes conn hne hr
          rw [hr] at ha hl
          dsimp only at ha hl
          have hpos : 0 < bytes.length := by
            cases bytes with
            | nil => exact absurd rfl hne
            | cons x l => simp
          obtain ⟨i1, i2⟩ := ih { buf := b.buf ++ bytes, conn }
            (by dsimp only; rw [List.length_append]; omega)
            (by dsimp only; rw [List.length_append]; omega)
          refine ⟨i1, ?_⟩
          rw [i2]
          dsimp only
          rw [List.append_assoc, ha]

/-- What a reader stands for: all bytes from its start on. -/
private def Buf.all (b : Buf) : List Byte := b.buf ++ b.conn.flatten

private theorem peek_spec {b : Buf} (hb : b.buf.length ≤ bufSize) (n : Nat) :
    (b.peek n).1.buf.length ≤ bufSize ∧ (b.peek n).1.all = b.all ∧
    (b.peek n).2 = if n ≤ bufSize ∧ n ≤ b.all.length then some (b.all.take n) else none :=
  ⟨(fill_spec n bufSize b (Nat.le_add_left _ _) hb).1, fill_inv n bufSize b,
    (fill_spec n bufSize b (Nat.le_add_left _ _) hb).2⟩

/-- What `readSNI` decides, from the bytes alone. -/
private theorem readSNI_spec (hello : List Byte → Str) (conn : Conn) :
    (conn.flatten = [] → readSNI hello conn = none) ∧
    (conn.flatten ≠ [] → ∃ p : Peeked, p.peeked ++ p.conn.flatten = conn.flatten ∧
      readSNI hello conn = some (
        if conn.flatten.head? ≠ some 0x16 ∨ conn.flatten.length < 5 then { name := [], isTLS := false, conn := p }
        else if 5 + recLen (conn.flatten.take 5) ≤ bufSize ∧
            5 + recLen (conn.flatten.take 5) ≤ conn.flatten.length then
          { name := hello (conn.flatten.take (5 + recLen (conn.flatten.take 5))), isTLS := true, conn := p }
        else { name := [], isTLS := true, conn := p })) := by
  have hall : ({ buf := [], conn } : Buf).all = conn.flatten := rfl
  have h0 : ({ buf := [], conn } : Buf).buf.length ≤ bufSize := Nat.zero_le _
  obtain ⟨a1, a2, a3⟩ := peek_spec h0 1
  rw [hall] at a2 a3
  unfold readSNI
  generalize Buf.peek { buf := [], conn } 1 = r1 at a1 a2 a3
  obtain ⟨b1, o1⟩ := r1
  dsimp only at a1 a2 a3
  refine ⟨fun he => ?_, fun hne => ?_⟩
  · rw [a3, he]
    rfl
  · have hl : 1 ≤ conn.flatten.length := by
      cases hc : conn.flatten with
      | nil => exact absurd hc hne
      | cons x l => simp
    rw [if_pos ⟨by decide, hl⟩] at a3
    rw [a3]
    dsimp only
    have hh : (conn.flatten.take 1).head? = conn.flatten.head? := by
      cases conn.flatten <;> rfl
    rw [hh]
    by_cases h16 : conn.flatten.head? ≠ some 0x16
    · rw [if_pos h16]
      exact ⟨b1.wrap, a2, by rw [if_pos (Or.inl h16)]⟩
    · rw [if_neg h16]
      obtain ⟨c1, c2, c3⟩ := peek_spec a1 5
      rw [a2] at c2 c3
      generalize b1.peek 5 = r2 at c1 c2 c3
      obtain ⟨b2, o2⟩ := r2
      dsimp only at c1 c2 c3
      by_cases h5 : 5 ≤ conn.flatten.length
      · rw [if_pos ⟨by decide, h5⟩] at c3
        rw [c3]
        dsimp only
        obtain ⟨d1, d2, d3⟩ := peek_spec c1 (5 + recLen (conn.flatten.take 5))
        rw [c2] at d2 d3
        generalize b2.peek (5 + recLen (conn.flatten.take 5)) = r3 at d1 d2 d3
        obtain ⟨b3, o3⟩ := r3
        dsimp only at d1 d2 d3
        refine ⟨b3.wrap, d2, ?_⟩
        rw [if_neg (by rintro (h | h); exact h16 h; omega), d3]
        by_cases h6 : 5 + recLen (conn.flatten.take 5) ≤ bufSize ∧
            5 + recLen (conn.flatten.take 5) ≤ conn.flatten.length
        · rw [if_pos h6, if_pos h6]
        · rw [if_neg h6, if_neg h6]
      · rw [if_neg (by omega)] at c3
        rw [c3]
        exact ⟨b2.wrap, c2, by rw [if_pos (Or.inr (by omega))]⟩

/-! ### C59 -/

/-- Specification: reads of these sizes one after the other, and what is left to read. -/
def reads (p : Peeked) : List Nat → List (List Byte) × Peeked
  | [] => ([], p)
  | k :: ks => ((p.read k).1 :: (reads (p.read k).2 ks).1, (reads (p.read k).2 ks).2)

private theorem pread_append (p : Peeked) (k : Nat) :
    (p.read k).1 ++ ((p.read k).2.peeked ++ (p.read k).2.conn.flatten) = p.peeked ++ p.conn.flatten := by
  unfold Peeked.read
  cases h : p.peeked with
  | nil => simp [h, read_append]
  | cons x l =>
    dsimp only
    rw [← List.append_assoc, List.take_append_drop]

private theorem pread_nil {p : Peeked} {k : Nat} (hk : 0 < k) (h : (p.read k).1 = []) :
    p.peeked ++ p.conn.flatten = [] := by
  unfold Peeked.read at h
  cases hp : p.peeked with
  | nil =>
    rw [hp] at h
    exact read_nil hk h
  | cons x l =>
    rw [hp] at h
    cases k with
    | zero => cases hk
    | succ k => cases h

private theorem reads_append (p : Peeked) (ks : List Nat) :
    (reads p ks).1.flatten ++ ((reads p ks).2.peeked ++ (reads p ks).2.conn.flatten) =
      p.peeked ++ p.conn.flatten := by
  induction ks generalizing p with
  | nil => rfl
  | cons k ks ih =>
    unfold reads
    dsimp only
    rw [List.flatten_cons, List.append_assoc, ih, pread_append]

/-- C59: whatever is read of a connection that the proxy goes on with is the beginning of what the client
sent, including what was inspected before, for every division into pieces and all sizes of reads. -/
theorem C59_bytes (hello : List Byte → Str) (conn : Conn) (r : Sni) (h : readSNI hello conn = some r)
    (ks : List Nat) : (reads r.conn ks).1.flatten <+: conn.flatten := by
  have hr : r.conn.peeked ++ r.conn.conn.flatten = conn.flatten := by
    obtain ⟨s1, s2⟩ := readSNI_spec hello conn
    by_cases hne : conn.flatten = []
    · rw [s1 hne] at h; cases h
    · obtain ⟨p, hp, e⟩ := s2 hne
      rw [e] at h
      cases h
      split
      · exact hp
      · split <;> exact hp
  exact ⟨_, by rw [reads_append, hr]⟩

/-- C59: and when a read finds the end then everything that the client sent has been read. -/
theorem C59_complete (hello : List Byte → Str) (conn : Conn) (r : Sni) (h : readSNI hello conn = some r)
    (ks : List Nat) (k : Nat) (hk : 0 < k) (he : ((reads r.conn ks).2.read k).1 = []) :
    (reads r.conn ks).1.flatten = conn.flatten := by
  have hr : r.conn.peeked ++ r.conn.conn.flatten = conn.flatten := by
    obtain ⟨s1, s2⟩ := readSNI_spec hello conn
    by_cases hne : conn.flatten = []
    · rw [s1 hne] at h; cases h
    · obtain ⟨p, hp, e⟩ := s2 hne
      rw [e] at h
      cases h
      split
      · exact hp
      · split <;> exact hp
  have := reads_append r.conn ks
  rw [pread_nil hk he, List.append_nil, hr] at this
  exact this

/-- C59: the end comes: each read of at least a byte before it gives one. -/
theorem C59_ends (p : Peeked) (ks : List Nat) (hk : ∀ k ∈ ks, 0 < k)
    (hl : (p.peeked ++ p.conn.flatten).length < ks.length) : [] ∈ (reads p ks).1 := by
  induction ks generalizing p with
  | nil => exact absurd hl (Nat.not_lt_zero _)
  | cons k ks ih =>
    unfold reads
    dsimp only
    by_cases h : (p.read k).1 = []
    · rw [h]; exact List.mem_cons_self
    · have ha := congrArg List.length (pread_append p k)
      rw [List.length_append] at ha
      have hpos : 0 < (p.read k).1.length := List.length_pos_iff.2 h
      exact List.mem_cons_of_mem _ (ih _ (fun k hk' => hk k (List.mem_cons_of_mem _ hk'))
        (by rw [List.length_cons] at hl; omega))

/-- C59: only connections on which nothing was sent are given up for an error. -/
theorem C59_error (hello : List Byte → Str) (conn : Conn) :
    readSNI hello conn = none ↔ conn.flatten = [] := by
  obtain ⟨s1, s2⟩ := readSNI_spec hello conn
  refine ⟨fun h => ?_, s1⟩
  refine Classical.byContradiction fun hne => ?_
  obtain ⟨p, _, e⟩ := s2 hne
  rw [e] at h
  cases h

/-- Two pieces, the first of which ends within the header. -/
example : (readSNI (fun _ => ['x']) [[0x16, 3], [1, 0, 2, 7], [8, 9]]) =
      some { name := ['x'], isTLS := true, conn := { peeked := [0x16, 3, 1, 0, 2, 7, 8, 9], conn := [] } } ∧
    (reads { peeked := [1, 2, 3], conn := [[4, 5], [6]] } [2, 2, 1, 5, 9, 9]).1 = [[1, 2], [3], [4], [5], [6], []] := by
  decide +kernel

/-! ### C81 -/

/-- Specification: the client begins with a whole record of a TLS handshake, of this many bytes. -/
def Hello (bytes : List Byte) (n : Nat) : Prop :=
  bytes.head? = some 0x16 ∧ 5 ≤ n ∧ n ≤ bytes.length ∧
  n = 5 + (bytes.getD 3 0).toNat * 256 + (bytes.getD 4 0).toNat

private theorem recLen_eq {bytes : List Byte} (h : 5 ≤ bytes.length) :
    recLen (bytes.take 5) = (bytes.getD 3 0).toNat * 256 + (bytes.getD 4 0).toNat := by
  match bytes, h with
  | a :: b :: c :: d :: e :: l, _ => rfl

/-- C81, in part: a connection that begins with a TLS greeting for a known cluster is connected with it,
for every division into pieces, if the greeting is of at most 4096 bytes. Missing: larger ones; see
`C81_violated`. -/
theorem C81_reaches_partial (hello : List Byte → Str) (routes : Str → Str) (forwarder : Bool) (conn : Conn)
    (n : Nat) (hh : Hello conn.flatten n) (hn : n ≤ 4096) (x : Str)
    (hx : hello (conn.flatten.take n) = "daskgateway-".toList ++ x) (hr : routes x ≠ []) :
    ∃ p : Peeked, p.peeked ++ p.conn.flatten = conn.flatten ∧
      handle hello routes forwarder conn = .dial (routes x) p := by
  obtain ⟨h1, h2, h3, h4⟩ := hh
  obtain ⟨s1, s2⟩ := readSNI_spec hello conn
  have hne : conn.flatten ≠ [] := by intro h; rw [h] at h1; cases h1
  obtain ⟨p, hp, e⟩ := s2 hne
  have hl : 5 + recLen (conn.flatten.take 5) = n := by rw [recLen_eq (by omega), h4]; omega
  rw [hl] at e
  rw [if_neg (by rintro (h | h); exact h h1; omega), if_pos ⟨hn, h3⟩, hx] at e
  refine ⟨p, hp, ?_⟩
  unfold handle
  rw [e]
  dsimp only
  have hpre : sniPrefix.isPrefixOf ("daskgateway-".toList ++ x) = true :=
    List.isPrefixOf_iff_prefix.2 ⟨x, rfl⟩
  rw [if_neg (by rw [hpre]; simp)]
  have hd : ("daskgateway-".toList ++ x).drop sniPrefix.length = x := by
    rw [show sniPrefix.length = "daskgateway-".toList.length from rfl, List.drop_left]
  rw [hd, if_neg hr]

/-- C81: a connection is connected only with the address of the cluster that its greeting names. -/
theorem C81_only (hello : List Byte → Str) (routes : Str → Str) (forwarder : Bool) (conn : Conn)
    (a : Str) (p : Peeked) (h : handle hello routes forwarder conn = .dial a p) :
    ∃ n x, Hello conn.flatten n ∧ n ≤ 4096 ∧ hello (conn.flatten.take n) = "daskgateway-".toList ++ x ∧
      routes x = a ∧ a ≠ [] := by
  unfold handle at h
  obtain ⟨s1, s2⟩ := readSNI_spec hello conn
  by_cases hne : conn.flatten = []
  · rw [s1 hne] at h; cases h
  obtain ⟨q, hq, e⟩ := s2 hne
  rw [e] at h
  dsimp only at h
  by_cases c1 : conn.flatten.head? ≠ some 0x16 ∨ conn.flatten.length < 5
  · rw [if_pos c1] at h
    rw [if_pos (Or.inl rfl)] at h
    split at h <;> cases h
  · rw [if_neg c1] at h
    have c1' : conn.flatten.head? = some 0x16 ∧ 5 ≤ conn.flatten.length :=
      ⟨Classical.byContradiction fun h => c1 (Or.inl h), by
        refine Classical.byContradiction fun h => c1 (Or.inr (by omega))⟩
    split at h
    · rename_i c2
      dsimp only at h
      split at h
      · split at h <;> cases h
      · rename_i c3
        have hpre : sniPrefix <+: hello (conn.flatten.take (5 + recLen (conn.flatten.take 5))) := by
          refine List.isPrefixOf_iff_prefix.1 ?_
          cases hb : sniPrefix.isPrefixOf (hello (conn.flatten.take (5 + recLen (conn.flatten.take 5)))) with
          | true => rfl
          | false => exact absurd (Or.inr hb) c3
        obtain ⟨x, hx⟩ := hpre
        rw [← hx] at h
        rw [List.drop_left] at h
        split at h
        · cases h
        · rename_i hr
          cases h
          refine ⟨5 + recLen (conn.flatten.take 5), x, ⟨c1'.1, by omega, c2.2, ?_⟩, c2.1, hx.symm, rfl, hr⟩
          rw [recLen_eq c1'.2]
          omega
    · rw [if_pos (Or.inr (by rfl))] at h
      split at h <;> cases h

/-- C81: everything else is handled as HTTP, with all its bytes, where the two share a port, unless
nothing was sent or it names no known cluster. -/
theorem C81_web (hello : List Byte → Str) (routes : Str → Str) (conn : Conn) (hne : conn.flatten ≠ [])
    (ho : ¬ ∃ n x, Hello conn.flatten n ∧ n ≤ 4096 ∧
      hello (conn.flatten.take n) = "daskgateway-".toList ++ x) :
    ∃ p : Peeked, p.peeked ++ p.conn.flatten = conn.flatten ∧ handle hello routes true conn = .web p := by
  obtain ⟨s1, s2⟩ := readSNI_spec hello conn
  obtain ⟨q, hq, e⟩ := s2 hne
  refine ⟨q, hq, ?_⟩
  unfold handle
  rw [e]
  dsimp only
  by_cases c1 : conn.flatten.head? ≠ some 0x16 ∨ conn.flatten.length < 5
  · rw [if_pos c1, if_pos (Or.inl rfl), if_pos rfl]
  · rw [if_neg c1]
    have c1' : conn.flatten.head? = some 0x16 ∧ 5 ≤ conn.flatten.length :=
      ⟨Classical.byContradiction fun h => c1 (Or.inl h), by
        refine Classical.byContradiction fun h => c1 (Or.inr (by omega))⟩
    split
    · rename_i c2
      dsimp only
      rw [if_pos, if_pos rfl]
      right
      cases hb : sniPrefix.isPrefixOf (hello (conn.flatten.take (5 + recLen (conn.flatten.take 5)))) with
      | false => rfl
      | true =>
        obtain ⟨x, hx⟩ := List.isPrefixOf_iff_prefix.1 hb
        refine absurd ⟨5 + recLen (conn.flatten.take 5), x, ⟨c1'.1, by omega, c2.2, ?_⟩, c2.1, hx.symm⟩ ho
        rw [recLen_eq c1'.2]
        omega
    · rw [if_pos (Or.inr (by rfl)), if_pos rfl]

/-- C81 does not hold for greetings of more than 4096 bytes: they exceed the buffer, and no name is
read. -/
theorem C81_violated (hello : List Byte → Str) (routes : Str → Str) (forwarder : Bool) :
    ∃ conn : Conn, Hello conn.flatten 4097 ∧ ∀ a p, handle hello routes forwarder conn ≠ .dial a p := by
  have hl : (List.replicate 4092 (0 : Byte)).length = 4092 := List.length_replicate
  have hH : Hello ([[0x16, 3, 1, 0x0f, 0xfc] ++ List.replicate 4092 (0 : Byte)] : Conn).flatten 4097 := by
    refine ⟨rfl, by decide, ?_, rfl⟩
    rw [List.flatten_cons, List.flatten_nil, List.append_nil, List.length_append, hl]
    decide
  refine ⟨_, hH, fun a p h => ?_⟩
  obtain ⟨n, x, h1, h2, _⟩ := C81_only hello routes forwarder _ a p h
  have : n = 4097 := by rw [h1.2.2.2, hH.2.2.2]
  omega

/-- A greeting in two pieces for the cluster `x`, and a request of a browser. -/
example :
    handle (fun b => if b.length = 7 then "daskgateway-x".toList else []) (fun x => if x = ['x'] then ['t'] else [])
      true [[0x16, 3, 1], [0, 2, 7, 8, 9]] = .dial ['t'] { peeked := [0x16, 3, 1, 0, 2, 7, 8, 9], conn := [] } ∧
    handle (fun _ => []) (fun _ => []) true [[71, 69], [84]] = .web { peeked := [71, 69], conn := [[84]] } := by
  decide +kernel

/-! ### C82 -/

private theorem snoc_ind {α : Type} {P : List α → Prop} (h0 : P []) (hs : ∀ l a, P l → P (l ++ [a]))
    (l : List α) : P l := by
  rw [← List.reverse_reverse l]
  induction l.reverse with
  | nil => exact h0
  | cons a r ih => rw [List.reverse_cons]; exact hs _ _ ih

private theorem srun_snoc (ops : List TOp) (op : TOp) :
    Session.run (ops ++ [op]) = (Session.run ops).step op := by
  unfold Session.run; rw [List.foldl_append]; rfl

private theorem ways_set (s : Session) (d e : Bool) (w : Way) :
    (s.set d w).ways e = if e = d then w else s.ways e := rfl

private theorem ways_finish (s : Session) (d e : Bool) :
    (s.finish d).ways e = if e = d then { s.ways d with over := true }
      else { s.ways e with readClosed := true, writeClosed := true } := by
  unfold Session.finish
  simp only [ways_set]
  cases d <;> cases e <;> rfl

/-- What holds of a direction. -/
private structure WInv (w : Way) : Prop where
  pre : w.delivered <+: w.sent
  full : w.writeClosed = false → w.delivered ++ w.queue = w.sent
  read : w.readClosed = w.writeClosed
  ended : w.over = true → w.writeClosed = false → w.fin = true ∧ w.queue = []

private theorem winv_step {s : Session} (h : ∀ d, WInv (s.ways d)) (op : TOp) (d : Bool) :
    WInv ((s.step op).ways d) := by
  have closed : ∀ w, WInv w → WInv { w with readClosed := true, writeClosed := true } := fun w hw =>
    ⟨hw.pre, fun h => (by cases h), rfl, fun _ h => (by cases h)⟩
  cases op with
  | send e bytes =>
    unfold Session.step
    dsimp only
    split
    · exact h d
    · rename_i hf
      rw [ways_set]
      split
      · have hw := h e
        exact ⟨hw.pre.trans (List.prefix_append _ _), fun hc => by
          dsimp only
          rw [← List.append_assoc, hw.full hc], hw.read, fun ho hc => absurd (hw.ended ho hc).1 hf⟩
      · exact h d
  | fin e =>
    change WInv ((s.set e _).ways d)
    rw [ways_set]
    split
    · have hw := h e
      exact ⟨hw.pre, hw.full, hw.read, fun ho hc => ⟨rfl, (hw.ended ho hc).2⟩⟩
    · exact h d
  | copy e k =>
    unfold Session.step
    dsimp only
    split
    · exact h d
    · rename_i hg
      have hw := h e
      split
      · rename_i hc
        rw [ways_finish, ways_set, ways_set]
        split
        · rw [if_pos rfl]
          exact ⟨hw.pre, fun h => absurd hc (by rw [show ((s.ways e).writeClosed = false) from h]; exact fun h => (by cases h)),
            hw.read, fun _ h => absurd hc (by rw [show ((s.ways e).writeClosed = false) from h]; exact fun h => (by cases h))⟩
        · exact closed _ (h d)
      · rename_i hc
        have hc' : (s.ways e).writeClosed = false := by cases h : (s.ways e).writeClosed <;> simp_all
        rw [ways_set]
        split
        · refine ⟨?_, fun _ => ?_, hw.read, fun ho => absurd (Or.inl ho) hg⟩
          · refine ⟨(s.ways e).queue.drop k, ?_⟩
            dsimp only
            rw [List.append_assoc, List.take_append_drop, hw.full hc']
          · dsimp only
            rw [List.append_assoc, List.take_append_drop, hw.full hc']
        · exact h d
  | eof e =>
    unfold Session.step
    dsimp only
    split
    · rename_i hg
      have hw := h e
      rw [ways_finish]
      split
      · refine ⟨hw.pre, hw.full, hw.read, fun _ hc => ⟨?_, hg.2.1⟩⟩
        rcases hg.2.2 with hf | hr
        · exact hf
        · rw [hw.read, show (s.ways e).writeClosed = false from hc] at hr
          cases hr
      · exact closed _ (h d)
    · exact h d

private theorem winv (ops : List TOp) (d : Bool) : WInv ((Session.run ops).ways d) := by
  induction ops using snoc_ind generalizing d with
  | h0 => exact ⟨List.prefix_refl _, fun _ => rfl, rfl, fun h => (by cases h)⟩
  | hs l op ih => rw [srun_snoc]; exact winv_step ih op d

/-- The writing side of a direction is closed only when the loop of the other one is over. -/
private theorem closed_over (ops : List TOp) (d : Bool)
    (h : ((Session.run ops).ways d).writeClosed = true) : ((Session.run ops).ways (!d)).over = true := by
  induction ops using snoc_ind generalizing d with
  | h0 => cases h
  | hs l op ih =>
    rw [srun_snoc] at h ⊢
    generalize Session.run l = s at ih h
    have hset : ∀ e (w : Way), w.writeClosed = (s.ways e).writeClosed → w.over = (s.ways e).over →
        ((s.set e w).ways d).writeClosed = true → ((s.set e w).ways (!d)).over = true := by
      intro e w h1 h2 hc
      rw [ways_set] at hc ⊢
      have hd : (s.ways d).writeClosed = true := by
        split at hc
        · rename_i he; subst he; rw [← h1]; exact hc
        · exact hc
      split
      · rename_i he; rw [h2, ← he]; exact ih d hd
      · exact ih d hd
    have hfin : ∀ (t : Session) e, ((t.finish e).ways d).writeClosed = true →
        ((t.ways d).writeClosed = true → (t.ways (!d)).over = true) → ((t.finish e).ways (!d)).over = true := by
      intro t e hc ht
      rw [ways_finish] at hc ⊢
      split at hc
      · rename_i he
        subst he
        rw [if_neg (by cases d <;> simp)]
        exact ht hc
      · rename_i he
        rw [if_pos (by cases d <;> cases e <;> simp_all)]
    cases op with
    | send e bytes =>
      unfold Session.step at h ⊢
      dsimp only at h ⊢
      split
      · rename_i hf; rw [if_pos hf] at h; exact ih d h
      · rename_i hf; rw [if_neg hf] at h; exact hset e _ rfl rfl h
    | fin e => exact hset e _ rfl rfl h
    | copy e k =>
      unfold Session.step at h ⊢
      dsimp only at h ⊢
      split
      · rename_i hf; rw [if_pos hf] at h; exact ih d h
      · rename_i hf
        rw [if_neg hf] at h
        split
        · rename_i hc
          rw [if_pos hc] at h
          exact hfin _ e h (hset e _ rfl rfl)
        · rename_i hc
          rw [if_neg hc] at h
          exact hset e _ rfl rfl h
    | eof e =>
      unfold Session.step at h ⊢
      dsimp only at h ⊢
      split
      · rename_i hf; rw [if_pos hf] at h; exact hfin s e h (ih d)
      · rename_i hf; rw [if_neg hf] at h; exact ih d h

private theorem open_of {ops : List TOp} {d : Bool} (h : ((Session.run ops).ways (!d)).over = false) :
    ((Session.run ops).ways d).writeClosed = false := by
  cases hc : ((Session.run ops).ways d).writeClosed with
  | false => rfl
  | true => rw [closed_over ops d hc] at h; cases h

/-- C82: what either side got so far is the beginning of what the other sent, for every order of
events. -/
theorem C82_prefix (ops : List TOp) (d : Bool) :
    ((Session.run ops).ways d).delivered <+: ((Session.run ops).ways d).sent :=
  (winv ops d).pre

/-- C82, in part: as long as the proxy has not found the end of the opposite direction nothing is lost in
a direction: all that was sent was delivered or is about to be. Missing: what is sent after the end of
the opposite direction; see `C82_violated`. -/
theorem C82_nothing_lost_partial (ops : List TOp) (d : Bool)
    (h : ((Session.run ops).ways (!d)).over = false) :
    ((Session.run ops).ways d).delivered ++ ((Session.run ops).ways d).queue =
      ((Session.run ops).ways d).sent :=
  (winv ops d).full (open_of h)

private theorem srun_append (a b : List TOp) :
    Session.run (a ++ b) = b.foldl Session.step (Session.run a) := by
  unfold Session.run; rw [List.foldl_append]

/-- C82, in part: the direction that ends first is delivered in full, whatever follows. -/
theorem C82_first_partial (ops : List TOp) (d : Bool) (h1 : ((Session.run ops).ways d).over = true)
    (h2 : ((Session.run ops).ways (!d)).over = false) (more : List TOp) :
    ((Session.run (ops ++ more)).ways d).delivered = ((Session.run (ops ++ more)).ways d).sent := by
  have key : ((Session.run (ops ++ more)).ways d).delivered = ((Session.run (ops ++ more)).ways d).sent ∧
      ((Session.run (ops ++ more)).ways d).over = true ∧ ((Session.run (ops ++ more)).ways d).fin = true := by
    induction more using snoc_ind with
    | h0 =>
      rw [List.append_nil]
      have hw := winv ops d
      have := hw.full (open_of h2)
      rw [(hw.ended h1 (open_of h2)).2, List.append_nil] at this
      exact ⟨this, h1, (hw.ended h1 (open_of h2)).1⟩
    | hs l op ih =>
      rw [← List.append_assoc, srun_snoc]
      generalize Session.run (ops ++ l) = s at ih
      obtain ⟨i1, i2, i3⟩ := ih
      have hfin : ∀ (t : Session) e, ((t.ways d).delivered = (t.ways d).sent ∧ (t.ways d).over = true ∧ (t.ways d).fin = true) →
          (((t.finish e).ways d).delivered = ((t.finish e).ways d).sent ∧ ((t.finish e).ways d).over = true ∧
            ((t.finish e).ways d).fin = true) := by
        intro t e ht
        rw [ways_finish]
        split
        · rename_i he; subst he; exact ⟨ht.1, rfl, ht.2.2⟩
        · exact ht
      have hset : ∀ e w, e ≠ d → (((s.set e w).ways d).delivered = ((s.set e w).ways d).sent ∧
          ((s.set e w).ways d).over = true ∧ ((s.set e w).ways d).fin = true) := by
        intro e w he
        rw [ways_set, if_neg (fun h => he h.symm)]
        exact ⟨i1, i2, i3⟩
      cases op with
      | send e bytes =>
        unfold Session.step
        dsimp only
        split
        · exact ⟨i1, i2, i3⟩
        · rename_i hf
          exact hset e _ (fun he => hf (by rw [he]; exact i3))
      | fin e =>
        change ((s.set e _).ways d).delivered = ((s.set e _).ways d).sent ∧ ((s.set e _).ways d).over = true ∧
          ((s.set e _).ways d).fin = true
        rw [ways_set]
        split
        · rename_i he; subst he; exact ⟨i1, i2, rfl⟩
        · exact ⟨i1, i2, i3⟩
      | copy e k =>
        unfold Session.step
        dsimp only
        split
        · exact ⟨i1, i2, i3⟩
        · rename_i hf
          have he : e ≠ d := fun he => hf (Or.inl (by rw [he]; exact i2))
          split
          · exact hfin _ e (hset e _ he)
          · exact hset e _ he
      | eof e =>
        unfold Session.step
        dsimp only
        split
        · exact hfin _ e ⟨i1, i2, i3⟩
        · exact ⟨i1, i2, i3⟩
  exact key.1

/-- C82 does not hold in full: the answer to a client that ends its sending after its request is lost,
because the end of one direction closes the other. -/
theorem C82_violated : ¬ ∀ (ops : List TOp), (∀ d, ((Session.run ops).ways d).over = true) →
    ∀ d, ((Session.run ops).ways d).delivered = ((Session.run ops).ways d).sent := by
  intro h
  have := h [.send true [1, 2], .fin true, .copy true 9, .eof true, .send false [3], .copy false 9]
    (by intro d; cases d <;> rfl) false
  revert this
  decide

/-- Both directions at work, with the end of the client's. -/
example :
    let s := Session.run [.send true [1, 2, 3], .copy true 2, .send false [4], .copy false 1, .fin true,
      .copy true 5, .eof true]
    (s.ways true).delivered = [1, 2, 3] ∧ (s.ways false).delivered = [4] ∧ (s.ways true).over = true := by
  decide

end Verif.Tcp

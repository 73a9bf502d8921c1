import Verif.Wire.StreamProps
/-! Cases that meet the hypotheses of C136 and C137. -/
set_option linter.unusedSimpArgs false
namespace Verif.Wire
open Verif.ProxyEvents

/-- One float is enough here. -/
def demoF : Floats := ⟨fun _ => "0.5".toList, fun _ => .fin (1 / 2)⟩

theorem demoF_ok : demoF.Ok (1 / 2) :=
  ⟨rfl, false, ['0'], ['.', '5'], [], rfl, ⟨by simp, by decide, fun _ => rfl⟩,
    Or.inr ⟨['5'], rfl, by simp, by decide⟩, Or.inl rfl, Or.inl (by simp)⟩

/-- A value with all there is: a text beyond ASCII, a quote, a line break, numbers, a list, an object within. -/
def demoV : Json :=
  .obj [("naïve \"x\"\n𝄞".toList, .arr [.null, .bool true, .num (.int (-12)), .num (.fin (1 / 2)), .arr [], .obj []]),
    ("b".toList, .obj [("c".toList, .str "".toList), ("d".toList, .bool false)])]

example : Ok demoF false demoV ∧ Ok demoF true demoV ∧ Keyed demoV := by
  refine ⟨?_, ?_, ?_⟩
  · simp [demoV, Ok, OkL, OkO]; exact demoF_ok
  · simp [demoV, Ok, OkL, OkO]; exact demoF_ok
  · simp [demoV, Keyed, KeyedL, KeyedO, Dict.keys]

example : dumps demoF demoV =
    "{\"na\\u00efve \\\"x\\\"\\n\\ud834\\udd1e\": [null, true, -12, 0.5, [], {}], \"b\": {\"c\": \"\", \"d\": false}}".toList := by
  decide +kernel

/-- Other texts for the same value are read as well; so are other values. -/
example : readAll demoF true " { \"a\" :\t[ 1 ,2e3, -0.5]\n}\r\n".toList =
    some (.obj [("a".toList, .arr [.num (.int 1), .num (.fin (1 / 2)), .num (.fin (1 / 2))])]) := by decide +kernel

example : readAll demoF true "{\"a\": 1,}".toList = none ∧ readAll demoF true "{\"a\": 01}".toList = none ∧
    readAll demoF true "{\"a\": 1} x".toList = none ∧ readAll demoF true "".toList = none ∧
    readAll demoF true "[NaN]".toList = some (.arr [.num .nan]) ∧ readAll demoF false "[NaN]".toList = none ∧
    loads demoF "{\"a\": 1, \"a\": 2}".toList = some (.obj [("a".toList, .num (.int 2))]) := by decide +kernel

/-! ### Streams -/

/-- A route was added and another removed. -/
def demoB : List (List Event) :=
  [[⟨1, .put, putRouteOf (.path, "/".toList) "http://h:1".toList⟩, ⟨2, .put, putRouteOf (.sni, "a".toList) "tls://h:2".toList⟩],
   [⟨3, .delete, delRouteOf (.sni, "a".toList)⟩]]

example : ∀ b ∈ demoB, ∀ e ∈ b, Sent e := by
  intro b hb e he
  simp only [demoB, List.mem_cons, List.not_mem_nil, or_false] at hb
  rcases hb with rfl | rfl
  · simp only [List.mem_cons, List.not_mem_nil, or_false] at he
    rcases he with rfl | rfl
    · exact ⟨by decide, Or.inl ⟨(.path, "/".toList), "http://h:1".toList, rfl, rfl⟩⟩
    · exact ⟨by decide, Or.inl ⟨(.sni, "a".toList), "tls://h:2".toList, rfl, rfl⟩⟩
  · simp only [List.mem_cons, List.not_mem_nil, or_false] at he
    subst he
    exact ⟨by decide, Or.inr ⟨(.sni, "a".toList), rfl, rfl⟩⟩

example : ∀ b ∈ demoB, (dumps demoF (eventsMsg b)).length < maxLine := by decide +kernel

example : streamOf demoF demoB =
    ("{\"events\": [{\"id\": 1, \"type\": \"PUT\", \"route\": {\"kind\": \"PATH\", \"path\": \"/\", \"target\": \"http://h:1\"}}, " ++
     "{\"id\": 2, \"type\": \"PUT\", \"route\": {\"kind\": \"SNI\", \"sni\": \"a\", \"target\": \"tls://h:2\"}}]}\n" ++
     "{\"events\": [{\"id\": 3, \"type\": \"DELETE\", \"route\": {\"kind\": \"SNI\", \"sni\": \"a\"}}]}\n").toList := by
  decide +kernel

/-- All of it, without the last line break, without the last brace, and only the first batch. -/
example : follow demoF (streamOf demoF demoB) = (demoB, .eof) ∧
    follow demoF (streamOf demoF demoB).dropLast = (demoB, .eof) ∧
    follow demoF (streamOf demoF demoB).dropLast.dropLast = (demoB.take 1, .err) ∧
    follow demoF (streamOf demoF (demoB.take 1)) = (demoB.take 1, .eof) ∧ follow demoF [] = ([], .eof) := by
  decide +kernel

/-- What the proxy makes of other texts. -/
example : readBatch demoF "{\"Events\": [{\"ID\": 7, \"x\": 1, \"Route\": null}]}".toList =
      some [⟨7, .other, ⟨none, [], [], []⟩⟩] ∧
    readBatch demoF "{\"events\": [{\"id\": -1}]}".toList = none ∧ readBatch demoF "{\"events\": [3]}".toList = none ∧
    readBatch demoF "{\"events\": [{\"id\": \"1\"}]}".toList = none ∧ readBatch demoF "null".toList = some [] ∧
    readTable demoF "{\"id\": 4} tail".toList = some ([], 4) := by decide +kernel

example : readAll demoF false "{\"events\": [{\"id\": 1}, {\"id\": 2.5}]}".toList =
      some (.obj [("events".toList, .arr [.obj [("id".toList, .num (.int 1))], .obj [("id".toList, .num (.fin (1 / 2)))]])]) ∧
    goEvent (.obj [("id".toList, .num (.fin (1 / 2)))]) = none := by decide +kernel

theorem writeChars_len (s : Str) : s.length ≤ (writeChars s).length := by
  induction s with
  | nil => simp
  | cons c s ih =>
    have h1 : 1 ≤ (escape c).length := by
      unfold escape hex4
      repeat' split
      all_goals simp
    rw [writeChars, List.length_append, List.length_cons]
    omega

theorem event_len (t : Str) : t.length ≤ (dumps demoF (eventsMsg [⟨1, .put, putRouteOf (.sni, ['a']) t⟩])).length := by
  have h := writeChars_len t
  simp only [eventsMsg, eventJson, routeJson, putRouteOf, List.map_cons, List.map_nil, dumps, dumpsItems, dumpsEntries,
    List.length_cons, List.length_append, writeStr, List.cons_append, List.nil_append, beq_self_eq_true, if_true]
  omega

/-- A single change can be too long. -/
example : maxLine ≤ (dumps demoF (eventsMsg [⟨1, .put, putRouteOf (.sni, ['a']) (List.replicate 65536 'a')⟩])).length := by
  have h := event_len (List.replicate 65536 'a')
  rw [List.length_replicate] at h
  exact h

end Verif.Wire

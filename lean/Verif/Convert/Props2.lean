/-
C67 and C68: the conversion scripts of sushi3 and of the small MovieLens data set.
-/
import Verif.Convert.Props
import Verif.Convert.Out

set_option linter.unusedSectionVars false

namespace Kam.Convert
open Convert.Spec Kam.Spec

variable {K φ ε : Type} [Field K] [LinearOrder K] [IsStrictOrderedRing K] [FloorRing K]

/-! ### C67 -/

/-- The nonnegative entries of a matrix with their positions, row by row. -/
def entries (m : List (List Int)) : List (Nat × Nat × Int) :=
  m.zipIdx.flatMap (fun p => (p.1.zipIdx.filter (fun q => 0 ≤ q.1)).map (fun q => (p.2, q.2, q.1)))

lemma mem_entries {m : List (List Int)} {u i : Nat} {r : Int} :
    (u, i, r) ∈ entries m ↔ (∃ row, m[u]? = some row ∧ row[i]? = some r) ∧ 0 ≤ r := by
  unfold entries
  simp only [List.mem_flatMap, List.mem_map, List.mem_filter, Prod.exists, List.mk_mem_zipIdx_iff_getElem?, Prod.mk.injEq]
  constructor
  · rintro ⟨row, u', h1, r', i', ⟨h2, h3⟩, rfl, rfl, rfl⟩
    exact ⟨⟨row, h1, h2⟩, by simpa using h3⟩
  · rintro ⟨⟨row, h1, h2⟩, h3⟩
    exact ⟨row, u, h1, r, i, ⟨h2, by simpa using h3⟩, rfl, rfl, rfl⟩

lemma zipIdx_sorted {β : Type} (l : List β) : l.zipIdx.Pairwise (fun p q => p.2 < q.2) := by
  have h : (l.zipIdx.map Prod.snd).Pairwise (· < ·) := by
    rw [List.zipIdx_map_snd]; exact List.pairwise_lt_range'
  exact List.pairwise_map.1 h

lemma entries_sorted (m : List (List Int)) :
    (entries m).Pairwise (fun a b => a.1 < b.1 ∨ (a.1 = b.1 ∧ a.2.1 < b.2.1)) := by
  unfold entries
  rw [List.pairwise_flatMap]
  constructor
  · intro p _
    rw [List.pairwise_map]
    exact ((zipIdx_sorted p.1).filter _).imp (fun h => .inr ⟨rfl, h⟩)
  · refine (zipIdx_sorted m).imp ?_
    intro p q hpq a ha b hb
    obtain ⟨_, _, rfl⟩ := List.mem_map.1 ha
    obtain ⟨_, _, rfl⟩ := List.mem_map.1 hb
    exact .inl hpq

lemma sushiEntry_ok (u i : Nat) (r : Int) :
    sushiEntry u (showInt r, i) = .ok (if 0 ≤ r then printTab ([(u : Int), i, r].map showInt) else []) := by
  unfold sushiEntry
  simp only [pyInt_showInt, ok_bind]
  rfl

lemma plain_row (r : List Int) : Plain (join ' ' (r.map showInt)) := by
  have key : ∀ d : Char, d ≠ ' ' → d ≠ '-' → d.isDigit = false → d ∉ join ' ' (r.map showInt) := by
    intro d h0 h1 h2 hm
    rcases mem_join hm with h | ⟨f, hf, hx⟩
    · exact h0 h
    · obtain ⟨n, _, rfl⟩ := List.mem_map.1 hf
      exact showInt_no h1 h2 hx
  exact ⟨key _ (by decide) (by decide) (by decide), key _ (by decide) (by decide) (by decide)⟩

lemma flatten_if {β : Type} (p : β → Bool) (f : β → Str) (l : List β) :
    (l.map (fun x => if p x then f x else [])).flatten = (l.filter p).flatMap f := by
  induction l with
  | nil => rfl
  | cons x l ih =>
    rw [List.map_cons, List.flatten_cons, ih]
    by_cases h : p x = true
    · rw [if_pos h, List.filter_cons_of_pos h, List.flatMap_cons]
    · rw [if_neg h, List.filter_cons_of_neg h, List.nil_append]

lemma sushiLine_ok (line : Str) (u : Nat) {row : List Int} (hne : row ≠ []) (h : chomp line = join ' ' (row.map showInt)) :
    sushiLine (line, u) = .ok ((row.zipIdx.filter (fun q => decide (0 ≤ q.1))).flatMap
      (fun q => printTab ([(u : Int), q.2, q.1].map showInt))) := by
  unfold sushiLine
  rw [h, split_join (by simpa using hne)]
  · have : (row.map showInt).zipIdx.mapM (sushiEntry u) = .ok (row.zipIdx.map
        (fun q => if decide (0 ≤ q.1) = true then printTab ([(u : Int), q.2, q.1].map showInt) else [])) := by
      rw [List.zipIdx_map, mapM_map]
      refine mapM_ok _ ?_
      rintro ⟨r, i⟩ _
      have := sushiEntry_ok u i r
      simpa using this
    simp only [this, ok_bind]
    rw [flatten_if]
    rfl
  · intro f hf
    obtain ⟨n, _, rfl⟩ := List.mem_map.1 hf
    exact showInt_no (by decide) (by decide)

/-- The text the converter writes. -/
lemma convSushi_ok {m : List (List Int)} {text : Str} (hne : ∀ row ∈ m, row ≠ [])
    (ht : Text (m.map (fun row => join ' ' (row.map showInt))) text) :
    convSushiEvent text = .ok (head sushiHeadEvent ++
      ((entries m).map (fun e => [(e.1 : Int), e.2.1, e.2.2].map showInt)).flatMap printTab) := by
  have hl := readlines_text ht (by
    intro l hl
    obtain ⟨row, _, rfl⟩ := List.mem_map.1 hl
    exact plain_row row)
  have hz := hl.zipIdx_chomp (by
    intro l hl
    obtain ⟨row, _, rfl⟩ := List.mem_map.1 hl
    exact plain_row row)
  unfold convSushiEvent
  have key : (readlines text).zipIdx.mapM sushiLine = .ok (m.zipIdx.map (fun p =>
      (p.1.zipIdx.filter (fun q => decide (0 ≤ q.1))).flatMap (fun q => printTab ([(p.2 : Int), q.2, q.1].map showInt)))) := by
    rw [mapM_ok_iff, List.forall₂_map_right_iff]
    have hlen : (readlines text).zipIdx.length = m.zipIdx.length := by
      have := hl.length_eq
      simpa using this
    rw [List.forall₂_iff_get]
    refine ⟨hlen, ?_⟩
    intro i h1 h2
    have hg : ((readlines text).zipIdx.map (fun p => (chomp p.1, p.2)))[i]? =
        ((m.map (fun row => join ' ' (row.map showInt))).zipIdx)[i]? := by rw [hz]
    simp only [List.length_zipIdx] at h1 h2
    simp only [List.getElem?_map, List.getElem?_zipIdx, Nat.zero_add, List.getElem?_eq_getElem h1,
      List.getElem?_eq_getElem h2, Option.map_some, Option.some.injEq, Prod.mk.injEq] at hg
    simp only [List.get_eq_getElem, List.getElem_zipIdx, Nat.zero_add]
    exact sushiLine_ok _ _ (hne _ (List.getElem_mem _)) hg.1
  simp only [key, ok_bind]
  have e : (m.zipIdx.map (fun p => (p.1.zipIdx.filter (fun q => decide (0 ≤ q.1))).flatMap
      (fun q => printTab ([(p.2 : Int), q.2, q.1].map showInt)))).flatten =
      ((entries m).map (fun e => [(e.1 : Int), e.2.1, e.2.2].map showInt)).flatMap printTab := by
    unfold entries
    rw [List.flatMap_map, List.flatMap_assoc, ← List.flatMap_def]
    refine List.flatMap_congr (fun p _ => ?_)
    rw [List.flatMap_map]
  rw [e]
  rfl

/-- C67: for every matrix with nonempty rows, written with blanks between the entries, the sushi converter writes
a file whose rows `(user, item, rating)` are exactly the nonnegative entries, each one once, row by row. -/
theorem C67_sushi {m : List (List Int)} {text : Str} (hne : ∀ row ∈ m, row ≠ [])
    (ht : Text (m.map (fun row => join ' ' (row.map showInt))) text) :
    ∃ out, convSushiEvent text = .ok out ∧ ∃ es : List (Nat × Nat × Int),
      File out (es.map (fun e => [showInt e.1, showInt e.2.1, showInt e.2.2])) ∧
      (∀ u i r, (u, i, r) ∈ es ↔ (∃ row, m[u]? = some row ∧ row[i]? = some r) ∧ 0 ≤ r) ∧
      es.Pairwise (fun a b => a.1 < b.1 ∨ (a.1 = b.1 ∧ a.2.1 < b.2.1)) := by
  refine ⟨_, convSushi_ok hne ht, entries m, ?_, fun u i r => mem_entries, entries_sorted m⟩
  have : (entries m).map (fun e => [showInt e.1, showInt e.2.1, showInt e.2.2]) =
      (entries m).map (fun e => [(e.1 : Int), e.2.1, e.2.2].map showInt) := rfl
  rw [this]
  refine file_head headed_sushiEvent (file_printTab ?_)
  intro r hr
  obtain ⟨e, _, rfl⟩ := List.mem_map.1 hr
  exact tidy_ints (by simp)

lemma levels_ok (a b : K) {c : K} (h : c ≠ 0) : ∃ lv, ScoreData.levelsOfDomain [a, b, c] = .ok lv := by
  refine ⟨Kam.pyInt ((b - a) / c) + 1, ?_⟩
  show (if c = 0 then .error .zeroDivisionError else .ok (Kam.pyInt ((b - a) / c) + 1) : Res Int) = _
  rw [if_neg h]

/-- C67, the way back: loading the written file gives these events and scores, so the ratings of the matrix can be read
off the loaded data (unless there is exactly one rating, C66). -/
theorem C67_rebuild (nan : K) {m : List (List Int)} {text : Str} (hne : ∀ row ∈ m, row ≠ [])
    (ht : Text (m.map (fun row => join ' ' (row.map showInt))) text) :
    ∃ out, convSushiEvent text = .ok out ∧ ∃ es : List (Nat × Nat × Int),
      (∀ u i r, (u, i, r) ∈ es ↔ (∃ row, m[u]? = some row ∧ row[i]? = some r) ∧ 0 ≤ r) ∧
      es.Pairwise (fun a b => a.1 < b.1 ∨ (a.1 = b.1 ∧ a.2.1 < b.2.1)) ∧
      (es.length ≠ 1 → ∃ d : ScoreData K Int φ (List (Cell K)),
        loadEventWithScore nan out 2 (.arr 1 [0, 1]) (some [0, 4, 1]) none = .ok d ∧
        Reads d.toEventData (es.map (fun e => [(e.1 : Int), (e.2.1 : Int)])) ∧
        d.score = some (es.map (fun e => (e.2.2 : K)))) := by
  obtain ⟨out, h1, es, ⟨ls, h2, h3, h4⟩, h5, h6⟩ := C67_sushi hne ht
  refine ⟨out, h1, es, h5, h6, ?_⟩
  intro hlen
  obtain ⟨lv, hlv⟩ := levels_ok (0 : K) 4 (one_ne_zero)
  obtain ⟨d, k1, k2, k3, _⟩ := C66_score_partial (φ := φ) nan (n := 2) (arg := .arr 1 [0, 1]) (dm := [0, 4, 1]) (ft := none)
    (es := es.map (fun e => (⟨[(e.1 : Int), (e.2.1 : Int)], (e.2.2 : K), []⟩ : Entry K))) (w := 3) rfl
    (show (2 : Nat) ≠ 1 by decide) h2 h3 h4 (by
      rw [List.forall₂_map_left_iff, List.forall₂_map_right_iff, List.forall₂_same]
      intro e _
      refine ⟨rfl, rfl, .cons (.int _) (.cons (.int _) (.cons ?_ (.nil [])))⟩
      refine shows_num (m := e.2.2) (k := 0) ?_ (by simp)
      unfold showDec showInt
      simp [Nat.sub_eq_zero_of_le (List.length_pos_of_ne_nil (Nat.toDigits_ne_nil (b := 10) (n := e.2.2.natAbs)))])
    (by simpa using hlen) hlv
  refine ⟨d, k1, ?_, ?_⟩
  · simpa [List.map_map, Function.comp_def] using k2
  · simpa [List.map_map, Function.comp_def] using k3

/-- An example. -/
def exMatrix : List (List Int) := [[-1, 3, 0], [4, -1, -1], [-1, -1, 12]]

/-- Its text. -/
def exMatrixText : Str := "-1 3 0\n4 -1 -1\r\n-1 -1 12".toList

lemma exMatrix_text : Text (exMatrix.map (fun row => join ' ' (row.map showInt))) exMatrixText := by
  have h : exMatrix.map (fun row => join ' ' (row.map showInt)) =
      ["-1 3 0".toList, "4 -1 -1".toList, "-1 -1 12".toList] := by decide
  rw [h]
  exact .lf (.crlf (.last (by decide)))

example : ∃ out, convSushiEvent exMatrixText = .ok out ∧
    File out ([[0, 1, 3], [0, 2, 0], [1, 0, 4], [2, 2, 12]].map (List.map showInt)) := by
  refine ⟨_, convSushi_ok (by decide) exMatrix_text, file_head headed_sushiEvent (file_printTab ?_)⟩
  intro r hr
  obtain ⟨e, he, rfl⟩ := List.mem_map.1 hr
  exact tidy_ints (by simp)

example : ∃ (out : Str) (d : ScoreData ℚ Int Unit (List (Cell ℚ))), convSushiEvent exMatrixText = .ok out ∧
    loadEventWithScore 0 out 2 (.arr 1 [0, 1]) (some [0, 4, 1]) none = .ok d ∧ ∃ es : List (Nat × Nat × Int),
      Reads d.toEventData (es.map (fun e => [(e.1 : Int), (e.2.1 : Int)])) ∧ (2, 2, 12) ∈ es ∧ ∀ i, (2, i, -1) ∉ es := by
  obtain ⟨out, h1, es, h2, _, h3⟩ := C67_rebuild (φ := Unit) (0 : ℚ) (m := exMatrix) (by decide) exMatrix_text
  have m1 : (2, 2, 12) ∈ es := (h2 2 2 12).2 ⟨⟨[-1, -1, 12], by decide, by decide⟩, by decide⟩
  have m2 : (0, 1, 3) ∈ es := (h2 0 1 3).2 ⟨⟨[-1, 3, 0], by decide, by decide⟩, by decide⟩
  have hlen : es.length ≠ 1 := by
    intro h
    obtain ⟨a, rfl⟩ := List.length_eq_one_iff.1 h
    have e1 := List.mem_singleton.1 m1
    have e2 := List.mem_singleton.1 m2
    rw [← e1] at e2
    exact absurd e2 (by decide)
  obtain ⟨d, h4, h5, _⟩ := h3 hlen
  exact ⟨out, d, h1, h4, es, h5, m1, fun i h => absurd ((h2 2 i (-1)).1 h).2 (by decide)⟩

/-! ### C68 -/

lemma mini_plain {l : MiniLine} (h : l.Ok) : Plain l.text := by
  cases l with
  | comment c =>
    refine ⟨?_, ?_⟩ <;> intro hm <;> rcases List.mem_cons.1 hm with e | e
    · exact absurd e (by decide)
    · exact h.1 e
    · exact absurd e (by decide)
    · exact h.2 e
  | event u i rest =>
    have key : ∀ d : Char, d ≠ '\t' → d ≠ '-' → d.isDigit = false → (∀ f ∈ rest, d ∉ f) →
        d ∉ join '\t' (showInt u :: showInt i :: rest) := by
      intro d h0 h1 h2 h3 hm
      rcases mem_join hm with e | ⟨f, hf, hx⟩
      · exact h0 e
      · rcases List.mem_cons.1 hf with rfl | hf
        · exact showInt_no h1 h2 hx
        · rcases List.mem_cons.1 hf with rfl | hf
          · exact showInt_no h1 h2 hx
          · exact h3 f hf hx
    exact ⟨key _ (by decide) (by decide) (by decide) (fun f hf => (h f hf).2.1),
      key _ (by decide) (by decide) (by decide) (fun f hf => (h f hf).2.2)⟩

lemma miniLine_ok {l : MiniLine} (h : l.Ok) {line : Str} (hc : chomp line = l.text) (hh : line.head? = l.text.head?) :
    miniLine line = .ok (if l.kept = true then line else []) := by
  unfold miniLine
  cases l with
  | comment c =>
    have : line.head? = some '#' := hh
    rw [if_pos this]; rfl
  | event u i rest =>
    have h1 : line.head? ≠ some '#' := by
      rw [hh]
      intro e
      have e' : (join '\t' (showInt u :: showInt i :: rest)).head? = some '#' := e
      rw [head_join (showInt_ne_nil u)] at e'
      exact showInt_no (by decide) (by decide) (List.mem_of_head? e')
    have h2 : split '\t' (chomp line) = showInt u :: showInt i :: rest := by
      rw [hc]
      refine split_join (by simp) ?_
      intro f hf
      rcases List.mem_cons.1 hf with rfl | hf
      · exact showInt_no (by decide) (by decide)
      · rcases List.mem_cons.1 hf with rfl | hf
        · exact showInt_no (by decide) (by decide)
        · exact (h f hf).1
    rw [if_neg h1, h2]
    simp only [item, List.getElem?_cons_zero, List.getElem?_cons_succ, ok_bind, pyInt_showInt, MiniLine.kept, Bool.and_eq_true,
      decide_eq_true_eq]
    by_cases hu : u ≤ 10
    · by_cases hi : i ≤ 10
      · rw [if_pos hu, if_pos hi, if_pos ⟨hu, hi⟩]
      · rw [if_pos hu, if_neg hi, if_neg (fun h => hi h.2)]
    · rw [if_neg hu, if_neg (fun h => hu h.1)]

lemma mini_lines {rs : List Str} {lines : List MiniLine} (h : Lines rs (lines.map MiniLine.text)) (hok : ∀ l ∈ lines, l.Ok) :
    ∃ ps, rs.mapM miniLine = .ok ps ∧ Text ((lines.filter MiniLine.kept).map MiniLine.text) ps.flatten := by
  generalize hls : lines.map MiniLine.text = ls at h
  induction h generalizing lines with
  | nil =>
    obtain rfl : lines = [] := by simpa using hls
    exact ⟨[], rfl, .nil⟩
  | @last l hne =>
    obtain ⟨x, xs, rfl, hx, hxs⟩ := List.map_eq_cons_iff.1 hls
    obtain rfl : xs = [] := by simpa using hxs
    subst hx
    have ho := hok x List.mem_cons_self
    refine ⟨[if x.kept = true then x.text else []], ?_, ?_⟩
    · refine (mapM_ok_iff).2 (.cons ?_ .nil)
      exact miniLine_ok ho (chomp_plain (mini_plain ho)) rfl
    · by_cases hk : x.kept = true
      · simpa [hk] using Text.last hne
      · simpa [hk] using Text.nil
  | @cons l rs ls _ ih =>
    obtain ⟨x, xs, rfl, hx, hxs⟩ := List.map_eq_cons_iff.1 hls
    subst hx
    have ho := hok x List.mem_cons_self
    obtain ⟨ps, h1, h2⟩ := ih (fun l hl => hok l (List.mem_cons_of_mem _ hl)) hxs
    have hne : x.text ≠ [] := by
      cases x with
      | comment c => exact List.cons_ne_nil _ _
      | event u i rest => exact join_ne_nil (showInt_ne_nil u)
    refine ⟨(if x.kept = true then x.text ++ ['\n'] else []) :: ps, ?_, ?_⟩
    · refine (mapM_ok_iff).2 (.cons ?_ ((mapM_ok_iff).1 h1))
      exact miniLine_ok ho (chomp_line (mini_plain ho)) (List.head?_append_of_ne_nil _ hne)
    · by_cases hk : x.kept = true
      · simpa [hk] using Text.lf h2
      · simpa [hk] using h2

/-- C68: the mini converter keeps exactly the lines that are not comments and whose user and item ids are at most 10,
in order and unchanged, behind its own comment block. -/
theorem C68_mini {lines : List MiniLine} {text : Str} (hok : ∀ l ∈ lines, l.Ok) (ht : Text (lines.map MiniLine.text) text) :
    ∃ out, convMini text = .ok (head miniHeadEvent ++ out) ∧
      Text ((lines.filter MiniLine.kept).map MiniLine.text) out ∧ Headed miniHeadEvent := by
  obtain ⟨ps, h1, h2⟩ := mini_lines (readlines_text ht (by
    intro l hl
    obtain ⟨x, hx, rfl⟩ := List.mem_map.1 hl
    exact mini_plain (hok x hx))) hok
  refine ⟨ps.flatten, ?_, h2, headed_mini⟩
  unfold convMini
  simp only [h1, ok_bind]
  rfl

/-- An example: a comment, kept and dropped lines, no end of the last line. -/
def exMini : List MiniLine :=
  [.comment " c".toList, .event 1 3 ["5".toList, "100".toList], .event 11 3 ["4".toList], .event 4 12 [], .event 10 10 ["2".toList]]

example : (∀ l ∈ exMini, l.Ok) ∧ Text (exMini.map MiniLine.text) "# c\n1\t3\t5\t100\n11\t3\t4\n4\t12\n10\t10\t2".toList ∧
    (exMini.filter MiniLine.kept).map MiniLine.text = ["1\t3\t5\t100".toList, "10\t10\t2".toList] := by
  refine ⟨?_, ?_, by decide⟩
  · intro l hl
    simp only [exMini, List.mem_cons, List.not_mem_nil, or_false] at hl
    rcases hl with rfl | rfl | rfl | rfl | rfl <;> unfold MiniLine.Ok Plain <;> decide
  · have : exMini.map MiniLine.text = ["# c".toList, "1\t3\t5\t100".toList, "11\t3\t4".toList, "4\t12".toList, "10\t10\t2".toList] := by
      decide
    rw [this]
    exact .lf (.lf (.lf (.lf (.last (by decide)))))

end Kam.Convert

/-
C66, C67 and C68: event files and two conversion scripts.
-/
import Verif.Convert.Load

set_option linter.unusedSectionVars false

namespace Kam.Convert
open Convert.Spec Kam.Spec

variable {K φ ε : Type} [Field K] [LinearOrder K] [IsStrictOrderedRing K] [FloorRing K]

/-! ### C66 -/

/-- C66 for `load_event_with_score`, what holds: a file with any number of events other than one, events of at least
two columns, any comments, blank lines and line ends, is loaded without loss. -/
theorem C66_score_partial (nan : K) {text : Str} {n : Int} {arg : OtypesArg} {dm : List K} {lv : Int}
    {ft : Option (List FType)} {d0 : ScoreData K Int φ (List (Cell K))} {ls : List Str} {rows : List (List Str)}
    {es : List (Entry K)} {w : Nat} (hinit : ScoreData.init n arg = .ok d0) (hs : d0.sEvent ≠ 1)
    (ht : Text ls text) (hp : ∀ l ∈ ls, Plain l) (hr : Rows ls rows)
    (hw : List.Forall₂ (fun r e => r.length = w ∧ e.ids.length = d0.sEvent ∧
      Written (List.replicate d0.sEvent .int ++ .float :: ft.getD []) r e.cells) rows es)
    (hne : es.length ≠ 1) (hlv : ScoreData.levelsOfDomain dm = .ok lv) :
    ∃ d : ScoreData K Int φ (List (Cell K)), loadEventWithScore nan text n arg (some dm) ft = .ok d ∧
      Reads d.toEventData (es.map Entry.ids) ∧ d.score = some (es.map Entry.score) ∧
      d.eventFeature = ft.map (fun _ => es.map Entry.feats) ∧ d.scoreDomain = some dm ∧
      ScoreBuilt d (es.map Entry.ids) (es.map Entry.score) := by
  have hx := genfromtxt_ok nan (types := List.replicate d0.sEvent .int ++ .float :: ft.getD []) (w := w)
    (cs := es.map Entry.cells) ht hp hr (by
      rw [List.forall₂_map_right_iff]
      exact hw.imp (fun _ _ h => ⟨h.1, h.2.2⟩))
  have hids : ∀ e ∈ es, e.ids.length = d0.sEvent := by
    intro e he
    obtain ⟨i, hi, rfl⟩ := List.getElem_of_mem he
    exact (hw.get (by rw [hw.length_eq]; exact hi) hi).2.1
  obtain ⟨d, h1, h2, h3, h4, _⟩ := loadScore_ok nan (dom := some dm) hinit hs hx hids hne rfl hlv
  exact ⟨d, h1, reads_built h2.inv.1, h2.inv.2.1, h4, h3, h2⟩

/-- C66 for `load_event`, what holds. -/
theorem C66_event_partial (nan : K) {text : Str} {n : Int} {arg : OtypesArg}
    {ft : Option (List FType)} {d0 : EventData Int φ (List (Cell K))} {ls : List Str} {rows : List (List Str)}
    {es : List (Entry K)} {w : Nat} (hinit : EventData.init n arg = .ok d0) (hs : d0.sEvent ≠ 1)
    (ht : Text ls text) (hp : ∀ l ∈ ls, Plain l) (hr : Rows ls rows)
    (hw : List.Forall₂ (fun r e => r.length = w ∧ e.ids.length = d0.sEvent ∧
      Written (List.replicate d0.sEvent .int ++ ft.getD []) r e.bare) rows es)
    (hne : es.length ≠ 1) :
    ∃ d : EventData Int φ (List (Cell K)), loadEvent nan text n arg ft = .ok d ∧
      Reads d (es.map Entry.ids) ∧ d.eventFeature = ft.map (fun _ => es.map Entry.feats) ∧ Built d (es.map Entry.ids) := by
  have hx := genfromtxt_ok nan (types := List.replicate d0.sEvent .int ++ ft.getD []) (w := w)
    (cs := es.map Entry.bare) ht hp hr (by
      rw [List.forall₂_map_right_iff]
      exact hw.imp (fun _ _ h => ⟨h.1, h.2.2⟩))
  have hids : ∀ e ∈ es, e.ids.length = d0.sEvent := by
    intro e he
    obtain ⟨i, hi, rfl⟩ := List.getElem_of_mem he
    exact (hw.get (by rw [hw.length_eq]; exact hi) hi).2.1
  obtain ⟨d, h1, h2, h3, _⟩ := load_ok nan hinit hs hx hids hne
  exact ⟨d, h1, reads_built h2, h3, h2⟩

/-- A file with one event cannot be loaded. -/
theorem C66_one_line (nan : K) {text : Str} {n : Int} {arg : OtypesArg} {dom : Option (List K)}
    {ft : Option (List FType)} {d0 : ScoreData K Int φ (List (Cell K))} {ls : List Str} {row : List Str}
    {c : List (Cell K)} (hinit : ScoreData.init n arg = .ok d0)
    (ht : Text ls text) (hp : ∀ l ∈ ls, Plain l) (hr : Rows ls [row])
    (hw : Written (List.replicate d0.sEvent .int ++ .float :: ft.getD []) row c) :
    (loadEventWithScore nan text n arg dom ft : Res (ScoreData K Int φ (List (Cell K)))) = .error .indexError := by
  have hx := genfromtxt_ok nan (w := row.length) (cs := [c]) ht hp hr (.cons ⟨rfl, hw⟩ .nil)
  have hse : sEvents n arg = d0.sEvent := by
    unfold ScoreData.init at hinit
    cases hb : (EventData.init n arg : Res (EventData Int φ (List (Cell K)))) with
    | error e => rw [hb] at hinit; cases hinit
    | ok b => rw [hb] at hinit; cases hinit; exact sEvents_init hb
  unfold loadEventWithScore
  simp only [hse, hx, hinit, ok_bind]
  rfl

/-- No file with events of one column can be loaded. -/
theorem C66_one_column (nan : K) {text : Str} {n : Int} {arg : OtypesArg} {dom : Option (List K)}
    {ft : Option (List FType)} {d0 : ScoreData K Int φ (List (Cell K))}
    (hinit : ScoreData.init n arg = .ok d0) (hs : d0.sEvent = 1) :
    ¬ ∃ d, (loadEventWithScore nan text n arg dom ft : Res (ScoreData K Int φ (List (Cell K)))) = .ok d := by
  rintro ⟨d, h⟩
  have hse : sEvents n arg = d0.sEvent := by
    unfold ScoreData.init at hinit
    cases hb : (EventData.init n arg : Res (EventData Int φ (List (Cell K)))) with
    | error e => rw [hb] at hinit; cases hinit
    | ok b => rw [hb] at hinit; cases hinit; exact sEvents_init hb
  unfold loadEventWithScore at h
  simp only [hse, hinit, hs] at h
  cases hx : genfromtxt nan (List.replicate 1 .int ++ .float :: ft.getD []) text with
  | error e => rw [hx] at h; cases h
  | ok x =>
    rw [hx] at h
    cases x <;> cases h

lemma shows_int {n : Int} {s : Str} (h : showInt n = s) : Shows (K := K) .int s (.int n) := h ▸ .int n

lemma shows_num {m : Int} {k : Nat} {s : Str} {v : K} (h : showDec m k = s) (hv : (m : K) / 10 ^ k = v) :
    Shows .float s (.num v) := h ▸ hv ▸ .num m k

lemma rows_remark (a b : Nat) {fs : List Str} (c : Str) {l : Str} {ls : List Str} {rows : List (List Str)}
    (ht : Tidy fs) (h : List.replicate a ' ' ++ join '\t' fs ++ List.replicate b ' ' ++ '#' :: c = l) (hr : Rows ls rows) :
    Rows (l :: ls) (fs :: rows) := h ▸ .remark ht hr

lemma rows_row {fs : List Str} {l : Str} {ls : List Str} {rows : List (List Str)}
    (ht : Tidy fs) (h : join '\t' fs = l) (hr : Rows ls rows) : Rows (l :: ls) (fs :: rows) := h ▸ .row ht hr

/-- An example: comments, a blank line, both line ends, no end of the last line, and times. -/
def exText : Str := "# head\n1\t20\t3.5\t100\r\n  # inside\n\n-3\t20\t4\t101 # remark\n2\t7\t-0.25\t102".toList

/-- The lines of the example. -/
def exLines : List Str :=
  ["# head".toList, "1\t20\t3.5\t100".toList, "  # inside".toList, [], "-3\t20\t4\t101 # remark".toList,
    "2\t7\t-0.25\t102".toList]

lemma exText_text : Text exLines exText := .lf (.crlf (.lf (.lf (.lf (.last (by decide))))))

lemma exText_plain : ∀ l ∈ exLines, Plain l := by
  unfold Plain; decide

/-- The fields of the example. -/
def exRows : List (List Str) :=
  [["1", "20", "3.5", "100"].map String.toList, ["-3", "20", "4", "101"].map String.toList,
    ["2", "7", "-0.25", "102"].map String.toList]

lemma exText_rows : Rows exLines exRows := by
  have h : ∀ r ∈ exRows, Tidy r := by
    intro r hr
    have h1 : ∀ r ∈ exRows, (∀ f ∈ r, '\t' ∉ f ∧ '\n' ∉ f ∧ '\r' ∉ f ∧ '#' ∉ f) ∧ join '\t' r ≠ [] ∧
        (join '\t' r).head? ≠ some ' ' ∧ (join '\t' r).getLast? ≠ some ' ' := by decide
    exact ⟨(h1 r hr).1, (h1 r hr).2.1, (h1 r hr).2.2.1, (h1 r hr).2.2.2⟩
  exact .comment (n := 0) (rows_row (h _ (.head _)) (by decide) (.comment (n := 2) (.blank (n := 0)
    (rows_remark 0 1 " remark".toList (h _ (.tail _ (.head _))) (by decide)
      (rows_row (h _ (.tail _ (.tail _ (.head _)))) (by decide) .nil)))))

/-- The values of the example. -/
def exEntries : List (Entry ℚ) :=
  [⟨[1, 20], 35 / 10 ^ 1, [.int 100]⟩, ⟨[-3, 20], 4 / 10 ^ 0, [.int 101]⟩, ⟨[2, 7], -25 / 10 ^ 2, [.int 102]⟩]

lemma exText_written : List.Forall₂ (fun r (e : Entry ℚ) => r.length = 4 ∧ e.ids.length = 2 ∧
    Written ([.int, .int, .float] ++ timestamp) r e.cells) exRows exEntries := by
  have n1 : Shows (K := ℚ) .float "3.5".toList (.num (35 / 10 ^ 1)) := shows_num (m := 35) (k := 1) (by decide) (by norm_num)
  have n2 : Shows (K := ℚ) .float "4".toList (.num (4 / 10 ^ 0)) := shows_num (m := 4) (k := 0) (by decide) (by norm_num)
  have n3 : Shows (K := ℚ) .float "-0.25".toList (.num (-25 / 10 ^ 2)) := shows_num (m := (-25)) (k := 2) (by decide) (by norm_num)
  exact .cons ⟨rfl, rfl, .cons (shows_int (n := 1) (by decide)) (.cons (shows_int (n := 20) (by decide)) (.cons n1 (.cons (shows_int (n := 100) (by decide)) (.nil []))))⟩
    (.cons ⟨rfl, rfl, .cons (shows_int (n := (-3)) (by decide)) (.cons (shows_int (n := 20) (by decide)) (.cons n2 (.cons (shows_int (n := 101) (by decide)) (.nil []))))⟩
    (.cons ⟨rfl, rfl, .cons (shows_int (n := 2) (by decide)) (.cons (shows_int (n := 7) (by decide)) (.cons n3 (.cons (shows_int (n := 102) (by decide)) (.nil []))))⟩ .nil))

example : ∃ d : ScoreData ℚ Int Unit (List (Cell ℚ)),
    loadEventWithScore 0 exText 2 .none (some [1, 5, 1]) (some timestamp) = .ok d ∧
      Reads d.toEventData [[1, 20], [-3, 20], [2, 7]] ∧ d.score = some [35 / 10 ^ 1, 4 / 10 ^ 0, -25 / 10 ^ 2] ∧
      d.eventFeature = some [[.int 100], [.int 101], [.int 102]] := by
  obtain ⟨d, h1, h2, h3, h4, _⟩ := C66_score_partial (φ := Unit) (0 : ℚ) (n := 2) (arg := .none) (dm := [1, 5, 1]) (lv := 5)
    (ft := some timestamp) rfl (by decide) exText_text exText_plain exText_rows exText_written (by decide) (by decide +kernel)
  exact ⟨d, h1, h2, h3, h4⟩

/-- C66 fails: a file with a single event is valid and cannot be loaded. -/
theorem C66_refuted : ¬ ∀ (text : Str) (ls : List Str) (rows : List (List Str)) (es : List (Entry ℚ)),
    Text ls text → (∀ l ∈ ls, Plain l) → Rows ls rows →
    List.Forall₂ (fun r e => r.length = 3 ∧ e.ids.length = 2 ∧ Written [.int, .int, .float] r e.cells) rows es →
    ∃ d : ScoreData ℚ Int Unit (List (Cell ℚ)), loadEventWithScore 0 text 2 .none (some [1, 5, 1]) none = .ok d ∧
      Reads d.toEventData (es.map Entry.ids) := by
  intro h
  have n2 : Shows (K := ℚ) .float "4".toList (.num (4 / 10 ^ 0)) := shows_num (m := 4) (k := 0) (by decide) (by norm_num)
  have hw : Written ([.int, .int, .float] ++ []) (["7", "8", "4"].map String.toList)
      (Entry.cells (⟨[7, 8], 4 / 10 ^ 0, []⟩ : Entry ℚ)) := .cons (shows_int (n := 7) (by decide)) (.cons (shows_int (n := 8) (by decide)) (.cons n2 (.nil [])))
  have ht : Text ["7\t8\t4".toList] "7\t8\t4\n".toList := .lf .nil
  have hp : ∀ l ∈ ["7\t8\t4".toList], Plain l := by unfold Plain; decide
  have hr : Rows ["7\t8\t4".toList] [["7", "8", "4"].map String.toList] :=
    rows_row ⟨by unfold Clean; decide, by decide, by decide, by decide⟩ (by decide) .nil
  obtain ⟨d, hd, _⟩ := h "7\t8\t4\n".toList _ _ _ ht hp hr (.cons ⟨rfl, rfl, hw⟩ .nil)
  rw [C66_one_line (0 : ℚ) (n := 2) (arg := .none) (ft := none) rfl ht hp hr hw] at hd
  cases hd

end Kam.Convert

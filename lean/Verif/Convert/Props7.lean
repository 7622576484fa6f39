/-
C81: the sample of "Programming Collective Intelligence".
-/
import Verif.Convert.Props6

set_option linter.unusedSectionVars false

namespace Kam.Convert
open Convert.Spec Kam.Spec

variable {K φ ε : Type} [Field K] [LinearOrder K] [IsStrictOrderedRing K] [FloorRing K]

/-- A rating of an item by a user, both given by names: the score is `m / 10 ^ k`. -/
structure Spec.Named where
  user : Str
  item : Str
  m : Int
  k : Nat

/-- The fields of the line. -/
def Spec.Named.row (r : Named) : List Str := [r.user, r.item, showDec r.m r.k]

lemma genfromtxt_pci (nan : K) {rs : List Named} {text : Str} (hf : File text (rs.map Named.row)) :
    genfromtxt nan [.str 18, .str 18, .float] text =
      .ok (recs (rs.map (fun r => [.str (r.user.take 18), .str (r.item.take 18), .num ((r.m : K) / 10 ^ r.k)]))) := by
  obtain ⟨ls, ht, hp, hr⟩ := hf
  have hrows := rows_fields (readlines_text ht hp) hr
  unfold genfromtxt
  simp only [hrows]
  have hmap : (rs.map Named.row).map (List.zipWith (convert nan) [.str 18, .str 18, .float]) =
      rs.map (fun r => [.str (r.user.take 18), .str (r.item.take 18), .num ((r.m : K) / 10 ^ r.k)]) := by
    rw [List.map_map]
    apply List.map_congr_left
    intro r _
    simp [Named.row, convert, floatOf_showDec]
  cases rs with
  | nil => rfl
  | cons r rs =>
    rw [List.map_cons]
    simp only []
    rw [← List.map_cons, hmap]
    have h1 : (((r :: rs).map Named.row).any (fun x => decide (x.length ≠ r.row.length))) = false := by
      rw [List.any_eq_false]
      intro x hx
      obtain ⟨r', _, rfl⟩ := List.mem_map.1 hx
      simp [Named.row]
    rw [h1, if_neg (by simp), if_neg (by simp [Named.row])]
    cases rs <;> rfl

/-- What `load_pci_sample` loads, for names of any length: the first 18 characters of the names. -/
theorem C81_names (nan : K) {rs : List Named} {text : Str} (hf : File text (rs.map Named.row)) (h1 : rs.length ≠ 1) :
    ∃ d : ScoreData K Str φ ε, loadPci nan text = .ok d ∧
      Reads d.toEventData (rs.map (fun r => [r.user.take 18, r.item.take 18])) ∧
      d.score = some (rs.map (fun r => (r.m : K) / 10 ^ r.k)) ∧ d.scoreDomain = some [1, 5, 1 / 2] ∧
      ScoreBuilt d (rs.map (fun r => [r.user.take 18, r.item.take 18])) (rs.map (fun r => (r.m : K) / 10 ^ r.k)) := by
  obtain ⟨lv, hlv⟩ := levels_ok (1 : K) 5 (c := 1 / 2) (by norm_num)
  obtain ⟨d0, hinit⟩ : ∃ d0 : ScoreData K Str φ ε, ScoreData.init 2 (.arr 1 [0, 1]) = .ok d0 ∧ d0.sEvent = 2 := ⟨_, rfl, rfl⟩
  obtain ⟨hinit, hs⟩ := hinit
  have hr : Reachable d0.toEventData := by
    unfold ScoreData.init at hinit
    cases hb : (EventData.init 2 (.arr 1 [0, 1]) : Res (EventData Str φ ε)) with
    | error e => rw [hb] at hinit; cases hinit
    | ok b => rw [hb] at hinit; cases hinit; exact .init hb
  have hx := genfromtxt_pci nan hf
  rw [recs_many (by simpa using h1)] at hx
  have hreg : (⟨2, rs.map (fun r => [r.user.take 18, r.item.take 18])⟩ : Arr2 Str).Regular := by
    intro r hr
    obtain ⟨e, he, rfl⟩ := List.mem_map.1 hr
    rfl
  have hev : nameColumn (.many (rs.map (fun r => [.str (r.user.take 18), .str (r.item.take 18), .num ((r.m : K) / 10 ^ r.k)]))) =
      .ok ⟨2, rs.map (fun r => [r.user.take 18, r.item.take 18])⟩ := by
    simp [nameColumn, Function.comp_def, Cell.toStr]
  have hsc : numColumn 2 (.many (rs.map (fun r => [.str (r.user.take 18), .str (r.item.take 18), .num ((r.m : K) / 10 ^ r.k)]))) =
      rs.map (fun r => (r.m : K) / 10 ^ r.k) := by
    simp [numColumn, List.filterMap_map, Function.comp_def, Cell.toNum]
  have hset := EventData.setEvent_eq d0.toEventData hr.wf ⟨2, rs.map (fun r => [r.user.take 18, r.item.take 18])⟩ hreg hs.symm none
  have hset' : d0.setEvent ⟨2, rs.map (fun r => [r.user.take 18, r.item.take 18])⟩ (rs.map (fun r => (r.m : K) / 10 ^ r.k))
      (some [1, 5, 1 / 2]) none =
      .ok { d0 with toEventData := d0.toEventData.loaded (rs.map (fun r => [r.user.take 18, r.item.take 18])) none
                    score := some (rs.map (fun r => (r.m : K) / 10 ^ r.k)), scoreDomain := some [1, 5, 1 / 2], nScoreLevels := some lv } := by
    unfold ScoreData.setEvent
    rw [hset]
    simp only [ScoreData.resolveDomain, hlv]
  have hb : ScoreBuilt _ (rs.map (fun r => [r.user.take 18, r.item.take 18])) (rs.map (fun r => (r.m : K) / 10 ^ r.k)) :=
    .load hr hreg (by rintro f ⟨⟩) (by simp) hset'
  refine ⟨_, ?_, reads_built hb.inv.1, rfl, rfl, hb⟩
  unfold loadPci
  simp only [hx, hinit, ok_bind, hev, hsc, hset']
  rfl

/-- C81, what holds: a file of ratings with names of at most 18 characters is loaded without loss. -/
theorem C81_pci_partial (nan : K) {rs : List Named} {text : Str} (hf : File text (rs.map Named.row)) (h1 : rs.length ≠ 1)
    (hn : ∀ r ∈ rs, r.user.length ≤ 18 ∧ r.item.length ≤ 18) :
    ∃ d : ScoreData K Str φ ε, loadPci nan text = .ok d ∧ Reads d.toEventData (rs.map (fun r => [r.user, r.item])) ∧
      d.score = some (rs.map (fun r => (r.m : K) / 10 ^ r.k)) ∧ d.scoreDomain = some [1, 5, 1 / 2] := by
  obtain ⟨d, h2, h3, h4, h5, _⟩ := C81_names (φ := φ) (ε := ε) nan hf h1
  refine ⟨d, h2, ?_, h4, h5⟩
  have : rs.map (fun r => [r.user.take 18, r.item.take 18]) = rs.map (fun r => [r.user, r.item]) := by
    apply List.map_congr_left
    intro r hr
    rw [List.take_of_length_le (hn r hr).1, List.take_of_length_le (hn r hr).2]
  rwa [this] at h3

/-- Two ratings of different items whose names agree in 18 characters. -/
def exLong : List Named := [⟨"Rose".toList, "The Lord of the Rings I".toList, 25, 1⟩, ⟨"Rose".toList, "The Lord of the Rings II".toList, 4, 0⟩]

lemma exLong_file : File "Rose\tThe Lord of the Rings I\t2.5\nRose\tThe Lord of the Rings II\t4\n".toList (exLong.map Named.row) :=
  ⟨["Rose\tThe Lord of the Rings I\t2.5".toList, "Rose\tThe Lord of the Rings II\t4".toList],
    .lf (.lf .nil), by unfold Plain; decide,
    rows_row ⟨by unfold Clean; decide, by decide, by decide, by decide⟩ (by decide)
      (rows_row ⟨by unfold Clean; decide, by decide, by decide, by decide⟩ (by decide) .nil)⟩

/-- C81 fails in general: longer names are cut, and two items become one. -/
theorem C81_refuted : ∃ d : ScoreData ℚ Str Unit Unit,
    loadPci 0 "Rose\tThe Lord of the Rings I\t2.5\nRose\tThe Lord of the Rings II\t4\n".toList = .ok d ∧
      Reads d.toEventData [["Rose".toList, "The Lord of the Ri".toList], ["Rose".toList, "The Lord of the Ri".toList]] := by
  obtain ⟨d, h1, h2, _⟩ := C81_names (φ := Unit) (ε := Unit) (0 : ℚ) exLong_file (by decide)
  exact ⟨d, h1, h2⟩

/-- Two ratings with short names. -/
def exShort : List Named := [⟨"Rose".toList, "Snakes on a Plane".toList, 35, 1⟩, ⟨"Toby".toList, "Superman Returns".toList, 4, 0⟩]

example : ∃ d : ScoreData ℚ Str Unit Unit, loadPci 0 "Rose\tSnakes on a Plane\t3.5\nToby\tSuperman Returns\t4\n".toList = .ok d ∧
    Reads d.toEventData [["Rose".toList, "Snakes on a Plane".toList], ["Toby".toList, "Superman Returns".toList]] := by
  obtain ⟨d, h1, h2, _⟩ := C81_pci_partial (φ := Unit) (ε := Unit) (0 : ℚ) (rs := exShort)
    ⟨["Rose\tSnakes on a Plane\t3.5".toList, "Toby\tSuperman Returns\t4".toList],
    .lf (.lf .nil), by unfold Plain; decide,
    rows_row ⟨by unfold Clean; decide, by decide, by decide, by decide⟩ (by decide)
      (rows_row ⟨by unfold Clean; decide, by decide, by decide, by decide⟩ (by decide) .nil)⟩ (by decide) (by decide)
  exact ⟨d, h1, h2⟩

end Kam.Convert

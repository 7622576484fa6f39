/-
Property theorems for score containers (C08 for scores, C15-C18, C56).
-/
import Verif.Score.Lemmas
import Verif.Score.Spec
import Mathlib.Data.Rat.Floor

set_option linter.unusedSectionVars false

namespace Kam
open Spec
variable {K : Type} [Field K] [LinearOrder K] [IsStrictOrderedRing K] [FloorRing K]
variable {α φ ε : Type} [LinearOrder α]

/-! ### Invariant of score containers -/

theorem ScoreData.setEvent_ok {d0 d : ScoreData K α φ ε} {event : Arr2 α} {sc : List K}
    {dom : Option (List K)} {ef : Option (List ε)} (h : d0.setEvent event sc dom ef = .ok d) :
    d0.toEventData.setEvent event ef = .ok d.toEventData ∧ d.score = some sc ∧
      ∃ dm n, resolveDomain sc dom = .ok dm ∧ levelsOfDomain dm = .ok n ∧
        d.scoreDomain = some dm ∧ d.nScoreLevels = some n := by
  unfold ScoreData.setEvent at h
  split at h
  · cases h
  · rename_i b hb
    simp only at h
    split at h
    · cases h
    · rename_i dm hdm
      split at h
      · cases h
      · rename_i n hn
        cases h
        exact ⟨hb, rfl, dm, n, hdm, hn, rfl, rfl⟩

theorem ScoreData.binarize_ok {d d' : ScoreData K α φ ε} {t : K}
    (h : d.binarizeScore (some t) = .ok d') :
    ∃ xs, d.score = some xs ∧ d' = { d with
      score := some (xs.map (fun x => if x ≤ t then 0 else 1))
      scoreDomain := some [0, 1, 1]
      nScoreLevels := some 2 } := by
  unfold ScoreData.binarizeScore at h
  simp only [bind, Except.bind, pure, Except.pure] at h
  cases hs : d.score with
  | none => rw [hs] at h; cases h
  | some xs => rw [hs] at h; cases h; exact ⟨xs, rfl, rfl⟩

theorem ScoreData.binarize_none {d : ScoreData K α φ ε} {lo hi : K} {rest : List K}
    (hd : d.scoreDomain = some (lo :: hi :: rest)) :
    d.binarizeScore none = d.binarizeScore (some ((lo + hi) / 2)) := by
  have g0 : npGet (lo :: hi :: rest) 0 = .ok lo := npGet_ofNat (lo :: hi :: rest) 0 (by simp)
  have g1 : npGet (lo :: hi :: rest) 1 = .ok hi := npGet_ofNat (lo :: hi :: rest) 1 (by simp)
  unfold ScoreData.binarizeScore
  simp only [hd, g0, g1, bind, Except.bind, pure, Except.pure]
  have : (hi - lo) / 2 + lo = (lo + hi) / 2 := by ring
  rw [this]

theorem ScoreData.filter_ok {d d' : ScoreData K α φ ε} {cond : Sel}
    (h : d.filterEvent cond = .ok (some d')) :
    d.toEventData.filterEvent cond = .ok (some d'.toEventData) ∧
      d'.scoreDomain = d.scoreDomain ∧ d'.nScoreLevels = d.nScoreLevels ∧
      (match d.score with
        | none => d'.score = none
        | some xs => ∃ ys, cond.apply xs = .ok ys ∧ d'.score = some ys) := by
  unfold ScoreData.filterEvent at h
  simp only [bind, Except.bind, pure, Except.pure] at h
  cases hf : d.toEventData.filterEvent cond with
  | error e => rw [hf] at h; cases h
  | ok o =>
    cases o with
    | none => rw [hf] at h; cases h
    | some b =>
      rw [hf] at h
      simp only at h
      cases hs : d.score with
      | none => rw [hs] at h; cases h; exact ⟨rfl, rfl, rfl, rfl⟩
      | some xs =>
        rw [hs] at h
        simp only at h
        cases ha : cond.apply xs with
        | error e => rw [ha] at h; cases h
        | ok ys => rw [ha] at h; cases h; exact ⟨rfl, rfl, rfl, ys, ha, rfl⟩

theorem levels_binary : ScoreData.levelsOfDomain ([0, 1, 1] : List K) = .ok 2 := by
  rw [levelsOfDomain_eq 0 1 1 zero_lt_one [] zero_le_one]
  norm_num

/-- Every container built by API calls holds its events and scores and a level count that matches
its domain. -/
theorem Spec.ScoreBuilt.inv {d : ScoreData K α φ ε} {rows : List (List α)} {sc : List K}
    (h : ScoreBuilt d rows sc) :
    Built d.toEventData rows ∧ d.score = some sc ∧ sc.length = rows.length ∧
      ∃ dm n, d.scoreDomain = some dm ∧ d.nScoreLevels = some n ∧
        ScoreData.levelsOfDomain dm = .ok n := by
  induction h with
  | load hr hreg hef hsc h =>
    obtain ⟨h1, h2, dm, n, _, h4, h5, h6⟩ := ScoreData.setEvent_ok h
    exact ⟨.load hr hreg hef h1, h2, hsc, dm, n, h5, h6, h4⟩
  | setFeature _ h ih =>
    obtain ⟨i1, i2, i3, i4⟩ := ih
    unfold ScoreData.setFeature at h
    simp only [bind, Except.bind, pure, Except.pure] at h
    split at h
    · cases h
    · rename_i b hb
      cases h
      exact ⟨.setFeature i1 hb, i2, i3, i4⟩
  | binarize _ h ih =>
    obtain ⟨i1, i2, i3, i4⟩ := ih
    obtain ⟨xs, hx, rfl⟩ := ScoreData.binarize_ok h
    rw [i2] at hx
    cases hx
    exact ⟨i1, rfl, by simp [i3], [0, 1, 1], 2, rfl, rfl, levels_binary⟩
  | binarizeDefault _ hd h ih =>
    obtain ⟨i1, i2, i3, i4⟩ := ih
    rw [ScoreData.binarize_none hd] at h
    obtain ⟨xs, hx, rfl⟩ := ScoreData.binarize_ok h
    rw [i2] at hx
    cases hx
    exact ⟨i1, rfl, by simp [i3], [0, 1, 1], 2, rfl, rfl, levels_binary⟩
  | filterEvent _ hr hs h ih =>
    obtain ⟨i1, i2, i3, i4⟩ := ih
    obtain ⟨h1, h2, h3, h4⟩ := ScoreData.filter_ok h
    rw [i2] at h4
    simp only at h4
    obtain ⟨ys, h5, h6⟩ := h4
    rw [hs] at h5
    cases h5
    refine ⟨.filterEvent i1 hr h1, h6, ?_, ?_⟩
    · unfold Sel.apply at hr hs
      rw [i3] at hs
      cases hj : Sel.positions _ _ with
      | error e => rw [hj] at hr; cases hr
      | ok js =>
        rw [hj] at hr hs
        cases hr; cases hs
        have := Sel.positions_lt hj
        rw [length_gather _ _ (by rw [i3]; exact this), length_gather _ _ this]
    · rw [h2, h3]; exact i4

/-! ### C08, scores -/

/-- C08 for scores: the `k`-th kept event keeps the score of its old position. -/
theorem C08_filter_keeps_scores {d d' : ScoreData K α φ ε} {rows : List (List α)} {sc : List K}
    (h : ScoreBuilt d rows sc) (cond : Sel) (js : List Nat)
    (hjs : cond.positions rows.length = .ok js) (hf : d.filterEvent cond = .ok (some d')) :
    ∃ sc', d'.score = some sc' ∧ sc'.length = js.length ∧
      (∀ (k j : Nat), js[k]? = some j → sc'[k]? = sc[j]?) ∧
      d'.scoreDomain = d.scoreDomain ∧ d'.nScoreLevels = d.nScoreLevels := by
  obtain ⟨_, i2, i3, _⟩ := h.inv
  obtain ⟨_, h2, h3, h4⟩ := ScoreData.filter_ok hf
  rw [i2] at h4
  obtain ⟨ys, h5, h6⟩ := h4
  unfold Sel.apply at h5
  rw [i3, hjs] at h5
  cases h5
  have hlt : ∀ j ∈ js, j < sc.length := by rw [i3]; exact Sel.positions_lt hjs
  refine ⟨_, h6, length_gather _ _ hlt, ?_, h2, h3⟩
  intro k j hk
  rw [getElem?_gather _ _ hlt, hk]; rfl

/-! ### C15 -/

/-- C15 (partial: the range of the domain is a multiple of the stride, see `C15_refuted`). -/
theorem C15_digitized_in_range_partial {d : ScoreData K α φ ε} {rows : List (List α)} {sc : List K}
    (h : ScoreBuilt d rows sc) (lo hi st : K) (m : Nat)
    (hd : d.scoreDomain = some [lo, hi, st]) (hst : 0 < st) (hm : hi = lo + (m : K) * st)
    (xs : List K) :
    d.nScoreLevels = some ((m : Int) + 1) ∧
    ∃ ds, d.digitizeScore (some xs) = .ok ds ∧ ds.length = xs.length ∧
      ∀ v ∈ ds, 0 ≤ v ∧ v < (m : Int) + 1 := by
  obtain ⟨_, _, _, dm, n, h1, h2, h3⟩ := h.inv
  rw [hd] at h1
  cases h1
  have hq : (hi - lo) / st = (m : K) := by rw [hm]; field_simp; ring
  have hle : lo ≤ hi := by
    rw [hm]
    have : (0 : K) ≤ (m : K) * st := mul_nonneg (Nat.cast_nonneg _) hst.le
    linarith
  rw [levelsOfDomain_eq lo hi st hst [] hle, hq] at h3
  simp only [Int.floor_natCast, Except.ok.injEq] at h3
  refine ⟨by rw [h2, h3], _, digitizeScore_eq d lo hi st hst [] hd xs, by simp, ?_⟩
  intro v hv
  rw [List.mem_map] at hv
  obtain ⟨x, _, rfl⟩ := hv
  rw [hq]
  simp only [Int.ceil_natCast, Int.toNat_natCast]
  constructor
  · exact Int.natCast_nonneg _
  · have := min_le_left m ⌊(x - lo) / st + 1 / 2⌋.toNat
    omega

/-- Exactly the regular domains satisfy C15: if the range is not a multiple of the stride, the
largest score of the domain plus half a stride already falls outside. -/
theorem C15_in_range_iff_regular {d : ScoreData K α φ ε} {rows : List (List α)} {sc : List K}
    (h : ScoreBuilt d rows sc) (lo hi st : K) (n : Int)
    (hd : d.scoreDomain = some [lo, hi, st]) (hn : d.nScoreLevels = some n) (hst : 0 < st)
    (hlh : lo < hi) :
    (∀ xs ds, d.digitizeScore (some xs) = .ok ds → ∀ v ∈ ds, 0 ≤ v ∧ v < n) ↔
      ∃ m : Nat, hi = lo + (m : K) * st := by
  constructor
  · intro hall
    obtain ⟨_, _, _, dm, n', h1, h2, h3⟩ := h.inv
    rw [hd] at h1; cases h1
    rw [hn] at h2; cases h2
    rw [levelsOfDomain_eq lo hi st hst [] hlh.le] at h3
    simp only [Except.ok.injEq] at h3
    have hq0 : 0 < (hi - lo) / st := div_pos (by linarith) hst
    have hbig := hall [hi + st] _ (digitizeScore_eq d lo hi st hst [] hd [hi + st])
    simp only [List.map_cons, List.map_nil, List.mem_singleton, forall_eq] at hbig
    -- the score `hi + st` lies above every edge
    have hc : ⌈(hi - lo) / st⌉ ≤ ⌊(hi + st - lo) / st + 1 / 2⌋ := by
      have e : (hi + st - lo) / st = (hi - lo) / st + 1 := by field_simp; ring
      rw [e, Int.ceil_le]
      have := Int.lt_floor_add_one ((hi - lo) / st + 1 + 1 / 2)
      have h4 : (hi - lo) / st + 1 / 2 ≤ (⌊(hi - lo) / st + 1 + 1 / 2⌋ : K) := by linarith
      linarith [show (0 : K) < 1 / 2 by norm_num]
    have hmin : min ⌈(hi - lo) / st⌉.toNat ⌊(hi + st - lo) / st + 1 / 2⌋.toNat =
        ⌈(hi - lo) / st⌉.toNat := min_eq_left (Int.toNat_le_toNat hc)
    rw [hmin, ← h3] at hbig
    have hceil : 0 < ⌈(hi - lo) / st⌉ := Int.ceil_pos.2 hq0
    have hcf : ⌈(hi - lo) / st⌉ ≤ ⌊(hi - lo) / st⌋ := by omega
    have hfl := Int.floor_le ((hi - lo) / st)
    have hcl := Int.le_ceil ((hi - lo) / st)
    have hcf' : (⌈(hi - lo) / st⌉ : K) ≤ (⌊(hi - lo) / st⌋ : K) := by exact_mod_cast hcf
    have heq : (hi - lo) / st = (⌊(hi - lo) / st⌋ : K) := by linarith
    refine ⟨⌊(hi - lo) / st⌋.toNat, ?_⟩
    have hnn : 0 ≤ ⌊(hi - lo) / st⌋ := by omega
    have hcast : ((⌊(hi - lo) / st⌋.toNat : Nat) : K) = (⌊(hi - lo) / st⌋ : K) := by
      have : ((⌊(hi - lo) / st⌋.toNat : Nat) : Int) = ⌊(hi - lo) / st⌋ := Int.toNat_of_nonneg hnn
      exact_mod_cast congrArg (Int.cast : Int → K) this
    rw [hcast, ← heq]
    field_simp
    ring
  · rintro ⟨m, hm⟩ xs ds hds v hv
    obtain ⟨h1, ds', h2, _, h4⟩ := C15_digitized_in_range_partial h lo hi st m hd hst hm xs
    rw [hds] at h2
    cases h2
    rw [hn] at h1
    cases h1
    exact h4 v hv

/-- A container with three events and the scores 0, 2 and 5 over the domain (0, 5, 2). -/
def exIrregular : ScoreData ℚ Nat Nat Nat :=
  { (exLayout.loaded [[7, 30, 5], [5, 10, 5], [9, 30, 7]] none : EventData Nat Nat Nat) with
    scoreDomain := some [0, 5, 2], score := some [0, 2, 5], nScoreLevels := some 3 }

/-- The layout of `exLayout` as an empty score container. -/
def exScoreLayout : ScoreData ℚ Nat Nat Nat :=
  { exLayout with scoreDomain := none, score := none, nScoreLevels := none }

def exEvent3 : Arr2 Nat := ⟨3, [[7, 30, 5], [5, 10, 5], [9, 30, 7]]⟩

theorem exEvent3_regular : exEvent3.Regular := by
  intro r hr
  simp only [exEvent3, List.mem_cons, List.not_mem_nil, or_false] at hr
  rcases hr with rfl | rfl | rfl <;> rfl

theorem levels_052 : ScoreData.levelsOfDomain ([0, 5, 2] : List ℚ) = .ok 3 := by
  rw [levelsOfDomain_eq 0 5 2 (by norm_num) [] (by norm_num)]
  have : ⌊((5 : ℚ) - 0) / 2⌋ = 2 := by rw [Int.floor_eq_iff]; norm_num
  rw [this]; rfl

theorem exIrregular_load :
    exScoreLayout.setEvent exEvent3 [0, 2, 5] (some [0, 5, 2]) none = .ok exIrregular := by
  unfold ScoreData.setEvent
  have h1 : exScoreLayout.toEventData.setEvent exEvent3 none =
      .ok (exLayout.loaded exEvent3.rows none) :=
    EventData.setEvent_eq _ exLayout_reachable.wf _ exEvent3_regular rfl _
  simp only [h1, ScoreData.resolveDomain, levels_052]
  rfl

theorem exIrregular_built : ScoreBuilt exIrregular exEvent3.rows [0, 2, 5] :=
  .load (d0 := exScoreLayout) exLayout_reachable exEvent3_regular (by rintro f ⟨⟩) rfl
    exIrregular_load

/-- The full C15 is false of the code: with scores 0, 2, 5 over the domain (0, 5, 2) there are 3
levels, but the observed score 5 is digitized to 3. -/
theorem C15_refuted : ¬ (∀ (d : ScoreData ℚ Nat Nat Nat) (rows : List (List Nat)) (sc : List ℚ),
    ScoreBuilt d rows sc → ∀ (lo hi st : ℚ) (n : Int), d.scoreDomain = some [lo, hi, st] →
    d.nScoreLevels = some n → 0 < st → lo < hi →
    ∀ xs ds, d.digitizeScore (some xs) = .ok ds → ∀ v ∈ ds, 0 ≤ v ∧ v < n) := by
  intro hall
  have h := hall exIrregular _ _ exIrregular_built 0 5 2 3 rfl rfl (by norm_num) (by norm_num)
  rw [C15_in_range_iff_regular exIrregular_built 0 5 2 3 rfl rfl (by norm_num) (by norm_num)] at h
  obtain ⟨m, hm⟩ := h
  have h2 : (5 : ℚ) = ((m * 2 : Nat) : ℚ) := by push_cast; linarith
  have h3 : 5 = m * 2 := by exact_mod_cast h2
  omega

/-! ### C16 -/

/-- C16: on a regular domain the levels are `lo, lo + st, ..., hi`; a score is digitized to the
index of a nearest level, the highest one on a tie. -/
theorem C16_nearest_level {d : ScoreData K α φ ε} {rows : List (List α)} {sc : List K}
    (h : ScoreBuilt d rows sc) (lo hi st : K) (m : Nat)
    (hd : d.scoreDomain = some [lo, hi, st]) (hst : 0 < st) (hm : hi = lo + (m : K) * st) :
    ∃ ls, d.getScoreLevels = .ok ls ∧ ls.length = m + 1 ∧
      (∀ (i : Nat) (l : K), ls[i]? = some l → l = lo + (i : K) * st) ∧
      (∀ x : K, ∃ j : Nat, d.digitizeScore (some [x]) = .ok [(j : Int)] ∧
        ∃ lj, ls[j]? = some lj ∧ ∀ (i : Nat) (li : K), ls[i]? = some li →
          |x - lj| ≤ |x - li| ∧ (|x - li| = |x - lj| → i ≤ j)) ∧
      d.digitizeScore (some ls) = .ok ((List.range (m + 1)).map Int.ofNat) ∧
      (∀ x y i j, x ≤ y → d.digitizeScore (some [x, y]) = .ok [i, j] → i ≤ j) := by
  obtain ⟨_, _, _, dm, n, h1, h2, h3⟩ := h.inv
  rw [hd] at h1
  cases h1
  have hq : (hi - lo) / st = (m : K) := by rw [hm]; field_simp; ring
  obtain ⟨hn, _⟩ := C15_digitized_in_range_partial h lo hi st m hd hst hm []
  have hlev : d.getScoreLevels = .ok ((List.range (m + 1)).map (fun (i : Nat) => lo + (i : K) * st)) := by
    unfold ScoreData.getScoreLevels npLinspace
    obtain ⟨g0, g1, _⟩ := npGet_dom lo hi st []
    have hneg : ¬ ((m : Int) + 1 < 0) := by omega
    have htn : ((m : Int) + 1).toNat = m + 1 := by omega
    simp only [hd, hn, g0, g1, bind, Except.bind, hneg, if_false, htn, Except.ok.injEq]
    apply List.map_congr_left
    intro i hi'
    rw [List.mem_range] at hi'
    by_cases hm0 : m = 0
    · subst hm0
      have : i = 0 := by omega
      subst this
      simp
    · have : ¬ ((m : Int) + 1 = 1) := by omega
      rw [if_neg this]
      have hmK : (m : K) ≠ 0 := by exact_mod_cast hm0
      have e : (hi - lo) / ((((m : Int) + 1 : Int) : K) - 1) = st := by
        push_cast
        rw [add_sub_cancel_right, div_eq_iff hmK, hm]; ring
      rw [e]
  have hdig := digitizeScore_eq d lo hi st hst [] hd
  simp only [hq, Int.ceil_natCast, Int.toNat_natCast] at hdig
  have hget : ∀ (i : Nat) (l : K),
      ((List.range (m + 1)).map (fun (i : Nat) => lo + (i : K) * st))[i]? = some l →
      l = lo + (i : K) * st ∧ i ≤ m := by
    intro i l hl
    rw [List.getElem?_map, Option.map_eq_some_iff] at hl
    obtain ⟨a, ha, rfl⟩ := hl
    rw [List.getElem?_eq_some_iff] at ha
    obtain ⟨hlt, ha⟩ := ha
    simp only [List.getElem_range] at ha
    simp only [List.length_range] at hlt
    subst ha
    exact ⟨rfl, by omega⟩
  refine ⟨_, hlev, by simp, fun i l hl => (hget i l hl).1, ?_, ?_, ?_⟩
  · intro x
    refine ⟨min m ⌊(x - lo) / st + 1 / 2⌋.toNat, by rw [hdig]; rfl, lo +
      ((min m ⌊(x - lo) / st + 1 / 2⌋.toNat : Nat) : K) * st, ?_, ?_⟩
    · rw [List.getElem?_map, List.getElem?_range (by omega)]; rfl
    · intro i li hli
      obtain ⟨rfl, him⟩ := hget i li hli
      set y := (x - lo) / st with hy
      have hx : x = lo + y * st := by rw [hy]; field_simp; ring
      set j := min m ⌊y + 1 / 2⌋.toNat with hj
      -- how `j` relates to `y`
      have hj1 : j = 0 ∨ (j : K) - 1 / 2 ≤ y := by
        by_cases hp : 0 ≤ ⌊y + 1 / 2⌋
        · right
          have h1 : (j : Int) ≤ ⌊y + 1 / 2⌋ := by
            have : j ≤ ⌊y + 1 / 2⌋.toNat := min_le_right _ _
            omega
          have h2 : ((j : Int) : K) ≤ y + 1 / 2 := Int.le_floor.1 h1
          push_cast at h2
          linarith
        · left
          have : ⌊y + 1 / 2⌋.toNat = 0 := by omega
          rw [hj, this]; simp
      have hj2 : j = m ∨ y < (j : K) + 1 / 2 := by
        by_cases hp : m ≤ ⌊y + 1 / 2⌋.toNat
        · left; exact min_eq_left hp
        · right
          have h1 : j = ⌊y + 1 / 2⌋.toNat := min_eq_right (by omega)
          have h2 : ⌊y + 1 / 2⌋ < (j : Int) + 1 := by omega
          have h3 : y + 1 / 2 < ((((j : Int) + 1 : Int)) : K) := Int.floor_lt.1 h2
          push_cast at h3
          linarith
      have e1 : x - (lo + (j : K) * st) = (y - j) * st := by rw [hx]; ring
      have e2 : x - (lo + (i : K) * st) = (y - i) * st := by rw [hx]; ring
      rw [e1, e2, abs_mul, abs_mul]
      have hs : 0 < |st| := abs_pos.2 hst.ne'
      have hlt : ∀ a b : Nat, a < b → (a : K) + 1 ≤ b := by
        intro a b hab; exact_mod_cast hab
      rcases Nat.lt_trichotomy i j with hij | hij | hij
      · have hjp : (j : K) - 1 / 2 ≤ y := by
          rcases hj1 with h | h
          · omega
          · exact h
        have := hlt i j hij
        refine ⟨mul_le_mul_of_nonneg_right ?_ hs.le, fun _ => by omega⟩
        rw [abs_le]
        have h5 : |y - (i : K)| = y - i := abs_of_nonneg (by linarith)
        rw [h5]
        constructor <;> linarith
      · subst hij
        exact ⟨le_refl _, fun _ => le_refl _⟩
      · have hjl : y < (j : K) + 1 / 2 := by
          rcases hj2 with h | h
          · omega
          · exact h
        have := hlt j i hij
        have h5 : |y - (i : K)| = i - y := by
          rw [abs_sub_comm]; exact abs_of_nonneg (by linarith)
        have h6 : |y - (j : K)| < |y - (i : K)| := by
          rw [abs_lt, h5]
          constructor <;> linarith
        refine ⟨mul_le_mul_of_nonneg_right h6.le hs.le, ?_⟩
        intro heq
        have := mul_right_cancel₀ hs.ne' heq
        rw [this] at h6
        exact absurd h6 (lt_irrefl _)
  · rw [hdig, List.map_map]
    congr 1
    apply List.map_congr_left
    intro i hi'
    rw [List.mem_range] at hi'
    have e : (lo + (i : K) * st - lo) / st + 1 / 2 = (i : K) + 1 / 2 := by field_simp; ring
    have ef : ⌊(i : K) + 1 / 2⌋ = (i : Int) := by
      rw [Int.floor_eq_iff]; push_cast
      constructor <;> linarith [show (0 : K) < 1 / 2 by norm_num, show (1 / 2 : K) < 1 by norm_num]
    simp only [Function.comp_apply, e, ef, Int.toNat_natCast]
    have : min m i = i := min_eq_right (by omega)
    rw [this]; rfl
  · intro x y i j hxy hds
    rw [hdig] at hds
    simp only [List.map_cons, List.map_nil, Except.ok.injEq, List.cons.injEq, and_true] at hds
    obtain ⟨rfl, rfl⟩ := hds
    have : ⌊(x - lo) / st + 1 / 2⌋ ≤ ⌊(y - lo) / st + 1 / 2⌋ := by
      apply Int.floor_le_floor
      have : (x - lo) / st ≤ (y - lo) / st := by
        rw [div_le_div_iff_of_pos_right hst]; linarith
      linarith
    have h3 := Int.toNat_le_toNat this
    have h4 : min m ⌊(x - lo) / st + 1 / 2⌋.toNat ≤ min m ⌊(y - lo) / st + 1 / 2⌋.toNat := by omega
    exact_mod_cast h4

/-- The scores 1, 3, 5 over the regular domain (1, 5, 1). -/
def exRegular : ScoreData ℚ Nat Nat Nat :=
  { (exLayout.loaded exEvent3.rows none : EventData Nat Nat Nat) with
    scoreDomain := some [1, 5, 1], score := some [1, 3, 5], nScoreLevels := some 5 }

theorem levels_151 : ScoreData.levelsOfDomain ([1, 5, 1] : List ℚ) = .ok 5 := by
  rw [levelsOfDomain_eq 1 5 1 (by norm_num) [] (by norm_num)]
  have : ⌊((5 : ℚ) - 1) / 1⌋ = 4 := by rw [Int.floor_eq_iff]; norm_num
  rw [this]; rfl

theorem exRegular_built : ScoreBuilt exRegular exEvent3.rows [1, 3, 5] := by
  refine .load (d0 := exScoreLayout) (dom := some [1, 5, 1]) (ef := none) exLayout_reachable
    exEvent3_regular (by rintro f ⟨⟩) rfl ?_
  unfold ScoreData.setEvent
  have h1 : exScoreLayout.toEventData.setEvent exEvent3 none =
      .ok (exLayout.loaded exEvent3.rows none) :=
    EventData.setEvent_eq _ exLayout_reachable.wf _ exEvent3_regular rfl _
  simp only [h1, ScoreData.resolveDomain, levels_151]
  rfl

example : ScoreBuilt exRegular exEvent3.rows [1, 3, 5] ∧
    exRegular.scoreDomain = some [1, 5, 1] ∧ (0 : ℚ) < 1 ∧ (5 : ℚ) = 1 + ((4 : Nat) : ℚ) * 1 :=
  ⟨exRegular_built, rfl, by norm_num, by norm_num⟩

/-! ### C17 -/

/-- C17 (partial: the last clause of the claim needs a regular domain, see `C17_refuted`): the
estimated domain consists of the least score, the greatest score and the smallest gap between
distinct scores; with fewer than two distinct scores the call raises `ValueError`. -/
theorem C17_estimated_domain_partial (d0 : ScoreData K α φ ε) (hr : Reachable d0.toEventData)
    (event : Arr2 α) (hreg : event.Regular) (hw : event.ncols = d0.sEvent) (sc : List K)
    (ef : Option (List ε)) :
    ((∃ x ∈ sc, ∃ y ∈ sc, x ≠ y) →
      ∃ d lo hi st, d0.setEvent event sc none ef = .ok d ∧ d.scoreDomain = some [lo, hi, st] ∧
        (lo ∈ sc ∧ ∀ x ∈ sc, lo ≤ x) ∧ (hi ∈ sc ∧ ∀ x ∈ sc, x ≤ hi) ∧
        (∃ x ∈ sc, ∃ y ∈ sc, x < y ∧ st = y - x) ∧ (∀ x ∈ sc, ∀ y ∈ sc, x < y → st ≤ y - x) ∧
        d.nScoreLevels = some (⌊(hi - lo) / st⌋ + 1) ∧ 0 < st ∧
        (∀ m : Nat, hi = lo + (m : K) * st → sc.length = event.rows.length →
          (∀ f, ef = some f → f.length = event.rows.length) →
          ∃ ds, d.digitizeScore none = .ok ds ∧ ds.length = sc.length ∧
            ∀ v ∈ ds, 0 ≤ v ∧ v < ⌊(hi - lo) / st⌋ + 1)) ∧
    ((∀ x ∈ sc, ∀ y ∈ sc, x = y) →
      ∃ d', d0.setEvent event sc none ef = .error (.valueError, d')) := by
  have hb := EventData.setEvent_eq d0.toEventData hr.wf event hreg hw ef
  constructor
  · rintro ⟨x, hx, y, hy, hxy⟩
    have hne : sc ≠ [] := by rintro rfl; cases hx
    obtain ⟨lo, l1, l2, l3⟩ := npMin_ok hne
    obtain ⟨hi, u1, u2, u3⟩ := npMax_ok hne
    have hxU := (mem_npUnique x sc).2 hx
    have hyU := (mem_npUnique y sc).2 hy
    obtain ⟨g1, g2⟩ := npDiff_sorted (npUnique sc) (sorted_npUnique sc)
    have hdne : npDiff (npUnique sc) ≠ [] := by
      intro hnil
      rcases lt_or_gt_of_ne hxy with h | h
      · obtain ⟨g, hg, _⟩ := g2 x hxU y hyU h
        rw [hnil] at hg; cases hg
      · obtain ⟨g, hg, _⟩ := g2 y hyU x hxU h
        rw [hnil] at hg; cases hg
    obtain ⟨st, s1, s2, s3⟩ := npMin_ok hdne
    obtain ⟨a, ha, b, hb', hab, hst⟩ := g1 st s2
    have hstp : 0 < st := by rw [hst]; linarith
    have hlh : lo ≤ hi := l3 hi u2
    have hres : ScoreData.resolveDomain sc none = .ok [lo, hi, st] := by
      unfold ScoreData.resolveDomain
      simp [l1, u1, s1, bind, Except.bind, pure, Except.pure]
    have hset : d0.setEvent event sc none ef = .ok { d0 with
        toEventData := d0.toEventData.loaded event.rows ef
        score := some sc
        scoreDomain := some [lo, hi, st]
        nScoreLevels := some (⌊(hi - lo) / st⌋ + 1) } := by
      unfold ScoreData.setEvent
      simp only [hb, hres, levelsOfDomain_eq lo hi st hstp [] hlh]
    refine ⟨_, lo, hi, st, hset, rfl, ⟨l2, l3⟩, ⟨u2, u3⟩,
      ⟨a, (mem_npUnique a sc).1 ha, b, (mem_npUnique b sc).1 hb', hab, hst⟩, ?_, rfl, hstp, ?_⟩
    · intro p hp q hq hpq
      obtain ⟨g, hg, hgle⟩ := g2 p ((mem_npUnique p sc).2 hp) q ((mem_npUnique q sc).2 hq) hpq
      exact le_trans (s3 g hg) hgle
    · intro m hm hsc hef
      have hbuilt := ScoreBuilt.load hr hreg hef hsc hset
      obtain ⟨hn, ds, h1, h2, h3⟩ :=
        C15_digitized_in_range_partial hbuilt lo hi st m rfl hstp hm sc
      refine ⟨ds, ?_, h2, ?_⟩
      · exact h1
      · intro v hv
        have := h3 v hv
        simp only [Option.some.injEq] at hn
        rw [hn]; exact this
  · intro hall
    have hres : ScoreData.resolveDomain sc none = .error .valueError := by
      unfold ScoreData.resolveDomain
      cases sc with
      | nil => rfl
      | cons x sc =>
        obtain ⟨lo, l1, _⟩ := npMin_ok (List.cons_ne_nil x sc)
        obtain ⟨hi, u1, _⟩ := npMax_ok (List.cons_ne_nil x sc)
        have huniq : npUnique (x :: sc) = [x] := by
          apply eq_of_sorted_of_mem (sorted_npUnique _) (by simp)
          intro z
          rw [mem_npUnique]
          constructor
          · intro hz
            rw [hall z hz x (by simp)]; simp
          · intro hz
            simp only [List.mem_singleton] at hz
            subst hz; simp
        simp [l1, u1, huniq, npDiff, npMin, bind, Except.bind]
    unfold ScoreData.setEvent
    simp only [hb, hres]
    exact ⟨_, rfl⟩

/-- The last clause of C17 is false of the code: with scores 0, 2, 5 the estimated domain is
(0, 5, 2) with 3 levels and the observed score 5 is digitized to 3. -/
theorem C17_refuted : ¬ (∀ (d0 d : ScoreData ℚ Nat Nat Nat) (event : Arr2 Nat) (sc : List ℚ),
    Reachable d0.toEventData → event.Regular → sc.length = event.rows.length →
    d0.setEvent event sc none none = .ok d →
    ∀ n ds, d.nScoreLevels = some n → d.digitizeScore none = .ok ds → ∀ v ∈ ds, v < n) := by
  intro hall
  have hres : ScoreData.resolveDomain ([0, 2, 5] : List ℚ) none = .ok [0, 5, 2] := by
    unfold ScoreData.resolveDomain
    have h1 : npMin ([0, 2, 5] : List ℚ) = .ok 0 := by simp [npMin]
    have h2 : npMax ([0, 2, 5] : List ℚ) = .ok 5 := by simp [npMax]; norm_num
    have h3 : npUnique ([0, 2, 5] : List ℚ) = [0, 2, 5] := by
      apply eq_of_sorted_of_mem (sorted_npUnique _) (by norm_num)
      intro z; rw [mem_npUnique]
    have h4 : npMin (npDiff ([0, 2, 5] : List ℚ)) = .ok 2 := by simp [npMin, npDiff]; norm_num
    simp [h1, h2, h3, h4, bind, Except.bind, pure, Except.pure]
  have hset : exScoreLayout.setEvent exEvent3 [0, 2, 5] none none = .ok exIrregular := by
    have := exIrregular_load
    unfold ScoreData.setEvent at this ⊢
    rw [hres]
    exact this
  have := hall exScoreLayout exIrregular exEvent3 [0, 2, 5] exLayout_reachable exEvent3_regular rfl
    hset 3 [0, 1, 3] rfl ?_ 3 (by simp)
  · omega
  · have h := digitizeScore_eq exIrregular 0 5 2 (by norm_num) [] rfl [0, 2, 5]
    have e : exIrregular.digitizeScore none = exIrregular.digitizeScore (some [0, 2, 5]) := rfl
    rw [e, h]
    have c : ⌈((5 : ℚ) - 0) / 2⌉ = 3 := by rw [Int.ceil_eq_iff]; norm_num
    have f1 : ⌊((0 : ℚ) - 0) / 2 + 1 / 2⌋ = 0 := by rw [Int.floor_eq_iff]; norm_num
    have f2 : ⌊((2 : ℚ) - 0) / 2 + 1 / 2⌋ = 1 := by rw [Int.floor_eq_iff]; norm_num
    have f3 : ⌊((5 : ℚ) - 0) / 2 + 1 / 2⌋ = 3 := by rw [Int.floor_eq_iff]; norm_num
    simp only [List.map_cons, List.map_nil, c, f1, f2, f3]
    rfl

example : Reachable exScoreLayout.toEventData ∧ exEvent3.Regular ∧
    exEvent3.ncols = exScoreLayout.sEvent ∧ (∃ x ∈ ([1, 3, 5] : List ℚ), ∃ y ∈ ([1, 3, 5] : List ℚ), x ≠ y) :=
  ⟨exLayout_reachable, exEvent3_regular, rfl, 1, by simp, 3, by simp, by norm_num⟩

/-! ### C18 -/

/-- C18: binarization of any loaded container. -/
theorem C18_binarize {d : ScoreData K α φ ε} {rows : List (List α)} {sc : List K}
    (h : ScoreBuilt d rows sc) (t : K) :
    ∃ d', d.binarizeScore (some t) = .ok d' ∧ d'.toEventData = d.toEventData ∧
      d'.scoreDomain = some [0, 1, 1] ∧ d'.nScoreLevels = some 2 ∧
      (∃ sc', d'.score = some sc' ∧ sc'.length = sc.length ∧
        ∀ (k : Nat) (s : K), sc[k]? = some s → (s ≤ t → sc'[k]? = some 0) ∧
          (t < s → sc'[k]? = some 1)) ∧
      d'.binarizeScore none = .ok d' := by
  obtain ⟨_, i2, _, _⟩ := h.inv
  have hb : d.binarizeScore (some t) = .ok { d with
      score := some (sc.map (fun x => if x ≤ t then 0 else 1))
      scoreDomain := some [0, 1, 1]
      nScoreLevels := some 2 } := by
    unfold ScoreData.binarizeScore
    simp [i2, bind, Except.bind, pure, Except.pure]
  refine ⟨_, hb, rfl, rfl, rfl, ⟨_, rfl, by simp, ?_⟩, ?_⟩
  · intro k s hk
    simp only [List.getElem?_map, hk, Option.map_some]
    exact ⟨fun hle => by simp [hle], fun hlt => by simp [not_le.2 hlt]⟩
  · rw [ScoreData.binarize_none (lo := 0) (hi := 1) (rest := [1]) rfl]
    unfold ScoreData.binarizeScore
    simp only [bind, Except.bind, pure, Except.pure, List.map_map, Except.ok.injEq]
    congr 2
    apply List.map_congr_left
    intro x _
    simp only [Function.comp_apply]
    by_cases hx : x ≤ t
    · have : (0 : K) ≤ (0 + 1) / 2 := by norm_num
      rw [if_pos hx, if_pos this]
    · have : ¬ (1 : K) ≤ (0 + 1) / 2 := by norm_num
      rw [if_neg hx, if_neg this]

/-- C18: the default threshold is the centre of the domain. -/
theorem C18_default_threshold {d : ScoreData K α φ ε} {lo hi : K} {rest : List K}
    (hd : d.scoreDomain = some (lo :: hi :: rest)) :
    d.binarizeScore none = d.binarizeScore (some ((lo + hi) / 2)) :=
  ScoreData.binarize_none hd

example : ∃ d', exRegular.binarizeScore (some 3) = .ok d' ∧ d'.score = some [0, 0, 1] := by
  refine ⟨_, rfl, ?_⟩
  simp [exRegular]; norm_num

/-! ### C56 -/

theorem npUnique_eq_iff (sc l : List K) (hl : l.Pairwise (· < ·)) :
    npUnique sc = l ↔ ∀ s, s ∈ sc ↔ s ∈ l := by
  constructor
  · intro h s; rw [← h, mem_npUnique]
  · intro h
    apply eq_of_sorted_of_mem (sorted_npUnique sc) hl
    intro s; rw [mem_npUnique]; exact h s

/-- C56: `is_binary_score` with `allow_uniform=False`. -/
theorem C56_is_binary_strict (sc : List K) :
    isBinaryScore sc false = true ↔ (∀ s ∈ sc, s = 0 ∨ s = 1) ∧ 0 ∈ sc ∧ 1 ∈ sc := by
  unfold isBinaryScore
  simp only [Bool.false_eq_true, if_false, decide_eq_true_eq]
  rw [npUnique_eq_iff _ _ (by simp)]
  constructor
  · intro h
    exact ⟨fun s hs => by simpa using (h s).1 hs, (h 0).2 (by simp), (h 1).2 (by simp)⟩
  · rintro ⟨h1, h2, h3⟩ s
    constructor
    · intro hs; simpa using h1 s hs
    · intro hs
      simp only [List.mem_cons, List.not_mem_nil, or_false] at hs
      rcases hs with rfl | rfl
      · exact h2
      · exact h3

/-- C56: `is_binary_score` with the default `allow_uniform=True`. -/
theorem C56_is_binary (sc : List K) :
    isBinaryScore sc true = true ↔ sc ≠ [] ∧ ∀ s ∈ sc, s = 0 ∨ s = 1 := by
  unfold isBinaryScore
  simp only [if_true, Bool.or_eq_true, decide_eq_true_eq]
  rw [npUnique_eq_iff _ _ (by simp), npUnique_eq_iff _ _ (by simp), npUnique_eq_iff _ _ (by simp)]
  constructor
  · rintro ((h | h) | h)
    · exact ⟨by rintro rfl; simpa using (h 0).2 (by simp), fun s hs => by simpa using (h s).1 hs⟩
    · exact ⟨by rintro rfl; simpa using (h 0).2 (by simp),
        fun s hs => by left; simpa using (h s).1 hs⟩
    · exact ⟨by rintro rfl; simpa using (h 1).2 (by simp),
        fun s hs => by right; simpa using (h s).1 hs⟩
  · rintro ⟨hne, h⟩
    by_cases h0 : (0 : K) ∈ sc
    · by_cases h1 : (1 : K) ∈ sc
      · left; left
        intro s
        constructor
        · intro hs; simpa using h s hs
        · intro hs
          simp only [List.mem_cons, List.not_mem_nil, or_false] at hs
          rcases hs with rfl | rfl
          · exact h0
          · exact h1
      · left; right
        intro s
        constructor
        · intro hs
          rcases h s hs with rfl | rfl
          · simp
          · exact absurd hs h1
        · intro hs
          simp only [List.mem_singleton] at hs
          subst hs; exact h0
    · right
      intro s
      obtain ⟨a, l, hal⟩ := List.exists_cons_of_ne_nil hne
      have ha : a ∈ sc := by rw [hal]; simp
      have h1 : (1 : K) ∈ sc := by
        rcases h a ha with rfl | rfl
        · exact absurd ha h0
        · exact ha
      constructor
      · intro hs
        rcases h s hs with rfl | rfl
        · exact absurd hs h0
        · simp
      · intro hs
        simp only [List.mem_singleton] at hs
        subst hs; exact h1

example : isBinaryScore ([1, 0, 0] : List ℚ) false = true := by
  rw [C56_is_binary_strict]
  refine ⟨?_, by simp, by simp⟩
  intro s hs
  simp only [List.mem_cons, List.not_mem_nil, or_false] at hs
  tauto

/-- The acceptance test of explicit item finders, in terms of the data. -/
theorem acceptsBinary_iff (d : ScoreData K α φ ε) :
    acceptsBinary d = true ↔ d.scoreDomain = some [0, 1, 1] ∧ d.nScoreLevels = some 2 ∧
      ∃ sc, d.score = some sc ∧ (∀ s ∈ sc, s = 0 ∨ s = 1) ∧ 0 ∈ sc ∧ 1 ∈ sc := by
  unfold acceptsBinary
  cases d.scoreDomain <;> cases d.score <;> cases d.nScoreLevels <;>
    simp [C56_is_binary_strict]
  tauto

end Kam

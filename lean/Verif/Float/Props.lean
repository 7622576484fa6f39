/-
C114: score containers with machine arithmetic.  On domains whose bounds and stride are multiples of
a power of two (whole stars, half stars, ...) rounding never changes a result, so everything proved
with exact arithmetic holds of the machine computation; on other domains it does not.
-/
import Verif.Float.Model
import Verif.Score.Props

set_option linter.unusedSectionVars false

namespace Kam
namespace Spec
variable {K : Type} [Field K]

/-- `x` is a multiple of `2^e`, at most `B` of them. -/
def Grid (B e : ℤ) (x : K) : Prop := ∃ m : ℤ, |m| ≤ B ∧ x = (m : K) * (2 : K) ^ e

/-- The bounds and the stride of a score domain are multiples of one power of two (and not huge
compared with it). -/
structure GridDomain (e : ℤ) (lo hi st : K) : Prop where
  lo : Grid (2 ^ 50) e lo
  hi : Grid (2 ^ 50) e hi
  st : Grid (2 ^ 51) e st

end Spec

namespace Fl
open Spec

section
variable {K : Type} [Field K] [LinearOrder K] [IsStrictOrderedRing K] [FloorRing K]
variable {α φ ε : Type} [LinearOrder α]

theorem _root_.Kam.Spec.Grid.fl_eq {B e : ℤ} {x : K} (h : Grid B e x) (hB : B ≤ 2 ^ 53) : fl x = x := by
  obtain ⟨m, hm, rfl⟩ := h
  exact fl_exact (hm.trans hB)

theorem _root_.Kam.Spec.Grid.add {B C e : ℤ} {x y : K} (hx : Grid B e x) (hy : Grid C e y) :
    Grid (B + C) e (x + y) := by
  obtain ⟨m, hm, rfl⟩ := hx
  obtain ⟨n, hn, rfl⟩ := hy
  exact ⟨m + n, (abs_add_le m n).trans (add_le_add hm hn), by push_cast; ring⟩

theorem _root_.Kam.Spec.Grid.sub {B C e : ℤ} {x y : K} (hx : Grid B e x) (hy : Grid C e y) :
    Grid (B + C) e (x - y) := by
  obtain ⟨m, hm, rfl⟩ := hx
  obtain ⟨n, hn, rfl⟩ := hy
  exact ⟨m - n, (abs_sub m n).trans (add_le_add hm hn), by push_cast; ring⟩

theorem _root_.Kam.Spec.Grid.half {B e : ℤ} {x : K} (hx : Grid B e x) : Grid B (e - 1) (x / 2) := by
  obtain ⟨m, hm, rfl⟩ := hx
  refine ⟨m, hm, ?_⟩
  rw [zpow_sub₀ (by norm_num), zpow_one]
  ring

theorem _root_.Kam.Spec.Grid.finer {B e : ℤ} {x : K} (hx : Grid B e x) : Grid (2 * B) (e - 1) x := by
  obtain ⟨m, hm, rfl⟩ := hx
  refine ⟨2 * m, ?_, ?_⟩
  · rw [abs_mul]; norm_num; exact hm
  · rw [zpow_sub₀ (by norm_num), zpow_one]
    push_cast
    ring

theorem _root_.Kam.Spec.Grid.mono {B C e : ℤ} {x : K} (hx : Grid B e x) (h : B ≤ C) : Grid C e x := by
  obtain ⟨m, hm, hx⟩ := hx
  exact ⟨m, hm.trans h, hx⟩

theorem grid_quot {e : ℤ} {lo hi st : K} (h : GridDomain e lo hi st) (hst : st ≠ 0) :
    fl (hi - lo) = hi - lo ∧ ∃ N s : ℤ, |N| < 2 ^ 53 ∧ s ≠ 0 ∧ (hi - lo) / st = (N : K) / s := by
  have hd := h.hi.sub h.lo
  refine ⟨hd.fl_eq (by norm_num), ?_⟩
  obtain ⟨N, hN, e1⟩ := hd
  obtain ⟨s, hs, e2⟩ := h.st
  have hz : (2 : K) ^ e ≠ 0 := (zpow_pos2 e).ne'
  refine ⟨N, s, lt_of_le_of_lt hN (by norm_num), ?_, ?_⟩
  · rintro rfl
    apply hst
    rw [e2]; simp
  · rw [e1, e2, mul_div_mul_right _ _ hz]

/-- The number of score levels is computed without error. -/
theorem levels_exact {e : ℤ} {lo hi st : K} (h : GridDomain e lo hi st) (rest : List K) :
    levelsOfDomain (lo :: hi :: st :: rest) = ScoreData.levelsOfDomain (lo :: hi :: st :: rest) := by
  obtain ⟨g0, g1, g2⟩ := npGet_dom lo hi st rest
  unfold levelsOfDomain ScoreData.levelsOfDomain
  rw [g0, g1, g2]
  simp only [bind, Except.bind]
  by_cases hst : st = 0
  · rw [if_pos hst, if_pos hst]
  · rw [if_neg hst, if_neg hst]
    obtain ⟨e1, N, s, hN, hs, eq⟩ := grid_quot h hst
    rw [e1, eq]
    have hsign : (0 : K) ≤ fl ((N : K) / s) ↔ (0 : K) ≤ (N : K) / s := by
      have := (fl_div_le_iff (K := K) hN hs 0).2.1
      simpa using this
    unfold pyInt
    simp only [hsign, floor_fl_div hN hs, ceil_fl_div hN hs]

/-- The bin edges are computed without error. -/
theorem bins_exact {e : ℤ} {lo hi st : K} (h : GridDomain e lo hi st) (hst : 0 < st)
    (rest : List K) :
    generateScoreBins (lo :: hi :: st :: rest) = Kam.generateScoreBins (lo :: hi :: st :: rest) := by
  obtain ⟨g0, g1, g2⟩ := npGet_dom lo hi st rest
  unfold generateScoreBins Kam.generateScoreBins
  rw [g0, g1, g2]
  simp only [bind, Except.bind]
  unfold arange npArange
  rw [if_neg hst.ne', if_neg hst.ne']
  obtain ⟨e1, N, s, hN, hs, eq⟩ := grid_quot h hst.ne'
  have elen : ⌈fl (fl (hi - lo) / st)⌉ = ⌈(hi - lo) / st⌉ := by
    rw [e1, eq, ceil_fl_div hN hs]
  have e2 : fl (lo + st) = lo + st := (h.lo.add h.st).fl_eq (by norm_num)
  have e3 : fl (fl (lo + st) - lo) = st := by
    rw [e2, add_sub_cancel_left]; exact h.st.fl_eq (by norm_num)
  have e4 : fl (st / 2) = st / 2 := h.st.half.fl_eq (by norm_num)
  simp only [elen, e3, e4]
  have key : ∀ i ∈ List.range ⌈(hi - lo) / st⌉.toNat,
      Grid (2 ^ 50) e (lo + (i : K) * st) ∧ Grid (2 ^ 51) e ((i : K) * st) := by
    intro i hi'
    rw [List.mem_range] at hi'
    have h1 : (i : ℤ) < ⌈(hi - lo) / st⌉ := by omega
    rw [Int.lt_ceil, lt_div_iff₀ hst] at h1
    have h1' : (i : K) * st < hi - lo := by simpa using h1
    obtain ⟨b, hb, eb⟩ := h.lo
    obtain ⟨t, ht, et⟩ := h.hi
    obtain ⟨r, hr, er⟩ := h.st
    have hz := zpow_pos2 (K := K) e
    have hr0 : 0 < r := by
      rw [er] at hst
      have := pos_of_mul_pos_left hst hz.le
      exact_mod_cast this
    rw [eb, et, er] at h1'
    have h2 : ((i * r : ℤ) : K) < ((t - b : ℤ) : K) := by
      have : ((i * r : ℤ) : K) * (2 : K) ^ e < ((t - b : ℤ) : K) * (2 : K) ^ e := by
        push_cast; linarith
      exact lt_of_mul_lt_mul_right this hz.le
    have h3 : (i : ℤ) * r < t - b := by exact_mod_cast h2
    have h4 : 0 ≤ (i : ℤ) * r := by positivity
    have hb' := abs_le.1 hb
    have ht' := abs_le.1 ht
    refine ⟨⟨b + i * r, ?_, ?_⟩, ⟨i * r, ?_, ?_⟩⟩
    · rw [abs_le]; constructor <;> omega
    · rw [eb, er]; push_cast; ring
    · rw [abs_le]; constructor <;> omega
    · rw [er]; push_cast; ring
  have hmap : (List.range ⌈(hi - lo) / st⌉.toNat).map (fun (i : Nat) =>
      if i = 0 then lo else if i = 1 then fl (lo + st) else fl (lo + fl ((i : K) * st))) =
      (List.range ⌈(hi - lo) / st⌉.toNat).map (fun (i : Nat) => lo + (i : K) * st) := by
    apply List.map_congr_left
    intro i hi'
    obtain ⟨k1, k2⟩ := key i hi'
    by_cases hi0 : i = 0
    · subst hi0; simp
    by_cases hi1 : i = 1
    · subst hi1; simp [e2]
    rw [if_neg hi0, if_neg hi1, k2.fl_eq (by norm_num), k1.fl_eq (by norm_num)]
  rw [hmap]
  simp only [List.map_map]
  congr 3
  apply List.map_congr_left
  intro i hi'
  obtain ⟨k1, _⟩ := key i hi'
  simp only [Function.comp_apply]
  rw [((k1.finer).add (h.st.half)).fl_eq (by norm_num)]

/-- The threshold is computed without error. -/
theorem threshold_exact {e : ℤ} {lo hi st : K} (h : GridDomain e lo hi st) (rest : List K) :
    threshold (lo :: hi :: st :: rest) = .ok ((hi - lo) / 2 + lo) := by
  obtain ⟨g0, g1, _⟩ := npGet_dom lo hi st rest
  unfold threshold
  rw [g0, g1]
  simp only [bind, Except.bind, pure, Except.pure]
  have hd := h.hi.sub h.lo
  rw [hd.fl_eq (by norm_num), hd.half.fl_eq (by norm_num),
    ((hd.half).add h.lo.finer).fl_eq (by norm_num)]

/-- On a domain with `m + 1` levels the levels are computed without error. -/
theorem linspace_exact {e : ℤ} {lo hi st : K} (h : GridDomain e lo hi st) (m : Nat)
    (hm : hi = lo + (m : K) * st) :
    linspace lo hi ((m : Int) + 1) = npLinspace lo hi ((m : Int) + 1) := by
  unfold linspace npLinspace
  rw [if_neg (by omega), if_neg (by omega)]
  show Except.ok _ = Except.ok _
  congr 1
  apply List.map_congr_left
  intro i hi'
  rw [List.mem_range] at hi'
  by_cases hm0 : m = 0
  · subst hm0; simp
  have hmK : (m : K) ≠ 0 := by exact_mod_cast hm0
  have hn1 : ¬ ((m : Int) + 1 = 1) := by omega
  rw [if_neg hn1, if_neg hn1]
  have hdiv : (hi - lo) / (((m : Int) + 1 : Int) - 1 : K) = st := by
    push_cast
    rw [hm, add_sub_cancel_left, add_sub_cancel_right, mul_div_assoc, mul_div_cancel₀]
    exact hmK
  have hdl : (hi - lo) = (m : K) * st := by rw [hm]; ring
  by_cases hl : (i : Int) = (m : Int) + 1 - 1
  · rw [if_pos hl, hdiv]
    have : i = m := by omega
    rw [this]
    exact hm
  · rw [if_neg hl, (h.hi.sub h.lo).fl_eq (by norm_num), hdiv, h.st.fl_eq (by norm_num)]
    obtain ⟨b, hb, eb⟩ := h.lo
    obtain ⟨t, ht, et⟩ := h.hi
    obtain ⟨r, hr, er⟩ := h.st
    have hz := zpow_pos2 (K := K) e
    have hmr : t = b + m * r := by
      have h2 : (t : K) * (2 : K) ^ e = ((b + m * r : ℤ) : K) * (2 : K) ^ e := by
        rw [← et, hm, eb, er]; push_cast; ring
      exact_mod_cast mul_right_cancel₀ hz.ne' h2
    have him : (i : Int) ≤ m := by omega
    have hb' := abs_le.1 hb
    have ht' := abs_le.1 ht
    have hir : |(i : ℤ) * r| ≤ 2 ^ 51 ∧ |(i : ℤ) * r + b| ≤ 2 ^ 52 := by
      have h1 : |(i : ℤ) * r| ≤ |(m : ℤ) * r| := by
        rw [abs_mul, abs_mul]
        apply mul_le_mul_of_nonneg_right _ (abs_nonneg r)
        rw [abs_of_nonneg (by positivity), abs_of_nonneg (by positivity)]
        exact him
      have h2 : |(m : ℤ) * r| ≤ 2 ^ 51 := by
        have : (m : ℤ) * r = t - b := by omega
        rw [this, abs_le]; constructor <;> omega
      have h3 := h1.trans h2
      refine ⟨h3, (abs_add_le _ _).trans ?_⟩
      omega
    have e5 : (i : K) * st = ((i * r : ℤ) : K) * (2 : K) ^ e := by rw [er]; push_cast; ring
    have e6 : (i : K) * st + lo = ((i * r + b : ℤ) : K) * (2 : K) ^ e := by
      rw [er, eb]; push_cast; ring
    rw [show fl ((i : K) * st) = (i : K) * st by
      rw [e5]; exact fl_exact (hir.1.trans (by norm_num))]
    rw [show fl ((i : K) * st + lo) = (i : K) * st + lo by
      rw [e6]; exact fl_exact (hir.2.trans (by norm_num))]
    ring

/-- Differences of scores on the grid are computed without error. -/
theorem diff_exact {e : ℤ} : ∀ {xs : List K}, (∀ x ∈ xs, Grid (2 ^ 50) e x) → diff xs = npDiff xs
  | [], _ => rfl
  | [_], _ => rfl
  | x :: y :: xs, h => by
    have ih := diff_exact (xs := y :: xs) (fun z hz => h z (List.mem_cons_of_mem _ hz))
    have hx := h x (by simp)
    have hy := h y (by simp)
    simp only [diff, npDiff]
    rw [ih, (hy.sub hx).fl_eq (by norm_num)]

/-- The default domain is estimated without error. -/
theorem resolve_exact {e : ℤ} {sc : List K} (h : ∀ x ∈ sc, Grid (2 ^ 50) e x) :
    resolveDomain sc none = ScoreData.resolveDomain sc none := by
  unfold resolveDomain ScoreData.resolveDomain
  rw [diff_exact (e := e) (fun x hx => h x ((mem_npUnique x sc).1 hx))]

theorem foldl_min_mem' (xs : List K) : ∀ x, xs.foldl min x ∈ x :: xs := by
  induction xs with
  | nil => intro x; simp
  | cons y ys ih =>
    intro x
    simp only [List.foldl_cons]
    rcases List.mem_cons.1 (ih (min x y)) with h | h
    · rcases min_choice x y with c | c
      · rw [c] at h ⊢; rw [h]; simp
      · rw [c] at h ⊢; rw [h]; simp
    · exact List.mem_cons_of_mem _ (List.mem_cons_of_mem _ h)

theorem foldl_max_mem' (xs : List K) : ∀ x, xs.foldl max x ∈ x :: xs := by
  induction xs with
  | nil => intro x; simp
  | cons y ys ih =>
    intro x
    simp only [List.foldl_cons]
    rcases List.mem_cons.1 (ih (max x y)) with h | h
    · rcases max_choice x y with c | c
      · rw [c] at h ⊢; rw [h]; simp
      · rw [c] at h ⊢; rw [h]; simp
    · exact List.mem_cons_of_mem _ (List.mem_cons_of_mem _ h)

theorem npMin_mem' {xs : List K} {v : K} (h : npMin xs = .ok v) : v ∈ xs := by
  cases xs with
  | nil => cases h
  | cons x xs => cases h; exact foldl_min_mem' xs x

theorem npMax_mem' {xs : List K} {v : K} (h : npMax xs = .ok v) : v ∈ xs := by
  cases xs with
  | nil => cases h
  | cons x xs => cases h; exact foldl_max_mem' xs x

theorem npDiff_grid {e : ℤ} : ∀ {xs : List K}, (∀ x ∈ xs, Grid (2 ^ 50) e x) →
    ∀ v ∈ npDiff xs, Grid (2 ^ 51) e v
  | [], _, v, hv => by simp [npDiff] at hv
  | [_], _, v, hv => by simp [npDiff] at hv
  | x :: y :: xs, h, v, hv => by
    simp only [npDiff, List.mem_cons] at hv
    rcases hv with rfl | hv
    · exact ((h y (by simp)).sub (h x (by simp))).mono (by norm_num)
    · exact npDiff_grid (xs := y :: xs) (fun z hz => h z (List.mem_cons_of_mem _ hz)) v hv

/-- An estimated domain is on the grid of the scores. -/
theorem resolve_grid {e : ℤ} {sc dm : List K} (h : ∀ x ∈ sc, Grid (2 ^ 50) e x)
    (hr : ScoreData.resolveDomain sc none = .ok dm) :
    ∃ lo hi st, dm = [lo, hi, st] ∧ GridDomain e lo hi st := by
  unfold ScoreData.resolveDomain at hr
  cases h1 : npMin sc with
  | error x => simp [h1, bind, Except.bind] at hr
  | ok lo =>
    cases h2 : npMax sc with
    | error x => simp [h1, h2, bind, Except.bind] at hr
    | ok hi =>
      cases h3 : npMin (npDiff (npUnique sc)) with
      | error x => simp [h1, h2, h3, bind, Except.bind] at hr
      | ok st =>
        simp only [h1, h2, h3, bind, Except.bind, pure, Except.pure, Except.ok.injEq] at hr
        refine ⟨lo, hi, st, hr.symm, h lo (npMin_mem' h1), h hi (npMax_mem' h2), ?_⟩
        exact npDiff_grid (fun x hx => h x ((mem_npUnique x sc).1 hx)) st (npMin_mem' h3)

end

/-! ### C114 -/

section
variable {K : Type} [Field K] [LinearOrder K] [IsStrictOrderedRing K] [FloorRing K]
variable {α φ ε : Type} [LinearOrder α]

/-- C114: loading with machine numbers, a domain on the grid being given. -/
theorem C114_set_event_given (d : ScoreData K α φ ε) (event : Arr2 α) (sc : List K)
    (ef : Option (List ε)) {e : ℤ} {lo hi st : K} (h : GridDomain e lo hi st) (rest : List K) :
    setEvent d event sc (some (lo :: hi :: st :: rest)) ef =
      d.setEvent event sc (some (lo :: hi :: st :: rest)) ef := by
  unfold setEvent ScoreData.setEvent
  simp only [resolveDomain, ScoreData.resolveDomain, levels_exact h rest]
  rfl

/-- C114: loading with machine numbers, the domain being estimated from scores on the grid: the
container is the one of the exact computation, and so is the exception if there is one. -/
theorem C114_set_event_estimated (d : ScoreData K α φ ε) (event : Arr2 α) (sc : List K)
    (ef : Option (List ε)) {e : ℤ} (h : ∀ x ∈ sc, Grid (2 ^ 50) e x) :
    setEvent d event sc none ef = d.setEvent event sc none ef := by
  unfold setEvent ScoreData.setEvent
  rw [resolve_exact h]
  cases hr : ScoreData.resolveDomain sc none with
  | error x => rfl
  | ok dm =>
    obtain ⟨lo, hi, st, rfl, hg⟩ := resolve_grid h hr
    simp only [levels_exact hg []]
    rfl

/-- C114: digitizing and binarizing with machine numbers. -/
theorem C114_digitize (d : ScoreData K α φ ε) {e : ℤ} {lo hi st : K} (h : GridDomain e lo hi st)
    (rest : List K) (hd : d.scoreDomain = some (lo :: hi :: st :: rest)) :
    (0 < st → ∀ xs, digitizeScore d xs = d.digitizeScore xs) ∧
      ∀ t, binarizeScore d t = d.binarizeScore t := by
  constructor
  · intro hst xs
    unfold digitizeScore ScoreData.digitizeScore
    rw [hd]
    simp only [bins_exact h hst rest]
    rfl
  · intro t
    unfold binarizeScore ScoreData.binarizeScore
    rw [hd]
    obtain ⟨g0, g1, _⟩ := npGet_dom lo hi st rest
    simp only [threshold_exact h rest, g0, g1]
    cases t <;> rfl

/-- C114 (partial: domains whose bounds and stride are multiples of one power of two; see
`C114_refuted`).  A container loaded with machine arithmetic and a regular domain has exactly the
levels `lo, lo + st, ..., hi`, and a score is digitized to the index of a nearest one. -/
theorem C114_machine_levels_partial {d0 d : ScoreData K α φ ε} (hr : Reachable d0.toEventData)
    {event : Arr2 α} (hev : event.Regular) {sc : List K} (hlen : sc.length = event.rows.length)
    {ef : Option (List ε)} (hef : ∀ f, ef = some f → f.length = event.rows.length)
    {e : ℤ} {lo hi st : K} (h : GridDomain e lo hi st) (hst : 0 < st) (m : Nat)
    (hm : hi = lo + (m : K) * st)
    (hd : setEvent d0 event sc (some [lo, hi, st]) ef = .ok d) :
    d.nScoreLevels = some ((m : Int) + 1) ∧
    ∃ ls, getScoreLevels d = .ok ls ∧ ls.length = m + 1 ∧
      (∀ (i : Nat) (l : K), ls[i]? = some l → l = lo + (i : K) * st) ∧
      (∀ xs : List K, ∃ ds, digitizeScore d (some xs) = .ok ds ∧ ds.length = xs.length ∧
        ∀ v ∈ ds, 0 ≤ v ∧ v < (m : Int) + 1) ∧
      (∀ x : K, ∃ j : Nat, digitizeScore d (some [x]) = .ok [(j : Int)] ∧
        ∃ lj, ls[j]? = some lj ∧ ∀ (i : Nat) (li : K), ls[i]? = some li → |x - lj| ≤ |x - li|) ∧
      digitizeScore d (some ls) = .ok ((List.range (m + 1)).map Int.ofNat) := by
  rw [C114_set_event_given d0 event sc ef h []] at hd
  have hb : ScoreBuilt d event.rows sc := .load hr hev hef hlen hd
  have hdom : d.scoreDomain = some [lo, hi, st] := by
    obtain ⟨_, _, dm, n, h2, _, h4, _⟩ := ScoreData.setEvent_ok hd
    simp only [ScoreData.resolveDomain, Except.ok.injEq] at h2
    rw [h4, ← h2]
  obtain ⟨hD, _⟩ := C114_digitize d h [] hdom
  obtain ⟨hn, _⟩ := C15_digitized_in_range_partial hb lo hi st m hdom hst hm []
  obtain ⟨ls, h1, h2, h3, h4, h5, _⟩ := C16_nearest_level hb lo hi st m hdom hst hm
  refine ⟨hn, ls, ?_, h2, h3, ?_, ?_, ?_⟩
  · rw [← h1]
    obtain ⟨g0, g1, _⟩ := npGet_dom lo hi st []
    unfold getScoreLevels ScoreData.getScoreLevels
    rw [hdom, hn]
    simp only [g0, g1, bind, Except.bind]
    exact linspace_exact h m hm
  · intro xs
    rw [hD hst]
    exact (C15_digitized_in_range_partial hb lo hi st m hdom hst hm xs).2
  · intro x
    obtain ⟨j, k1, lj, k2, k3⟩ := h4 x
    exact ⟨j, by rw [hD hst]; exact k1, lj, k2, fun i li hi' => (k3 i li hi').1⟩
  · rw [hD hst]; exact h5

end

/-! ### cases that meet the hypotheses, and one that does not -/

/-- Half stars, from 0.5 to 5. -/
theorem halfStars : GridDomain (-1) (1 / 2 : ℚ) 5 (1 / 2) :=
  ⟨⟨1, by norm_num, by norm_num⟩, ⟨10, by norm_num, by norm_num⟩, ⟨1, by norm_num, by norm_num⟩⟩

/-- Whole stars, from 1 to 5. -/
theorem wholeStars : GridDomain 0 (1 : ℚ) 5 1 :=
  ⟨⟨1, by norm_num, by norm_num⟩, ⟨5, by norm_num, by norm_num⟩, ⟨1, by norm_num, by norm_num⟩⟩

/-- Ten levels of half stars. -/
example : levelsOfDomain ([1 / 2, 5, 1 / 2] : List ℚ) = .ok 10 := by
  rw [levels_exact halfStars []]
  decide +kernel

/-- Three ratings with half stars meet the hypotheses of `C114_machine_levels_partial`. -/
example : ∃ d, setEvent exScoreLayout exEvent3 [1 / 2, 3, 5] (some [1 / 2, 5, 1 / 2]) none = .ok d ∧
    d.nScoreLevels = some 10 ∧ digitizeScore d none = .ok [0, 5, 9] := by
  have h1 : exScoreLayout.toEventData.setEvent exEvent3 none =
      .ok (exLayout.loaded exEvent3.rows none) :=
    EventData.setEvent_eq _ exLayout_reachable.wf _ exEvent3_regular rfl _
  have hl : ScoreData.levelsOfDomain ([1 / 2, 5, 1 / 2] : List ℚ) = .ok 10 := by decide +kernel
  refine ⟨{ (exLayout.loaded exEvent3.rows none : EventData Nat Nat Nat) with
          scoreDomain := some [1 / 2, 5, 1 / 2]
          score := some [1 / 2, 3, 5], nScoreLevels := some 10 }, ?_, rfl, ?_⟩
  · rw [C114_set_event_given _ _ _ _ halfStars []]
    unfold ScoreData.setEvent
    simp only [h1, ScoreData.resolveDomain, hl]
  · rw [(C114_digitize _ halfStars [] rfl).1 (by norm_num)]
    unfold ScoreData.digitizeScore
    decide +kernel

/-- The machine number written `0.1`. -/
theorem fl_tenth : fl (1 / 10 : ℚ) = 3602879701896397 / 2 ^ 55 := by
  rw [fl_eq (k := -4) (n := 7205759403792794)]
  · norm_num
  · norm_num
  · norm_num
  · norm_num [abs_lt]

/-- The machine number written `0.3`. -/
theorem fl_three_tenths : fl (3 / 10 : ℚ) = 5404319552844595 / 2 ^ 54 := by
  rw [fl_eq (k := -2) (n := 5404319552844595)]
  · norm_num
  · norm_num
  · norm_num
  · norm_num [abs_lt]

/-- `0.3 / 0.1` is less than 3. -/
theorem fl_quotient : fl (fl (3 / 10 : ℚ) / fl (1 / 10)) = 6755399441055743 / 2 ^ 51 := by
  rw [fl_tenth, fl_three_tenths, fl_eq (k := 1) (n := 6755399441055743)]
  · norm_num
  · norm_num [abs_of_pos]
  · norm_num [abs_of_pos]
  · norm_num [abs_lt]

theorem levels_decimal : levelsOfDomain ([0, fl (3 / 10), fl (1 / 10)] : List ℚ) = .ok 3 := by
  obtain ⟨g0, g1, g2⟩ := npGet_dom (0 : ℚ) (fl (3 / 10)) (fl (1 / 10)) []
  unfold levelsOfDomain
  rw [g0, g1, g2]
  simp only [bind, Except.bind, sub_zero]
  have h3 : fl (fl (3 / 10 : ℚ)) = fl (3 / 10) := by
    rw [fl_three_tenths]
    exact fl_of_double ⟨5404319552844595, -54, by norm_num, by norm_num⟩
  rw [h3, fl_quotient, if_neg (by rw [fl_tenth]; norm_num)]
  unfold pyInt
  rw [if_pos (by norm_num)]
  have : ⌊(6755399441055743 / 2 ^ 51 : ℚ)⌋ = 2 := by
    rw [Int.floor_eq_iff]; norm_num
  rw [this]
  rfl

/-- The score `0.3` is digitized to 3 over the domain `(0, 0.3, 0.1)`. -/
theorem digitize_decimal (d : ScoreData ℚ Nat Nat Nat)
    (hd : d.scoreDomain = some [0, fl (3 / 10), fl (1 / 10)]) :
    digitizeScore d (some [fl (3 / 10)]) = .ok [3] := by
  obtain ⟨g0, g1, g2⟩ := npGet_dom (0 : ℚ) (fl (3 / 10)) (fl (1 / 10)) []
  have h3 : fl (fl (3 / 10 : ℚ)) = fl (3 / 10) := by
    rw [fl_three_tenths]
    exact fl_of_double ⟨5404319552844595, -54, by norm_num, by norm_num⟩
  have h1 : fl (fl (1 / 10 : ℚ)) = fl (1 / 10) := by
    rw [fl_tenth]
    exact fl_of_double ⟨3602879701896397, -55, by norm_num, by norm_num⟩
  have hlen : ⌈(6755399441055743 / 2 ^ 51 : ℚ)⌉.toNat = 3 := by
    have : ⌈(6755399441055743 / 2 ^ 51 : ℚ)⌉ = 3 := by
      rw [Int.ceil_eq_iff]; norm_num
    rw [this]; rfl
  have hne : (fl (1 / 10 : ℚ)) ≠ 0 := by rw [fl_tenth]; norm_num
  have hr : List.range 3 = [0, 1, 2] := rfl
  have hbins : generateScoreBins [0, fl (3 / 10 : ℚ), fl (1 / 10)] = .ok
      ([⊥] ++ ([0, fl (1 / 10), fl (fl ((2 : Nat) * fl (1 / 10)))] : List ℚ).map
        (fun b => (((fl (b + fl (fl (1 / 10) / 2)) : ℚ) : WithTop ℚ) : Ext ℚ)) ++
          [((⊤ : WithTop ℚ) : Ext ℚ)]) := by
    unfold generateScoreBins
    rw [g0, g1, g2]
    simp only [bind, Except.bind]
    unfold arange
    rw [if_neg hne]
    simp only [sub_zero, zero_add, h3, h1, fl_quotient, hlen, hr, List.map_cons, List.map_nil,
      ↓reduceIte, one_ne_zero, OfNat.ofNat_ne_zero, OfNat.ofNat_ne_one]
    rfl
  have e0 := abs_le.1 (fl_error (fl (1 / 10 : ℚ) / 2))
  have e2 := abs_le.1 (fl_error ((2 : Nat) * fl (1 / 10 : ℚ)))
  have e2' := abs_le.1 (fl_error (fl ((2 : Nat) * fl (1 / 10 : ℚ))))
  have a0 := abs_le.1 (fl_error (0 + fl (fl (1 / 10 : ℚ) / 2)))
  have a1 := abs_le.1 (fl_error (fl (1 / 10 : ℚ) + fl (fl (1 / 10) / 2)))
  have a2 := abs_le.1 (fl_error (fl (fl ((2 : Nat) * fl (1 / 10 : ℚ))) + fl (fl (1 / 10) / 2)))
  generalize hx0 : fl (fl (1 / 10 : ℚ) / 2) = x0 at *
  generalize hx2 : fl ((2 : Nat) * fl (1 / 10 : ℚ)) = y2 at *
  generalize hx2' : fl y2 = x2 at *
  generalize hz0 : fl (0 + x0) = z0 at *
  generalize hz1 : fl (fl (1 / 10 : ℚ) + x0) = z1 at *
  generalize hz2 : fl (x2 + x0) = z2 at *
  rw [fl_tenth] at e0 e2 a1
  rw [abs_of_pos (by norm_num)] at e0 e2
  norm_num at e0 e2
  have p0 : (49 : ℚ) / 1000 ≤ x0 ∧ x0 ≤ 51 / 1000 := by constructor <;> linarith
  have p2 : (199 : ℚ) / 1000 ≤ y2 ∧ y2 ≤ 201 / 1000 := by constructor <;> linarith
  rw [abs_of_pos (by linarith)] at e2'
  have p2' : (198 : ℚ) / 1000 ≤ x2 ∧ x2 ≤ 202 / 1000 := by constructor <;> linarith
  rw [abs_of_pos (by linarith)] at a0 a1 a2
  have q0 : (48 : ℚ) / 1000 ≤ z0 ∧ z0 ≤ 52 / 1000 := by constructor <;> linarith
  have q1 : (140 : ℚ) / 1000 ≤ z1 ∧ z1 ≤ 160 / 1000 := by constructor <;> linarith
  have q2 : (240 : ℚ) / 1000 ≤ z2 ∧ z2 ≤ 260 / 1000 := by constructor <;> linarith
  have hq : (299 : ℚ) / 1000 ≤ fl (3 / 10) := by rw [fl_three_tenths]; norm_num
  unfold digitizeScore
  rw [hd]
  simp only [hbins, bind, Except.bind, List.map_cons, List.map_nil, hz0, hz1, hz2]
  have hs : ([⊥] ++ [((z0 : WithTop ℚ) : Ext ℚ), ((z1 : WithTop ℚ) : Ext ℚ), ((z2 : WithTop ℚ) : Ext ℚ)] ++
      [((⊤ : WithTop ℚ) : Ext ℚ)]).Pairwise (· ≤ ·) := by
    simp only [List.cons_append, List.nil_append, List.pairwise_cons, List.mem_cons,
      List.not_mem_nil, or_false, forall_eq_or_imp, forall_eq, bot_le, WithBot.coe_le_coe,
      WithTop.coe_le_coe, le_top, true_and, List.Pairwise.nil, and_true, IsEmpty.forall_iff,
      implies_true]
    refine ⟨⟨?_, ?_⟩, ?_⟩ <;> linarith
  unfold npDigitize
  rw [if_pos hs]
  simp only [List.map_cons, List.map_nil, List.cons_append, List.nil_append, List.countP_cons,
    List.countP_nil, pure, Except.pure]
  have c0 : z0 ≤ fl (3 / 10) := by linarith
  have c1 : z1 ≤ fl (3 / 10) := by linarith
  have c2 : z2 ≤ fl (3 / 10) := by linarith
  simp [c0, c1, c2]

/-- The full C114: a container loaded with the machine numbers nearest to the bounds `l`,
`l + m * s` and the stride `s` of a regular domain has `m + 1` levels and digitizes its scores
to them. -/
def C114_full : Prop :=
  ∀ (d0 d : ScoreData ℚ Nat Nat Nat) (event : Arr2 Nat) (sc : List ℚ) (l s : ℚ) (m : Nat),
    Reachable d0.toEventData → event.Regular → sc.length = event.rows.length → 0 < s →
    (∀ x ∈ sc, ∃ i : Nat, i ≤ m ∧ x = fl (l + i * s)) →
    setEvent d0 event sc (some [fl l, fl (l + m * s), fl s]) none = .ok d →
    d.nScoreLevels = some ((m : Int) + 1) ∧
      ∃ n ds, d.nScoreLevels = some n ∧ digitizeScore d none = .ok ds ∧ ∀ v ∈ ds, 0 ≤ v ∧ v < n

/-- The scores `0, 0.1, 0.2, 0.3`: the container reports 3 levels instead of 4, and the score `0.3`
is digitized to 3, which is not a level. -/
theorem C114_refuted : ¬ C114_full := by
  intro h
  have h1 : exScoreLayout.toEventData.setEvent exEvent3 none =
      .ok (exLayout.loaded exEvent3.rows none) :=
    EventData.setEvent_eq _ exLayout_reachable.wf _ exEvent3_regular rfl _
  have hset : setEvent exScoreLayout exEvent3 [fl (3 / 10), fl (3 / 10), fl (3 / 10)]
      (some [0, fl (3 / 10), fl (1 / 10)]) none = .ok
        { (exLayout.loaded exEvent3.rows none : EventData Nat Nat Nat) with
          scoreDomain := some [0, fl (3 / 10), fl (1 / 10)]
          score := some [fl (3 / 10), fl (3 / 10), fl (3 / 10)], nScoreLevels := some 3 } := by
    unfold setEvent
    simp only [h1, resolveDomain, levels_decimal]
  have e1 : fl (0 + (3 : Nat) * (1 / 10 : ℚ)) = fl (3 / 10) := by norm_num
  have := h exScoreLayout _ exEvent3 [fl (3 / 10), fl (3 / 10), fl (3 / 10)] 0 (1 / 10) 3
    exLayout_reachable exEvent3_regular rfl (by norm_num)
    (by
      intro x hx
      refine ⟨3, le_refl _, ?_⟩
      rw [e1]
      simpa using hx)
    (by rw [e1, fl_zero]; exact hset)
  have h2 := this.1
  simp at h2

/-- The same container: an observed score is digitized outside of the levels. -/
theorem C114_out_of_range :
    ∃ d : ScoreData ℚ Nat Nat Nat,
      setEvent exScoreLayout exEvent3 [fl (3 / 10), fl (3 / 10), fl (3 / 10)]
        (some [0, fl (3 / 10), fl (1 / 10)]) none = .ok d ∧
      d.nScoreLevels = some 3 ∧ digitizeScore d (some [fl (3 / 10)]) = .ok [3] := by
  have h1 : exScoreLayout.toEventData.setEvent exEvent3 none =
      .ok (exLayout.loaded exEvent3.rows none) :=
    EventData.setEvent_eq _ exLayout_reachable.wf _ exEvent3_regular rfl _
  refine ⟨{ (exLayout.loaded exEvent3.rows none : EventData Nat Nat Nat) with
          scoreDomain := some [0, fl (3 / 10), fl (1 / 10)]
          score := some [fl (3 / 10), fl (3 / 10), fl (3 / 10)], nScoreLevels := some 3 }, ?_, rfl,
    digitize_decimal _ rfl⟩
  unfold setEvent
  simp only [h1, resolveDomain, levels_decimal]

end Fl
end Kam

/-
Concrete runs of the command lines: the hypotheses of C100 to C104 are met.
-/
import Verif.Exp.Props5

set_option linter.unusedSectionVars false

namespace Kam.Exp
open Scripts Spec

namespace Ex

/-- Leaves of the example files. -/
inductive Val
  | id (n : Nat)
  | num (x : ℝ)
  | nat (n : Nat)
  | int (n : Int)
  | bool (b : Bool)
  | file (f : Option String)
  | time (t : Nat)
  | span (a b : Nat)
  | feature (k : String) (n : Nat)
  | opt (v : OptVal)

/-- The surroundings of the runs. -/
def env : Env ℝ Nat Nat String Val Nat Nat where
  gen := Scripts.Ex.rng
  ofSeed n := if 0 ≤ n then .ok n.toNat else .error .valueError
  entropy := 7
  id := .id
  num := .num
  nat := .nat
  int := .int
  bool := .bool
  file := .file
  names := ["timestamp"]
  field := .feature
  iso := .time
  elapsed := .span
  elapsedU := .span

/-- The libraries: an optimizer that returns where it starts, generators that draw ones. -/
noncomputable def lib : Lib Nat Unit Nat Val Nat where
  opt := fun _ f _ x0 _ _ => ⟨x0, true, 0, "", f x0, 1, 1, 1⟩
  normal := ⟨fun g _ _ _ _ => (fun _ _ => 1, g + 1)⟩
  dirichlet := ⟨fun g _ => (fun _ => 1, g + 1)⟩
  after := fun g _ => g + 3
  str := fun _ => ""
  leaf := .opt
  mf := fun _ => .leaf (.nat 0)
  plsa := fun _ => .leaf (.nat 0)

/-- How the statistics script reads the example files. -/
noncomputable def senv : StatsEnv Val where
  float v := match v with
    | .num q => .ok (.fin q)
    | _ => .error .valueError
  text v := match v with
    | .opt (.str s) => some s
    | _ => none
  num _ := .bool true
  nat := .nat
  int := .int
  auc := Metrics.pairsAuc

/-- The events of the file `data`: four of each of two users. -/
def rows : List (List Nat) := [[1, 10], [1, 11], [1, 12], [1, 13], [2, 10], [2, 14], [2, 12], [2, 13]]

/-- The scores of the file `data`. -/
def scores : List ℝ := [1, 5, 1, 5, 5, 1, 5, 1]

/-- Two files. -/
def read (_ : Bool) (f : String) : Res (Table ℝ Nat Nat) :=
  if f = "data" then .ok ⟨⟨2, rows⟩, scores, some [1, 2, 3, 4, 5, 6, 7, 8]⟩
  else if f = "test" then .ok ⟨⟨2, [[1, 14], [3, 10]]⟩, [1, 5], some [9, 10]⟩
  else .error .ioError

lemma read_ok : ∀ b f t, read b f = .ok t → TableOk t := by
  intro b f t h
  unfold read at h
  split_ifs at h
  · cases h
    refine ⟨?_, rfl, rfl, ?_⟩
    · unfold Arr2.Regular; decide
    · intro f hf; cases hf; rfl
  · cases h
    refine ⟨?_, rfl, rfl, ?_⟩
    · unfold Arr2.Regular; decide
    · intro f hf; cases hf; rfl

lemma twoEach : TwoEach rows := by
  intro u hu
  by_cases h1 : u = 1
  · subst h1; decide
  by_cases h2 : u = 2
  · subst h2; decide
  exfalso
  have : eventsOf rows u (List.range rows.length) = 0 := by
    unfold eventsOf
    rw [List.length_eq_zero_iff, List.filter_eq_nil_iff]
    intro i hi
    have hi' : i ∈ [0, 1, 2, 3, 4, 5, 6, 7] := by simpa [rows, List.range_succ] using hi
    simp only [List.mem_cons, List.not_mem_nil, or_false] at hi'
    rcases hi' with rfl | rfl | rfl | rfl | rfl | rfl | rfl | rfl <;> simp [rows] <;> omega
  omega

lemma robust (v : ℝ) (hv : v = 0 ∨ v = 1) : Robust rows (binarized [1, 5, 1] scores) v := by
  refine ⟨1, ?_⟩
  have e : binarized ([1, 5, 1] : List ℝ) scores = [0, 1, 0, 1, 1, 0, 1, 0] := by
    unfold binarized scores
    norm_num
  have e1 : eventsOf rows 1 (List.range rows.length) = 4 := by decide
  have e2 : eventsWith rows [0, 1, 0, 1, 1, 0, 1, 0] 1 v (List.range rows.length) = 2 := by
    have er : List.range rows.length = [0, 1, 2, 3, 4, 5, 6, 7] := by decide
    unfold eventsWith
    rw [er]
    rcases hv with rfl | rfl
    · simp [rows, List.filter]
    · simp [rows, List.filter]
  rw [e, e1, e2]
  norm_num

lemma twoIds : TwoIds 0 rows ∧ TwoIds 1 rows :=
  ⟨⟨[1, 10], by simp [rows], [2, 10], by simp [rows], 1, 2, rfl, rfl, by decide⟩,
    ⟨[1, 10], by simp [rows], [1, 11], by simp [rows], 10, 11, rfl, rfl, by decide⟩⟩

lemma spread : Spread rows := by
  intro x
  refine ⟨1, ?_⟩
  have e1 : eventsOf rows 1 (List.range rows.length) = 4 := by decide
  have er : List.range rows.length = [0, 1, 2, 3, 4, 5, 6, 7] := by decide
  have e2 : 3 ≤ eventsWith rows (otherItem rows x) 1 1 (List.range rows.length) := by
    unfold eventsWith otherItem
    rw [er]
    by_cases h1 : x = 10
    · subst h1; simp [rows, List.filter]
    by_cases h2 : x = 11
    · subst h2; simp [rows, List.filter]
    by_cases h3 : x = 12
    · subst h3; simp [rows, List.filter]
    by_cases h4 : x = 13
    · subst h4; simp [rows, List.filter]
    simp [rows, List.filter, Ne.symm h1, Ne.symm h2, Ne.symm h3, Ne.symm h4]
  omega

/-- The command line `-v cv -f 3 -r 5 -d 1 5 1 data` with a method. -/
noncomputable def args (m : String) : List (Arg String) := [.validation "cv", .fold 3, .rseed 5, .domain 1 5 1, .method m]

lemma options (sc : Script) (m : String) (hm : m ∈ sc.choices) : ∃ o, commandLine sc "stdin" "stdout" (args m) ["data"] = some o ∧
    o.method = m ∧ o.validation = "cv" ∧ o.fold = 3 ∧ o.rseed = some 5 ∧ o.foldNo = none ∧ o.domain = [1, 5, 1] ∧
    o.infile.getD o.infilep = "data" ∧ o.k = 1 ∧ o.alpha = 1 := by
  have hm' : (sc = .sp ∧ (m = "pmf" ∨ m = "plsam" ∨ m = "plsamm")) ∨ (sc = .itemFinder ∧ m = "lpmf") := by
    cases sc <;> simpa [Script.choices] using hm
  obtain ⟨o, ho⟩ := (C99_accepted (F := String) sc "stdin" "stdout" (args m) ["data"]).2
    ⟨by simp [args], by simp [args], by simpa [args] using hm', by simp [args], by simp⟩
  have h := C99_options ho
  refine ⟨o, ho, h.method, h.validation, h.fold, h.rseed, h.foldNo, h.domain, ?_, h.k, h.alpha⟩
  rw [h.infile]
  rfl

lemma ready {o : Namespace String} (h1 : o.rseed = some 5) (h2 : o.foldNo = none) : Ready env o := by
  constructor
  · intro n hn
    rw [h1] at hn
    cases hn
    exact ⟨5, rfl⟩
  · intro i hi
    rw [h2] at hi
    cases hi

/-- C103 is not vacuous: a command line with these options runs with every method, whatever clock and environment. -/
theorem runs (sc : Script) (m : String) (hm : m ∈ sc.choices) {o : Namespace String} (h1 : o.method = m) (h2 : o.validation = "cv")
    (h4 : o.rseed = some 5) (h5 : o.foldNo = none) (h6 : o.domain = [1, 5, 1]) (h7 : o.infile.getD o.infilep = "data")
    (h8 : o.k = 1) (h9 : o.alpha = 1) (clock : Nat → Nat) (environment : Dict String (J Val)) :
    ∃ j, task env lib clock environment read sc o = .ok j := by
  have hr := ready h4 h5
  have ht : read o.timestamp (o.infile.getD o.infilep) = .ok ⟨⟨2, rows⟩, scores, some [1, 2, 3, 4, 5, 6, 7, 8]⟩ := by
    rw [h7]; rfl
  have hU : Usable 1 5 1 scores := .inl one_ne_zero
  cases sc with
  | sp =>
    by_cases e1 : m = "pmf"
    · exact C103_pmf_cross_validation env lib clock environment read read_ok (h1.trans e1) h2 h6 hr ht hU
        fun _ => ⟨by omega, twoEach, twoIds.1, spread⟩
    · have e2 : o.method = "plsam" ∨ o.method = "plsamm" := by
        rw [h1]
        simpa [Script.choices, e1] using hm
      refine (C103_plsa_cross_validation env lib clock environment read read_ok (fun _ _ _ => zero_le_one) e2 (by omega)
        (by rw [h9]; exact one_pos) h2 h6 ?_).2 ⟨hr, _, ht, hU, fun _ => ⟨by simp [rows], twoEach⟩⟩
      intro t dm ht' hD
      cases hD with
      | given e _ => cases e; exact ⟨1, 1, 4, by norm_num, one_pos⟩
      | estimated e _ _ _ _ => norm_num at e
  | itemFinder =>
    have e1 : m = "lpmf" := by simpa [Script.choices] using hm
    exact C103_lpmf_cross_validation env lib clock environment read read_ok (h1.trans e1) h2 h6 hr ht (.given rfl one_ne_zero)
      fun _ => ⟨by omega, twoEach, twoIds.1, spread, robust 0 (.inl rfl), robust 1 (.inr rfl)⟩

/-- The command line runs with every method. -/
theorem run (sc : Script) (m : String) (hm : m ∈ sc.choices) : ∃ o, commandLine sc "stdin" "stdout" (args m) ["data"] = some o ∧
    o.method = m ∧ o.validation = "cv" ∧ o.fold = 3 ∧ o.rseed = some 5 ∧ o.foldNo = none ∧ o.domain = [1, 5, 1] ∧
    o.infile.getD o.infilep = "data" ∧ ∀ clock environment, ∃ j, task env lib clock environment read sc o = .ok j := by
  obtain ⟨o, h0, h1, h2, h3, h4, h5, h6, h7, h8, h9⟩ := options sc m hm
  exact ⟨o, h0, h1, h2, h3, h4, h5, h6, h7, runs sc m hm h1 h2 h4 h5 h6 h7 h8 h9⟩

lemma sufficient {o : Namespace String} (h2 : o.validation = "cv") (h3 : o.fold = 3) (h7 : o.infile.getD o.infilep = "data") : Suffices read o := by
  refine .inl ⟨h2, by omega, fun t ht => ?_⟩
  rw [h7] at ht
  cases ht
  rintro ⟨_, h, _⟩
  simp [rows] at h

/-- The result of such a command line has statistics. -/
lemma defined {sc : Script} {o : Namespace String} (h2 : o.validation = "cv") (h3 : o.fold = 3) (h6 : o.domain = [1, 5, 1])
    (h7 : o.infile.getD o.infilep = "data") {clock : Nat → Nat} {environment : Dict String (J Val)} {j : J Val}
    (hj : task env lib clock environment read sc o = .ok j) : ∃ out, stats senv false j = .ok out := by
  cases sc with
  | sp =>
    exact (C104_predictor_statistics_defined env lib clock environment read (se := senv) (fun _ => rfl) (fun _ => rfl) read_ok (by decide)
      h6 zero_le_one hj false).2 (sufficient h2 h3 h7)
  | itemFinder =>
    exact (C104_finder_statistics_defined env lib clock environment read (se := senv) (fun _ => rfl) (fun _ => rfl) read_ok (by decide)
      (by rw [h6]; rfl) hj false).2 (sufficient h2 h3 h7)

/-- C100 and C102 to C104 are not vacuous: every method's run can be distributed over its three folds, has statistics, and
records its options. -/
theorem pipeline (sc : Script) (m : String) (hm : m ∈ sc.choices) : ∃ o j files merged out,
    commandLine sc "stdin" "stdout" (args m) ["data"] = some o ∧ task env lib _root_.id [] read sc o = .ok j ∧
    [2, 0, 1].mapM (fun i : Nat => task env lib (fun t => 100 * i + t) [] read sc (o.vary (some (i : Int)) "out" false)) = .ok files ∧
    merge (.bool true) (.bool false) files = .ok merged ∧ statsOf senv merged = statsOf senv j ∧ stats senv false j = .ok out ∧
    (∃ options cls, Recorded env lib o options cls j) := by
  obtain ⟨o, h0, h1, h2, h3, h4, h5, h6, h7, h8⟩ := run sc m hm
  obtain ⟨j, hj⟩ := h8 _root_.id []
  obtain ⟨files, merged, k1, k2, _, _, k3, _, _, k4⟩ := C102_distributed env lib _root_.id [] read (se := senv) (fun _ => rfl)
    (fun _ _ => Metrics.pairsAuc_perm) read_ok (by decide) h2 h4 h5 hj [2, 0, 1] (by rw [h3]; decide) (by simp) (fun i t => 100 * i + t)
    (fun _ => []) (fun _ => "out") (fun _ => false) (.bool true) (.bool false)
  have hs := defined h2 h3 h6 h7 hj
  obtain ⟨out, hs⟩ := hs
  obtain ⟨options, cls, hrec, _⟩ := C100_recorded env lib _root_.id [] read hj
  exact ⟨o, j, files, merged, out, h0, hj, k1, k2, k4, hs, options, cls, hrec⟩

example : ∃ o j files merged out, commandLine .sp "stdin" "stdout" (args "plsamm") ["data"] = some o ∧
    task env lib _root_.id [] read .sp o = .ok j ∧
    [2, 0, 1].mapM (fun i : Nat => task env lib (fun t => 100 * i + t) [] read .sp (o.vary (some (i : Int)) "out" false)) = .ok files ∧
    merge (.bool true) (.bool false) files = .ok merged ∧ statsOf senv merged = statsOf senv j ∧ stats senv false j = .ok out ∧
    (∃ options cls, Recorded env lib o options cls j) := pipeline .sp "plsamm" (by simp [Script.choices])

end Ex

end Kam.Exp

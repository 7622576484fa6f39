/-
Concrete runs: the hypotheses of C60 to C65 are met, and the refutations of C63 and C64.
-/
import Verif.Scripts.Props4

set_option linter.unusedSectionVars false

namespace Kam.Scripts
open Spec

namespace Ex

/-- Leaves of the example files. -/
inductive Val
  | id (n : Nat)
  | num (q : ℚ)
  | nat (n : Nat)
  | int (n : Int)
  | bool (b : Bool)
  | file (f : Option Nat)
  | time (t : Nat)
  | span (a b : Nat)
  | feature (k : String) (n : Nat)
  | str (s : String)
  deriving DecidableEq

/-- A generator that rotates by its state. -/
def rng : Split.Rng Nat where
  shuffle s n := ((List.range n).rotate s, s + 1)
  perm _ _ := List.rotate_perm _ _

/-- The surroundings of the runs: one event feature, called `timestamp`. -/
def env : Env ℚ Nat Nat Nat Val Nat Nat where
  gen := rng
  ofSeed n := if 0 ≤ n then .ok n.toNat else .error .valueError
  entropy := 7
  id := .id
  num := .num
  nat := .nat
  int := .int
  bool := .bool
  file := .file
  names := ["timestamp"]
  field := .feature
  iso := .time
  elapsed := .span
  elapsedU := .span

/-- A recommender: the mean of the training scores plus the item number and the state of the generator. -/
def mean : Recommender ℚ Nat Unit Nat Val Nat ℚ where
  fit g d := match d.score with
    | some xs => .ok (xs.sum / xs.length + g, [("iterations", .leaf (.nat 3))], g + 1)
    | none => .error .typeError
  predict m evs := .ok (squeeze (evs.map (fun r => m + (r.getD 1 0 : Nat))))

/-- Three files: ten events of two users, three events, and four events of one user. -/
def read : Nat → Res (Table ℚ Nat Nat)
  | 0 => .ok ⟨⟨2, [[1, 10], [1, 11], [2, 10], [1, 12], [2, 13], [2, 11], [1, 13], [2, 12], [1, 14], [2, 14]]⟩,
      [1, 2, 3, 4, 5, 1, 2, 3, 4, 5], some [100, 101, 102, 103, 104, 105, 106, 107, 108, 109]⟩
  | 1 => .ok ⟨⟨2, [[1, 10], [2, 14], [3, 11]]⟩, [2, 4, 3], some [200, 201, 202]⟩
  | 2 => .ok ⟨⟨2, [[1, 10], [1, 14], [1, 11], [1, 12]]⟩, [2, 4, 3, 5], some [200, 201, 202, 203]⟩
  | _ => .error .ioError

lemma read_ok : ∀ f t, read f = .ok t → TableOk t := by
  intro f t h
  unfold read at h
  split at h
  · cases h
    refine ⟨?_, rfl, rfl, ?_⟩
    · unfold Arr2.Regular; decide
    · intro f hf; cases hf; rfl
  · cases h
    refine ⟨?_, rfl, rfl, ?_⟩
    · unfold Arr2.Regular; decide
    · intro f hf; cases hf; rfl
  · cases h
    refine ⟨?_, rfl, rfl, ?_⟩
    · unfold Arr2.Regular; decide
    · intro f hf; cases hf; rfl
  · cases h

lemma mean_scores : ScoresEach mean := by
  intro m evs esc h
  simp only [mean, Except.ok.injEq] at h
  exact ⟨_, h.symm, by simp⟩

/-- The command line of the runs. -/
def setting (cv : Bool) : Setting ℚ Nat Val where
  trainFile := 0
  testFile := some 1
  scoreDomain := [0, 0, 0]
  nFolds := 3
  cv := cv
  seed := some 5
  condition := [("method", .leaf (.str "mean"))]
  environment := [("script", .leaf (.str "exp"))]
  model := [("C", .leaf (.num (1 / 100)))]

lemma isOk_exists {β : Type} {x : Res β} (h : x.isOk = true) : ∃ y, x = .ok y := by
  cases x with
  | error e => simp [Except.isOk, Except.toBool] at h
  | ok y => exact ⟨y, rfl⟩

lemma run_cv : ∃ j, doTask env _root_.id mean (loadDataSP read) (setting true) none = .ok j :=
  isOk_exists (by decide +kernel)

lemma run_cv_if : ∃ j, doTask env _root_.id mean (loadDataIF read) (setting true) none = .ok j :=
  isOk_exists (by decide +kernel)

lemma run_holdout : ∃ j, doTask env _root_.id mean (loadDataSP read) (setting false) none = .ok j :=
  isOk_exists (by decide +kernel)

lemma run_holdout_if : ∃ j, doTask env _root_.id mean (loadDataIF read) (setting false) none = .ok j :=
  isOk_exists (by decide +kernel)

/-- C60 is not vacuous: three folds run one by one, merged in another order. -/
example : ∃ full files merged, doTask env _root_.id mean (loadDataSP read) (setting true) none = .ok full ∧
    [2, 0, 1].mapM (fun i => doTask env (fun t => 100 * i + t) mean (loadDataSP read)
        { setting true with condition := [], environment := [("host", .leaf (.nat i))] } (some (i : Int))) = .ok files ∧
    merge (.bool true) (.str "out") files = .ok merged ∧
    SameFold full merged "0" ∧ SameFold full merged "1" ∧ SameFold full merged "2" := by
  obtain ⟨full, h⟩ := run_cv
  obtain ⟨files, merged, h1, h2, _, _, _, h6, _⟩ := C60_folds_merge_to_full_run (loadDataSP_loads read_ok) (by decide)
    (by rfl) (by rfl) h [2, 0, 1] (by decide) (by simp) (fun i t => 100 * i + t) (fun _ => [])
    (fun i => [("host", .leaf (.nat i))]) (.bool true) (.str "out")
  exact ⟨full, files, merged, h, h1, h2, h6 0 (by decide), h6 1 (by decide), h6 2 (by decide)⟩

/-- C61 is not vacuous: the runs have folds, for both scripts. -/
example : (∃ j, doTask env _root_.id mean (loadDataSP read) (setting true) none = .ok j ∧ j.HasFold "2") ∧
    ∃ j, doTask env _root_.id mean (loadDataIF read) (setting true) none = .ok j ∧ j.HasFold "0" := by
  obtain ⟨j, h⟩ := run_cv
  obtain ⟨j', h'⟩ := run_cv_if
  exact ⟨⟨j, h, (C61_folds (loadDataSP_loads read_ok) rfl h "2").2 ⟨2, by decide, by simp, rfl⟩⟩,
    j', h', (C61_folds (loadDataIF_loads read_ok) rfl h' "0").2 ⟨0, by decide, by simp, rfl⟩⟩

lemma merged_stats : (do
    let files ← [2, 0, 1].mapM (fun i => doTask env (fun t => 100 * i + t) mean (loadDataSP read)
        { setting true with condition := [], environment := [("host", .leaf (.nat i))] } (some (i : Int)))
    let merged ← merge (Val.bool true) (Val.str "out") files
    statsInput merged).isOk = true := by decide +kernel

/-- C62 is not vacuous: a merged file, with its statistics. -/
example : ∃ j, Made env mean (loadDataSP read) (.bool true) j ∧ j.HasFold "0" ∧ (∃ t p, statsInput j = .ok (t, p)) ∧ ¬ j.OneTest := by
  obtain ⟨full, h⟩ := run_cv
  obtain ⟨files, merged, h1, h2, _, h4, h5, _, _⟩ := C60_folds_merge_to_full_run (loadDataSP_loads read_ok) (by decide)
    (by rfl) (by rfl) h [2, 0, 1] (by decide) (by simp) (fun i t => 100 * i + t) (fun _ => [])
    (fun i => [("host", .leaf (.nat i))]) (.bool true) (.str "out")
  have hm : Made env mean (loadDataSP read) (.bool true) merged := by
    refine .merge ?_ h2
    intro f hf
    rw [List.mapM_cons, List.mapM_cons, List.mapM_cons] at h1
    obtain ⟨a, e1, h1⟩ := bind_ok h1
    obtain ⟨l1, h1, h1'⟩ := bind_ok h1
    obtain ⟨b, e2, h1⟩ := bind_ok h1
    obtain ⟨l2, h1, h1''⟩ := bind_ok h1
    obtain ⟨c, e3, h1⟩ := bind_ok h1
    simp [pure, Except.pure, bind, Except.bind] at h1 h1' h1''
    subst h1 h1'' h1'
    simp at hf
    rcases hf with rfl | rfl | rfl
    · exact .run e1
    · exact .run e2
    · exact .run e3
  have hk : merged.HasFold "0" := (h4 _).1 ((h5 0).2 (by decide))
  have hs : ∃ t p, statsInput merged = .ok (t, p) := by
    have := merged_stats
    rw [h1, ok_bind, h2, ok_bind] at this
    obtain ⟨⟨t, p⟩, e⟩ := isOk_exists this
    exact ⟨t, p, e⟩
  exact ⟨merged, hm, hk, hs, (C62_defined_iff (loadDataSP_loads read_ok) mean_scores (by decide) hm "0" hk).1 hs⟩

lemma run_single : ∃ j, doTask env _root_.id mean (loadDataSP read) { setting true with trainFile := 2 } none = .ok j ∧
    (statsInput j).isOk = false := by
  have h : (doTask env _root_.id mean (loadDataSP read) { setting true with trainFile := 2 } none).isOk = true := by decide +kernel
  obtain ⟨j, hj⟩ := isOk_exists h
  have h2 : (doTask env _root_.id mean (loadDataSP read) { setting true with trainFile := 2 } none >>= statsInput).isOk = false := by
    decide +kernel
  rw [hj, ok_bind] at h2
  exact ⟨j, hj, h2⟩

end Ex

/-- Statistics are not defined for every result file with a fold: a cross validation of a file with four events
of one user tests a single event in each fold. -/
theorem C62_defined_refuted : ¬ ∀ j : J Ex.Val, Made Ex.env Ex.mean (loadDataSP Ex.read) (.bool true) j →
    (∃ key, j.HasFold key) → ∃ t p, statsInput j = .ok (t, p) := by
  intro hall
  obtain ⟨j, h, hf⟩ := Ex.run_single
  obtain ⟨t, p, e⟩ := hall j (.run h) ⟨"0", (C61_folds (loadDataSP_loads Ex.read_ok) rfl h "0").2 ⟨0, by decide, by simp, rfl⟩⟩
  rw [e] at hf
  simp [Except.isOk, Except.toBool] at hf

/-- C63 is false: merging the file of fold 0 with the file of a full run loses the folds 1 and 2 of the
latter. -/
theorem C63_refuted : ¬ ∀ (files : List (J Ex.Val)) (merged : J Ex.Val),
    (∀ f ∈ files, Made Ex.env Ex.mean (loadDataSP Ex.read) (.bool true) f) →
    merge (.bool true) (.str "out") files = .ok merged → ∀ f ∈ files, ∀ key, f.HasFold key → merged.HasFold key := by
  intro hall
  obtain ⟨full, h⟩ := Ex.run_cv
  obtain ⟨data, dom, ev, sc, users, items, l, hf, hl, hsingle⟩ :=
    doTask_single (n := 5) rfl rfl (loadDataSP_loads Ex.read_ok).score h
  obtain ⟨a, b, l', rfl, ha, hb⟩ : ∃ a b l', l = a :: b :: l' ∧ a.fold = 0 ∧ b.fold = 1 := by
    match l, hl with
    | [], hl => exact absurd hl (by decide)
    | [a], hl => simp [Ex.setting, List.range_succ] at hl
    | a :: b :: l', hl => simp [Ex.setting, List.range_succ] at hl; exact ⟨a, b, l', rfl, hl.1, hl.2.1⟩
  obtain ⟨t₁, t₂, t₃, t₄, e⟩ := hsingle a (by simp) _root_.id [] []
  have k0 : (recOf Ex.env ev sc data.eventFeature (a.at t₁ t₂ t₃ t₄)).key = "0" := by
    show Nat.repr a.fold = _; rw [ha]; rfl
  have k1 : (recOf Ex.env ev sc data.eventFeature a).key = "0" := by show Nat.repr a.fold = _; rw [ha]; rfl
  have k2 : (recOf Ex.env ev sc data.eventFeature b).key = "1" := by show Nat.repr b.fold = _; rw [hb]; rfl
  obtain ⟨merged, m1, m2, m3⟩ := C63_dropped
    (headOf Ex.env { Ex.setting true with condition := [], environment := [] } dom data users items)
    (headOf Ex.env (Ex.setting true) dom data users items) (recOf Ex.env ev sc data.eventFeature (a.at t₁ t₂ t₃ t₄))
    (recOf Ex.env ev sc data.eventFeature a) (recOf Ex.env ev sc data.eventFeature b)
    (l'.map (recOf Ex.env ev sc data.eventFeature)) (.bool true) (.str "out")
    (by
      intro ns hns
      have hh : data.eventFeature.map (fun _ => Ex.env.names) = some ns := hns
      refine ⟨?_, fun k hk => ⟨ns, hns, hk⟩⟩
      cases he : data.eventFeature with
      | none => rw [he] at hh; simp at hh
      | some x => rw [he] at hh; simp at hh; rw [← hh]; decide)
    (by rw [k0, k2]; decide) (by rw [k1, k2]; decide)
  refine m3 (hall _ merged ?_ m1 _ (by simp) _ m2)
  intro f hf'
  simp only [List.mem_cons, List.not_mem_nil, or_false] at hf'
  rcases hf' with rfl | rfl
  · exact .run e
  · rw [hf] at h
    exact .run h

/-- C64 is false: the test file is not the one recorded, and the test did not end when recorded. -/
theorem C64_refuted :
    ¬ (∀ (s : Setting ℚ Nat Ex.Val) (clock : Nat → Nat) (j : J Ex.Val), s.cv = false →
      doTask Ex.env clock Ex.mean (loadDataSP Ex.read) s none = .ok j →
      j.path ["test", "file"] = .ok (.leaf (.file s.testFile))) ∧
    ¬ (∀ (s : Setting ℚ Nat Ex.Val) (clock : Nat → Nat) (j : J Ex.Val), s.cv = false →
      doTask Ex.env clock Ex.mean (loadDataSP Ex.read) s none = .ok j →
      j.path ["test", "results", "0", "end_time"] = .ok (.leaf (.time (clock 3)))) := by
  obtain ⟨j, h⟩ := Ex.run_holdout
  obtain ⟨h1, h2⟩ := C64_recorded (loadDataSP_loads Ex.read_ok) rfl h
  constructor
  · intro hall
    have := hall (Ex.setting false) _root_.id j rfl h
    rw [h1] at this
    simp [Ex.env, Ex.setting] at this
  · intro hall
    have := hall (Ex.setting false) _root_.id j rfl h
    rw [h2] at this
    simp [Ex.env] at this

/-- C65 is not vacuous. -/
example : ∃ j, doTask Ex.env id Ex.mean (loadDataIF Ex.read) (Ex.setting false) none = .ok j ∧
    ∃ lo hi : ℚ, j.path ["prediction", "true"] =
      .ok (encScores Ex.env (([2, 4, 3] : List ℚ).map (fun x => if x ≤ (lo + hi) / 2 then 0 else 1))) ∧ lo = 1 ∧ hi = 5 := by
  obtain ⟨j, h⟩ := Ex.run_holdout_if
  obtain ⟨f, t₁, t₂, lo, hi, train, g, g', m, res, esc, h1, h2, h3, h4, h5, h6, h7, h8, h9⟩ :=
    C65_one_threshold Ex.read_ok rfl h
  have hf : f = 1 := by simpa [Ex.setting] using h1.symm
  subst hf
  simp only [Ex.read, Except.ok.injEq] at h2 h3
  subst h3
  refine ⟨j, h, lo, hi, h9, ?_⟩
  have e2 : t₁.score = [1, 2, 3, 4, 5, 1, 2, 3, 4, 5] := by
    have : Ex.read 0 = .ok t₁ := h2
    simp only [Ex.read, Except.ok.injEq] at this
    rw [← this]
  rcases h4 with ⟨_, ⟨l1, l2⟩, u1, u2⟩ | ⟨⟨x, hx, hne⟩, _⟩
  · rw [e2] at l1 l2 u1 u2
    have a1 := l2 1 (by simp)
    have a2 := u2 5 (by simp)
    simp at l1 u1
    constructor
    · rcases l1 with rfl | rfl | rfl | rfl | rfl | rfl | rfl | rfl | rfl | rfl <;> first | rfl | (exfalso; norm_num at a1)
    · rcases u1 with rfl | rfl | rfl | rfl | rfl | rfl | rfl | rfl | rfl | rfl <;> first | rfl | (exfalso; norm_num at a2)
  · simp [Ex.setting] at hx
    exact absurd hx hne

end Kam.Scripts

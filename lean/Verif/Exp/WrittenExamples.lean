/-
A concrete run whose result is written: the hypotheses of C116 are met.
-/
import Verif.Exp.Written
import Verif.Exp.Examples

set_option linter.unusedSectionVars false

namespace Kam.Exp
open Scripts Spec

namespace ExWritten

/-- The values as Python has them: numpy numbers, files and dates as objects. -/
def env : Env ℝ Nat Nat String (Util.Val ℝ Unit) Nat Nat where
  gen := Scripts.Ex.rng
  ofSeed n := if 0 ≤ n then .ok n.toNat else .error .valueError
  entropy := 7
  id n := .npInt n
  num x := .npFloat x
  nat n := .int n
  int n := .int n
  bool b := .bool b
  file f := match f with
    | some s => .obj s
    | none => .none
  names := ["timestamp"]
  field _ n := .npInt n
  iso t := .str (toString t)
  elapsed _ _ := .obj "0:00:01"
  elapsedU _ _ := .obj "0:00:01"

/-- The libraries of the other examples. -/
noncomputable def lib : Lib Nat Unit Nat (Util.Val ℝ Unit) Nat where
  opt := fun _ f _ x0 _ _ => ⟨x0, true, 0, "", f x0, 1, 1, 1⟩
  normal := ⟨fun g _ _ _ _ => (fun _ _ => 1, g + 1)⟩
  dirichlet := ⟨fun g _ => (fun _ => 1, g + 1)⟩
  after := fun g _ => g + 3
  str := fun _ => ""
  leaf v := match v with
    | .none => .none
    | .bool b => .bool b
    | .int n => .int n
    | .real x => .float x
    | .str s => .str s
  mf := fun _ => .leaf (.npBool true)
  plsa := fun _ => .leaf (.npFloat 0)

/-- `exp_recsys_sp.py -v cv -f 3 -d 1 5 1 data`. -/
noncomputable def args : List (Arg String) := [.validation "cv", .fold 3, .domain 1 5 1]

/-- A run of `PMF` without a seed has a result that can be written; the file has the string `None` for the seed. -/
example : ∃ j j', main env lib id [("version", .leaf (.str "1"))] Ex.read .sp "stdin" "stdout" args ["data"] = some (.ok j) ∧
    Writes j j' ∧ J.Leaves Stored j' ∧ j'.path ["model", "options", "random_state"] = .ok (.leaf (.str "None")) := by
  obtain ⟨o, ho⟩ := (C99_accepted (F := String) .sp "stdin" "stdout" args ["data"]).2
    ⟨by simp [args], by simp [args], by simp [args], by simp [args], by simp⟩
  have h := C99_options ho
  have hi : o.infile.getD o.infilep = "data" := by rw [h.infile]; rfl
  have hseed : o.rseed = none := h.rseed
  have hfold : o.foldNo = none := h.foldNo
  have hk : o.k = 1 := h.k
  obtain ⟨j, hj⟩ := C103_pmf_cross_validation env lib id [("version", .leaf (.str "1"))] Ex.read Ex.read_ok h.method h.validation
    h.domain ⟨fun n hn => (by rw [hseed] at hn; cases hn), fun i hi => (by rw [hfold] at hi; cases hi)⟩
      (t := ⟨⟨2, Ex.rows⟩, Ex.scores, some [1, 2, 3, 4, 5, 6, 7, 8]⟩) (by rw [hi]; rfl) (.inl one_ne_zero)
      fun _ => ⟨by omega, Ex.twoEach, Ex.twoIds.1, Ex.spread⟩
  have hm : main env lib id [("version", .leaf (.str "1"))] Ex.read .sp "stdin" "stdout" args ["data"] = some (.ok j) := by
    unfold main
    rw [ho, Option.map_some, hj]
  obtain ⟨j', h1, h2⟩ := C116_experiment
    ⟨fun _ => .npInt _, fun _ => .npFloat _, fun _ => .int _, fun _ => .int _, fun f => by cases f <;> constructor,
      fun _ _ => .npInt _, fun _ => .str _, fun _ _ => .obj _, fun _ _ => .obj _⟩
    ⟨fun x => by cases x <;> constructor, fun _ => .leaf (.npBool _), fun _ => .leaf (.npFloat _)⟩
    (.cons (.leaf (.str _)) .nil) hm
  exact ⟨j, j', hm, h1, h2, C116_no_seed rfl hseed hj h1⟩

/-- The values as they are in a result file. -/
def stored : Env ℝ Nat Nat String (Util.Val ℝ Unit) Nat Nat :=
  { env with
    id := fun n => .int n
    num := fun x => .float x
    file := fun f => .str (f.getD "None")
    field := fun _ n => .int n
    elapsed := fun _ _ => .str "0:00:01"
    elapsedU := fun _ _ => .str "0:00:01" }

/-- See `stored`. -/
noncomputable def storedLib : Lib Nat Unit Nat (Util.Val ℝ Unit) Nat :=
  { lib with
    leaf := fun v => match v with
      | .none => .str "None"
      | .bool b => .bool b
      | .int n => .int n
      | .real x => .float x
      | .str s => .str s
    mf := fun _ => .leaf (.str "True")
    plsa := fun _ => .leaf (.float 0) }

/-- How the statistics script reads and writes numbers. -/
noncomputable def senv : StatsEnv (Util.Val ℝ Unit) where
  float v := match v with
    | .float q => .ok (.fin q)
    | _ => .error .valueError
  text v := match v with
    | .str s => some s
    | _ => none
  num _ := .npFloat 0
  nat n := .int n
  int n := .npInt n
  auc := Metrics.pairsAuc

/-- A result file whose statistics are made, and written into it. -/
example : ∃ j st, J.Leaves Stored j ∧ statsOf senv j = .ok st ∧ ∃ st', Writes st st' ∧
    ∃ w, j.setItem "statistics" st' = .ok w ∧ Util.Serializable (value w) := by
  obtain ⟨o, h0, h1, h2, h3, h4, h5, h6, h7, h8, h9⟩ := Ex.options .sp "pmf" (by decide)
  obtain ⟨j, hj⟩ := C103_pmf_cross_validation stored storedLib id [] Ex.read Ex.read_ok h1 h2 h6
    ⟨fun n hn => (by rw [h4] at hn; cases hn; exact ⟨5, rfl⟩), fun i hi => (by rw [h5] at hi; cases hi)⟩
      (t := ⟨⟨2, Ex.rows⟩, Ex.scores, some [1, 2, 3, 4, 5, 6, 7, 8]⟩) (by rw [h7]; rfl) (.inl one_ne_zero)
      fun _ => ⟨by omega, Ex.twoEach, Ex.twoIds.1, Ex.spread⟩
  have hl : J.Leaves Stored j := task_leaves
    ⟨fun _ => .int _, fun _ => .float _, fun _ => .int _, fun _ => .int _, fun _ => .str _,
      fun _ _ => .int _, fun _ => .str _, fun _ _ => .str _, fun _ _ => .str _⟩
    ⟨fun x => by cases x <;> constructor, fun _ => .leaf (.str _), fun _ => .leaf (.float _)⟩ .nil hj
  obtain ⟨out, hs⟩ := (C104_predictor_statistics_defined stored storedLib id [] Ex.read (se := senv) (fun _ => rfl) (fun _ => rfl)
    Ex.read_ok (by decide) h6 zero_le_one hj true).2 (Ex.sufficient h2 h3 h7)
  unfold stats at hs
  obtain ⟨st, hst, _⟩ := bind_ok hs
  obtain ⟨st', hw, _, hall⟩ := C116_stats (se := senv) ⟨fun _ => .npFloat _, fun _ => .int _, fun _ => .npInt _⟩ hl hst
  obtain ⟨d, rfl⟩ := task_dict hj
  exact ⟨_, st, hl, hst, st', hw, _, rfl, (hall _ rfl).1⟩

/-- The file of one fold. -/
def foldFile (fold : String) : J (Util.Val ℝ Unit) :=
  let one : String → J (Util.Val ℝ Unit) := fun s => .dict [(fold, .leaf (.str s))]
  .dict [("condition", .dict []), ("environment", .dict [("host", .leaf (.str "h"))]),
    ("training", .dict [("results", one "a")]), ("test", .dict [("results", one "b")]),
    ("prediction", .dict [("event", one "c")])]

/-- Two such files are merged, and the result can be written as it is. -/
example : (∀ j ∈ [foldFile "0", foldFile "1"], J.Leaves Stored j) ∧
    ∃ w, merge (.bool true) (.str "out") [foldFile "0", foldFile "1"] = .ok w ∧ Util.Serializable (value w) := by
  have h : ∀ s, J.Leaves Stored (foldFile s) := fun s =>
    .dict (AllLeaves.cons (.dict AllLeaves.nil) (.cons (.dict (AllLeaves.cons (.leaf (.str _)) .nil))
      (.cons (.dict (AllLeaves.cons (.dict (AllLeaves.cons (.leaf (.str _)) .nil)) .nil))
      (.cons (.dict (AllLeaves.cons (.dict (AllLeaves.cons (.leaf (.str _)) .nil)) .nil))
      (.cons (.dict (AllLeaves.cons (.dict (AllLeaves.cons (.leaf (.str _)) .nil)) .nil)) .nil)))))
  have hf : ∀ j ∈ [foldFile "0", foldFile "1"], J.Leaves Stored j := by
    intro j hj
    simp only [List.mem_cons, List.not_mem_nil, or_false] at hj
    rcases hj with rfl | rfl <;> exact h _
  refine ⟨hf, ?_⟩
  cases e : merge (.bool true) (.str "out") [foldFile "0", foldFile "1"] with
  | error x => exact absurd e (by
      intro e
      have : merge (.bool true) (.str "out") [foldFile "0", foldFile "1"] = .ok _ := rfl
      rw [e] at this
      cases this)
  | ok w => exact ⟨w, rfl, (C116_merge hf e).2.1⟩

end ExWritten

end Kam.Exp

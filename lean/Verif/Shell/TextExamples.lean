/-
Result files as text: the hypotheses of C112 and C126 are met together.
-/
import Verif.Shell.Text
import Verif.Shell.Examples
import Verif.Json.Examples

set_option linter.unusedSectionVars false

namespace Kam.Shell
open Scripts Spec Json
open Kam.Convert (Str)
open Exp (Arg Namespace Script commandLine)

namespace TextEx
open Json.Examples (whole whole_faithful)

/-- A number as a float of the example: rounded down. -/
noncomputable def float (x : ℝ) : Atom Int := .float ⌊x⌋

/-- The surroundings of Exp/Examples with leaves that can be written. -/
noncomputable def env : Env ℝ Nat Nat String (Atom Int) Nat Nat where
  gen := Scripts.Ex.rng
  ofSeed n := if 0 ≤ n then .ok n.toNat else .error .valueError
  entropy := 7
  id n := .int n
  num := float
  nat n := .int n
  int := .int
  bool := .bool
  file f := .str (f.getD "")
  names := ["timestamp"]
  field _ n := .int n
  iso t := .str (Nat.repr t)
  elapsed a b := .str (Nat.repr (b - a))
  elapsedU a b := .str (Nat.repr (b - a))

/-- The libraries of Exp/Examples. -/
noncomputable def lib : Exp.Lib Nat Unit Nat (Atom Int) Nat where
  opt := fun _ f _ x0 _ _ => ⟨x0, true, 0, "", f x0, 1, 1, 1⟩
  normal := ⟨fun g _ _ _ _ => (fun _ _ => 1, g + 1)⟩
  dirichlet := ⟨fun g _ => (fun _ => 1, g + 1)⟩
  after := fun g _ => g + 3
  str := fun _ => ""
  leaf v := match v with
    | .none => .null
    | .bool b => .bool b
    | .int n => .int n
    | .real x => float x
    | .str s => .str s
  mf := fun _ => .leaf (.int 0)
  plsa := fun _ => .leaf (.int 0)

/-- How the statistics script reads the leaves. -/
noncomputable def senv : StatsEnv (Atom Int) where
  float v := match v with
    | .float n => .ok (.fin n)
    | _ => .error .valueError
  text v := match v with
    | .str s => some s
    | _ => none
  num _ := .nan
  nat n := .int n
  int := .int
  auc := Metrics.pairsAuc

/-- A machine whose result files are text; a file of events is recognised by its first character. -/
noncomputable def setup : Setup String Str Nat Unit Nat (Atom Int) Nat Nat where
  env := env
  lib := lib
  se := senv
  tru := .bool true
  empty := []
  table _ c := if c.head? = some '1' then .ok Ex.events else .error .valueError
  encode := dumps whole
  parts j := (List.range (dumps whole j).length).map (fun n => (dumps whole j).take n)
  decode := loads whole
  stdin := "stdin"
  stdout := "stdout"

theorem textual : Textual whole setup where
  empty := rfl
  encode := rfl
  decode := rfl
  parts j c hc := by
    obtain ⟨n, _, rfl⟩ := List.mem_map.1 hc
    exact List.take_prefix _ _

lemma keys : setup.lib.Keys := ⟨fun _ => .leaf _, fun _ => .leaf _⟩

/-- The clock and the environment of a run. -/
def machine (n : Nat) : Machine (Atom Int) Nat := ⟨fun t => 100 * n + t, [("host", .leaf (.int n))]⟩

/-- A machine with the events and a file that another program left half written. -/
def files : Files String Str := fun f => if f = "data" then some ['1'] else if f = "old" then some ['{'] else none

lemma table_ok : ∀ b c t, setup.table b c = .ok t → TableOk t := by
  intro b c t h
  simp only [setup] at h
  split at h
  · cases h; exact Ex.events_ok
  · cases h

lemma machine_keys (n : Nat) : AllKeys (machine n).environment := AllKeys.nil.cons (.leaf _) (by simp [Dict.keys])

/-- A command line of Exp/Examples runs with every method. -/
theorem runs (sc : Script) (m : String) (hm : m ∈ sc.choices) {o : Namespace String} (h1 : o.method = m) (h2 : o.validation = "cv")
    (h4 : o.rseed = some 5) (h5 : o.foldNo = none) (h6 : o.domain = [1, 5, 1]) (h7 : o.infile.getD o.infilep = "data")
    (h8 : o.k = 1) (h9 : o.alpha = 1) (clock : Nat → Nat) (environment : Dict String (J (Atom Int))) :
    ∃ j, Exp.task env lib clock environment (reader setup files) sc o = .ok j := by
  have hr : Exp.Ready env o := by
    constructor
    · intro n hn
      rw [h4] at hn
      cases hn
      exact ⟨5, rfl⟩
    · intro i hi
      rw [h5] at hi
      cases hi
  have read_ok : ∀ b f t, reader setup files b f = .ok t → TableOk t := by
    intro b f t h
    unfold reader at h
    cases hw : files f with
    | none => rw [hw] at h; cases h
    | some c => rw [hw] at h; exact table_ok b c t h
  have ht : reader setup files o.timestamp (o.infile.getD o.infilep) = .ok Ex.events := by
    rw [h7]; rfl
  have hU : Exp.Usable 1 5 1 Exp.Ex.scores := .inl one_ne_zero
  cases sc with
  | sp =>
    by_cases e1 : m = "pmf"
    · exact Exp.C103_pmf_cross_validation env lib clock environment _ read_ok (h1.trans e1) h2 h6 hr ht hU
        fun _ => ⟨by omega, Exp.Ex.twoEach, Exp.Ex.twoIds.1, Exp.Ex.spread⟩
    · have e2 : o.method = "plsam" ∨ o.method = "plsamm" := by
        rw [h1]
        simpa [Script.choices, e1] using hm
      refine (Exp.C103_plsa_cross_validation env lib clock environment _ read_ok (fun _ _ _ => zero_le_one) e2 (by omega)
        (by rw [h9]; exact one_pos) h2 h6 ?_).2 ⟨hr, _, ht, hU, fun _ => ⟨by simp [Ex.events, Exp.Ex.rows], Exp.Ex.twoEach⟩⟩
      intro t dm ht' hD
      cases hD with
      | given e _ => cases e; exact ⟨1, 1, 4, by norm_num, one_pos⟩
      | estimated e _ _ _ _ => norm_num at e
  | itemFinder =>
    have e1 : m = "lpmf" := by simpa [Script.choices] using hm
    exact Exp.C103_lpmf_cross_validation env lib clock environment _ read_ok (h1.trans e1) h2 h6 hr ht (.given rfl one_ne_zero)
      fun _ => ⟨by omega, Exp.Ex.twoEach, Exp.Ex.twoIds.1, Exp.Ex.spread, Exp.Ex.robust 0 (.inl rfl), Exp.Ex.robust 1 (.inr rfl)⟩

/-- The commands of the folds, last one first. -/
noncomputable def folds (sc : Script) (m : String) : List (Machine (Atom Int) Nat × Command String) :=
  [2, 1, 0].map (fun i => (machine i, foldRun sc (Exp.Ex.args m) ["data"] i (Ex.fold i)))

/-- The full run succeeds. -/
lemma full (sc : Script) (m : String) (hm : m ∈ sc.choices) (n : Nat) :
    (((fullRun sc (Exp.Ex.args m) ["data"] "full").prog setup (machine n)).run files).1 = .success := by
  obtain ⟨o, h0, h1, h2, h3, h4, h5, h6, h7, h8, h9⟩ := Exp.Ex.options sc m hm
  have h7' : (o.vary o.foldNo "full" o.verbose).infile.getD (o.vary o.foldNo "full" o.verbose).infilep = "data" := h7
  obtain ⟨j, hj⟩ := runs sc m hm (o := o.vary o.foldNo "full" o.verbose) h1 h2 h4 h5 h6 h7' h8 h9 (machine n).clock (machine n).environment
  obtain ⟨u, hu, k1, _⟩ := C109_experiment setup (machine n) (w := files) (commandLine_more h0 "full").1 (by
    intro f hf
    rw [(Ex.targets m "full" sc).2] at hf
    simp only [List.mem_singleton] at hf
    subst hf
    simp [files]) (by
    intro f hf
    rw [(Ex.targets m "full" sc).2] at hf
    rw [(Ex.targets m "full" sc).1]
    rcases hf with hf | rfl
    · simp only [List.mem_singleton] at hf
      subst hf
      decide
    · decide)
  cases hu
  exact (k1 j hj).1

/-- C112 and C126 are not vacuous together: with every method, the folds run at the same time leave text that is merged to the
data of the full run. -/
theorem pipeline (sc : Script) (m : String) (hm : m ∈ sc.choices) (schedule : List Nat)
    (hs : ∀ i < 3, ∃ x, (together (programs setup (folds sc m)) files schedule).1 i = .done x) :
    ∃ fullJ mergedJ, (((fullRun sc (Exp.Ex.args m) ["data"] "full").prog setup (machine 7)).run files).2 "full" = some (dumps whole fullJ) ∧
      (((Command.merge [.outfile "merged"] [Ex.fold 2, Ex.fold 1, Ex.fold 0]).prog setup (machine 8)).run
        (together (programs setup (folds sc m)) files schedule).2).2 "merged" = some (dumps whole mergedJ) ∧ SameData fullJ mergedJ := by
  obtain ⟨o, h0, h1, h2, h3, h4, h5, h6, h7, h8, h9⟩ := Exp.Ex.options sc m hm
  obtain ⟨j, mj, k1, _, k2⟩ := C112_pipeline setup (textual.read_back whole_faithful) keys (round := fun x => ⌊x⌋) (fun _ => rfl)
    (fun _ _ => Metrics.pairsAuc_perm) table_ok (by decide) h0 h2 h4 h5 rfl files (machine 7) (full := "full") (outs := Ex.fold)
    (merged := "merged") (stat := "stat")
    (by
      have key : ∀ f : String, f = "data" ∨ f = "stdin" → f ≠ "full" ∧ (∀ i, f ≠ Ex.fold i) ∧ f ≠ "merged" ∧ f ≠ "stat" := by
        rintro f (rfl | rfl)
        · exact ⟨by decide, fun i => (Ex.fold_ne i (by decide)).symm, by decide, by decide⟩
        · exact ⟨by decide, fun i => (Ex.fold_ne i (by decide)).symm, by decide, by decide⟩
      intro f hf
      refine key f (hf.imp (fun h => ?_) (fun h => h))
      simpa [Command.reads, Exp.Ex.args] using h)
    (full sc m hm 7) Ex.fold_inj (fun i => Ex.fold_ne i (by decide)) (by decide) [2, 1, 0] (by rw [h3]; decide) (by simp)
    machine machine_keys (machine 8) (machine 9) schedule [] (.inl rfl) hs
  obtain ⟨_, k3, k4, _⟩ := k2 _ rfl
  exact ⟨j, mj, k1, k3, k4⟩

/-- C126 applies to these folds, also to those that were stopped: what can be read is a complete result. -/
example (sc : Script) (m : String) (schedule : List Nat) (i : Nat) {j : J (Atom Int)}
    (h : load setup ((together (programs setup (folds sc m)) files schedule).2 (Ex.fold i)) = .ok j) :
    (together (programs setup (folds sc m)) files schedule).2 (Ex.fold i) = some (dumps whole j) := by
  refine (C126_never_half whole_faithful textual (by decide) keys (folds sc m) ?_ files schedule (Ex.fold i) h).resolve_left (fun e => ?_)
  · intro c hc
    obtain ⟨i, _, rfl⟩ := List.mem_map.1 hc
    exact machine_keys i
  · have hn : files (Ex.fold i) = none := by
      unfold files
      rw [if_neg (Ex.fold_ne i (by decide)), if_neg (Ex.fold_ne i (by decide))]
    rw [e, hn] at h
    cases h

end TextEx

end Kam.Shell

/-
Concrete machines: the hypotheses of C109 to C112 are met.
-/
import Verif.Shell.Pipeline
import Verif.Exp.Examples

set_option linter.unusedSectionVars false

namespace Kam.Shell
open Scripts Spec
open Exp (Arg Namespace Script commandLine)

namespace Ex
open Exp.Ex (Val)

/-- What is in a file of the example. -/
inductive Content
  | nothing
  | events
  | begun (j : J Val)
  | json (j : J Val)

/-- The events of Exp/Examples. -/
def events : Table ℝ Nat Nat := ⟨⟨2, Exp.Ex.rows⟩, Exp.Ex.scores, some [1, 2, 3, 4, 5, 6, 7, 8]⟩

lemma events_ok : TableOk events := Exp.Ex.read_ok true "data" events rfl

/-- The surroundings of Exp/Examples with files. -/
noncomputable def setup : Setup String Content Nat Unit Nat Val Nat Nat where
  env := Exp.Ex.env
  lib := Exp.Ex.lib
  se := Exp.Ex.senv
  tru := .bool true
  empty := .nothing
  table _ c := match c with
    | .events => .ok events
    | _ => .error .valueError
  encode := .json
  parts j := [.nothing, .begun j]
  decode c := match c with
    | .json j => .ok j
    | _ => .error .valueError
  stdin := "stdin"
  stdout := "stdout"

/-- The clock and the environment of a run. -/
def machine (n : Nat) : Machine Val Nat := ⟨fun t => 100 * n + t, [("host", .leaf (.nat n))]⟩

/-- A machine with the events. -/
def files : Files String Content := fun f => if f = "data" then some .events else if f = "old" then some .nothing else none

lemma reader_data (b : Bool) : reader setup files b "data" = Exp.Ex.read b "data" := rfl

/-- The options `--out` of the runs. -/
lemma runs (sc : Script) (m : String) (hm : m ∈ sc.choices) (u : String) (clock : Nat → Nat) (environment : Dict String (J Val)) :
    ∃ o, commandLine sc "stdin" "stdout" (Exp.Ex.args m ++ [.outfile u]) ["data"] = some o ∧
      ∃ j, Exp.task Exp.Ex.env Exp.Ex.lib clock environment (reader setup files) sc o = .ok j ∧
      ∃ st, statsOf Exp.Ex.senv j = .ok st := by
  obtain ⟨o, h0, h1, h2, h3, h4, h5, h6, h7, h8, h9⟩ := Exp.Ex.options sc m hm
  refine ⟨_, (commandLine_more h0 u).1, ?_⟩
  have h7' : (o.vary o.foldNo u o.verbose).infile.getD (o.vary o.foldNo u o.verbose).infilep = "data" := h7
  obtain ⟨j, hj⟩ := Exp.Ex.runs sc m hm (o := o.vary o.foldNo u o.verbose) h1 h2 h4 h5 h6 h7' h8 h9 clock environment
  obtain ⟨out, hout⟩ := Exp.Ex.defined (o := o.vary o.foldNo u o.verbose) h2 h3 h6 h7' hj
  obtain ⟨st, hst, _⟩ := bind_ok hout
  refine ⟨j, ?_, st, hst⟩
  rw [← hj]
  refine task_read_congr (fun b => ?_) (fun t ht => ?_)
  · rw [h7']; rfl
  · exfalso
    have e := (Exp.C99_options h0).testfile
    simp only [Exp.Namespace.vary] at ht
    rw [e] at ht
    cases ht

lemma targets (m u : String) (sc : Script) : (Command.exp sc (Exp.Ex.args m ++ [.outfile u]) ["data"]).writes = [u] ∧
    (Command.exp sc (Exp.Ex.args m ++ [.outfile u]) ["data"]).reads = ["data"] := ⟨rfl, rfl⟩

/-- C109 is not vacuous: the experiment scripts succeed with every method and leave a result. -/
theorem experiment (sc : Script) (m : String) (hm : m ∈ sc.choices) (n : Nat) :
    ∃ j, ((Command.exp sc (Exp.Ex.args m ++ [.outfile "full"]) ["data"]).prog setup (machine n)).run files =
      (.success, Function.update files "full" (some (.json j))) ∧ ∃ st, statsOf Exp.Ex.senv j = .ok st := by
  obtain ⟨o, ho, j, hj, st, hst⟩ := runs sc m hm "full" (machine n).clock (machine n).environment
  obtain ⟨u, hu, h1, _⟩ := C109_experiment setup (machine n) (w := files) ho (by
    intro f hf
    rw [(targets m "full" sc).2] at hf
    simp only [List.mem_singleton] at hf
    subst hf
    simp [files]) (by
    intro f hf
    rw [(targets m "full" sc).2] at hf
    rw [(targets m "full" sc).1]
    rcases hf with hf | rfl
    · simp only [List.mem_singleton] at hf
      subst hf
      decide
    · decide)
  have hu' : u = "full" := by
    have e := (Exp.C99_options ho).outfile
    rw [hu] at e
    simpa [Exp.Ex.args, Exp.lastOr] using e
  subst hu'
  obtain ⟨a, b, c⟩ := h1 j hj
  refine ⟨j, Prod.ext a (funext fun f => ?_), st, hst⟩
  by_cases e : f = "full"
  · subst e
    rw [b]
    exact (Function.update_self "full" _ files).symm
  · rw [c f e, (targets m "full" sc).1, if_neg (by simpa using e)]
    exact (Function.update_of_ne e _ _).symm

/-- The output file of a fold. -/
def fold (i : Nat) : String := String.ofList (List.replicate (i + 1) 'x')

lemma fold_inj : Function.Injective fold := by
  intro i j h
  have := congrArg (fun s => s.toList.length) h
  simpa [fold] using this

lemma fold_ne (i : Nat) {s : String} (hs : s.toList.head? ≠ some 'x') : fold i ≠ s := by
  rintro rfl
  simp [fold, List.replicate_succ] at hs

/-- The commands of the folds, last one first. -/
noncomputable def folds (sc : Script) (m : String) : List (Machine Val Nat × Command String) :=
  [2, 1, 0].map (fun i => (machine i, foldRun sc (Exp.Ex.args m) ["data"] i (fold i)))

/-- C111 and C112 are not vacuous: with every method, three folds that run at the same time, mixed in any way, lead to the
statistics of the full run; there are such mixtures. -/
theorem pipeline (sc : Script) (m : String) (hm : m ∈ sc.choices) :
    ∃ fullJ st, (((fullRun sc (Exp.Ex.args m) ["data"] "full").prog setup (machine 7)).run files).2 "full" = some (.json fullJ) ∧
      statsOf Exp.Ex.senv fullJ = .ok st ∧
      (∃ schedule, ∀ i < 3, ∃ x, (together (programs setup (folds sc m)) files schedule).1 i = .done x) ∧
      ∀ schedule, (∀ i < 3, ∃ x, (together (programs setup (folds sc m)) files schedule).1 i = .done x) →
        ∃ out,
          (((Command.stats [.infile "merged", .outfile "stat"] []).prog setup (machine 9)).run
            (((Command.merge [.outfile "merged"] [fold 2, fold 1, fold 0]).prog setup (machine 8)).run
              (together (programs setup (folds sc m)) files schedule).2).2).2 "stat" = some (.json out) ∧
          out.item "statistics" = .ok st := by
  obtain ⟨j, hj, st, hst⟩ := experiment sc m hm 7
  have hj1 : (((fullRun sc (Exp.Ex.args m) ["data"] "full").prog setup (machine 7)).run files).2 "full" = some (.json j) := by
    unfold fullRun
    rw [hj]
    exact Function.update_self "full" _ files
  obtain ⟨o, h0, h1, h2, h3, h4, h5, h6, h7, h8, h9⟩ := Exp.Ex.options sc m hm
  refine ⟨j, st, hj1, hst, ?_, fun schedule hs => ?_⟩
  · obtain ⟨s, h⟩ := C111_no_deadlock setup (folds sc m) files []
    exact ⟨s, h⟩
  obtain ⟨j', mj, k1, _, k2⟩ := C112_pipeline setup (fun _ _ => rfl) ⟨fun _ => .leaf _, fun _ => .leaf _⟩ (fun _ => rfl) (fun _ _ => Metrics.pairsAuc_perm)
    (fun b c t ht => by
      cases c with
      | nothing => cases ht
      | events => cases ht; exact events_ok
      | begun j => cases ht
      | json j => cases ht) (by decide) h0 h2 h4 h5 rfl files (machine 7) (full := "full") (outs := fold) (merged := "merged") (stat := "stat")
    (by
      have key : ∀ f : String, f = "data" ∨ f = "stdin" → f ≠ "full" ∧ (∀ i, f ≠ fold i) ∧ f ≠ "merged" ∧ f ≠ "stat" := by
        rintro f (rfl | rfl)
        · exact ⟨by decide, fun i => (fold_ne i (by decide)).symm, by decide, by decide⟩
        · exact ⟨by decide, fun i => (fold_ne i (by decide)).symm, by decide, by decide⟩
      intro f hf
      refine key f (hf.imp (fun h => ?_) (fun h => h))
      simpa [Command.reads, Exp.Ex.args] using h)
    (by unfold fullRun; rw [hj]) fold_inj (fun i => fold_ne i (by decide)) (by decide) [2, 1, 0] (by rw [h3]; decide) (by simp)
    machine (fun i => AllKeys.nil.cons (.leaf _) (by simp [Dict.keys])) (machine 8) (machine 9) schedule [] (.inl rfl) hs
  obtain ⟨_, _, _, _, _, k3⟩ := k2 _ rfl
  obtain ⟨k4, _⟩ := k3 _ rfl
  have e : j' = j := by
    have := k1.symm.trans hj1
    injection this with this
    injection this
  subst e
  obtain ⟨out, _, k5, k6⟩ := k4 st hst
  exact ⟨out, k5, k6⟩

/-- C109 and C110 are not vacuous: statistics over their own input. -/
example (j : J Val) : ((Command.stats [.infile "r", .outfile "r"] []).prog setup (machine 0)).run
    (Function.update files "r" (some (.json j))) = (.raised .valueError, Function.update files "r" (some .nothing)) := by
  rw [C110_own_input setup (machine 0) "r" (e := .valueError) rfl _ (by simp), Function.update_idem]
  rfl

/-- C110_half_written is not vacuous. -/
example : ∃ (j' : J Val) (w : Files String Content) (n : Nat), w "u" = some .events ∧
    (steps ((Command.stats [.infile "f", .outfile "u", .keepdata] []).prog setup (machine 0)) w n).2 "u" = some (.begun j') := by
  obtain ⟨o, ho, j, hj, st, hst⟩ := runs .sp "pmf" (by simp [Script.choices]) "full" (machine 0).clock (machine 0).environment
  obtain ⟨j', hj'⟩ := (C97_output (keepdata := true)).1.2 ⟨st, hst⟩
  obtain ⟨n, hn⟩ := C110_half_written setup (machine 0) "f" "u" (by decide) hj' rfl (c := .begun j') (by simp [setup])
    (fun x => if x = "f" then some (.json j) else some .events) rfl
  exact ⟨j', _, n, rfl, hn⟩

/-- C111_same_output is not vacuous: the results of two methods. -/
example : ∃ (w : Files String Content) (s s' : List Nat),
    (∀ i < 2, (together (programs setup (sameOutput (machine 0) "f" "g" "u")) w s).1 i = .done .success) ∧
    (∀ i < 2, (together (programs setup (sameOutput (machine 0) "f" "g" "u")) w s').1 i = .done .success) ∧
    (together (programs setup (sameOutput (machine 0) "f" "g" "u")) w s).2 "u" ≠
      (together (programs setup (sameOutput (machine 0) "f" "g" "u")) w s').2 "u" := by
  have key : ∀ m ∈ Script.sp.choices, ∃ (j j' : J Val) (cls : Exp.Class), stats Exp.Ex.senv true j = .ok j' ∧
      j'.path ["model", "name"] = .ok (.leaf (.opt (.str cls.name))) ∧ (m = "pmf" → cls = .pmf) ∧ (m = "plsam" → cls = .plsa) := by
    intro m hm
    obtain ⟨o, ho, j, hj, st, hst⟩ := runs .sp m hm "full" (machine 0).clock (machine 0).environment
    obtain ⟨j', hj'⟩ := (C97_output (keepdata := true)).1.2 ⟨st, hst⟩
    obtain ⟨_, h2, _⟩ := C97_output.2 j' st hj' hst
    obtain ⟨options, cls, hrec, hcls⟩ := Exp.C100_recorded _ _ _ _ _ hj
    have hmeth : o.method = m := (Exp.C99_options ho).method
    refine ⟨j, j', cls, hj', ?_, fun e => ?_, fun e => ?_⟩
    · have h3 := hrec.name
      simp only [J.path, List.foldlM_cons] at h3 ⊢
      rw [h2 "model" (by decide) (by decide)]
      exact h3
    · rcases hcls with ⟨_, h, h3, _⟩ | ⟨_, h, h3, _⟩ | ⟨_, h, h3, _⟩ | ⟨h, _⟩
      · exact h3
      · rw [hmeth, e] at h; exact absurd h (by decide)
      · rw [hmeth, e] at h; exact absurd h (by decide)
      · cases h
    · rcases hcls with ⟨_, h, h3, _⟩ | ⟨_, h, h3, _⟩ | ⟨_, h, h3, _⟩ | ⟨h, _⟩
      · rw [hmeth, e] at h; exact absurd h (by decide)
      · exact h3
      · rw [hmeth, e] at h; exact absurd h (by decide)
      · cases h
  obtain ⟨j, j', c, h1, h2, h3, _⟩ := key "pmf" (by simp [Script.choices])
  obtain ⟨k, k', d, g1, g2, _, g3⟩ := key "plsam" (by simp [Script.choices])
  refine C111_same_output setup (machine 0) "f" "g" "u" (by decide) (by decide) (by decide) h1 g1 (fun e => ?_) rfl rfl
  have e' : j' = k' := by injection e
  rw [e', g2, h3 rfl, g3 rfl] at h2
  simp [Exp.Class.name] at h2

/-- The condition of C111 is met by the folds. -/
example (sc : Script) (m : String) : Independent setup (folds sc m) := by
  have hw : ∀ i : Nat, (foldRun sc (Exp.Ex.args m) ["data"] i (fold i)).targets "stdout" = [fold i] := fun _ => rfl
  have hr : ∀ i : Nat, (foldRun sc (Exp.Ex.args m) ["data"] i (fold i)).reads = ["data"] := fun _ => rfl
  unfold Independent folds
  rw [List.pairwise_map]
  have : List.Pairwise (fun a b : Nat => a ≠ b) [2, 1, 0] := by decide
  refine this.imp (fun {a b} hab => ⟨fun f hf => ?_, fun f hf => ?_⟩)
  · simp only [show setup.stdout = "stdout" from rfl, hw, List.mem_singleton] at hf
    subst hf
    simp only [show setup.stdout = "stdout" from rfl, hw, hr, List.mem_singleton]
    exact ⟨fold_ne a (by decide), fold_ne a (by decide), fun h => hab (fold_inj h)⟩
  · simp only [show setup.stdout = "stdout" from rfl, hw, List.mem_singleton] at hf
    subst hf
    simp only [hr, List.mem_singleton]
    exact ⟨fold_ne b (by decide), fold_ne b (by decide)⟩

end Ex

end Kam.Shell

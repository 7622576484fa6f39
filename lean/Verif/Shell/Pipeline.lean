/-
C112: folds run at the same time, merged, and their statistics.
-/
import Verif.Shell.Props
import Verif.Exp.Props3
import Verif.Scripts.Keys

set_option linter.unusedSectionVars false

namespace Kam.Shell
open Scripts Spec
open Exp (Arg Namespace Seen parseArg defaults Script Lib commandLine)

variable {F C : Type} [DecidableEq F]
variable {α φ ε V T γ : Type} [LinearOrder α]

/-! ### Command lines with further options -/

lemma foldlM_append_opt {β δ : Type} (f : β → δ → Option β) : ∀ (xs ys : List δ) (b : β),
    (xs ++ ys).foldlM f b = (xs.foldlM f b).bind (fun b => ys.foldlM f b)
  | [], ys, b => rfl
  | x :: xs, ys, b => by
    rw [List.cons_append, List.foldlM_cons, List.foldlM_cons]
    cases f b x with
    | none => rfl
    | some b' => exact foldlM_append_opt f xs ys b'

/-- `--fold-no` and `--out` after the other options. -/
lemma commandLine_more {sc : Script} {stdin stdout : F} {args : List (Arg F)} {pos : List F} {o : Namespace F}
    (h : commandLine sc stdin stdout args pos = some o) (u : F) :
    commandLine sc stdin stdout (args ++ [.outfile u]) pos = some (o.vary o.foldNo u o.verbose) ∧
    ∀ i : Int, commandLine sc stdin stdout (args ++ [.foldNo i, .outfile u]) pos = some (o.vary (some i) u o.verbose) := by
  unfold commandLine at h
  simp only [Option.bind_eq_bind, Option.bind_eq_some_iff] at h
  obtain ⟨⟨o1, s1⟩, h1, h⟩ := h
  constructor
  · unfold commandLine
    simp only [foldlM_append_opt, h1, Option.bind_some, Option.bind_eq_bind]
    match pos with
    | [] => simp only [Option.bind_some, pure, Option.some.injEq] at h; subst h; rfl
    | [i] => simp only [Option.bind_some, pure, Option.some.injEq] at h; subst h; rfl
    | [i, u] => simp only [Option.bind_some, pure, Option.some.injEq] at h; subst h; rfl
    | i :: u :: x :: xs => simp at h
  · intro n
    unfold commandLine
    simp only [foldlM_append_opt, h1, Option.bind_some, Option.bind_eq_bind]
    match pos with
    | [] => simp only [Option.bind_some, pure, Option.some.injEq] at h; subst h; rfl
    | [i] => simp only [Option.bind_some, pure, Option.some.injEq] at h; subst h; rfl
    | [i, u] => simp only [Option.bind_some, pure, Option.some.injEq] at h; subst h; rfl
    | i :: u :: x :: xs => simp at h

/-! ### The pipeline -/

/-- The command of the full cross validation. -/
def fullRun (sc : Script) (args : List (Arg F)) (pos : List F) (out : F) : Command F := .exp sc (args ++ [.outfile out]) pos

/-- The command of one fold. -/
def foldRun (sc : Script) (args : List (Arg F)) (pos : List F) (i : Nat) (out : F) : Command F :=
  .exp sc (args ++ [.foldNo i, .outfile out]) pos

lemma more_reads {sc : Script} {args : List (Arg F)} {pos : List F} (i : Nat) (out : F) :
    (foldRun sc args pos i out).reads = (Command.exp sc args pos).reads := by
  simp [foldRun, Command.reads]

lemma more_writes {sc : Script} {args : List (Arg F)} {pos : List F} (h : (Command.exp sc args pos).writes = []) (i : Nat) (out : F) :
    (foldRun sc args pos i out).writes = [out] := by
  simp only [Command.writes, List.append_eq_nil_iff] at h
  simp only [foldRun, Command.writes, List.flatMap_append, h.1, h.2, List.flatMap_cons, List.flatMap_nil, List.append_nil, List.nil_append]

lemma full_reads {sc : Script} {args : List (Arg F)} {pos : List F} (out : F) :
    (fullRun sc args pos out).reads = (Command.exp sc args pos).reads := by
  simp [fullRun, Command.reads]

lemma full_writes {sc : Script} {args : List (Arg F)} {pos : List F} (h : (Command.exp sc args pos).writes = []) (out : F) :
    (fullRun sc args pos out).writes = [out] := by
  simp only [Command.writes, List.append_eq_nil_iff] at h
  simp only [fullRun, Command.writes, List.flatMap_append, h.1, h.2, List.flatMap_cons, List.flatMap_nil, List.append_nil, List.nil_append]

lemma mapM_forall₂ {β δ : Type} {f : β → Res δ} : ∀ {xs : List β} {ys : List δ}, xs.mapM f = .ok ys → List.Forall₂ (fun x y => f x = .ok y) xs ys
  | [], ys, h => by
    simp only [List.mapM_nil, pure, Except.pure, Except.ok.injEq] at h
    subst h
    exact .nil
  | x :: xs, ys, h => by
    rw [List.mapM_cons] at h
    obtain ⟨y, h1, h⟩ := bind_ok h
    obtain ⟨ys', h2, h⟩ := bind_ok h
    simp only [pure, Except.pure, Except.ok.injEq] at h
    subst h
    exact .cons h1 (mapM_forall₂ h2)

/-- C112: take a seeded cross validation that succeeds when run as a whole.  Run its folds at the same time, each with its
own output file and on its own machine, mixed in any way; merge their files in any order; and compute the statistics of the
merged file.  Every step succeeds that succeeds for the full run, the merged file has the folds, data and settings of the
full run, and the statistics are those of the full run, even when numbers are rounded in the files.  The file of events is
as it was. -/
theorem C112_pipeline (S : Setup F C α φ ε V T γ) (hdec : ∀ j, J.Result j → S.decode (S.encode j) = .ok j) (hkeys : S.lib.Keys)
    {round : ℝ → ℝ} (hr : ∀ x, S.se.float (S.env.num x) = .ok (.fin (round x)))
    (hauc : ∀ rs rs' : List (ℝ × ℝ), rs.Perm rs' →
      S.se.auc (rs.map Prod.fst) (rs.map Prod.snd) = S.se.auc (rs'.map Prod.fst) (rs'.map Prod.snd))
    (htable : ∀ b c t, S.table b c = .ok t → TableOk t) (hnames : S.env.names.Nodup)
    {sc : Script} {args : List (Arg F)} {pos : List F} {o : Namespace F}
    (ho : commandLine sc S.stdin S.stdout args pos = some o) (hcv : o.validation = "cv") {n : Int} (hseed : o.rseed = some n)
    (hfold : o.foldNo = none) (hargs : (Command.exp sc args pos).writes = [])
    (w : Files F C) (m : Machine V T) {full : F} {outs : Nat → F} {merged stat : F}
    (hinp : ∀ f, f ∈ (Command.exp sc args pos).reads ∨ f = S.stdin → f ≠ full ∧ (∀ i, f ≠ outs i) ∧ f ≠ merged ∧ f ≠ stat)
    (hfull : (((fullRun sc args pos full).prog S m).run w).1 = .success)
    (hinj : Function.Injective outs) (hmerged : ∀ i, outs i ≠ merged) (hstat : merged ≠ stat)
    (order : List Nat) (horder : order.Perm (List.range o.fold.toNat)) (hne : order ≠ [])
    (ms : Nat → Machine V T) (hms : ∀ i, AllKeys (ms i).environment) (mm mm' : Machine V T) (schedule : List Nat) (keep : List (StatsArg F)) (hkeep : keep = [] ∨ keep = [.keepdata])
    (hend : ∀ i < order.length, ∃ x, (together (programs S (order.map (fun i => (ms i, foldRun sc args pos i (outs i))))) w schedule).1 i = .done x) :
    ∃ (fullJ mergedJ : J V), (((fullRun sc args pos full).prog S m).run w).2 full = some (S.encode fullJ) ∧
      -- the folds
      (∀ i < order.length, (together (programs S (order.map (fun i => (ms i, foldRun sc args pos i (outs i))))) w schedule).1 i = .done .success) ∧
      ∀ w1, w1 = (together (programs S (order.map (fun i => (ms i, foldRun sc args pos i (outs i))))) w schedule).2 →
      -- merging
      (((Command.merge [.outfile merged] (order.map outs)).prog S mm).run w1).1 = .success ∧
      (((Command.merge [.outfile merged] (order.map outs)).prog S mm).run w1).2 merged = some (S.encode mergedJ) ∧
      SameData fullJ mergedJ ∧ (∀ key, fullJ.HasFold key ↔ mergedJ.HasFold key) ∧
      (∀ i : Nat, (i : Int) < o.fold → SameFold fullJ mergedJ (Nat.repr i)) ∧
      ∀ w2, w2 = (((Command.merge [.outfile merged] (order.map outs)).prog S mm).run w1).2 →
      -- statistics
      (∀ st, statsOf S.se fullJ = .ok st → ∃ out,
        (((Command.stats ([.infile merged, .outfile stat] ++ keep) []).prog S mm').run w2).1 = .success ∧
        (((Command.stats ([.infile merged, .outfile stat] ++ keep) []).prog S mm').run w2).2 stat = some (S.encode out) ∧
        out.item "statistics" = .ok st) ∧
      -- the events
      ∀ f, f ∈ (Command.exp sc args pos).reads ∨ f = S.stdin →
        (((Command.stats ([.infile merged, .outfile stat] ++ keep) []).prog S mm').run w2).2 f = w f := by
  -- the full run
  have hdisF : ∀ f, f ∈ (fullRun sc args pos full).reads ∨ f = S.stdin → f ∉ (fullRun sc args pos full).writes := by
    intro f hf
    rw [full_reads] at hf
    rw [full_writes hargs]
    simpa using (hinp f hf).1
  have hin : ∀ f ∈ (Command.exp sc args pos).reads, w f ≠ none := by
    intro f hf
    rcases exp_run S m sc (args ++ [.outfile full]) pos w with ⟨_, _, _, _, _, h⟩ | ⟨h, _⟩
    · have hf' : f ∈ (fullRun sc args pos full).reads := by rw [full_reads]; exact hf
      exact (h f hf').resolve_right (hdisF f (.inl hf'))
    · rw [show (Command.exp sc (args ++ [.outfile full]) pos) = fullRun sc args pos full from rfl, hfull] at h
      cases h
  have hoF := (commandLine_more ho full).1
  obtain ⟨u, hu, hok, herr⟩ := C109_experiment S m (w := w) hoF (fun f hf => hin f (by rw [← full_reads full]; exact hf)) hdisF
  cases hu
  cases htask : Exp.task S.env S.lib m.clock m.environment (reader S w) sc (o.vary o.foldNo full o.verbose) with
  | error e =>
    have h := (herr e htask).1
    rw [show (Command.exp sc (args ++ [.outfile full]) pos) = fullRun sc args pos full from rfl, hfull] at h
    cases h
  | ok fullJ =>
  -- the folds
  obtain ⟨files, mergedJ, c1, c2, c3, c4, _, c6, _, c8⟩ := Exp.C102_distributed S.env S.lib m.clock m.environment (reader S w) hr hauc
    (by
      intro b f t h
      unfold reader at h
      cases hw : w f with
      | none => rw [hw] at h; cases h
      | some c => rw [hw] at h; exact htable b c t h) hnames (o := o.vary o.foldNo full o.verbose) hcv hseed hfold htask order horder hne
    (fun i => (ms i).clock) (fun i => (ms i).environment) outs (fun _ => o.verbose) S.tru (S.env.file (some merged))
  have hnd : order.Nodup := horder.nodup_iff.2 List.nodup_range
  have htargets : ∀ i, (foldRun sc args pos i (outs i)).targets S.stdout = [outs i] := by
    intro i
    unfold Command.targets
    rw [more_writes hargs]
    rfl
  have hind : Independent S (order.map (fun i => (ms i, foldRun sc args pos i (outs i)))) := by
    unfold Independent
    rw [List.pairwise_map]
    refine hnd.imp (fun {i j} hij => ?_)
    simp only [htargets, more_reads, List.mem_singleton, forall_eq]
    have key : ∀ i, outs i ∉ (Command.exp sc args pos).reads ∧ outs i ≠ S.stdin := fun i =>
      ⟨fun h => (hinp _ (.inl h)).2.1 i rfl, fun h => (hinp _ (.inr rfl)).2.1 i h.symm⟩
    exact ⟨⟨(key i).1, (key i).2, fun h => hij (hinj h)⟩, key j⟩
  have hsolo : ∀ p (hp : p < order.length) (hp' : p < files.length),
      (((foldRun sc args pos order[p] (outs order[p])).prog S (ms order[p])).run w).1 = .success ∧
      (((foldRun sc args pos order[p] (outs order[p])).prog S (ms order[p])).run w).2 (outs order[p]) = some (S.encode files[p]) := by
    intro p hp hp'
    have hj := (List.forall₂_iff_get.1 (mapM_forall₂ c1)).2 p hp hp'
    have hoi := (commandLine_more ho (outs order[p])).2 order[p]
    obtain ⟨u, hu, hok, _⟩ := C109_experiment S (ms order[p]) (w := w) hoi
      (fun f hf => hin f (by rw [← more_reads order[p] (outs order[p])]; exact hf))
      (by
        intro f hf
        rw [show (Command.exp sc (args ++ [.foldNo (order[p] : Int), .outfile (outs order[p])]) pos) = foldRun sc args pos order[p] (outs order[p]) from rfl] at hf ⊢
        rw [more_reads] at hf
        rw [more_writes hargs]
        simpa using (hinp f hf).2.1 _)
    cases hu
    obtain ⟨k1, k2, _⟩ := hok files[p] hj
    exact ⟨k1, k2⟩
  have hlen : files.length = order.length := (List.forall₂_iff_get.1 (mapM_forall₂ c1)).1.symm
  have hres : ∀ j ∈ files, J.Result j := by
    intro j hj
    obtain ⟨p, hp, rfl⟩ := List.getElem_of_mem hj
    exact Exp.task_keys hnames hkeys (hms _) ((List.forall₂_iff_get.1 (mapM_forall₂ c1)).2 p (hlen ▸ hp) hp)
  have htog := C111_at_the_same_time S hind w schedule (by simpa using hend)
  have hdone : ∀ p (hp : p < order.length),
      (together (programs S (order.map (fun i => (ms i, foldRun sc args pos i (outs i))))) w schedule).1 p = .done .success ∧
      (together (programs S (order.map (fun i => (ms i, foldRun sc args pos i (outs i))))) w schedule).2 (outs order[p]) =
        some (S.encode (files[p]'(hlen ▸ hp))) := by
    intro p hp
    obtain ⟨k1, k2⟩ := htog.1 p (by simpa using hp)
    simp only [List.getElem_map] at k1 k2
    obtain ⟨s1, s2⟩ := hsolo p hp (hlen ▸ hp)
    rw [s1] at k1
    refine ⟨k1, ?_⟩
    rw [k2 (outs order[p]) (by rw [htargets]; simp), s2]
  have hkept : ∀ f, f ∈ (Command.exp sc args pos).reads ∨ f = S.stdin →
      (together (programs S (order.map (fun i => (ms i, foldRun sc args pos i (outs i))))) w schedule).2 f = w f := by
    intro f hf
    refine htog.2 f (fun c hc => ?_)
    obtain ⟨i, _, rfl⟩ := List.mem_map.1 hc
    rw [htargets]
    simpa using (hinp f hf).2.1 i
  refine ⟨fullJ, mergedJ, (hok fullJ htask).2.1, fun i hi => (hdone i hi).1, fun w1 hw1 => ?_⟩
  rw [← hw1] at hdone hkept
  -- merging
  have hmw : (Command.merge [.outfile merged] (order.map outs)).writes = [merged] := rfl
  obtain ⟨hm1, -⟩ := C109_merge S mm (args := [.outfile merged]) (pos := order.map outs) (w := w1) (out := merged) (by simp)
    (by simpa using hne)
    (by
      intro f hf
      obtain ⟨i, hi, rfl⟩ := List.mem_map.1 hf
      obtain ⟨p, hp, rfl⟩ := List.getElem_of_mem hi
      rw [(hdone p hp).2]
      simp)
    (by
      intro f hf
      obtain ⟨i, hi, rfl⟩ := List.mem_map.1 hf
      rw [hmw]
      simpa using hmerged i) (.inl rfl)
  obtain ⟨m1, m2, m3⟩ := hm1 files mergedJ (by
    rw [List.forall₂_iff_get]
    refine ⟨by rw [List.length_map, hlen], fun p hp hp' => ?_⟩
    have hp2 : p < order.length := by simpa using hp
    refine ⟨S.encode files[p], ?_, hdec _ (hres _ (List.getElem_mem _))⟩
    simp only [List.get_eq_getElem, List.getElem_map]
    exact (hdone p hp2).2) c2
  refine ⟨m1, m2, c3, c4, c6, fun w2 hw2 => ?_⟩
  rw [← hw2] at m2 m3
  -- statistics
  have hsw : (Command.stats ([.infile merged, .outfile stat] ++ keep) []).writes = [stat] := by
    rcases hkeep with rfl | rfl <;> rfl
  have hsr : (Command.stats ([.infile merged, .outfile stat] ++ keep) []).reads = [merged] := by
    rcases hkeep with rfl | rfl <;> rfl
  refine ⟨fun st hst => ?_, fun f hf => ?_⟩
  · rw [← c8] at hst
    obtain ⟨b, hb⟩ : ∃ b : Bool, b = true ↔ (StatsArg.keepdata : StatsArg F) ∈ [.infile merged, .outfile stat] ++ keep := by
      rcases hkeep with rfl | rfl
      · exact ⟨false, by simp⟩
      · exact ⟨true, by simp⟩
    obtain ⟨k1, k2⟩ := C97_output (se := S.se) (keepdata := b) (j := mergedJ)
    obtain ⟨out, hout⟩ := k1.2 ⟨st, hst⟩
    obtain ⟨hs1, -⟩ := C109_statistics S mm' (args := [.infile merged, .outfile stat] ++ keep) (pos := []) (w := w2) (keep := b)
      (i := merged) (u := stat) (by rcases hkeep with rfl | rfl <;> simp) (by simp)
      (by
        intro f hf
        rw [hsr, List.mem_singleton] at hf
        rw [hf, m2]
        simp)
      (by
        intro f hf
        rw [hsr, List.mem_singleton] at hf
        rw [hsw, List.mem_singleton]
        rcases hf with rfl | rfl
        · exact hstat
        · exact (hinp _ (.inr rfl)).2.2.2)
      hb (by rcases hkeep with rfl | rfl <;> rfl) (by rcases hkeep with rfl | rfl <;> rfl)
    obtain ⟨s1, s2, _⟩ := hs1 _ _ _ m2 (hdec mergedJ (merge_keys (fun j hj => (hres j hj).keys) c2)) hout
    exact ⟨out, s1, s2, (k2 out st hout hst).1⟩
  · rw [C109_only_targets S mm' _ w2 f (by
      unfold Command.targets
      rw [hsw]
      simpa using (hinp f hf).2.2.2)]
    rw [m3 f (hinp f hf).2.2.1, hmw, if_neg (by simpa using (hinp f hf).2.2.1), hkept f hf]

end Kam.Shell

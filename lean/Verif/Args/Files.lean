/-
C129: what a script does to files, whatever strings it is called with.
-/
import Verif.Args.ScriptSpec
import Verif.Args.Suffix
import Verif.Shell.Props

set_option linter.unusedSectionVars false

namespace Kam.Args
open Kam.Convert (Str)
open Shell
open Scripts (J)
open Exp (Arg Namespace Seen parseArg defaults Script)

variable {F C A σ : Type} [DecidableEq F] {α φ ε V T γ : Type} [LinearOrder α]

/-- A call of a script with the strings `argv`. -/
inductive Call where
  | exp (sc : Script) (argv : List Str)
  | merge (argv : List Str)
  | stats (argv : List Str)

/-- The strings of a call. -/
def Call.argv : Call → List Str
  | .exp _ argv => argv
  | .merge argv => argv
  | .stats argv => argv

/-- The program of a call. -/
noncomputable def Call.prog (S : Setup F C α φ ε V T γ) (m : Machine V T) (rd : Reader F) : Call → Prog F C
  | .exp sc argv => expLine S m rd sc argv
  | .merge argv => mergeLine S rd argv
  | .stats argv => statsLine S rd argv

/-! ### Programs that write one result -/

/-- The program empties files until it writes a result, and then it ends. -/
def Result (S : Setup F C α φ ε V T γ) : Prog F C → Prop
  | .done _ => True
  | .look _ k => ∀ c, Result S (k c)
  | .put f c k => (c = S.empty ∧ Result S k) ∨ ∃ u j, Prog.put f c k = output S u (.ok j)

lemma Result.clean {S : Setup F C α φ ε V T γ} {p : Prog F C} (h : Result S p) : p.Clean S.empty S.part := by
  induction p with
  | done x => trivial
  | look f k ih => exact fun c => ih c (h c)
  | put f c k ih =>
    rcases h with ⟨h1, h2⟩ | ⟨u, j, h⟩
    · exact .inl ⟨h1, ih h2⟩
    · rw [h]
      exact output_clean _

lemma puts_run (u : F) (x : C) (cs : List C) (w : Files F C) :
    (puts u cs (.put u x (.done .success))).run w = (.success, Function.update w u (some x)) := by
  induction cs generalizing w with
  | nil => rfl
  | cons c cs ih =>
    rw [puts, Prog.run, ih, Function.update_idem]

lemma output_result {S : Setup F C α φ ε V T γ} (u : F) (r : Res (J V)) : Result S (output S u r) := by
  cases r with
  | error e => trivial
  | ok j =>
    have : ∃ c k, output S u (.ok j) = .put u c k := by
      show ∃ c k, puts u (S.parts j) (.put u (S.encode j) (.done .success)) = .put u c k
      cases S.parts j with
      | nil => exact ⟨_, _, rfl⟩
      | cons c cs => exact ⟨_, _, rfl⟩
    obtain ⟨c, k, h⟩ := this
    rw [h]
    exact .inr ⟨u, j, h.symm⟩

lemma Result.run {S : Setup F C α φ ε V T γ} {p : Prog F C} (h : Result S p) (w : Files F C) :
    (∀ f, (p.run w).2 f = w f ∨ (p.run w).2 f = some S.empty) ∨
    ((p.run w).1 = .success ∧ ∃ u j, (p.run w).2 u = some (S.encode j) ∧
      ∀ f, f ≠ u → (p.run w).2 f = w f ∨ (p.run w).2 f = some S.empty) := by
  induction p generalizing w with
  | done x => exact .inl (fun f => .inl rfl)
  | look f k ih => exact ih _ (h _) w
  | put g c k ih =>
    rcases h with ⟨rfl, h2⟩ | ⟨u, j, h⟩
    · have upd : ∀ f, Function.update w g (some S.empty) f = w f ∨ Function.update w g (some S.empty) f = some S.empty := by
        intro f
        by_cases e : f = g
        · subst e; right; simp
        · left; rw [Function.update_of_ne e]
      rw [Prog.run]
      rcases ih h2 (Function.update w g (some S.empty)) with h | ⟨h1, u, j, h2, h3⟩
      · exact .inl (fun f => (h f).elim (fun h => h ▸ upd f) .inr)
      · exact .inr ⟨h1, u, j, h2, fun f hf => (h3 f hf).elim (fun h => h ▸ upd f) .inr⟩
    · have hr : (Prog.put g c k).run w = (.success, Function.update w u (some (S.encode j))) := by
        rw [h]
        exact puts_run u (S.encode j) (S.parts j) w
      rw [hr]
      exact .inr ⟨rfl, u, j, by simp, fun f hf => .inl (by simp only []; rw [Function.update_of_ne hf])⟩

lemma openReads_result {S : Setup F C α φ ε V T γ} : ∀ (fs : List F) {k : Prog F C}, Result S k → Result S (openReads fs k)
  | [], _, hk => hk
  | f :: fs, k, hk => by
    intro c
    cases c with
    | none => trivial
    | some c => exact openReads_result fs hk

lemma openWrites_result {S : Setup F C α φ ε V T γ} : ∀ (fs : List F) {k : Prog F C}, Result S k → Result S (openWrites S.empty fs k)
  | [], _, hk => hk
  | _ :: fs, _, hk => .inl ⟨rfl, openWrites_result fs hk⟩

lemma perform_result {S : Setup F C α φ ε V T γ} {act : Act A → σ → Effect F σ} {k : σ → Prog F C} (hk : ∀ st, Result S (k st)) :
    ∀ (as : List (Act A)) (st : σ), Result S (perform S.empty act as st k)
  | [], st => hk st
  | a :: as, st => by
    rw [perform]
    cases act a st with
    | stop x => trivial
    | next rs ws st' =>
      refine openReads_result rs (openWrites_result ws ?_)
      cases st' with
      | none => trivial
      | some st' => exact perform_result hk as st'

lemma finish_result {S : Setup F C α φ ε V T γ} (x : End) {k : Prog F C} (hk : Result S k) : Result S (finish x k) := by
  cases x with
  | ok => exact hk
  | usage => trivial
  | indexError => trivial

lemma mergeRest_result {S : Setup F C α φ ε V T γ} {u : F} : ∀ (fs : List F) (cv : J V), Result S (mergeRest S u fs cv)
  | [], cv => output_result _ _
  | f :: fs, cv => by
    intro c
    beta_reduce
    cases load S c >>= fun j => Scripts.restFold j cv with
    | error e => trivial
    | ok cv => exact mergeRest_result fs cv

/-- Every call writes one result at most. -/
lemma call_result (S : Setup F C α φ ε V T γ) (m : Machine V T) (rd : Reader F) (c : Call) : Result S (c.prog S m rd) := by
  cases c with
  | exp sc argv =>
    refine perform_result (fun st => finish_result _ ?_) _ _
    intro c
    beta_reduce
    cases st.1.testfile with
    | none => exact output_result _ _
    | some t => exact fun d => output_result _ _
  | merge argv =>
    refine perform_result (fun st => finish_result _ ?_) _ _
    cases st.2.2.2 with
    | nil => trivial
    | cons f fs =>
      intro c
      beta_reduce
      cases load S c >>= Scripts.firstFold S.tru with
      | error e => trivial
      | ok cv => exact mergeRest_result fs cv
  | stats argv =>
    refine perform_result (fun st => finish_result _ ?_) _ _
    exact fun c => output_result _ _

/-! ### Which files are written -/

lemma openWrites_within {R W : F → Prop} {empty : C} : ∀ (fs : List F) {k : Prog F C}, (∀ f ∈ fs, W f) → k.Within R W →
    (openWrites empty fs k).Within R W
  | [], _, _, hk => hk
  | f :: fs, _, h, hk => ⟨h f (by simp), openWrites_within fs (fun g hg => h g (by simp [hg])) hk⟩

/-- What an action does to the files it may write. -/
def Keeps (W : F → Prop) (Inv : σ → Prop) : Effect F σ → Prop
  | .stop _ => True
  | .next _ ws st => (∀ f ∈ ws, W f) ∧ ∀ st', st = some st' → Inv st'

lemma perform_within {W : F → Prop} {Inv : σ → Prop} {empty : C} {act : Act A → σ → Effect F σ} {k : σ → Prog F C}
    (hk : ∀ st, Inv st → (k st).Within (fun _ => True) W) : ∀ (as : List (Act A)) (st : σ), Inv st →
    (∀ a ∈ as, ∀ st, Inv st → Keeps W Inv (act a st)) → (perform empty act as st k).Within (fun _ => True) W
  | [], st, hi, _ => hk st hi
  | a :: as, st, hi, ha => by
    rw [perform]
    have h := ha a (by simp) st hi
    cases e : act a st with
    | stop x => trivial
    | next rs ws st' =>
      rw [e] at h
      refine openReads_within rs _ (fun _ _ => trivial) (openWrites_within ws h.1 ?_)
      cases st' with
      | none => trivial
      | some st' => exact perform_within hk as st' (h.2 st' rfl) (fun b hb => ha b (by simp [hb]))

lemma opens_sub {W : F → Prop} {rd : Reader F} {args : List Str} (h : ∀ s ∈ args, W (rd.file s)) :
    ∀ f ∈ args.flatMap (opens rd), W f := by
  intro f hf
  obtain ⟨s, hs, hf⟩ := List.mem_flatMap.1 hf
  unfold opens at hf
  split at hf
  · cases hf
  · rw [List.mem_singleton.1 hf]
    exact h s hs

lemma fileOf_sub {W : F → Prop} {rd : Reader F} {std : F} {s : Str} (hstd : W std) (h : W (rd.file s)) : W (fileOf rd std s) := by
  unfold fileOf
  split
  · exact hstd
  · exact h

/-- The output files of the namespace. -/
def Outs (W : F → Prop) (o : Namespace F) : Prop := (∀ f, o.outfile = some f → W f) ∧ W o.outfilep

lemma parseArg_outs {W : F → Prop} {sc : Script} {st st' : Namespace F × Seen} {b : Arg F} (h : parseArg sc st b = some st')
    (ho : Outs W st.1) (hb : ∀ f, b = .outfile f → W f) : Outs W st'.1 := by
  obtain ⟨o, s⟩ := st
  cases b <;> simp only [parseArg] at h
  case outfile f =>
    cases h
    exact ⟨fun g hg => by cases hg; exact hb f rfl, ho.2⟩
  all_goals first
    | (cases h; exact ho)
    | (split at h
       · first | (cases h; done) | (cases h; exact ho)
       · first | (cases h; done) | (cases h; exact ho))

lemma expArg_outfile {rd : Reader F} {i u : F} {a : ExpOpt} {args : List Str} {f : F} (h : expArg rd i u a args = some (.outfile f)) :
    ∃ s, args = [s] ∧ f = fileOf rd u s := by
  unfold expArg at h
  split at h
  case h_5 s => cases h; exact ⟨s, rfl, rfl⟩
  all_goals first
    | (cases h; done)
    | (cases h2 : rd.int _ with
       | none => rw [h2] at h; cases h
       | some n => rw [h2] at h; cases h)
    | (cases h2 : rd.float _ with
       | none => rw [h2] at h; cases h
       | some n => rw [h2] at h; cases h)
    | skip
  rename_i r s t
  cases h1 : rd.float r with
  | none => simp only [h1] at h; cases h
  | some x =>
    cases h2 : rd.float s with
    | none => simp only [h1, h2] at h; cases h
    | some y =>
      cases h3 : rd.float t with
      | none => simp only [h1, h2, h3] at h; cases h
      | some z => simp only [h1, h2, h3] at h; cases h

lemma expAct_keeps {W : F → Prop} {rd : Reader F} {i u : F} {sc : Script} {a : Act ExpOpt} (hu : W u)
    (ha : ∀ s ∈ a.strs, W (rd.file s)) {st : Namespace F × Seen} (hi : Outs W st.1) :
    Keeps W (fun st : Namespace F × Seen => Outs W st.1) (expAct rd i u sc a st) := by
  obtain ⟨o, seen⟩ := st
  cases a with
  | pos n args =>
    rcases n with _ | _ | n <;> rcases args with _ | ⟨s, _ | ⟨t, args⟩⟩
    all_goals first
      | exact ⟨fun f hf => (List.not_mem_nil hf).elim, fun st' h => by cases h; exact hi⟩
      | exact ⟨fun f hf => opens_sub (rd := rd) ha f (by simpa [Act.strs] using hf),
          fun st' h => by cases h; exact ⟨hi.1, fileOf_sub hu (ha _ (by simp [Act.strs]))⟩⟩
  | opt a args =>
    have gen : Keeps W (fun st : Namespace F × Seen => Outs W st.1) (match expArg rd i u a args with
      | none => .stop .usage
      | some b =>
        .next (if a = .infile ∨ a = .testfile then args.flatMap (opens rd) else [])
          (if a = .outfile then args.flatMap (opens rd) else []) (parseArg sc (o, seen) b)) := by
      cases e : expArg rd i u a args with
      | none => trivial
      | some b =>
        refine ⟨fun f hf => ?_, fun st' h => parseArg_outs h hi ?_⟩
        · split at hf
          · exact opens_sub ha f hf
          · cases hf
        · rintro f rfl
          obtain ⟨s, rfl, rfl⟩ := expArg_outfile e
          exact fileOf_sub hu (ha s (by simp [Act.strs]))
    cases a <;> first
      | exact trivial
      | exact gen

lemma mergeAct_keeps {W : F → Prop} {rd : Reader F} {i u : F} {a : Act MergeOpt} (hu : W u)
    (ha : ∀ s ∈ a.strs, W (rd.file s)) {st : Bool × Bool × F × List F} (hi : W st.2.2.1) :
    Keeps W (fun st : Bool × Bool × F × List F => W st.2.2.1) (mergeAct rd i u a st) := by
  obtain ⟨v, q, x, fs⟩ := st
  have no : ∀ f ∈ ([] : List F), W f := fun f hf => (List.not_mem_nil hf).elim
  cases a with
  | pos n args => exact ⟨no, fun st' h => by cases h; exact hi⟩
  | opt a args =>
    cases a with
    | help => trivial
    | version => trivial
    | verbose =>
      refine ⟨no, fun st' h => ?_⟩
      split at h
      · cases h
      · cases h; exact hi
    | quiet =>
      refine ⟨no, fun st' h => ?_⟩
      split at h
      · cases h
      · cases h; exact hi
    | outfile =>
      refine ⟨opens_sub ha, fun st' h => ?_⟩
      cases h
      cases args with
      | nil => exact hi
      | cons s args => exact fileOf_sub hu (ha s (by simp [Act.strs]))

/-- The output files of stats_recsys.py. -/
def StatsOuts (W : F → Prop) (st : StatsOpts F × F × F) : Prop := (∀ f, st.1.outfile = some f → W f) ∧ W st.2.2

lemma statsAct_keeps {W : F → Prop} {rd : Reader F} {i u : F} {a : Act StatsOpt} (hu : W u)
    (ha : ∀ s ∈ a.strs, W (rd.file s)) {st : StatsOpts F × F × F} (hi : StatsOuts W st) :
    Keeps W (StatsOuts W) (statsAct rd i u a st) := by
  obtain ⟨o, x, y⟩ := st
  have no : ∀ f ∈ ([] : List F), W f := fun f hf => (List.not_mem_nil hf).elim
  cases a with
  | pos n args =>
    rcases n with _ | _ | n <;> rcases args with _ | ⟨s, _ | ⟨t, args⟩⟩
    all_goals first
      | exact ⟨no, fun st' h => by cases h; exact hi⟩
      | exact ⟨fun f hf => opens_sub (rd := rd) ha f (by simpa [Act.strs] using hf),
          fun st' h => by cases h; exact ⟨hi.1, fileOf_sub hu (ha _ (by simp [Act.strs]))⟩⟩
  | opt a args =>
    cases a with
    | help => trivial
    | version => trivial
    | rseed =>
      show Keeps W (StatsOuts W) (match args.head?.bind rd.int with
        | none => .stop .usage
        | some _ => .next [] [] (some (o, x, y)))
      cases args.head?.bind rd.int with
      | none => trivial
      | some n => exact ⟨no, fun st' h => by cases h; exact hi⟩
    | infile => exact ⟨no, fun st' h => by cases h; exact hi⟩
    | outfile =>
      refine ⟨opens_sub ha, fun st' h => ?_⟩
      cases h
      refine ⟨fun f hf => ?_, hi.2⟩
      cases args with
      | nil => cases hf
      | cons s args =>
        cases hf
        exact fileOf_sub hu (ha s (by simp [Act.strs]))
    | noKeepdata =>
      refine ⟨no, fun st' h => ?_⟩
      split at h
      · cases h
      · cases h; exact hi
    | keepdata =>
      refine ⟨no, fun st' h => ?_⟩
      split at h
      · cases h
      · cases h; exact hi

lemma finish_within {R W : F → Prop} (x : End) {k : Prog F C} (hk : k.Within R W) : (finish x k).Within R W := by
  cases x with
  | ok => exact hk
  | usage => trivial
  | indexError => trivial

/-- The files a call may write. -/
def Named (rd : Reader F) (stdout : F) (argv : List Str) (f : F) : Prop := f = stdout ∨ ∃ s ∈ argv, ∃ t, t <:+ s ∧ f = rd.file t

lemma call_within (S : Setup F C α φ ε V T γ) (m : Machine V T) (rd : Reader F) (c : Call) :
    (c.prog S m rd).Within (fun _ => True) (Named rd S.stdout c.argv) := by
  have hu : ∀ argv, Named rd S.stdout argv S.stdout := fun _ => .inl rfl
  have hs : ∀ {A : Type} (p : Parser A) (argv : List Str), ∀ x ∈ (parse p argv).1, ∀ s ∈ x.strs, Named rd S.stdout argv (rd.file s) := by
    intro A p argv x hx s hs
    obtain ⟨t, ht, hst⟩ := parse_suffix p argv x hx s hs
    exact .inr ⟨t, ht, s, hst, rfl⟩
  cases c with
  | exp sc argv =>
    refine perform_within (Inv := fun st : Namespace F × Seen => Outs (Named rd S.stdout argv) st.1) (fun st hi => finish_within _ ?_) _ _ ?_
      (fun a ha st hi => expAct_keeps (hu argv) (hs _ argv a ha) hi)
    · have hw : Named rd S.stdout argv (st.1.outfile.getD st.1.outfilep) := by
        cases e : st.1.outfile with
        | none => exact hi.2
        | some f => exact hi.1 f e
      refine ⟨trivial, fun c => ?_⟩
      beta_reduce
      cases st.1.testfile with
      | none => exact output_within hw _
      | some t => exact ⟨trivial, fun d => output_within hw _⟩
    · exact ⟨fun f hf => (by cases hf), hu argv⟩
  | merge argv =>
    exact perform_within (Inv := fun st : Bool × Bool × F × List F => Named rd S.stdout argv st.2.2.1)
      (fun st hi => finish_within _ (mergeTask_within hi _ (fun _ _ => trivial))) _ _ (hu argv)
      (fun a ha st hi => mergeAct_keeps (hu argv) (hs _ argv a ha) hi)
  | stats argv =>
    refine perform_within (Inv := StatsOuts (Named rd S.stdout argv)) (fun st hi => finish_within _ ?_) _ _ ?_
      (fun a ha st hi => statsAct_keeps (hu argv) (hs _ argv a ha) hi)
    · refine ⟨trivial, fun c => output_within ?_ _⟩
      cases e : st.1.outfile with
      | none => exact hi.2
      | some f => exact hi.1 f e
    · exact ⟨fun f hf => (by cases hf), hu argv⟩

/-! ### The property -/

/-- C129: whatever strings a script is called with, the files it changes are standard output and files whose names are ends of
these strings. -/
theorem C129_touched (S : Setup F C α φ ε V T γ) (m : Machine V T) (rd : Reader F) (c : Call) (w : Files F C) {f : F}
    (hf : ((c.prog S m rd).run w).2 f ≠ w f) : f = S.stdout ∨ ∃ s ∈ c.argv, ∃ t, t <:+ s ∧ f = rd.file t := by
  by_contra h
  exact hf (run_unchanged (call_within S m rd c) w h)

/-- C129: whatever strings a script is called with, all files are as before or empty in the end, but one, if the script ends by
itself, that has a result. -/
theorem C129_one_result (S : Setup F C α φ ε V T γ) (m : Machine V T) (rd : Reader F) (c : Call) (w : Files F C) :
    (∀ f, ((c.prog S m rd).run w).2 f = w f ∨ ((c.prog S m rd).run w).2 f = some S.empty) ∨
    (((c.prog S m rd).run w).1 = .success ∧ ∃ u j, ((c.prog S m rd).run w).2 u = some (S.encode j) ∧
      ∀ f, f ≠ u → ((c.prog S m rd).run w).2 f = w f ∨ ((c.prog S m rd).run w).2 f = some S.empty) :=
  (call_result S m rd c).run w

/-- C129: whatever strings a script is called with, and whenever it is stopped, every file is as before, empty, as the run
would leave it, or has a part of the result of a run that would succeed. -/
theorem C129_stopped (S : Setup F C α φ ε V T γ) (m : Machine V T) (rd : Reader F) (c : Call) (w : Files F C) (n : Nat) (f : F) :
    (steps (c.prog S m rd) w n).2 f = w f ∨ (steps (c.prog S m rd) w n).2 f = some S.empty ∨
      (steps (c.prog S m rd) w n).2 f = ((c.prog S m rd).run w).2 f ∨
      ∃ j, ((c.prog S m rd).run w).1 = .success ∧ ((c.prog S m rd).run w).2 f = some (S.encode j) ∧
        ∃ x ∈ S.parts j, (steps (c.prog S m rd) w n).2 f = some x := by
  have hc := (call_result S m rd c).clean
  have key : Content S.empty S.part (w f) ((steps (c.prog S m rd) w n).2 f)
      (((c.prog S m rd).run w).1, ((c.prog S m rd).run w).2 f) := by
    generalize c.prog S m rd = p at hc ⊢
    induction n generalizing p w with
    | zero => exact .inl rfl
    | succ n ih =>
      have b := ih (p.step w).2 (p.step w).1 (hc.step w)
      rw [run_step] at b
      simp only [steps]
      rcases b with b | b
      · rw [b]
        exact step_content hc w f
      · exact .inr b
  exact content_cases key

end Kam.Args

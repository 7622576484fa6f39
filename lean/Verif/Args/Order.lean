/-
C128: file names between the options are the same as after them.
-/
import Verif.Args.ScriptSpec
import Verif.Shell.Run

set_option linter.unusedSectionVars false

namespace Kam.Args
open Kam.Convert (Str)
open Shell
open Exp (Arg Namespace Seen parseArg defaults Script)

variable {F C A σ : Type} [DecidableEq F] {α φ ε V T γ : Type} [LinearOrder α]

lemma Options.append {p : Parser A} {l r : List Str} {as bs : List (Act A)} (hl : Options p l as) (hr : Options p r bs) :
    Options p (l ++ r) (as ++ bs) := by
  induction hl with
  | nil => exact hr
  | cons hi _ ih =>
    rw [List.append_assoc, List.append_assoc]
    exact .cons hi ih

lemma emptied_there {empty : C} {w : Files F C} {f : F} (h : w f ≠ none) (fs : List F) : emptied empty w fs f ≠ none := by
  unfold emptied
  split
  · simp
  · exact h

/-- Options that are accepted and whose files are there. -/
lemma exp_perform_run (empty : C) (rd : Reader F) (i u : F) (sc : Script) {as : List (Act ExpOpt)} {args : List (Arg F)}
    (h : List.Forall₂ (ExpMeans rd) as args) (bs : List (Act ExpOpt)) (k : Namespace F × Seen → Prog F C) :
    ∀ {st st' : Namespace F × Seen} {w : Files F C}, args.foldlM (parseArg sc) st = some st' →
    (∀ f ∈ args.flatMap argReads, w f ≠ none) →
    (perform empty (expAct rd i u sc) (as ++ bs) st k).run w
      = (perform empty (expAct rd i u sc) bs st' k).run (emptied empty w (args.flatMap argWrites)) := by
  induction h with
  | nil =>
    intro st st' w hf _
    cases hf
    rw [List.flatMap_nil, emptied_nil, List.nil_append]
  | @cons a b as args h1 _ ih =>
    intro st st' w hf hr
    rw [List.foldlM_cons] at hf
    cases hst : parseArg sc st b with
    | none => rw [hst] at hf; cases hf
    | some st1 =>
      rw [hst] at hf
      have hr1 : ∀ f ∈ argReads b, w f ≠ none := fun f hf => hr f (List.mem_flatMap.2 ⟨b, by simp, hf⟩)
      have hr2 : ∀ f ∈ args.flatMap argReads, w f ≠ none := fun f hf => hr f (by rw [List.flatMap_cons]; exact List.mem_append_right _ hf)
      rw [List.cons_append, exp_step empty rd i u sc h1, hst, List.flatMap_cons, ← emptied_append]
      have hone : ∀ k : Prog F C, (openArg empty b k).run w = k.run (emptied empty w (argWrites b)) := by
        intro k
        have read : ∀ f, w f ≠ none → (openRead f k).run w = k.run w := by
          intro f hf
          unfold openRead
          rw [Prog.run]
          cases hw : w f with
          | none => exact absurd hw hf
          | some c => rfl
        cases b <;> first
          | (show k.run w = k.run (emptied empty w []); rw [emptied_nil])
          | (show (openRead _ k).run w = k.run (emptied empty w []); rw [emptied_nil]; exact read _ (hr1 _ (by simp [argReads])))
          | (rename_i f
             show k.run (Function.update w f (some empty)) = k.run (emptied empty w [f])
             congr 1
             funext g
             unfold emptied
             by_cases hg : g = f
             · subst hg; simp
             · simp [hg])
      rw [hone]
      exact ih hf (fun f hf => emptied_there (hr2 f hf) _)

/-- The positional arguments in the namespace. -/
def setPos (pos : List F) (o : Namespace F) : Namespace F :=
  match pos with
  | [] => o
  | [i] => { o with infilep := i }
  | i :: u :: _ => { o with infilep := i, outfilep := u }

lemma parseArg_setPos (sc : Script) (pos : List F) (o : Namespace F) (s : Seen) (a : Arg F) :
    parseArg sc (setPos pos o, s) a = (parseArg sc (o, s) a).map (fun st => (setPos pos st.1, st.2)) := by
  rcases pos with _ | ⟨i, _ | ⟨u, r⟩⟩ <;> cases a <;> simp only [parseArg, setPos] <;> first
    | rfl
    | (split <;> rfl)

lemma foldlM_setPos (sc : Script) (pos : List F) : ∀ (args : List (Arg F)) (o : Namespace F) (s : Seen),
    args.foldlM (parseArg sc) (setPos pos o, s) = (args.foldlM (parseArg sc) (o, s)).map (fun st => (setPos pos st.1, st.2))
  | [], _, _ => rfl
  | a :: as, o, s => by
    rw [List.foldlM_cons, List.foldlM_cons, parseArg_setPos]
    cases parseArg sc (o, s) a with
    | none => rfl
    | some st => exact foldlM_setPos sc pos as st.1 st.2

lemma two_run (empty : C) (rd : Reader F) (i u : F) (sc : Script) {pos : List Str} (hpos : Names expParser pos) (hlen : pos.length ≤ 2)
    (bs : List (Act ExpOpt)) (k : Namespace F × Seen → Prog F C) (o : Namespace F) (s : Seen) {w : Files F C}
    (hr : ∀ f ∈ (pos.map rd.file).take 1, w f ≠ none) :
    (perform empty (expAct rd i u sc) ((if pos = [] then [] else two pos) ++ bs) (o, s) k).run w
      = (perform empty (expAct rd i u sc) bs (setPos (pos.map rd.file) o, s) k).run
        (emptied empty w (((pos.map rd.file).drop 1).take 1)) := by
  have hx : ∀ x ∈ pos, opens rd x = [rd.file x] ∧ ∀ std, fileOf rd std x = rd.file x := by
    intro x hx
    exact ⟨if_neg (hpos x hx).2, fun _ => if_neg (hpos x hx).2⟩
  have read : ∀ f (k : Prog F C), w f ≠ none → (openRead f k).run w = k.run w := by
    intro f k hf
    unfold openRead
    rw [Prog.run]
    cases hw : w f with
    | none => exact absurd hw hf
    | some c => rfl
  rcases pos with _ | ⟨x, _ | ⟨y, _ | ⟨z, zs⟩⟩⟩
  · simp [setPos, emptied_nil]
  · obtain ⟨h1, h2⟩ := hx x (by simp)
    simp only [List.cons_ne_nil, if_false, two, List.cons_append, List.nil_append, perform, expAct, h1, h2, openReads, openWrites]
    rw [read _ _ (hr _ (by simp))]
    simp [setPos, emptied_nil]
  · obtain ⟨h1, h2⟩ := hx x (by simp)
    obtain ⟨h3, h4⟩ := hx y (by simp)
    have hy : y ≠ ['-', '-'] := plain_ne (hpos y (by simp)).1
    simp only [List.cons_ne_nil, if_false, two, if_neg hy, List.cons_append, List.nil_append, perform, expAct, h1, h2, h3, h4,
      openReads, openWrites]
    rw [read _ _ (hr _ (by simp))]
    show (perform empty (expAct rd i u sc) bs _ k).run (Function.update w _ (some empty)) = _
    congr 1
    funext g
    unfold emptied
    by_cases hg : g = rd.file y
    · subst hg; simp
    · simp [hg]
  · simp at hlen

/-- C128: it does not matter whether the file names are before, between or after the options, if the options are accepted
and the files to be read are there. -/
theorem C128_any_order (S : Setup F C α φ ε V T γ) (m : Machine V T) (rd : Reader F) (sc : Script) {l pos r : List Str}
    {as bs : List (Act ExpOpt)} {args args' : List (Arg F)} (hl : Options expParser l as) (hr : Options expParser r bs)
    (ha : List.Forall₂ (ExpMeans rd) as args) (hb : List.Forall₂ (ExpMeans rd) bs args')
    (hpos : Names expParser pos) (hlen : pos.length ≤ 2) {o : Namespace F}
    (ho : Exp.commandLine sc S.stdin S.stdout (args ++ args') (pos.map rd.file) = some o) {w : Files F C}
    (hin : ∀ f ∈ (Command.exp sc (args ++ args') (pos.map rd.file)).reads, w f ≠ none) :
    (expLine S m rd sc (l ++ pos ++ r)).run w = ((Command.exp sc (args ++ args') (pos.map rd.file)).prog S m).run w := by
  have hreads : ∀ f, f ∈ args.flatMap argReads ∨ f ∈ args'.flatMap argReads ∨ f ∈ (pos.map rd.file).take 1 → w f ≠ none := by
    intro f hf
    apply hin
    show f ∈ (args ++ args').flatMap argReads ++ _
    rw [List.flatMap_append]
    rcases hf with h | h | h <;> simp [h]
  -- the options are accepted
  have hfold : ∃ st1 st2, args.foldlM (parseArg sc) (defaults sc S.stdin S.stdout, ⟨false, false, false, false⟩) = some st1 ∧
      args'.foldlM (parseArg sc) st1 = some st2 := by
    cases h : (args ++ args').foldlM (parseArg sc) (defaults sc S.stdin S.stdout, ⟨false, false, false, false⟩) with
    | none =>
      unfold Exp.commandLine at ho
      simp only [h] at ho
      cases ho
    | some st2 =>
      rw [List.foldlM_append] at h
      cases h1 : args.foldlM (parseArg sc) (defaults sc S.stdin S.stdout, ⟨false, false, false, false⟩) with
      | none => rw [h1] at h; cases h
      | some st1 => rw [h1] at h; exact ⟨st1, st2, rfl, h⟩
  obtain ⟨⟨o1, s1⟩, ⟨o2, s2⟩, h1, h2⟩ := hfold
  have hpar : parse expParser (l ++ pos ++ r) = (as ++ ((if pos = [] then [] else two pos) ++ bs), .ok) := by
    by_cases h0 : pos = []
    · subst h0
      rw [if_pos rfl, List.append_nil, List.nil_append]
      exact (C127_grammar expParser_wellFormed _ _).mpr (.options rfl (hl.append hr))
    · rw [if_neg h0, ← List.append_assoc]
      exact (C127_grammar expParser_wellFormed _ _).mpr (.two rfl hl h0 hlen (names_plain hpos) hr)
  have hpar2 : parse expParser (l ++ r ++ pos) = (as ++ bs ++ ((if pos = [] then [] else two pos)), .ok) :=
    parse_last expParser_wellFormed rfl (hl.append hr) (names_plain hpos) hlen
  rw [← C128_experiment S m rd sc (hl.append hr) (List.rel_append ha hb) hpos hlen]
  unfold expLine
  rw [hpar, hpar2]
  simp only []
  rw [exp_perform_run S.empty rd S.stdin S.stdout sc ha _ _ h1 (fun f hf => hreads f (Or.inl hf)),
    two_run S.empty rd S.stdin S.stdout sc hpos hlen bs _ o1 s1 (fun f hf => emptied_there (hreads f (Or.inr (Or.inr hf))) _)]
  have h3 : args'.foldlM (parseArg sc) (setPos (pos.map rd.file) o1, s1) = some (setPos (pos.map rd.file) o2, s2) := by
    rw [foldlM_setPos, h2]
    rfl
  have e1 := exp_perform_run S.empty rd S.stdin S.stdout sc hb []
    (fun st => finish .ok (expTask S m sc st.1)) h3
    (w := emptied S.empty (emptied S.empty w (args.flatMap argWrites)) (((pos.map rd.file).drop 1).take 1))
    (fun f hf => emptied_there (emptied_there (hreads f (Or.inr (Or.inl hf))) _) _)
  rw [List.append_nil] at e1
  rw [e1]
  rw [List.append_assoc, exp_perform_run S.empty rd S.stdin S.stdout sc ha _ _ h1 (fun f hf => hreads f (Or.inl hf)),
    exp_perform_run S.empty rd S.stdin S.stdout sc hb _ _ h2 (fun f hf => emptied_there (hreads f (Or.inr (Or.inl hf))) _)]
  have e2 := two_run S.empty rd S.stdin S.stdout sc hpos hlen [] (fun st => finish .ok (expTask S m sc st.1)) o2 s2
    (w := emptied S.empty (emptied S.empty w (args.flatMap argWrites)) (args'.flatMap argWrites))
    (fun f hf => emptied_there (emptied_there (hreads f (Or.inr (Or.inr hf))) _) _)
  rw [List.append_nil] at e2
  rw [e2]
  congr 1
  simp only [emptied_append]
  funext f
  unfold emptied
  have : ∀ xs ys zs : List F, (f ∈ xs ++ ys ++ zs) ↔ (f ∈ xs ++ zs ++ ys) := by
    intro xs ys zs
    simp only [List.mem_append]
    tauto
  simp only [this]

end Kam.Args

/-
Lemmas about programs on files.
-/
import Verif.Shell.Model
import Verif.Scripts.Lemmas

set_option linter.unusedSectionVars false

namespace Kam.Shell
open Scripts
open Exp (Arg Namespace Seen parseArg defaults Script Lib)

variable {F C : Type} [DecidableEq F]

/-! ### Footprints -/

/-- The program looks at files of `R` only and writes files of `W` only. -/
def Prog.Within (R W : F → Prop) : Prog F C → Prop
  | .done _ => True
  | .look f k => R f ∧ ∀ c, (k c).Within R W
  | .put f _ k => W f ∧ k.Within R W

lemma Prog.Within.mono {R W R' W' : F → Prop} (hR : ∀ f, R f → R' f) (hW : ∀ f, W f → W' f) :
    ∀ {p : Prog F C}, p.Within R W → p.Within R' W'
  | .done _, _ => trivial
  | .look _ _, h => ⟨hR _ h.1, fun c => (h.2 c).mono hR hW⟩
  | .put _ _ _, h => ⟨hW _ h.1, h.2.mono hR hW⟩

lemma Prog.Within.step {R W : F → Prop} {p : Prog F C} (h : p.Within R W) (w : Files F C) : (p.step w).1.Within R W := by
  cases p with
  | done x => trivial
  | look f k => exact h.2 _
  | put f c k => exact h.2

lemma step_unchanged {R W : F → Prop} {p : Prog F C} (h : p.Within R W) (w : Files F C) {f : F} (hf : ¬ W f) : (p.step w).2 f = w f := by
  cases p with
  | done x => rfl
  | look f k => rfl
  | put g c k =>
    simp only [Prog.step]
    rw [Function.update_of_ne]
    rintro rfl
    exact hf h.1

lemma run_step (p : Prog F C) (w : Files F C) : (p.step w).1.run (p.step w).2 = p.run w := by
  cases p <;> rfl

lemma run_unchanged {R W : F → Prop} : ∀ {p : Prog F C}, p.Within R W → ∀ (w : Files F C) {f : F}, ¬ W f → (p.run w).2 f = w f
  | .done _, _, _, _, _ => rfl
  | .look g k, h, w, f, hf => run_unchanged (p := k (w g)) (h.2 _) w hf
  | .put g c k, h, w, f, hf => by
    rw [Prog.run, run_unchanged h.2 _ hf, Function.update_of_ne]
    rintro rfl
    exact hf h.1

/-- What a program does depends on the files it looks at only. -/
lemma run_agree {R W : F → Prop} : ∀ {p : Prog F C}, p.Within R W → ∀ {w w' : Files F C},
    (∀ f, R f → w f = w' f) → (∀ f, W f → w f = w' f) →
    (p.run w).1 = (p.run w').1 ∧ ∀ f, (R f ∨ W f) → (p.run w).2 f = (p.run w').2 f
  | .done _, _, w, w', h1, h2 => ⟨rfl, fun f hf => hf.elim (h1 f) (h2 f)⟩
  | .look g k, h, w, w', h1, h2 => by
    simp only [Prog.run]
    rw [h1 g h.1]
    exact run_agree (h.2 _) h1 h2
  | .put g c k, h, w, w', h1, h2 => by
    simp only [Prog.run]
    refine run_agree h.2 (fun f hf => ?_) (fun f hf => ?_)
    · by_cases e : f = g
      · subst e; simp
      · rw [Function.update_of_ne e, Function.update_of_ne e, h1 f hf]
    · by_cases e : f = g
      · subst e; simp
      · rw [Function.update_of_ne e, Function.update_of_ne e, h2 f hf]

/-! ### What is written -/

/-- The program writes the content `full` into the file `f`, parts of it at first, and ends. -/
def Prog.Writing (part : C → C → Prop) (f : F) (full : C) : Prog F C → Prop
  | .done _ => False
  | .look _ _ => False
  | .put g c k => g = f ∧ ((c = full ∧ k = .done .success) ∨ (part c full ∧ k.Writing part f full))

lemma Prog.Writing.run {part : C → C → Prop} {f : F} {full : C} {p : Prog F C} (h : p.Writing part f full) (w : Files F C) :
    p.run w = (.success, Function.update w f (some full)) := by
  induction p generalizing w with
  | done x => exact h.elim
  | look g k _ => exact h.elim
  | put g c k ih =>
    obtain ⟨rfl, ⟨rfl, rfl⟩ | ⟨_, h2⟩⟩ := h
    · rfl
    · rw [Prog.run, ih h2, Function.update_idem]

/-- The program writes `empty` until it starts to write a result. -/
def Prog.Clean (empty : C) (part : C → C → Prop) : Prog F C → Prop
  | .done _ => True
  | .look _ k => ∀ c, (k c).Clean empty part
  | .put f c k => (c = empty ∧ k.Clean empty part) ∨ ∃ full, (Prog.put f c k).Writing part f full

lemma Prog.Writing.clean {empty : C} {part : C → C → Prop} {f : F} {full : C} {p : Prog F C} (h : p.Writing part f full) :
    p.Clean empty part := by
  cases p with
  | done x => exact h.elim
  | look g k => exact h.elim
  | put g c k =>
    obtain rfl := h.1
    exact .inr ⟨full, h⟩

lemma Prog.Clean.step {empty : C} {part : C → C → Prop} {p : Prog F C} (h : p.Clean empty part) (w : Files F C) :
    (p.step w).1.Clean empty part := by
  cases p with
  | done x => trivial
  | look f k => exact h _
  | put f c k =>
    rcases h with h | ⟨full, _, ⟨_, rfl⟩ | ⟨_, h⟩⟩
    · exact h.2
    · trivial
    · exact h.clean

/-- What can be found in a file: what was there, nothing, what the run leaves in the end, or a part of that. -/
def Content (empty : C) (part : C → C → Prop) (old new : Option C) (end_ : Exit × Option C) : Prop :=
  new = old ∨ new = some empty ∨ new = end_.2 ∨
    ∃ c full, new = some c ∧ part c full ∧ end_ = (.success, some full)

/-- After one step a file is as it was, empty, or as it will be in the end, or in part. -/
lemma step_content {empty : C} {part : C → C → Prop} {p : Prog F C} (h : p.Clean empty part) (w : Files F C) (f : F) :
    Content empty part (w f) ((p.step w).2 f) ((p.run w).1, (p.run w).2 f) := by
  cases p with
  | done x => exact .inl rfl
  | look f k => exact .inl rfl
  | put g c k =>
    by_cases e : f = g
    · subst e
      rcases h with ⟨rfl, _⟩ | ⟨full, hw⟩
      · right; left; simp [Prog.step]
      · have hr := hw.run w
        rcases hw.2 with ⟨rfl, _⟩ | ⟨h1, _⟩
        · right; right; left
          rw [hr]
          rfl
        · right; right; right
          refine ⟨c, full, by simp [Prog.step], h1, ?_⟩
          rw [hr]
          simp
    · left; simp only [Prog.step]; rw [Function.update_of_ne e]

/-! ### Together -/

/-- Programs none of which writes a file of another one run together as each of them alone, whatever the schedule: what is
left of each of them to do, and what is in its files, leads to the end it has alone. -/
lemma together_inv {ps : Nat → Prog F C} {R W : Nat → F → Prop} (h : ∀ i, (ps i).Within (R i) (W i))
    (hd : ∀ i j, i ≠ j → ∀ f, W i f → ¬ R j f ∧ ¬ W j f) (w : Files F C) (schedule : List Nat) :
    (∀ i, ((together ps w schedule).1 i).Within (R i) (W i)) ∧
    (∀ i, (((together ps w schedule).1 i).run (together ps w schedule).2).1 = ((ps i).run w).1 ∧
      ∀ f, (R i f ∨ W i f) → (((together ps w schedule).1 i).run (together ps w schedule).2).2 f = ((ps i).run w).2 f) ∧
    ∀ f, (∀ i, ¬ W i f) → (together ps w schedule).2 f = w f := by
  induction schedule generalizing ps w with
  | nil => exact ⟨h, fun i => ⟨rfl, fun _ _ => rfl⟩, fun _ _ => rfl⟩
  | cons j is ih =>
    simp only [together]
    have h' : ∀ i, (Function.update ps j ((ps j).step w).1 i).Within (R i) (W i) := by
      intro i
      by_cases e : i = j
      · subst e; rw [Function.update_self]; exact (h i).step w
      · rw [Function.update_of_ne e]; exact h i
    obtain ⟨a, b, c⟩ := ih h' ((ps j).step w).2
    refine ⟨a, fun i => ?_, fun f hf => ?_⟩
    · obtain ⟨b1, b2⟩ := b i
      by_cases e : i = j
      · subst e
        rw [Function.update_self, run_step] at b1 b2
        exact ⟨b1, b2⟩
      · rw [Function.update_of_ne e] at b1 b2
        have key : ∀ f, (R i f ∨ W i f) → ((ps j).step w).2 f = w f := by
          intro f hf
          refine step_unchanged (h j) w (fun hW => ?_)
          exact hf.elim (hd j i (Ne.symm e) f hW).1 (hd j i (Ne.symm e) f hW).2
        obtain ⟨k1, k2⟩ := run_agree (h i) (w := ((ps j).step w).2) (w' := w) (fun f hf => key f (.inl hf)) (fun f hf => key f (.inr hf))
        exact ⟨b1.trans k1, fun f hf => (b2 f hf).trans (k2 f hf)⟩
    · rw [c f hf]
      exact step_unchanged (h j) w (hf j)

/-- At every moment the files of such programs are as they were, empty, as they will be in the end, or in part. -/
lemma together_content {empty : C} {part : C → C → Prop} {ps : Nat → Prog F C} {R W : Nat → F → Prop} (h : ∀ i, (ps i).Within (R i) (W i))
    (hc : ∀ i, (ps i).Clean empty part)
    (hd : ∀ i j, i ≠ j → ∀ f, W i f → ¬ R j f ∧ ¬ W j f) (w : Files F C) (schedule : List Nat) (i : Nat) (f : F) (hf : W i f) :
    Content empty part (w f) ((together ps w schedule).2 f) (((ps i).run w).1, ((ps i).run w).2 f) := by
  induction schedule generalizing ps w with
  | nil => exact .inl rfl
  | cons j is ih =>
    simp only [together]
    have h' : ∀ i, (Function.update ps j ((ps j).step w).1 i).Within (R i) (W i) := by
      intro i
      by_cases e : i = j
      · subst e; rw [Function.update_self]; exact (h i).step w
      · rw [Function.update_of_ne e]; exact h i
    have hc' : ∀ i, (Function.update ps j ((ps j).step w).1 i).Clean empty part := by
      intro i
      by_cases e : i = j
      · subst e; rw [Function.update_self]; exact (hc i).step w
      · rw [Function.update_of_ne e]; exact hc i
    have b := ih h' hc' ((ps j).step w).2
    by_cases e : i = j
    · subst e
      rw [Function.update_self, run_step] at b
      rcases b with b | b
      · rw [b]
        exact step_content (hc i) w f
      · exact .inr b
    · rw [Function.update_of_ne e] at b
      have key : ∀ f, (R i f ∨ W i f) → ((ps j).step w).2 f = w f := by
        intro f hf
        refine step_unchanged (h j) w (fun hW => ?_)
        exact hf.elim (hd j i (Ne.symm e) f hW).1 (hd j i (Ne.symm e) f hW).2
      obtain ⟨k1, k2⟩ := run_agree (h i) (w := ((ps j).step w).2) (w' := w) (fun f hf => key f (.inl hf)) (fun f hf => key f (.inr hf))
      rw [key f (.inr hf), k1, k2 f (.inr hf)] at b
      exact b

/-! ### Ends -/

lemma together_append (ps : Nat → Prog F C) (w : Files F C) (s t : List Nat) :
    together ps w (s ++ t) = together (together ps w s).1 (together ps w s).2 t := by
  induction s generalizing ps w with
  | nil => rfl
  | cons i s ih => simp only [List.cons_append, together]; exact ih _ _

/-- A program that is given steps ends, and others wait. -/
lemma together_one (p : Prog F C) : ∀ (ps : Nat → Prog F C) (w : Files F C) (i : Nat), ps i = p →
    ∃ n x, (together ps w (List.replicate n i)).1 i = .done x ∧ ∀ j, j ≠ i → (together ps w (List.replicate n i)).1 j = ps j := by
  have more : ∀ (q : Prog F C) (ps : Nat → Prog F C) (w : Files F C) (i : Nat), ((ps i).step w).1 = q →
      (∀ (ps : Nat → Prog F C) (w : Files F C) (i : Nat), ps i = q →
        ∃ n x, (together ps w (List.replicate n i)).1 i = .done x ∧ ∀ j, j ≠ i → (together ps w (List.replicate n i)).1 j = ps j) →
      ∃ n x, (together ps w (List.replicate n i)).1 i = .done x ∧ ∀ j, j ≠ i → (together ps w (List.replicate n i)).1 j = ps j := by
    intro q ps w i e ih
    obtain ⟨n, x, h1, h2⟩ := ih (Function.update ps i ((ps i).step w).1) ((ps i).step w).2 i (by rw [Function.update_self]; exact e)
    exact ⟨n + 1, x, h1, fun j hj => (h2 j hj).trans (Function.update_of_ne hj _ _)⟩
  induction p with
  | done x => exact fun ps w i h => ⟨0, x, h, fun _ _ => rfl⟩
  | look f k ih => exact fun ps w i h => more (k (w f)) ps w i (by rw [h]; rfl) (ih (w f))
  | put f c k ih => exact fun ps w i h => more k ps w i (by rw [h]; rfl) ih

/-- A program that is given all the steps it needs while the others wait does what it does alone. -/
lemma together_alone (p : Prog F C) : ∀ (ps : Nat → Prog F C) (w : Files F C) (i : Nat), ps i = p →
    ∃ n, together ps w (List.replicate n i) = (Function.update ps i (.done (p.run w).1), (p.run w).2) := by
  induction p with
  | done x =>
    intro ps w i h
    refine ⟨0, ?_⟩
    show (ps, w) = (Function.update ps i (.done x), w)
    rw [← h, Function.update_eq_self]
  | look f k ih =>
    intro ps w i h
    obtain ⟨n, hn⟩ := ih (w f) (Function.update ps i (k (w f))) w i (Function.update_self ..)
    refine ⟨n + 1, ?_⟩
    rw [List.replicate_succ, together, h]
    simp only [Prog.step, Prog.run]
    rw [hn, Function.update_idem]
  | put f c k ih =>
    intro ps w i h
    obtain ⟨n, hn⟩ := ih (Function.update ps i k) (Function.update w f (some c)) i (Function.update_self ..)
    refine ⟨n + 1, ?_⟩
    rw [List.replicate_succ, together, h]
    simp only [Prog.step, Prog.run]
    rw [hn, Function.update_idem]

/-- Programs that run together can all end. -/
lemma together_ends (ps : Nat → Prog F C) (w : Files F C) : ∀ n : Nat, ∃ s, ∀ i < n, ∃ x, (together ps w s).1 i = .done x
  | 0 => ⟨[], fun _ h => absurd h (by omega)⟩
  | n + 1 => by
    obtain ⟨s, hs⟩ := together_ends ps w n
    obtain ⟨k, x, h1, h2⟩ := together_one _ (together ps w s).1 (together ps w s).2 n rfl
    refine ⟨s ++ List.replicate k n, fun i hi => ?_⟩
    rw [together_append]
    by_cases e : i = n
    · subst e; exact ⟨x, h1⟩
    · rw [h2 i e]
      exact hs i (by omega)

end Kam.Shell

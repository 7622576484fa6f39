/-
C165: threads that call `fit` of the same matrix factorization.
-/
import Verif.Fit.Same
import Verif.MF.Lemmas

set_option linter.unusedSectionVars false

namespace Kam
namespace MF
namespace Same
variable {nu ni k : Nat} {γ : Type}

/-- The position of a statement in a call. -/
def rank : Instr γ nu ni k → Nat
  | .generator _ => 0
  | .dtype => 1
  | .new => 2
  | .view _ => 3
  | .init _ => 4
  | .initialLoss => 5
  | .minimize => 6
  | .copy => 7
  | .extend .mu => 8
  | .extend .bu => 9
  | .extend .bi => 10
  | .extend .p => 11
  | .extend .q => 12
  | .record _ _ _ => 13
  | .removeData => 14
  | .dropCoef => 15
  | .dropDtype => 16

/-- How far a call is: the position of its next statement. -/
def stage : List (Instr γ nu ni k) → Nat
  | [] => 17
  | s :: _ => rank s

/-- The positions that can follow a position: the next one, or the same if there are several such statements; `init` may be empty. -/
def Next (a b : Nat) : Prop := b = a + 1 ∨ a = 3 ∧ b = 5 ∨ b = a ∧ (a = 3 ∨ a = 4 ∨ a = 13)

/-- The statements are in order. -/
def Ordered : List (Instr γ nu ni k) → Prop
  | [] => True
  | s :: l => Next (rank s) (stage l) ∧ Ordered l

lemma program_ordered (g : γ) (init : List (Shared γ nu ni k → Res (Shared γ nu ni k))) (nEvents : Nat) (method : String)
    (kwargs : List (String × String)) : Ordered (program g init nEvents method kwargs) := by
  have tail : ∀ t : List (Instr γ nu ni k), Ordered t → stage t = 5 → Ordered (init.map .init ++ t) ∧
      (stage (init.map .init ++ t) = 4 ∨ stage (init.map .init ++ t) = 5) := by
    intro t ht h5
    induction init with
    | nil => exact ⟨ht, .inr h5⟩
    | cons f init ih =>
      refine ⟨⟨?_, ih.1⟩, .inl rfl⟩
      rcases ih.2 with h | h
      · exact .inr (.inr ⟨h, .inr (.inl rfl)⟩)
      · exact .inl h
  have ht : Ordered ([.initialLoss, .minimize, .copy, .extend .mu, .extend .bu, .extend .bi, .extend .p, .extend .q] ++
      (recording nEvents method kwargs ++ [.removeData, .dropCoef, .dropDtype]) : List (Instr γ nu ni k)) :=
    ⟨.inl rfl, .inl rfl, .inl rfl, .inl rfl, .inl rfl, .inl rfl, .inl rfl, .inl rfl, .inr (.inr ⟨rfl, .inr (.inr rfl)⟩), .inr (.inr ⟨rfl, .inr (.inr rfl)⟩),
      .inr (.inr ⟨rfl, .inr (.inr rfl)⟩), .inr (.inr ⟨rfl, .inr (.inr rfl)⟩), .inr (.inr ⟨rfl, .inr (.inr rfl)⟩), .inr (.inr ⟨rfl, .inr (.inr rfl)⟩), .inr (.inr ⟨rfl, .inr (.inr rfl)⟩),
      .inr (.inr ⟨rfl, .inr (.inr rfl)⟩), .inr (.inr ⟨rfl, .inr (.inr rfl)⟩), .inr (.inr ⟨rfl, .inr (.inr rfl)⟩), .inr (.inr ⟨rfl, .inr (.inr rfl)⟩), .inr (.inr ⟨rfl, .inr (.inr rfl)⟩), .inl rfl, .inl rfl, .inl rfl, .inl rfl, trivial⟩
  obtain ⟨h1, h2⟩ := tail _ ht rfl
  refine ⟨.inl rfl, .inl rfl, .inl rfl, .inr (.inr ⟨rfl, .inl rfl⟩), .inr (.inr ⟨rfl, .inl rfl⟩), .inr (.inr ⟨rfl, .inl rfl⟩), .inr (.inr ⟨rfl, .inl rfl⟩), ?_, h1⟩
  show Next 3 (stage _)
  rcases h2 with h | h
  · exact .inl h
  · exact .inr (.inl ⟨rfl, h⟩)

/-- What `raw_predict` reads if the parameters are those found by the optimizer. -/
structure Holds (s : Shared γ nu ni k) (x : Coef nu ni k) : Prop where
  mu : s.mu = .own (unpack x).mu
  bu : s.bu = .own (List.ofFn (unpack x).bu ++ [0])
  bi : s.bi = .own (List.ofFn (unpack x).bi ++ [0])
  p : s.p = .own (List.ofFn (fun u => List.ofFn ((unpack x).p u)) ++ [List.replicate k 0])
  q : s.q = .own (List.ofFn (fun i => List.ofFn ((unpack x).q i)) ++ [List.replicate k 0])

/-- What is known after every turn.  `g` is the call that has stored its result last. -/
structure Inv (opt : Optimizer) (method : String) (kwargs : List (String × String)) (w0 w : World γ nu ni k)
    (g : Option (Nat × OptResult (size nu ni k))) : Prop where
  ordered : ∀ i, Ordered (w.rest i)
  same : ∀ i, (w.call i).loss = (w0.call i).loss ∧ (w.call i).grad = (w0.call i).grad
  found : ∀ i r, (w.call i).res = some r → ∃ x0, r = opt _ (w0.call i).loss (w0.call i).grad x0 method kwargs
  last : ∀ i r, g = some (i, r) → (w.call i).res = some r ∧ 7 < stage (w.rest i)
  stored : ∀ i, 7 < stage (w.rest i) → g ≠ none
  coef : ∀ i r, g = some (i, r) → (∀ j, 2 < stage (w.rest j) → 7 < stage (w.rest j)) → ∀ a, w.self.coef = some a → w.self.heap a = unpack r.x
  mu : ∀ i r, g = some (i, r) → (∀ j, 2 < stage (w.rest j) → 8 < stage (w.rest j)) → w.self.mu = .own (unpack r.x).mu
  bu : ∀ i r, g = some (i, r) → (∀ j, 2 < stage (w.rest j) → 9 < stage (w.rest j)) → w.self.bu = .own (List.ofFn (unpack r.x).bu ++ [0])
  bi : ∀ i r, g = some (i, r) → (∀ j, 2 < stage (w.rest j) → 10 < stage (w.rest j)) → w.self.bi = .own (List.ofFn (unpack r.x).bi ++ [0])
  p : ∀ i r, g = some (i, r) → (∀ j, 2 < stage (w.rest j) → 11 < stage (w.rest j)) →
    w.self.p = .own (List.ofFn (fun u => List.ofFn ((unpack r.x).p u)) ++ [List.replicate k 0])
  q : ∀ i r, g = some (i, r) → (∀ j, 2 < stage (w.rest j) → 12 < stage (w.rest j)) →
    w.self.q = .own (List.ofFn (fun i => List.ofFn ((unpack r.x).q i)) ++ [List.replicate k 0])

lemma Inv.step {opt : Optimizer} {method : String} {kwargs : List (String × String)} {w0 w : World γ nu ni k}
    {g : Option (Nat × OptResult (size nu ni k))} (I : Inv opt method kwargs w0 w g) (j : Nat) :
    ∃ g', Inv opt method kwargs w0 (tstep opt method kwargs w j) g' := by
  unfold tstep
  split
  · rename_i s l hr hl
    split
    · rename_i c o he
      have hord := I.ordered j
      rw [hl] at hord
      have hstep : Next (rank s) (stage l) := hord.1
      have hsj : stage (w.rest j) = rank s := by rw [hl]; rfl
      have ord' : ∀ i, Ordered (Function.update w.rest j l i) := by
        intro i
        by_cases hi : i = j
        · subst hi; rw [Function.update_self]; exact hord.2
        · rw [Function.update_of_ne hi]; exact I.ordered i
      have stj : stage (Function.update w.rest j l j) = stage l := by rw [Function.update_self]
      have sti : ∀ i, i ≠ j → stage (Function.update w.rest j l i) = stage (w.rest i) := by
        intro i hi; rw [Function.update_of_ne hi]
      have same' : c.loss = (w.call j).loss → c.grad = (w.call j).grad → ∀ i, (Function.update w.call j c i).loss = (w0.call i).loss ∧
          (Function.update w.call j c i).grad = (w0.call i).grad := by
        intro h1 h2 i
        by_cases hi : i = j
        · subst hi; rw [Function.update_self, h1, h2]; exact I.same i
        · rw [Function.update_of_ne hi]; exact I.same i
      have found' : (∀ r, c.res = some r → ∃ x0, r = opt _ (w0.call j).loss (w0.call j).grad x0 method kwargs) →
          ∀ i r, (Function.update w.call j c i).res = some r → ∃ x0, r = opt _ (w0.call i).loss (w0.call i).grad x0 method kwargs := by
        intro h i r hr
        by_cases hi : i = j
        · subst hi; rw [Function.update_self] at hr; exact h r hr
        · rw [Function.update_of_ne hi] at hr; exact I.found i r hr
      -- a statement before the result is stored, from the allocation on
      have busy : 2 ≤ rank s → rank s ≤ 6 → c.loss = (w.call j).loss → c.grad = (w.call j).grad →
          (∀ r, c.res = some r → ∃ x0, r = opt _ (w0.call j).loss (w0.call j).grad x0 method kwargs) →
          Inv opt method kwargs w0 { w with self := o, call := Function.update w.call j c, rest := Function.update w.rest j l } g := by
        intro h2 h6 e1 e2 e3
        have hlt : 2 < stage l ∧ stage l ≤ 7 := by unfold Next at hstep; omega
        have no : ∀ e, 7 ≤ e → ¬ ∀ i, 2 < stage (Function.update w.rest j l i) → e < stage (Function.update w.rest j l i) := by
          intro e he h
          have := h j
          rw [stj] at this
          have := this hlt.1
          omega
        refine ⟨ord', same' e1 e2, found' e3, ?_, ?_, fun _ _ _ h => absurd h (no 7 (by omega)), fun _ _ _ h => absurd h (no 8 (by omega)),
          fun _ _ _ h => absurd h (no 9 (by omega)), fun _ _ _ h => absurd h (no 10 (by omega)), fun _ _ _ h => absurd h (no 11 (by omega)),
          fun _ _ _ h => absurd h (no 12 (by omega))⟩
        · intro i r hg
          obtain ⟨a, b⟩ := I.last i r hg
          have hi : i ≠ j := by rintro rfl; omega
          show (Function.update w.call j c i).res = some r ∧ 7 < stage (Function.update w.rest j l i)
          rw [Function.update_of_ne hi, sti i hi]
          exact ⟨a, b⟩
        · intro i h7
          have h7 : 7 < stage (Function.update w.rest j l i) := h7
          have hi : i ≠ j := by rintro rfl; omega
          rw [sti i hi] at h7
          exact I.stored i h7
      -- a statement before the allocation or after the result is stored
      have quiet : (rank s ≤ 1 ∨ 8 ≤ rank s) → c = w.call j → o.heap = w.self.heap → (o.coef = w.self.coef ∨ o.coef = none) →
          (rank s = 8 → ∃ a, w.self.coef = some a ∧ o.mu = .own (w.self.heap a).mu) → (rank s ≠ 8 → o.mu = w.self.mu) →
          (rank s = 9 → ∃ a, w.self.coef = some a ∧ o.bu = .own (List.ofFn (w.self.heap a).bu ++ [0])) → (rank s ≠ 9 → o.bu = w.self.bu) →
          (rank s = 10 → ∃ a, w.self.coef = some a ∧ o.bi = .own (List.ofFn (w.self.heap a).bi ++ [0])) → (rank s ≠ 10 → o.bi = w.self.bi) →
          (rank s = 11 → ∃ a, w.self.coef = some a ∧
            o.p = .own (List.ofFn (fun u => List.ofFn ((w.self.heap a).p u)) ++ [List.replicate k 0])) → (rank s ≠ 11 → o.p = w.self.p) →
          (rank s = 12 → ∃ a, w.self.coef = some a ∧
            o.q = .own (List.ofFn (fun i => List.ofFn ((w.self.heap a).q i)) ++ [List.replicate k 0])) → (rank s ≠ 12 → o.q = w.self.q) →
          Inv opt method kwargs w0 { w with self := o, call := Function.update w.call j c, rest := Function.update w.rest j l } g := by
        intro hrk hc hheap hcoef m1 m2 b1 b2 i1 i2 p1 p2 q1 q2
        have hle : stage l ≤ rank s + 1 ∧ rank s ≤ stage l := by unfold Next at hstep; omega
        have pre : ∀ e, e ≠ rank s → (∀ i, 2 < stage (Function.update w.rest j l i) → e < stage (Function.update w.rest j l i)) →
            ∀ i, 2 < stage (w.rest i) → e < stage (w.rest i) := by
          intro e he h i h2
          by_cases hi : i = j
          · subst hi
            have := h i
            rw [stj] at this
            omega
          · have := h i
            rw [sti i hi] at this
            exact this h2
        have pre7 : ∀ e, e = rank s → 8 ≤ e → (∀ i, 2 < stage (Function.update w.rest j l i) → e < stage (Function.update w.rest j l i)) →
            ∀ i, 2 < stage (w.rest i) → 7 < stage (w.rest i) := by
          intro e he h8 h i h2
          by_cases hi : i = j
          · subst hi
            omega
          · have := h i
            rw [sti i hi] at this
            have := this h2
            omega
        refine ⟨ord', same' (by rw [hc]) (by rw [hc]), found' (fun r hr => I.found j r (hc ▸ hr)), ?_, ?_, ?_, ?_, ?_, ?_, ?_, ?_⟩
        · intro i r hg
          obtain ⟨a, b⟩ := I.last i r hg
          show (Function.update w.call j c i).res = some r ∧ 7 < stage (Function.update w.rest j l i)
          by_cases hi : i = j
          · subst hi
            rw [Function.update_self, stj, hc]
            exact ⟨a, by omega⟩
          · rw [Function.update_of_ne hi, sti i hi]
            exact ⟨a, b⟩
        · intro i h7
          have h7 : 7 < stage (Function.update w.rest j l i) := h7
          by_cases hi : i = j
          · subst hi
            exact I.stored i (by omega)
          · rw [sti i hi] at h7
            exact I.stored i h7
        · intro i r hg h a ha
          have ha : o.coef = some a := ha
          show o.heap a = _
          rw [hheap]
          rcases hcoef with hcf | hcf
          · exact I.coef i r hg (pre 7 (by omega) h) a (hcf ▸ ha)
          · rw [hcf] at ha; cases ha
        · intro i r hg h
          show o.mu = _
          by_cases he : rank s = 8
          · obtain ⟨a, ha, hx⟩ := m1 he
            rw [hx, I.coef i r hg (pre7 8 he.symm (by omega) h) a ha]
          · rw [m2 he]
            exact I.mu i r hg (pre 8 (Ne.symm he) h)
        · intro i r hg h
          show o.bu = _
          by_cases he : rank s = 9
          · obtain ⟨a, ha, hx⟩ := b1 he
            rw [hx, I.coef i r hg (pre7 9 he.symm (by omega) h) a ha]
          · rw [b2 he]
            exact I.bu i r hg (pre 9 (Ne.symm he) h)
        · intro i r hg h
          show o.bi = _
          by_cases he : rank s = 10
          · obtain ⟨a, ha, hx⟩ := i1 he
            rw [hx, I.coef i r hg (pre7 10 he.symm (by omega) h) a ha]
          · rw [i2 he]
            exact I.bi i r hg (pre 10 (Ne.symm he) h)
        · intro i r hg h
          show o.p = _
          by_cases he : rank s = 11
          · obtain ⟨a, ha, hx⟩ := p1 he
            rw [hx, I.coef i r hg (pre7 11 he.symm (by omega) h) a ha]
          · rw [p2 he]
            exact I.p i r hg (pre 11 (Ne.symm he) h)
        · intro i r hg h
          show o.q = _
          by_cases he : rank s = 12
          · obtain ⟨a, ha, hx⟩ := q1 he
            rw [hx, I.coef i r hg (pre7 12 he.symm (by omega) h) a ha]
          · rw [q2 he]
            exact I.q i r hg (pre 12 (Ne.symm he) h)
      have cur : ∀ {a}, w.self.current = .ok a → w.self.coef = some a := by
        intro a ha
        unfold Shared.current at ha
        split at ha
        · cases ha
        · split at ha
          · cases ha; assumption
          · cases ha
      cases s with
      | generator g0 =>
        cases he
        exact ⟨g, quiet (.inl (by simp [rank])) rfl rfl (.inl rfl) (by simp [rank]) (fun _ => rfl) (by simp [rank]) (fun _ => rfl) (by simp [rank])
          (fun _ => rfl) (by simp [rank]) (fun _ => rfl) (by simp [rank]) (fun _ => rfl)⟩
      | dtype =>
        cases he
        exact ⟨g, quiet (.inl (by simp [rank])) rfl rfl (.inl rfl) (by simp [rank]) (fun _ => rfl) (by simp [rank]) (fun _ => rfl) (by simp [rank])
          (fun _ => rfl) (by simp [rank]) (fun _ => rfl) (by simp [rank]) (fun _ => rfl)⟩
      | new =>
        cases he
        exact ⟨g, busy (by simp [rank]) (by simp [rank]) rfl rfl (I.found j)⟩
      | view x =>
        simp only [exec, bind, Except.bind] at he
        split at he
        · cases he
        · have hc : c = w.call j := by cases x <;> (cases he; rfl)
          exact ⟨g, busy (by simp [rank]) (by simp [rank]) (by rw [hc]) (by rw [hc]) (hc ▸ I.found j)⟩
      | init f =>
        simp only [exec, bind, Except.bind] at he
        split at he
        · cases he
        · cases he
          exact ⟨g, busy (by simp [rank]) (by simp [rank]) rfl rfl (I.found j)⟩
      | initialLoss =>
        simp only [exec, bind, Except.bind] at he
        split at he
        · cases he
        · cases he
          exact ⟨g, busy (by simp [rank]) (by simp [rank]) rfl rfl (I.found j)⟩
      | minimize =>
        simp only [exec, bind, Except.bind] at he
        split at he
        · cases he
        · rename_i a _
          cases he
          refine ⟨g, busy (by simp [rank]) (by simp [rank]) rfl rfl ?_⟩
          intro r hr
          obtain ⟨e1, e2⟩ := I.same j
          rw [← e1, ← e2]
          exact ⟨_, (Option.some.inj hr).symm⟩
      | copy =>
        simp only [exec] at he
        split at he
        · rename_i a res ha hres
          cases he
          have h8 : stage l = 8 := by unfold Next at hstep; simp [rank] at hstep; omega
          have no : ∀ e, 8 ≤ e → ¬ ∀ i, 2 < stage (Function.update w.rest j l i) → e < stage (Function.update w.rest j l i) := by
            intro e he h
            have := h j
            rw [stj] at this
            omega
          refine ⟨some (j, res), ⟨ord', same' rfl rfl, found' (I.found j), ?_, fun _ _ h => (by cases h), ?_, fun _ _ _ h => absurd h (no 8 (by omega)),
            fun _ _ _ h => absurd h (no 9 (by omega)), fun _ _ _ h => absurd h (no 10 (by omega)), fun _ _ _ h => absurd h (no 11 (by omega)),
            fun _ _ _ h => absurd h (no 12 (by omega))⟩⟩
          · intro i r hg
            cases hg
            show (Function.update w.call j (w.call j) j).res = some res ∧ 7 < stage (Function.update w.rest j l j)
            rw [Function.update_self, stj]
            exact ⟨hres, by omega⟩
          · intro i r hg _ b hb
            cases hg
            have hb : w.self.coef = some b := hb
            rw [ha] at hb
            cases hb
            show Function.update w.self.heap a _ a = _
            rw [Function.update_self]
        · cases he
      | extend x =>
        simp only [exec, bind, Except.bind] at he
        split at he
        · cases he
        · rename_i a hcur
          have ha := cur hcur
          cases x <;> cases he <;>
          exact ⟨g, quiet (.inr (by simp [rank])) rfl rfl (.inl rfl) (by simp [rank, ha]) (by simp [rank]) (by simp [rank, ha]) (by simp [rank])
            (by simp [rank, ha]) (by simp [rank]) (by simp [rank, ha]) (by simp [rank]) (by simp [rank, ha]) (by simp [rank])⟩
      | record key b f =>
        simp only [exec] at he
        split at he
        · split at he
          · cases he
          · cases he
            exact ⟨g, quiet (.inr (by simp [rank])) rfl rfl (.inl rfl) (by simp [rank]) (fun _ => rfl) (by simp [rank]) (fun _ => rfl) (by simp [rank])
              (fun _ => rfl) (by simp [rank]) (fun _ => rfl) (by simp [rank]) (fun _ => rfl)⟩
        · cases he
      | removeData =>
        cases he
        exact ⟨g, quiet (.inr (by simp [rank])) rfl rfl (.inl rfl) (by simp [rank]) (fun _ => rfl) (by simp [rank]) (fun _ => rfl) (by simp [rank])
          (fun _ => rfl) (by simp [rank]) (fun _ => rfl) (by simp [rank]) (fun _ => rfl)⟩
      | dropCoef =>
        cases he
        exact ⟨g, quiet (.inr (by simp [rank])) rfl rfl (.inr rfl) (by simp [rank]) (fun _ => rfl) (by simp [rank]) (fun _ => rfl) (by simp [rank])
          (fun _ => rfl) (by simp [rank]) (fun _ => rfl) (by simp [rank]) (fun _ => rfl)⟩
      | dropDtype =>
        cases he
        exact ⟨g, quiet (.inr (by simp [rank])) rfl rfl (.inl rfl) (by simp [rank]) (fun _ => rfl) (by simp [rank]) (fun _ => rfl) (by simp [rank])
          (fun _ => rfl) (by simp [rank]) (fun _ => rfl) (by simp [rank]) (fun _ => rfl)⟩
    · exact ⟨g, ⟨I.ordered, I.same, I.found, I.last, I.stored, I.coef, I.mu, I.bu, I.bi, I.p, I.q⟩⟩
  · exact ⟨g, I⟩

/-- C165: several calls of `fit` of one recommender in threads, whatever the schedule and whatever the initial values they have given each
other.  If all calls that have had a turn have come to their ends, then the recommender holds the parameters that the optimizer has found
in one of these calls, all of them from the same call. -/
theorem C165_one_result {opt : Optimizer} {method : String} {kwargs : List (String × String)} (w : World γ nu ni k) (threads : List Nat)
    (g : Nat → γ) (init : Nat → List (Shared γ nu ni k → Res (Shared γ nu ni k))) (nEvents : Nat → Nat)
    (hstart : ∀ i, w.rest i = program (g i) (init i) (nEvents i) method kwargs) (hres : ∀ i, (w.call i).res = none) (hne : threads ≠ [])
    (hend : ∀ i ∈ threads, (interleave opt method kwargs w threads).rest i = []) :
    ∃ i ∈ threads, ∃ x0, Holds (interleave opt method kwargs w threads).self (opt _ (w.call i).loss (w.call i).grad x0 method kwargs).x := by
  have h0 : ∀ i, stage (w.rest i) = 0 := by intro i; rw [hstart]; rfl
  have gen : ∀ (l : List Nat) (w' : World γ nu ni k) (b : Option (Nat × OptResult (size nu ni k))), Inv opt method kwargs w w' b →
      ∃ b', Inv opt method kwargs w (l.foldl (tstep opt method kwargs) w') b' := by
    intro l
    induction l with
    | nil => exact fun w' b I => ⟨b, I⟩
    | cons j l ih =>
      intro w' b I
      obtain ⟨b1, I1⟩ := I.step j
      exact ih _ b1 I1
  obtain ⟨b, I⟩ := gen threads w none ⟨fun i => hstart i ▸ program_ordered _ _ _ _ _, fun _ => ⟨rfl, rfl⟩, fun i r h => (by rw [hres] at h; cases h),
    fun _ _ h => (by cases h), fun i h => (by rw [h0] at h; omega), fun _ _ h => (by cases h), fun _ _ h => (by cases h),
    fun _ _ h => (by cases h), fun _ _ h => (by cases h), fun _ _ h => (by cases h), fun _ _ h => (by cases h)⟩
  have hrest : ∀ (l : List Nat) (w' : World γ nu ni k) (i : Nat), i ∉ l → (l.foldl (tstep opt method kwargs) w').rest i = w'.rest i := by
    intro l
    induction l with
    | nil => exact fun _ _ _ => rfl
    | cons j l ih =>
      intro w' i hi
      simp only [List.mem_cons, not_or] at hi
      rw [List.foldl_cons, ih _ _ hi.2]
      unfold tstep
      split
      · split
        · exact Function.update_of_ne hi.1 _ _
        · rfl
      · rfl
  change Inv opt method kwargs w (interleave opt method kwargs w threads) b at I
  have hother : ∀ i, i ∉ threads → (interleave opt method kwargs w threads).rest i = w.rest i := fun i hi => hrest threads w i hi
  generalize interleave opt method kwargs w threads = w' at *
  have all : ∀ e, e ≤ 16 → ∀ j, 2 < stage (w'.rest j) → e < stage (w'.rest j) := by
    intro e he j hj
    by_cases hi : j ∈ threads
    · rw [hend j hi]
      show e < 17
      omega
    · rw [hother j hi, h0] at hj
      omega
  obtain ⟨t, ht⟩ := List.exists_mem_of_ne_nil _ hne
  have hb : b ≠ none := I.stored t (by rw [hend t ht]; show 7 < 17; omega)
  obtain ⟨⟨i, r⟩, rfl⟩ := Option.ne_none_iff_exists'.1 hb
  obtain ⟨l1, l2⟩ := I.last i r rfl
  obtain ⟨x0, rfl⟩ := I.found i r l1
  have hi : i ∈ threads := by
    by_contra hi
    rw [hother i hi, h0] at l2
    omega
  exact ⟨i, hi, x0, I.mu i _ rfl (all 8 (by omega)), I.bu i _ rfl (all 9 (by omega)), I.bi i _ rfl (all 10 (by omega)),
    I.p i _ rfl (all 11 (by omega)), I.q i _ rfl (all 12 (by omega))⟩

/-- What one would like to have: calls that come to their ends alone come to their ends in threads. -/
def C165_full : Prop :=
  ∀ (opt : Optimizer) (method : String) (kwargs : List (String × String)) (w : World Nat 2 2 1) (threads : List Nat)
    (g : Nat → Nat) (init : Nat → List (Shared Nat 2 2 1 → Res (Shared Nat 2 2 1))) (nEvents : Nat → Nat),
    (∀ i, w.rest i = program (g i) (init i) (nEvents i) method kwargs) → (∀ i, (w.call i).res = none) → (∀ i, w.raised i = none) →
    (∀ i ∈ threads, (interleave opt method kwargs w (List.replicate (w.rest i).length i)).rest i = []) →
    (∀ i ∈ threads, (w.rest i).length ≤ threads.count i) →
    ∀ i ∈ threads, (interleave opt method kwargs w threads).rest i = []

/-- At least: if one call has come to its end and the others have raised exceptions, the recommender holds what a call has found. -/
def C165_kept : Prop :=
  ∀ (opt : Optimizer) (method : String) (kwargs : List (String × String)) (w : World Nat 2 2 1) (threads : List Nat)
    (g : Nat → Nat) (init : Nat → List (Shared Nat 2 2 1 → Res (Shared Nat 2 2 1))) (nEvents : Nat → Nat),
    (∀ i, w.rest i = program (g i) (init i) (nEvents i) method kwargs) → (∀ i, (w.call i).res = none) → (∀ i, w.raised i = none) →
    (∃ i ∈ threads, (interleave opt method kwargs w threads).rest i = []) →
    (∀ i ∈ threads, (interleave opt method kwargs w threads).rest i = [] ∨ (interleave opt method kwargs w threads).raised i ≠ none) →
    ∃ i ∈ threads, ∃ x0, Holds (interleave opt method kwargs w threads).self (opt _ (w.call i).loss (w.call i).grad x0 method kwargs).x

/-! ### examples -/

/-- An optimizer that finds 0. -/
noncomputable def exOpt : Optimizer := fun _ f _ _ _ _ => ⟨fun _ => 0, true, 0, "", f fun _ => 0, 1, 1, 1⟩

/-- A generator that gives its state. -/
noncomputable def exRng : Rng Nat := ⟨fun g _ _ _ _ => (fun _ _ => (g : ℝ), g + 1)⟩

/-- Threads that call `fit` of one new ImplicitLogisticPMF with two users and two items; the generator of thread `i` begins with `i`. -/
noncomputable def exSame : World Nat 2 2 1 where
  self := ⟨fun _ => ⟨0, fun _ => 0, fun _ => 0, fun _ _ => 0, fun _ _ => 0⟩, 0, none, false, .none, .none, .none, .none, .none, none, initialResults⟩
  call := fun _ => ⟨Implicit.loss 1 fun _ _ => 1, Implicit.gradLoss 1 fun _ _ => 1, none⟩
  rest := fun i => program i (initImplicit exRng fun _ _ => 1) 4 "CG" []
  raised := fun _ => none

set_option maxRecDepth 10000 in
/-- C165_one_result is not vacuous: the second call begins when the first has found its result, and then they take turns. -/
example : ∀ i ∈ List.replicate 15 0 ++ (List.replicate 15 1 ++ (List.replicate 22 [0, 1]).flatten),
    (interleave exOpt "CG" [] exSame (List.replicate 15 0 ++ (List.replicate 15 1 ++ (List.replicate 22 [0, 1]).flatten))).rest i = [] := by
  intro i hi
  have : i = 0 ∨ i = 1 := by
    revert i
    decide
  rcases this with rfl | rfl
  · rfl
  · rfl

set_option maxRecDepth 10000 in
/-- C165 is false in full: a call that is still searching when another one ends raises an exception, as that has removed `_coef`. -/
theorem C165_refuted : ¬ C165_full := by
  intro h
  have h0 := h exOpt "CG" [] exSame (List.replicate 15 0 ++ (List.replicate 37 1 ++ List.replicate 22 0)) id
    (fun _ => initImplicit exRng fun _ _ => 1) (fun _ => 4) (fun _ => rfl) (fun _ => rfl) (fun _ => rfl) (by
      intro i hi
      have : i = 0 ∨ i = 1 := by
        revert i
        decide
      rcases this with rfl | rfl
      · rfl
      · rfl) (by
      intro i hi
      have : i = 0 ∨ i = 1 := by
        revert i
        decide
      rcases this with rfl | rfl
      · show 37 ≤ _
        decide
      · show 37 ≤ _
        decide) 0 (by decide)
  have h1 : (interleave exOpt "CG" [] exSame (List.replicate 15 0 ++ (List.replicate 37 1 ++ List.replicate 22 0))).rest 0 =
      (program 0 (initImplicit exRng fun _ _ => 1) 4 "CG" []).drop 15 := rfl
  rw [h1] at h0
  cases h0

set_option maxRecDepth 10000 in
/-- Nor are the parameters of a call that has ended safe from one that raises an exception: its initial mean is written into them. -/
theorem C165_kept_refuted : ¬ C165_kept := by
  intro h
  have h0 := h exOpt "CG" [] exSame (List.replicate 8 0 ++ (List.replicate 37 1 ++ [0, 0])) id
    (fun _ => initImplicit exRng fun _ _ => 1) (fun _ => 4) (fun _ => rfl) (fun _ => rfl) (fun _ => rfl) ⟨1, by decide, rfl⟩ (by
      intro i hi
      have : i = 0 ∨ i = 1 := by
        revert i
        decide
      rcases this with rfl | rfl
      · right
        have : (interleave exOpt "CG" [] exSame (List.replicate 8 0 ++ (List.replicate 37 1 ++ [0, 0]))).raised 0 = some .valueError := rfl
        rw [this]
        simp
      · exact .inl rfl)
  obtain ⟨i, -, x0, hh⟩ := h0
  have h1 : (interleave exOpt "CG" [] exSame (List.replicate 8 0 ++ (List.replicate 37 1 ++ [0, 0]))).self.mu =
      .own ((((Finset.univ.filter (fun _ : Fin 2 × Fin 2 => (1 : Nat) ≠ 0)).card : Nat) : ℝ) / (((2 : Nat) : ℝ) * ((2 : Nat) : ℝ))) := rfl
  have h2 := hh.mu
  rw [h1] at h2
  injection h2 with h2
  have h3 : (unpack (exOpt (size 2 2 1) (exSame.call i).loss (exSame.call i).grad x0 "CG" []).x).mu = 0 := rfl
  rw [h3] at h2
  norm_num at h2

end Same
end MF
end Kam

/-
C165: calls of `fit` of the same matrix factorization that do not overlap.
-/
import Verif.Fit.SameProps
import Verif.Py.Lemmas

set_option linter.unusedSectionVars false

namespace Kam
namespace MF
namespace Same
variable {nu ni k : Nat} {γ : Type}

/-- The statements `l` one after another. -/
noncomputable def run (opt : Optimizer) (method : String) (kwargs : List (String × String)) :
    List (Instr γ nu ni k) → Call nu ni k × Shared γ nu ni k → Res (Call nu ni k × Shared γ nu ni k)
  | [], x => .ok x
  | s :: l, x => match exec opt method kwargs x.1 x.2 s with
    | .ok y => run opt method kwargs l y
    | .error e => .error e

lemma run_append {opt : Optimizer} {method : String} {kwargs : List (String × String)} (a b : List (Instr γ nu ni k)) (x : Call nu ni k × Shared γ nu ni k)
    {y : Call nu ni k × Shared γ nu ni k} (h : run opt method kwargs a x = .ok y) :
    run opt method kwargs (a ++ b) x = run opt method kwargs b y := by
  induction a generalizing x with
  | nil => cases h; rfl
  | cons s a ih =>
    simp only [List.cons_append, run] at h ⊢
    split
    · rename_i z hz
      rw [hz] at h
      exact ih z h
    · rename_i e hz
      rw [hz] at h
      cases h

lemma interleave_run {opt : Optimizer} {method : String} {kwargs : List (String × String)} (i : Nat) (l : List (Instr γ nu ni k)) (w : World γ nu ni k)
    {y : Call nu ni k × Shared γ nu ni k} (hr : w.raised i = none) (hl : w.rest i = l) (h : run opt method kwargs l (w.call i, w.self) = .ok y) :
    interleave opt method kwargs w (List.replicate l.length i) =
      { w with self := y.2, call := Function.update w.call i y.1, rest := Function.update w.rest i [] } := by
  induction l generalizing w with
  | nil =>
    cases h
    simp only [interleave, List.length_nil, List.replicate_zero, List.foldl_nil]
    rw [Function.update_eq_self, ← hl, Function.update_eq_self]
  | cons s l ih =>
    simp only [run] at h
    split at h
    · rename_i z hz
      have : tstep opt method kwargs w i = { w with self := z.2, call := Function.update w.call i z.1, rest := Function.update w.rest i l } := by
        unfold tstep
        rw [hr, hl]
        simp only [hz]
      simp only [interleave, List.length_cons, List.replicate_succ, List.foldl_cons] at ih ⊢
      rw [this, ih { w with self := z.2, call := Function.update w.call i z.1, rest := Function.update w.rest i l } hr (Function.update_self ..)
        (by simpa using h)]
      simp
    · cases h

/-- After the allocation: array `a` has the contents `v`, and all attributes are views of it. -/
def fresh (s : Shared γ nu ni k) (v : Views nu ni k) (g : γ) : Shared γ nu ni k :=
  ⟨Function.update s.heap s.next v, s.next + 1, some s.next, true, .view s.next, .view s.next, .view s.next, .view s.next, .view s.next, some g,
    s.results⟩

lemma run_allocation {opt : Optimizer} {method : String} {kwargs : List (String × String)} (g : γ)
    (c : Call nu ni k) (s : Shared γ nu ni k) (hu : nu ≠ 1) (hi : ni ≠ 1) :
    run opt method kwargs [.generator g, .dtype, .new, .view .mu, .view .bu, .view .bi, .view .p, .view .q] (c, s) =
      .ok (c, fresh s ⟨0, fun _ => 0, fun _ => 0, fun _ _ => 0, fun _ _ => 0⟩ g) := by
  simp [run, exec, Shared.current, hu, hi, bind, Except.bind, fresh]

lemma run_init_implicit {opt : Optimizer} {method : String} {kwargs : List (String × String)} (R : Rng γ) (m : Implicit.Mat nu ni) (g : γ)
    (c : Call nu ni k) (s : Shared γ nu ni k) (v : Views nu ni k) :
    ∃ v' g', run opt method kwargs ((initImplicit R m).map .init) (c, fresh s v g) = .ok (c, fresh s v' g') ∧
      pack v' = (Implicit.initCoef R g k m).1 := by
  refine ⟨⟨(((Finset.univ.filter (fun x : Fin nu × Fin ni => m x.1 x.2 ≠ 0)).card : Nat) : ℝ) / ((nu : ℝ) * (ni : ℝ)),
    fun u => (∑ i, (m u i : ℝ)) / (ni : ℝ), fun i => (∑ u, (m u i : ℝ)) / (nu : ℝ), fun u f => (R.normal g 0 1 nu k).1 u f,
    fun i f => (R.normal (R.normal g 0 1 nu k).2 0 1 ni k).1 i f⟩, (R.normal (R.normal g 0 1 nu k).2 0 1 ni k).2, ?_, rfl⟩
  simp [run, exec, initImplicit, Shared.writeMu, Shared.fillBu, Shared.fillBi, Shared.drawP, Shared.drawQ, Shared.write, bind, Except.bind, fresh]

lemma run_init_cons {opt : Optimizer} {method : String} {kwargs : List (String × String)} (f : Shared γ nu ni k → Res (Shared γ nu ni k))
    (l : List (Instr γ nu ni k)) (c : Call nu ni k) (s : Shared γ nu ni k) {s' : Shared γ nu ni k} (h : f s = .ok s') :
    run opt method kwargs (.init f :: l) (c, s) = run opt method kwargs l (c, s') := by
  simp only [run, exec, h, bind, Except.bind]

lemma run_users {opt : Optimizer} {method : String} {kwargs : List (String × String)} (evs : List (Event nu ni)) (l : List (Fin nu)) (g : γ)
    (c : Call nu ni k) (s : Shared γ nu ni k) (v : Views nu ni k) :
    run opt method kwargs ((l.map (fun u (s : Shared γ nu ni k) =>
      let j := evs.filter (fun e => decide (e.user = u))
      if 0 < j.length then do
        let mu ← s.readMu
        s.writeBu u ((j.map (fun e => e.score - mu)).sum / (j.length : ℝ))
      else .ok s)).map .init) (c, fresh s v g) =
    .ok (c, fresh s ⟨v.mu, fun u => if u ∈ l ∧ 0 < (evs.filter (fun e => decide (e.user = u))).length then
      ((evs.filter (fun e => decide (e.user = u))).map (fun e => e.score - v.mu)).sum / ((evs.filter (fun e => decide (e.user = u))).length : ℝ)
      else v.bu u, v.bi, v.p, v.q⟩ g) := by
  induction l generalizing v with
  | nil => simp [run]
  | cons a l ih =>
    by_cases h : 0 < (evs.filter (fun e => decide (e.user = a))).length
    · have : ∀ x, (fresh s v g).writeBu a x = .ok (fresh s { v with bu := Function.update v.bu a x } g) := by
        intro x; simp [Shared.writeBu, fresh, Shared.write]
      have hm : (fresh s v g).readMu = .ok v.mu := by simp [Shared.readMu, fresh]
      rw [List.map_cons, List.map_cons, run_init_cons _ _ _ _ (by
        simp only [h, if_true, hm, bind, Except.bind, this]
        rfl), ih]
      congr 3
      congr 1
      funext u
      by_cases hu : u = a
      · subst hu; simp [h]
      · simp [hu]
    · rw [List.map_cons, List.map_cons, run_init_cons _ _ _ _ (if_neg h), ih]
      congr 3
      congr 1
      funext u
      by_cases hu : u = a
      · subst hu; simp [h]
      · simp [hu]

lemma run_items {opt : Optimizer} {method : String} {kwargs : List (String × String)} (evs : List (Event nu ni)) (l : List (Fin ni)) (g : γ)
    (c : Call nu ni k) (s : Shared γ nu ni k) (v : Views nu ni k) :
    run opt method kwargs ((l.map (fun i (s : Shared γ nu ni k) =>
      let j := evs.filter (fun e => decide (e.item = i))
      if 0 < j.length then do
        let mu ← s.readMu
        let bu ← s.readBu
        s.writeBi i ((j.map (fun e => e.score - (mu + bu e.user))).sum / (j.length : ℝ))
      else .ok s)).map .init) (c, fresh s v g) =
    .ok (c, fresh s ⟨v.mu, v.bu, fun i => if i ∈ l ∧ 0 < (evs.filter (fun e => decide (e.item = i))).length then
      ((evs.filter (fun e => decide (e.item = i))).map (fun e => e.score - (v.mu + v.bu e.user))).sum /
        ((evs.filter (fun e => decide (e.item = i))).length : ℝ)
      else v.bi i, v.p, v.q⟩ g) := by
  induction l generalizing v with
  | nil => simp [run]
  | cons a l ih =>
    by_cases h : 0 < (evs.filter (fun e => decide (e.item = a))).length
    · have : ∀ x, (fresh s v g).writeBi a x = .ok (fresh s { v with bi := Function.update v.bi a x } g) := by
        intro x; simp [Shared.writeBi, fresh, Shared.write]
      have hm : (fresh s v g).readMu = .ok v.mu := by simp [Shared.readMu, fresh]
      have hb : (fresh s v g).readBu = .ok v.bu := by simp [Shared.readBu, fresh]
      rw [List.map_cons, List.map_cons, run_init_cons _ _ _ _ (by
        simp only [h, if_true, hm, hb, bind, Except.bind, this]
        rfl), ih]
      congr 3
      congr 1
      funext u
      by_cases hu : u = a
      · subst hu; simp [h]
      · simp [hu]
    · rw [List.map_cons, List.map_cons, run_init_cons _ _ _ _ (if_neg h), ih]
      congr 3
      congr 1
      funext u
      by_cases hu : u = a
      · subst hu; simp [h]
      · simp [hu]

lemma run_init_explicit {opt : Optimizer} {method : String} {kwargs : List (String × String)} (R : Rng γ)
    (sd : ℝ → (Fin nu → ℝ) → (Fin ni → ℝ) → ℝ) (evs : List (Event nu ni)) (g : γ) (c : Call nu ni k) (s : Shared γ nu ni k) :
    let b := initBias evs
    let zp := R.normal g 0 (sd b.1 b.2.1 b.2.2) (mask evs (·.user)).length k
    let zq := R.normal zp.2 0 (sd b.1 b.2.1 b.2.2) (mask evs (·.item)).length k
    run opt method kwargs ((initExplicit R sd evs).map .init) (c, fresh s ⟨0, fun _ => 0, fun _ => 0, fun _ _ => 0, fun _ _ => 0⟩ g) =
      .ok (c, fresh s ⟨b.1, b.2.1, b.2.2, scatter (mask evs (·.user)) zp.1, scatter (mask evs (·.item)) zq.1⟩ zq.2) := by
  intro b zp zq
  unfold initExplicit
  rw [List.map_cons, List.map_append, List.map_append]
  have hw : ∀ x, (fresh s (⟨0, fun _ => 0, fun _ => 0, fun _ _ => 0, fun _ _ => 0⟩ : Views nu ni k) g).writeMu x =
      .ok (fresh s ⟨x, fun _ => 0, fun _ => 0, fun _ _ => 0, fun _ _ => 0⟩ g) := by
    intro x; simp [Shared.writeMu, fresh, Shared.write]
  rw [run_init_cons (fun s => s.writeMu ((evs.map (·.score)).sum / (evs.length : ℝ))) _ _ _ (hw _)]
  rw [run_append _ _ _ (run_users evs _ g c s _), run_append _ _ _ (run_items evs _ g c s _)]
  simp only [List.mem_finRange, true_and]
  have hb : ∀ (v : Views nu ni k) (g : γ), (fresh s v g).readMu = .ok v.mu ∧ (fresh s v g).readBu = .ok v.bu ∧ (fresh s v g).readBi = .ok v.bi := by
    intro v g; simp [Shared.readMu, Shared.readBu, Shared.readBi, fresh]
  have hp : ∀ (v : Views nu ni k) (g : γ) σ l, (fresh s v g).drawP R σ l = .ok (fresh s
      { v with p := fun u f => if u ∈ l then (R.normal g 0 σ l.length k).1 (l.idxOf u) f else v.p u f } (R.normal g 0 σ l.length k).2) := by
    intro v g σ l; simp [Shared.drawP, fresh, Shared.write]
  have hq : ∀ (v : Views nu ni k) (g : γ) σ l, (fresh s v g).drawQ R σ l = .ok (fresh s
      { v with q := fun u f => if u ∈ l then (R.normal g 0 σ l.length k).1 (l.idxOf u) f else v.q u f } (R.normal g 0 σ l.length k).2) := by
    intro v g σ l; simp [Shared.drawQ, fresh, Shared.write]
  simp only [List.map_cons, List.map_nil, run, exec, hb, hp, hq, bind, Except.bind]
  rfl

/-- The initializations of the three factorizations with the generator `g`, and the coefficients they give in a call alone
(`Verif/MF/Model`). -/
inductive Starts (R : Rng γ) (g : γ) : List (Shared γ nu ni k → Res (Shared γ nu ni k)) → Coef nu ni k → Prop
  | pmf (evs : List (Event nu ni)) : Starts R g
      (initExplicit R (fun mu bu bi => Steps.residual evs (⟨mu, bu, bi, fun _ _ => 0, fun _ _ => 0⟩ : Views nu ni k)) evs) (PMF.initCoef R g k evs).1
  | logistic (evs : List (Event nu ni)) : Starts R g (initExplicit R (fun _ _ _ => 1) evs) (Logistic.initCoef R g k evs).1
  | implicit (m : Implicit.Mat nu ni) : Starts R g (initImplicit R m) (Implicit.initCoef R g k m).1

lemma run_init {opt : Optimizer} {method : String} {kwargs : List (String × String)} {R : Rng γ} {g : γ}
    {init : List (Shared γ nu ni k → Res (Shared γ nu ni k))} {x0 : Coef nu ni k} (hs : Starts R g init x0)
    (c : Call nu ni k) (s : Shared γ nu ni k) :
    ∃ v' g', run opt method kwargs (init.map .init) (c, fresh s ⟨0, fun _ => 0, fun _ => 0, fun _ _ => 0, fun _ _ => 0⟩ g) =
      .ok (c, fresh s v' g') ∧ pack v' = x0 := by
  cases hs with
  | pmf evs => exact ⟨_, _, run_init_explicit R _ evs g c s, rfl⟩
  | logistic evs => exact ⟨_, _, run_init_explicit R _ evs g c s, rfl⟩
  | implicit m => exact run_init_implicit R m g c s _

/-- What follows alone. -/
lemma run_rest {opt : Optimizer} {method : String} {kwargs : List (String × String)} (nEvents : Nat) (c : Call nu ni k) (s : Shared γ nu ni k)
    {a : Nat} (hc : s.coef = some a) (hd : s.dt = true) :
    ∃ y, run opt method kwargs ([.initialLoss, .minimize, .copy, .extend .mu, .extend .bu, .extend .bi, .extend .p, .extend .q] ++
      (recording nEvents method kwargs ++ [.removeData, .dropCoef, .dropDtype])) (c, s) = .ok y ∧
      Holds y.2 (opt _ c.loss c.grad (pack (s.heap a)) method kwargs).x ∧
      y.2.results.get? "initial_loss" = some (.real (c.loss (pack (s.heap a)))) ∧
      y.2.results.get? "final_loss" = some (.real (opt _ c.loss c.grad (pack (s.heap a)) method kwargs).fn) ∧
      y.1.loss = c.loss ∧ y.1.grad = c.grad := by
  simp only [List.cons_append, List.nil_append, run, exec, recording, Shared.current, hc, hd, bind, Except.bind, if_true, Shared.write, Function.update_self,
    Option.isNone_some, Bool.and_false, Bool.false_eq_true, if_false]
  refine ⟨_, rfl, ⟨rfl, rfl, rfl, rfl, rfl⟩, ?_, ?_, rfl, rfl⟩
  · simp [Dict.get?_set]
  · simp [Dict.get?_set]

/-- C165: calls of `fit` of one matrix factorization, with at least two users and items, that do not overlap.  Whatever the state the calls
before have left, a call comes to its end, the recommender holds what the optimizer has found from the initial values of this call, and
`fit_results_` has the losses of this call. -/
theorem C165_alone {opt : Optimizer} {method : String} {kwargs : List (String × String)} (w : World γ nu ni k) (i : Nat) {R : Rng γ} {g : γ}
    {init : List (Shared γ nu ni k → Res (Shared γ nu ni k))} {x0 : Coef nu ni k} (hs : Starts R g init x0) (nEvents : Nat)
    (hu : nu ≠ 1) (hi : ni ≠ 1) (hr : w.raised i = none) (hl : w.rest i = program g init nEvents method kwargs) :
    let w' := interleave opt method kwargs w (List.replicate (w.rest i).length i)
    let res := opt _ (w.call i).loss (w.call i).grad x0 method kwargs
    w'.rest i = [] ∧ w'.raised = w.raised ∧ (∀ j, j ≠ i → w'.rest j = w.rest j ∧ w'.call j = w.call j) ∧ Holds w'.self res.x ∧
      w'.self.results.get? "initial_loss" = some (.real ((w.call i).loss x0)) ∧ w'.self.results.get? "final_loss" = some (.real res.fn) := by
  intro w' res
  have h0 := run_allocation (opt := opt) (method := method) (kwargs := kwargs) g (w.call i) w.self hu hi
  obtain ⟨v, g', h1, hv⟩ := run_init (opt := opt) (method := method) (kwargs := kwargs) hs (w.call i) w.self
  obtain ⟨y, h2, h3, h4, h5, -, -⟩ := run_rest (opt := opt) (method := method) (kwargs := kwargs) nEvents (w.call i) (fresh w.self v g') rfl rfl
  have h6 : run opt method kwargs (program g init nEvents method kwargs) (w.call i, w.self) = .ok y := by
    unfold program
    rw [run_append _ _ _ h0, run_append _ _ _ h1, h2]
  have h7 : w' = { w with self := y.2, call := Function.update w.call i y.1, rest := Function.update w.rest i [] } := by
    show interleave opt method kwargs w (List.replicate (w.rest i).length i) = _
    rw [hl]
    exact interleave_run i _ w hr hl h6
  have hx : pack ((fresh w.self v g').heap w.self.next) = x0 := by
    simp only [fresh, Function.update_self]
    exact hv
  rw [hx] at h3 h4 h5
  rw [h7]
  refine ⟨Function.update_self .., rfl, fun j hj => ⟨Function.update_of_ne hj _ _, Function.update_of_ne hj _ _⟩, h3, h4, h5⟩

/-- C165: such calls in any number of threads, one after another.  All come to their ends, and the recommender holds what the last of them
has found alone, with its losses in `fit_results_`. -/
theorem C165_serial {opt : Optimizer} {method : String} {kwargs : List (String × String)} (w : World γ nu ni k) (l : List Nat) (i : Nat)
    {R : Rng γ} {g : Nat → γ} {init : Nat → List (Shared γ nu ni k → Res (Shared γ nu ni k))} {x0 : Nat → Coef nu ni k}
    (hs : ∀ j, Starts R (g j) (init j) (x0 j)) (nEvents : Nat → Nat) (hu : nu ≠ 1) (hi : ni ≠ 1) (hr : ∀ j, w.raised j = none)
    (hl : ∀ j, w.rest j = program (g j) (init j) (nEvents j) method kwargs) (hnd : (l ++ [i]).Nodup) :
    let w' := interleave opt method kwargs w ((l ++ [i]).flatMap fun j => List.replicate (w.rest j).length j)
    let res := opt _ (w.call i).loss (w.call i).grad (x0 i) method kwargs
    (∀ j ∈ l ++ [i], w'.rest j = []) ∧ (∀ j, w'.raised j = none) ∧ Holds w'.self res.x ∧
      w'.self.results.get? "initial_loss" = some (.real ((w.call i).loss (x0 i))) ∧ w'.self.results.get? "final_loss" = some (.real res.fn) := by
  have key : ∀ (l : List Nat) (v : World γ nu ni k), l.Nodup → (∀ j, v.raised j = none) → (∀ j ∈ l, v.rest j = w.rest j) →
      (∀ j ∈ l, (interleave opt method kwargs v (l.flatMap fun j => List.replicate (w.rest j).length j)).rest j = []) ∧
      (∀ j, (interleave opt method kwargs v (l.flatMap fun j => List.replicate (w.rest j).length j)).raised j = none) ∧
      ∀ j, j ∉ l → (interleave opt method kwargs v (l.flatMap fun j => List.replicate (w.rest j).length j)).rest j = v.rest j ∧
        (interleave opt method kwargs v (l.flatMap fun j => List.replicate (w.rest j).length j)).call j = v.call j := by
    intro l
    induction l with
    | nil => exact fun v _ h _ => ⟨fun _ h => (by cases h), h, fun _ _ => ⟨rfl, rfl⟩⟩
    | cons a l ih =>
      intro v hn hv hrest
      obtain ⟨hna, hn⟩ := List.nodup_cons.1 hn
      obtain ⟨e1, e2, e3, -⟩ := C165_alone (opt := opt) (method := method) (kwargs := kwargs) v a (hs a) (nEvents a) hu hi (hv a)
        ((hrest a (by simp)).trans (hl a))
      rw [hrest a (by simp)] at e1 e2 e3
      have hsplit : interleave opt method kwargs v ((a :: l).flatMap fun j => List.replicate (w.rest j).length j) =
          interleave opt method kwargs (interleave opt method kwargs v (List.replicate (w.rest a).length a))
            (l.flatMap fun j => List.replicate (w.rest j).length j) := by
        simp only [interleave, List.flatMap_cons, List.foldl_append]
      rw [hsplit]
      obtain ⟨f1, f2, f3⟩ := ih (interleave opt method kwargs v (List.replicate (w.rest a).length a)) hn (fun j => by rw [e2]; exact hv j)
        (fun j hj => ((e3 j (by rintro rfl; exact hna hj)).1).trans (hrest j (by simp [hj])))
      refine ⟨?_, f2, ?_⟩
      · intro j hj
        rcases List.mem_cons.1 hj with rfl | hj
        · rw [(f3 j hna).1, e1]
        · exact f1 j hj
      · intro j hj
        simp only [List.mem_cons, not_or] at hj
        exact ⟨(f3 j hj.2).1.trans (e3 j hj.1).1, (f3 j hj.2).2.trans (e3 j hj.1).2⟩
  intro w' res
  obtain ⟨k1, k2, k3⟩ := key l w (List.nodup_append.1 hnd).1 hr (fun _ _ => rfl)
  have hil : i ∉ l := fun h => (List.nodup_append.1 hnd).2.2 i h i (by simp) rfl
  obtain ⟨e1, e2, e3, e4, e5, e6⟩ := C165_alone (opt := opt) (method := method) (kwargs := kwargs) _ i (hs i) (nEvents i) hu hi (k2 i)
    ((k3 i hil).1.trans (hl i))
  rw [(k3 i hil).1] at e1 e2 e3 e4 e5 e6
  rw [(k3 i hil).2] at e4 e5 e6
  have hsplit : w' = interleave opt method kwargs (interleave opt method kwargs w (l.flatMap fun j => List.replicate (w.rest j).length j))
      (List.replicate (w.rest i).length i) := by
    show interleave opt method kwargs w _ = _
    simp only [interleave, List.flatMap_append, List.flatMap_cons, List.flatMap_nil, List.append_nil, List.foldl_append]
  rw [hsplit]
  refine ⟨?_, fun j => by rw [e2]; exact k2 j, e4, e5, e6⟩
  intro j hj
  by_cases hji : j = i
  · subst hji; exact e1
  · rw [(e3 j hji).1]
    rcases List.mem_append.1 hj with h | h
    · exact k1 j h
    · exact absurd (List.mem_singleton.1 h) hji

/-- C165_serial is not vacuous: three threads, the one with number 1 last. -/
example : Holds (interleave exOpt "CG" [] exSame (([0, 2] ++ [1]).flatMap fun j => List.replicate (exSame.rest j).length j)).self
    (fun _ => 0 : Coef 2 2 1) :=
  (C165_serial (opt := exOpt) exSame [0, 2] 1 (fun j => .implicit (R := exRng) (g := j) fun _ _ => 1) (fun _ => 4) (by decide) (by decide) (fun _ => rfl) (fun _ => rfl)
    (by decide)).2.2.1

/-- The same for PMF: the initialization of thread `j` alone is that of `PMF._init_coef` with its generator. -/
example (w : World Nat 2 2 1) (hr : ∀ j, w.raised j = none) (evs : Nat → List (Event 2 2))
    (hl : ∀ j, w.rest j = program j (initExplicit exRng
      (fun mu bu bi => Steps.residual (evs j) (⟨mu, bu, bi, fun _ _ => 0, fun _ _ => 0⟩ : Views 2 2 1)) (evs j)) 3 "CG" []) :
    ∀ j ∈ [0, 2, 1], (interleave exOpt "CG" [] w (([0, 2] ++ [1]).flatMap fun j => List.replicate (w.rest j).length j)).rest j = [] :=
  (C165_serial (opt := exOpt) w [0, 2] 1 (fun j => .pmf (R := exRng) (g := j) (evs j)) (fun _ => 3) (by decide) (by decide) hr hl (by decide)).1

end Same
end MF
end Kam

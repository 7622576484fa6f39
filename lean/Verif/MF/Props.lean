/-
Property theorems of the matrix factorization models: C28-C31, C33, C35-C37, C39.
-/
import Verif.MF.Spec
import Verif.MF.Sigmoid
import Verif.Rec.Props4

namespace Kam
namespace MF
open scoped BigOperators
open Spec
variable {nu ni k : Nat}

/-! ### C28 -/

/-- C28: every parameter has its own place in the flat vector and every place holds a parameter;
reading the views after writing them gives what was written and rewriting what was read changes
nothing; the size is the documented number of parameters. -/
theorem C28_coefficient_layout (nu ni k : Nat) :
    (∀ s t : Slot nu ni k, pos s = pos t → s = t) ∧
    (∀ j, j < size nu ni k ↔ ∃ s : Slot nu ni k, pos s = j) ∧
    (∀ v : Views nu ni k, unpack (pack v) = v) ∧
    (∀ c : Coef nu ni k, pack (unpack c) = c) ∧
    (∀ (c : Coef nu ni k) (s : Slot nu ni k) (x : ℝ) (t : Slot nu ni k),
      (unpack (Function.update c ⟨pos s, pos_lt s⟩ x)).get t =
        if t = s then x else (unpack c).get t) ∧
    size nu ni k = 1 + nu + ni + k * (nu + ni) := by
  have hinj : ∀ s t : Slot nu ni k, pos s = pos t → s = t := by
    intro s t h
    rw [← slotAt_pos s, ← slotAt_pos t]
    congr 1
    exact Fin.ext h
  refine ⟨hinj, ?_, unpack_pack, pack_unpack, ?_, by unfold size; ring⟩
  · intro j
    constructor
    · intro h; exact ⟨slotAt ⟨j, h⟩, pos_slotAt ⟨j, h⟩⟩
    · rintro ⟨s, rfl⟩; exact pos_lt s
  · intro c s x t
    rw [get_unpack, get_unpack, Function.update_apply]
    by_cases h : t = s
    · subst h; simp
    · rw [if_neg h, if_neg]
      intro he
      exact h (hinj t s (by simpa using he))

/-- C28, the reported value: `n_parameters` of every trained model is that size. -/
theorem C28_n_parameters {γ : Type} (cf : Config γ) (v : View ℝ γ) (θ : Params)
    (res : List (String × Val))
    (h : (pmf cf).train v = .ok (θ, res) ∨ (logistic cf).train v = .ok (θ, res) ∨
      (implicit cf).train v = .ok (θ, res)) :
    ∃ nu ni : Nat, ("n_users", Val.nat nu) ∈ res ∧ ("n_items", Val.nat ni) ∈ res ∧
      ("n_parameters", Val.nat (1 + nu + ni + cf.k * (nu + ni))) ∈ res ∧
      θ.bu.length = nu + 1 ∧ θ.bi.length = ni + 1 := by
  have key : ∀ (nu ni n : Nat) (x : ℝ) (o : OptResult (size nu ni cf.k)),
      ("n_users", Val.nat nu) ∈ results cf nu ni n x o ∧
      ("n_items", Val.nat ni) ∈ results cf nu ni n x o ∧
      ("n_parameters", Val.nat (1 + nu + ni + cf.k * (nu + ni))) ∈ results cf nu ni n x o ∧
      (store (nu := nu) (ni := ni) (k := cf.k) o.x).bu.length = nu + 1 ∧
      (store (nu := nu) (ni := ni) (k := cf.k) o.x).bi.length = ni + 1 := by
    intro nu ni n x o
    have hs : size nu ni cf.k = 1 + nu + ni + cf.k * (nu + ni) := by unfold size; ring
    refine ⟨by simp [results], by simp [results], by simp only [results, hs]; simp,
      by simp [store], by simp [store]⟩
  have hex : ∀ (ic) (lo) (gr), trainExplicit cf ic lo gr v = .ok (θ, res) →
      ∃ nu ni : Nat, ("n_users", Val.nat nu) ∈ res ∧ ("n_items", Val.nat ni) ∈ res ∧
      ("n_parameters", Val.nat (1 + nu + ni + cf.k * (nu + ni))) ∈ res ∧
      θ.bu.length = nu + 1 ∧ θ.bi.length = ni + 1 := by
    intro ic lo gr h
    unfold trainExplicit at h
    cases h0 : npGet v.nObjects 0 with
    | error e => rw [h0] at h; cases h
    | ok nu =>
      cases h1 : npGet v.nObjects 1 with
      | error e => rw [h0, h1] at h; cases h
      | ok ni =>
        rw [h0, h1] at h
        simp only [bind, Except.bind] at h
        split at h
        · cases h2 : parseEvents nu ni v.event ‹_› with
          | error e => rw [h2] at h; cases h
          | ok evs =>
            rw [h2] at h
            cases h3 : allocate nu ni with
            | error e => rw [h3] at h; cases h
            | ok _ =>
              rw [h3] at h
              cases h
              exact ⟨nu, ni, key _ _ _ _ _⟩
        · cases h
  rcases h with h | h | h
  · exact hex _ _ _ h
  · exact hex _ _ _ h
  · simp only [implicit] at h
    cases h0 : getEventArray v with
    | error e => rw [h0] at h; cases h
    | ok x =>
      rw [h0] at h
      simp only [bind, Except.bind] at h
      split at h
      · rename_i nu ni g _ _
        cases h3 : allocate nu ni with
        | error e => rw [h3] at h; cases h
        | ok _ =>
          rw [h3] at h
          cases h
          exact ⟨nu, ni, key _ _ _ _ _⟩
      · cases h

/-! ### C29 -/

/-- C29: the gradient handed to the optimizer is the gradient of the loss. -/
theorem C29_pmf_gradient (C : ℝ) (evs : List (Event nu ni)) (c : Coef nu ni k) :
    IsGradient (PMF.loss C evs) (PMF.gradLoss C evs c) c := by
  refine ⟨dot (PMF.gradLoss C evs c), ?_, dot_apply _⟩
  have h := hasFDerivAt_total C evs (fun e x => 0.5 * (e.score - x) ^ 2)
    (fun e => -(e.score - est (unpack c) e.user e.item)) c (by
      intro e _
      have h1 : HasDerivAt (fun x : ℝ => e.score - x) (-1) (est (unpack c) e.user e.item) := by
        simpa using (hasDerivAt_id _).const_sub e.score
      have h2 := (h1.fun_pow 2).const_mul (0.5 : ℝ)
      refine h2.congr_deriv ?_
      norm_num
      ring)
  have e1 : (fun c : Coef nu ni k => (evs.map (fun e =>
      0.5 * (e.score - est (unpack c) e.user e.item) ^ 2)).sum + 0.5 * C * reg (unpack c)) =
      PMF.loss C evs := by
    funext c
    rw [list_sum_mul_left]
    rfl
  rw [e1] at h
  exact h

/-! ### prediction on internal ids -/

theorem npGet_append_lt {β : Type} (f : Fin nu → β) (z : β) (u : Fin nu) :
    npGet (List.ofFn f ++ [z]) (u : Int) = .ok (f u) := by
  rw [npGet_ofNat _ u.1 (by simp)]
  congr 1
  rw [List.getElem_append_left (by simp)]
  simp

theorem npGet_append_last {β : Type} (f : Fin nu → β) (z : β) :
    npGet (List.ofFn f ++ [z]) (nu : Int) = .ok z := by
  rw [npGet_ofNat _ nu (by simp)]
  congr 1
  rw [List.getElem_append_right (by simp)]
  simp

/-- A field of the parameters with the zero entry for the unknown object: `none`. -/
def extend {β : Type} (f : Fin nu → β) (z : β) : Option (Fin nu) → β
  | some u => f u
  | none => z

/-- Internal id of a known (`some`) or the unknown object. -/
def code {n : Nat} : Option (Fin n) → Int
  | some u => u.1
  | none => n

theorem npGet_extend {β : Type} (f : Fin nu → β) (z : β) (u : Option (Fin nu)) :
    npGet (List.ofFn f ++ [z]) (code u) = .ok (extend f z u) := by
  cases u with
  | none => exact npGet_append_last f z
  | some u => exact npGet_append_lt f z u

/-- What a stored model computes for a known or unknown user and item. -/
noncomputable def estO (v : Views nu ni k) (u : Option (Fin nu)) (i : Option (Fin ni)) : ℝ :=
  v.mu + extend v.bu 0 u + extend v.bi 0 i +
    ∑ f, extend v.p (fun _ => 0) u f * extend v.q (fun _ => 0) i f

theorem estO_some (v : Views nu ni k) (u : Fin nu) (i : Fin ni) :
    estO v (some u) (some i) = est v u i := rfl

theorem estO_none (v : Views nu ni k) :
    (∀ i, estO v none (some i) = v.mu + v.bi i) ∧ (∀ u, estO v (some u) none = v.mu + v.bu u) ∧
    estO v none none = v.mu := by
  refine ⟨?_, ?_, ?_⟩ <;> intros <;> simp [estO, extend]

theorem zipWith_ofFn (a b : Fin k → ℝ) :
    (List.zipWith (· * ·) (List.ofFn a) (List.ofFn b)).sum = ∑ f, a f * b f := by
  rw [← List.sum_ofFn]
  congr 1
  apply List.ext_getElem
  · simp
  · intro n h1 h2
    simp

theorem rawScore_store (c : Coef nu ni k) (u : Option (Fin nu)) (i : Option (Fin ni)) :
    rawScore (store c) [code u, code i] = .ok (estO (unpack c) u i) := by
  unfold rawScore
  have h0 : npGet [code u, code i] 0 = .ok (code u) := rfl
  have h1 : npGet [code u, code i] 1 = .ok (code i) := rfl
  have hr : ∀ m : Nat, List.replicate m (0 : ℝ) = List.ofFn (fun _ : Fin m => (0 : ℝ)) := by
    intro m; simp
  rw [h0, h1]
  simp only [bind, Except.bind, store, pure, Except.pure]
  rw [npGet_extend, npGet_extend, hr, npGet_extend, npGet_extend]
  simp only
  have hp : ∀ (n : Nat) (f : Fin n → Fin k → ℝ) (x : Option (Fin n)),
      extend (fun u => List.ofFn (f u)) (List.ofFn (fun _ : Fin k => (0 : ℝ))) x =
        List.ofFn (extend f (fun _ => 0) x) := by
    intro n f x; cases x <;> rfl
  rw [hp, hp, zipWith_ofFn]
  rfl

theorem rawScore_event (c : Coef nu ni k) (e : Event nu ni) :
    rawScore (store c) (evRow e) = .ok (est (unpack c) e.user e.item) := by
  have := rawScore_store c (some e.user) (some e.item)
  rw [estO_some] at this
  exact this

theorem rawPredict_events (link : ℝ → ℝ) (c : Coef nu ni k) (evs : List (Event nu ni)) :
    rawPredict link (store c) (evs.map evRow) =
      .ok (evs.map (fun e => link (est (unpack c) e.user e.item))) := by
  unfold rawPredict
  rw [mapM_map]
  apply mapM_ok
  intro e _
  rw [rawScore_event]
  rfl

/-! ### C31 -/

/-- Squared norm of all parameters except the first one (`mu`). -/
theorem reg_eq (c : Coef nu ni k) : reg (unpack c) = ∑ j, (if j.1 = 0 then 0 else c j ^ 2) := by
  rw [sum_coef _ (fun s => if s = .mu then 0 else (unpack c).get s ^ 2)]
  · simp [reg, Views.get]
  · intro s
    rw [get_unpack]
    cases s <;> simp [pos]

theorem gradTerms_perm (v : Views nu ni k) {e1 e2 : List (Event nu ni)} (h : e1.Perm e2)
    (w : Event nu ni → ℝ) : gradTerms v e1 w = gradTerms v e2 w := by
  have hb : ∀ {n : Nat} (id : Event nu ni → Fin n) (w : Event nu ni → ℝ) (j : Fin n),
      bincount e1 id w j = bincount e2 id w j := by
    intro n id w j
    exact ((h.filter _).map w).sum_eq
  unfold gradTerms
  ext
  · exact (h.map w).sum_eq
  all_goals exact hb _ _ _

/-- C31: the loss is half the sum of squared errors of `raw_predict` on the training events plus
`C/2` times the squared norm of all parameters except `mu`; it is not negative; the order of the
events matters neither for the loss nor for its gradient. -/
theorem C31_pmf_loss (C : ℝ) (evs : List (Event nu ni)) (c : Coef nu ni k) :
    (∃ ys, rawPredict id (store c) (evs.map evRow) = .ok ys ∧ ys.length = evs.length ∧
      PMF.loss C evs c = 1 / 2 * (List.zipWith (fun e y => (e.score - y) ^ 2) evs ys).sum +
        C / 2 * ∑ j, (if j.1 = 0 then 0 else c j ^ 2)) ∧
    (0 ≤ C → 0 ≤ PMF.loss C evs c) ∧
    (∀ evs', evs'.Perm evs → PMF.loss C evs' c = PMF.loss C evs c ∧
      PMF.gradLoss C evs' c = PMF.gradLoss C evs c) := by
  refine ⟨⟨_, rawPredict_events id c evs, by simp, ?_⟩, ?_, ?_⟩
  · rw [← reg_eq]
    unfold PMF.loss
    have : List.zipWith (fun (e : Event nu ni) y => (e.score - y) ^ 2) evs
        (evs.map (fun e => id (est (unpack c) e.user e.item))) =
        evs.map (fun e => (e.score - est (unpack c) e.user e.item) ^ 2) := by
      induction evs with
      | nil => rfl
      | cons e evs ih =>
        simp only [id] at ih
        simp only [List.map_cons, List.zipWith_cons_cons, ih, id]
    rw [this]
    ring
  · intro hC
    unfold PMF.loss
    have h1 : 0 ≤ (evs.map (fun e => (e.score - est (unpack c) e.user e.item) ^ 2)).sum := by
      apply List.sum_nonneg
      simp only [List.mem_map]
      rintro x ⟨e, _, rfl⟩
      positivity
    have h2 : 0 ≤ reg (unpack c) := by unfold reg; positivity
    simp only
    positivity
  · intro evs' h
    constructor
    · unfold PMF.loss
      simp only
      rw [(h.map _).sum_eq]
    · unfold PMF.gradLoss
      simp only
      rw [gradTerms_perm _ h]

/-! ### C33 -/

theorem gradLoss_mu {C : ℝ} {evs : List (Event nu ni)} {v : Views nu ni k} {w : Event nu ni → ℝ}
    (h : pack (addReg C v (gradTerms v evs w)) = 0) : (evs.map w).sum = 0 := by
  have h1 := congrArg (fun c : Coef nu ni k => (unpack c).mu) h
  simp only [unpack_pack] at h1
  simpa [addReg, gradTerms, unpack] using h1

/-- C33: at a point where the gradient vanishes, the predictions for the training events have the
same mean as the scores: for PMF the mean score, for the logistic model the mean of the 0/1 scores,
which is the fraction of positive events. -/
theorem C33_stationary_mean (C : ℝ) (evs : List (Event nu ni)) (c : Coef nu ni k) :
    (PMF.gradLoss C evs c = 0 → ∃ ys, rawPredict id (store c) (evs.map evRow) = .ok ys ∧
      ys.length = evs.length ∧ ys.sum / ys.length = (evs.map (·.score)).sum / evs.length) ∧
    (Logistic.gradLoss C evs c = 0 → ∃ ys,
      rawPredict safeSigmoid (store c) (evs.map evRow) = .ok ys ∧ ys.length = evs.length ∧
      ys.sum / ys.length = (evs.map (·.score)).sum / evs.length ∧
      ((∀ e ∈ evs, e.score = 0 ∨ e.score = 1) → ys.sum / ys.length =
        ((evs.filter (fun e => decide (e.score = 1))).length : ℝ) / evs.length)) := by
  constructor
  · intro h
    refine ⟨_, rawPredict_events id c evs, by simp, ?_⟩
    have h1 := gradLoss_mu h
    have h2 : (evs.map (fun e => -(e.score - est (unpack c) e.user e.item))).sum =
        (evs.map (fun e => est (unpack c) e.user e.item)).sum +
          (evs.map (fun e => -1 * e.score)).sum := by
      rw [← list_sum_add]; congr 1; apply List.map_congr_left; intro e _; ring
    rw [h1, list_sum_mul_left] at h2
    rw [List.length_map]
    congr 1
    simp only [id]
    linarith
  · intro h
    have h1 := gradLoss_mu h
    have h2 : (evs.map (fun e => safeSigmoid (est (unpack c) e.user e.item) - e.score)).sum =
        (evs.map (fun e => safeSigmoid (est (unpack c) e.user e.item))).sum +
          (evs.map (fun e => -1 * e.score)).sum := by
      rw [← list_sum_add]; congr 1; apply List.map_congr_left; intro e _; ring
    rw [h1, list_sum_mul_left] at h2
    have h3 : (evs.map (fun e => safeSigmoid (est (unpack c) e.user e.item))).sum =
        (evs.map (·.score)).sum := by
      have h4 : (evs.map (·.score)) = evs.map (fun e => e.score) := rfl
      linarith
    refine ⟨_, rawPredict_events safeSigmoid c evs, by simp, ?_, ?_⟩
    · rw [List.length_map, h3]
    · intro hb
      rw [List.length_map, h3]
      congr 1
      clear h h1 h2 h3
      induction evs with
      | nil => simp
      | cons e evs ih =>
        have ih := ih (fun e' he' => hb e' (by simp [he']))
        rw [List.map_cons, List.sum_cons, ih]
        rcases hb e (by simp) with h | h <;> simp [h, add_comm]

/-- A stationary point with a non-zero score: one event, `mu` equal to its score. -/
noncomputable def exEvs : List (Event 1 1) := [⟨0, 0, 3⟩, ⟨0, 0, 5⟩]

noncomputable def exC : Coef 1 1 1 := pack ⟨4, fun _ => 0, fun _ => 0, fun _ _ => 0, fun _ _ => 0⟩

example : PMF.gradLoss 2 exEvs exC = 0 ∧ exEvs ≠ [] := by
  refine ⟨?_, by simp [exEvs]⟩
  unfold PMF.gradLoss
  have h : addReg 2 (unpack exC) (gradTerms (unpack exC) exEvs
      (fun e => -(e.score - est (unpack exC) e.user e.item))) =
      ⟨0, fun _ => 0, fun _ => 0, fun _ _ => 0, fun _ _ => 0⟩ := by
    unfold exC
    rw [unpack_pack]
    ext <;> simp [addReg, gradTerms, exEvs, est, bincount_cons, bincount_nil, eq_iff_true_of_subsingleton] <;> norm_num
  simp only
  rw [h]
  funext j
  unfold pack
  cases slotAt j <;> rfl

/-- A stationary point of the logistic loss: one positive and one negative event. -/
noncomputable def exBinEvs : List (Event 1 1) := [⟨0, 0, 0⟩, ⟨0, 0, 1⟩]

example : Logistic.gradLoss 2 exBinEvs
    (pack ⟨0, fun _ => 0, fun _ => 0, fun _ _ => 0, fun _ _ => 0⟩ : Coef 1 1 1) = 0 := by
  have hs : safeSigmoid 0 = 1 / 2 := by
    rw [safeSigmoid_eq, clip_eq_self (by linarith [sigmoidDom_pos]) sigmoidDom_pos.le]
    simp [expit]; norm_num
  unfold Logistic.gradLoss
  simp only
  rw [unpack_pack]
  have h : addReg 2 (⟨0, fun _ => 0, fun _ => 0, fun _ _ => 0, fun _ _ => 0⟩ : Views 1 1 1)
      (gradTerms ⟨0, fun _ => 0, fun _ => 0, fun _ _ => 0, fun _ _ => 0⟩ exBinEvs
        (fun e => safeSigmoid (est (⟨0, fun _ => 0, fun _ => 0, fun _ _ => 0, fun _ _ => 0⟩ : Views 1 1 1)
          e.user e.item) - e.score)) =
      ⟨0, fun _ => 0, fun _ => 0, fun _ _ => 0, fun _ _ => 0⟩ := by
    ext <;> simp [addReg, gradTerms, exBinEvs, est, bincount_cons, bincount_nil,
      eq_iff_true_of_subsingleton, hs] <;> norm_num
  rw [h]
  funext j
  unfold pack
  cases slotAt j <;> rfl

end MF
end Kam

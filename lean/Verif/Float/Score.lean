/-
C133: predictions of the matrix factorizations with machine arithmetic.
-/
import Verif.Float.Gamma
import Verif.MF.Props3

set_option linter.unusedSectionVars false

namespace Kam.Fl
open Spec

/-- One row of `raw_predict` before the link function (score_predictor/matrix_factorization.py:409-411,
item_finder/matrix_factorization.py:417-419, 773-775): products and sums are rounded; `np.sum` adds in some order. -/
def RawScore (θ : MF.Params) (row : List Int) (v : ℝ) : Prop :=
  ∃ u i bu bi p q d, npGet row 0 = .ok u ∧ npGet row 1 = .ok i ∧ npGet θ.bu u = .ok bu ∧ npGet θ.bi i = .ok bi ∧
    npGet θ.p u = .ok p ∧ npGet θ.q i = .ok q ∧ RoundedSum (List.zipWith (fun x y => fl (x * y)) p q) d ∧
    v = fl (fl (fl (θ.mu + bu) + bi) + d)

/-- The sum of the sizes of all terms of an estimate: what its rounding error is measured by. -/
noncomputable def magnitude (mu bu bi : ℝ) (p q : List ℝ) : ℝ :=
  |mu| + |bu| + |bi| + (List.zipWith (fun x y => |x * y|) p q).sum

lemma dev_products : ∀ (p q : List ℝ), Dev 1 (List.zipWith (· * ·) p q).sum
    (List.zipWith (fun x y => fl (x * y)) p q).sum (List.zipWith (fun x y => |x * y|) p q).sum
  | [], q => by simpa using (Dev.refl 0).mono (Nat.zero_le 1)
  | x :: p, [] => by simpa using (Dev.refl 0).mono (Nat.zero_le 1)
  | x :: p, y :: q => by
    simp only [List.zipWith_cons_cons, List.sum_cons]
    exact ((Dev.refl (x * y)).fl).add (dev_products p q)

lemma dev_dot {p q : List ℝ} {d : ℝ} (h : RoundedSum (List.zipWith (fun x y => fl (x * y)) p q) d) :
    Dev (p.length + 1) (List.zipWith (· * ·) p q).sum d (List.zipWith (fun x y => |x * y|) p q).sum := by
  have h1 := dev_products p q
  have h2 := dev_sum h
  have hs : ((List.zipWith (fun x y => fl (x * y)) p q).map (fun x => |x|)).sum ≤
      (1 + u) ^ 1 * (List.zipWith (fun x y => |x * y|) p q).sum := by
    clear h h1 h2
    induction p generalizing q with
    | nil => simp
    | cons x p ih => cases q with
      | nil => simp
      | cons y q =>
        simp only [List.zipWith_cons_cons, List.map_cons, List.sum_cons, mul_add]
        exact add_le_add ((Dev.refl (x * y)).fl).size ih
  have hlen : (List.zipWith (fun x y => fl (x * y)) p q).length - 1 ≤ p.length := by
    rw [List.length_zipWith]
    omega
  refine ⟨h1.1, ?_⟩
  have h3 := (h2.mono hlen).2
  have hP : 0 ≤ (1 + u) ^ p.length - 1 := by linarith [one_le_high p.length]
  have h4 : |d - (List.zipWith (fun x y => x * y) p q).sum| ≤
      |d - (List.zipWith (fun x y => fl (x * y)) p q).sum| +
        |(List.zipWith (fun x y => fl (x * y)) p q).sum - (List.zipWith (fun x y => x * y) p q).sum| := abs_sub_le _ _ _
  have h5 := mul_le_mul_of_nonneg_left hs hP
  refine h4.trans ((add_le_add (h3.trans h5) h1.2).trans (le_of_eq ?_))
  rw [pow_succ (1 + u) p.length, pow_one]
  ring

/-- C133: the machine's latent estimate differs from the exact one by a small multiple of the sizes of its terms, whatever the
order of summation; in particular there is one exactly if the exact model gives one. -/
theorem C133_score {θ : MF.Params} {row : List Int} {v : ℝ} (h : RawScore θ row v) :
    ∃ u i bu bi p q, npGet row 0 = .ok u ∧ npGet row 1 = .ok i ∧ npGet θ.bu u = .ok bu ∧ npGet θ.bi i = .ok bi ∧
      npGet θ.p u = .ok p ∧ npGet θ.q i = .ok q ∧
      MF.rawScore θ row = .ok (θ.mu + bu + bi + (List.zipWith (· * ·) p q).sum) ∧
      (p.length + 4 ≤ 2 ^ 52 →
        |v - (θ.mu + bu + bi + (List.zipWith (· * ·) p q).sum)| ≤ (p.length + 4) / 2 ^ 52 * magnitude θ.mu bu bi p q) := by
  obtain ⟨u, i, bu, bi, p, q, d, h1, h2, h3, h4, h5, h6, h7, rfl⟩ := h
  refine ⟨u, i, bu, bi, p, q, h1, h2, h3, h4, h5, h6, ?_, ?_⟩
  · unfold MF.rawScore
    rw [h1, h2]
    simp only [bind, Except.bind, h3, h4, h5, h6]
    rfl
  · intro hl
    have a1 := ((((Dev.refl θ.mu).add (Dev.refl bu)).fl).add ((Dev.refl bi).mono (by omega))).fl
    have a2 := ((a1.mono (by omega : 0 + 1 + 1 ≤ p.length + 3)).add
      ((dev_dot h7).mono (by omega : p.length + 1 ≤ p.length + 3))).fl
    have := a2.relative (by omega)
    push_cast at this
    rwa [show (p.length : ℝ) + 3 + 1 = p.length + 4 by ring] at this

private lemma bind_ok {β γ : Type} {x : Res β} {f : β → Res γ} {c : γ} (h : (x >>= f) = .ok c) :
    ∃ b, x = .ok b ∧ f b = .ok c := by
  cases x with
  | error e => exact absurd h (by intro h; cases h)
  | ok b => exact ⟨b, rfl, h⟩

/-- There is a machine estimate whenever there is an exact one. -/
theorem exists_rawScore {θ : MF.Params} {row : List Int} {s : ℝ} (h : MF.rawScore θ row = .ok s) : ∃ v, RawScore θ row v := by
  unfold MF.rawScore at h
  obtain ⟨u, h1, h⟩ := bind_ok h
  obtain ⟨i, h2, h⟩ := bind_ok h
  obtain ⟨bu, h3, h⟩ := bind_ok h
  obtain ⟨bi, h4, h⟩ := bind_ok h
  obtain ⟨p, h5, h⟩ := bind_ok h
  obtain ⟨q, h6, h⟩ := bind_ok h
  obtain ⟨d, hd⟩ := exists_sum (List.zipWith (fun x y => fl (x * y)) p q)
  exact ⟨_, u, i, bu, bi, p, q, d, h1, h2, h3, h4, h5, h6, hd, rfl⟩

lemma sum_zero {xs : List ℝ} {v : ℝ} (h : RoundedSum xs v) (h0 : ∀ x ∈ xs, x = 0) : v = 0 := by
  induction h with
  | nil => rfl
  | one x => exact h0 x (by simp)
  | add _ _ _ _ iha ihb =>
    rw [iha (fun x hx => h0 x (List.mem_append_left _ hx)), ihb (fun x hx => h0 x (List.mem_append_right _ hx)), add_zero]
    exact fl_eq_zero.2 rfl
  | perm _ hp ih => exact ih (fun x hx => h0 x (hp.subset hx))

/-- C133: for an unknown user and an unknown item the machine's estimate is the stored mean itself, without any error. -/
theorem C133_unknown {nu ni k : Nat} (c : MF.Coef nu ni k) (hmu : IsDouble (MF.unpack c).mu) {v : ℝ}
    (h : RawScore (MF.store c) [(nu : Int), (ni : Int)] v) : v = (MF.unpack c).mu := by
  obtain ⟨u, i, bu, bi, p, q, d, h1, h2, h3, h4, h5, h6, h7, rfl⟩ := h
  have e1 : u = nu := by
    have : npGet [(nu : Int), (ni : Int)] 0 = .ok (nu : Int) := rfl
    rw [this] at h1
    exact (Except.ok.inj h1).symm
  have e2 : i = ni := by
    have : npGet [(nu : Int), (ni : Int)] 1 = .ok (ni : Int) := rfl
    rw [this] at h2
    exact (Except.ok.inj h2).symm
  subst e1 e2
  have g3 : bu = 0 := by
    have := MF.npGet_extend (MF.unpack c).bu 0 none
    exact (Except.ok.inj (this.symm.trans h3)).symm
  have g4 : bi = 0 := by
    have := MF.npGet_extend (MF.unpack c).bi 0 none
    exact (Except.ok.inj (this.symm.trans h4)).symm
  have g5 : p = List.replicate k 0 := by
    have := MF.npGet_extend (fun u => List.ofFn ((MF.unpack c).p u)) (List.replicate k 0) none
    exact (Except.ok.inj (this.symm.trans h5)).symm
  have hd : d = 0 := by
    refine sum_zero h7 ?_
    intro x hx
    rw [List.mem_iff_getElem] at hx
    obtain ⟨j, hj, rfl⟩ := hx
    rw [List.getElem_zipWith]
    have : p[j]'(by rw [List.length_zipWith] at hj; omega) = 0 := by
      subst g5
      rw [List.getElem_replicate]
    rw [this, zero_mul]
    exact fl_eq_zero.2 rfl
  subst g3 g4 hd
  have e : (MF.store c).mu = (MF.unpack c).mu := rfl
  simp only [e, add_zero, fl_of_double hmu]

/-! ### the logistic models -/

lemma expit_lipschitz (x y : ℝ) : |MF.expit x - MF.expit y| ≤ 1 / 4 * |x - y| := by
  have := Convex.norm_image_sub_le_of_norm_hasDerivWithin_le (f := MF.expit) (f' := fun x => MF.expit x * (1 - MF.expit x))
    (s := Set.univ) (x := y) (y := x) (C := 1 / 4) (fun x _ => (MF.hasDerivAt_expit x).hasDerivWithinAt) (fun x _ => by
      rw [Real.norm_eq_abs, abs_le]
      have h1 := MF.expit_pos x
      have h2 := MF.expit_lt_one x
      constructor <;> nlinarith [sq_nonneg (MF.expit x - 1 / 2)]) convex_univ (Set.mem_univ _) (Set.mem_univ _)
  simpa [Real.norm_eq_abs] using this

lemma clip_close (v s : ℝ) : |clip (some (some v)) - MF.clip s| ≤ |v - s| + 1e-14 := by
  have hd := dom_close
  have h0 : |(-sigmoidDom) - (-MF.sigmoidDom)| ≤ 1e-14 := by
    rw [← abs_neg]
    convert hd using 2
    ring
  have h1 : |max v (-sigmoidDom) - max s (-MF.sigmoidDom)| ≤ max |v - s| |(-sigmoidDom) - (-MF.sigmoidDom)| :=
    abs_max_sub_max_le_max _ _ _ _
  have h2 : |min (max v (-sigmoidDom)) sigmoidDom - min (max s (-MF.sigmoidDom)) MF.sigmoidDom| ≤
      max |max v (-sigmoidDom) - max s (-MF.sigmoidDom)| |sigmoidDom - MF.sigmoidDom| := abs_min_sub_min_le_max _ _ _ _
  refine h2.trans (max_le (h1.trans (max_le ?_ ?_)) ?_)
  · have : (0 : ℝ) ≤ 1e-14 := by norm_num
    linarith
  · linarith [abs_nonneg (v - s)]
  · linarith [abs_nonneg (v - s)]

/-- C133: the predictions of the logistic models: a quarter of the error of the latent estimate, and the error of `expit`. -/
theorem C133_logistic {E : ℝ → ℝ} (hE : AccurateExpit E) (v s : ℝ) :
    |safeSigmoid E (some (some v)) - MF.safeSigmoid s| ≤ 1 / 4 * |v - s| + 1e-14 := by
  have h1 := clip_close v s
  have h2 := expit_lipschitz (clip (some (some v))) (MF.clip s)
  obtain ⟨b1, b2⟩ := clip_bounds (some (some v))
  have h3 := hE (clip (some (some v))) (by
    rw [abs_le]
    have := dom_bounds.2.2
    constructor <;> linarith)
  have h4 := MF.expit_lt_one (clip (some (some v)))
  have h5 : |safeSigmoid E (some (some v)) - MF.safeSigmoid s| ≤
      |E (clip (some (some v))) - MF.expit (clip (some (some v)))| + |MF.expit (clip (some (some v))) - MF.expit (MF.clip s)| := by
    rw [MF.safeSigmoid_eq]
    exact abs_sub_le _ _ _
  have h6 : (4 : ℝ) / 2 ^ 53 * MF.expit (clip (some (some v))) ≤ 4 / 2 ^ 53 * 1 :=
    mul_le_mul_of_nonneg_left h4.le (by norm_num)
  change |E (clip (some (some v))) - MF.expit (clip (some (some v)))| ≤ 4 / 2 ^ 53 * MF.expit (clip (some (some v))) at h3
  have h7 : (4 : ℝ) / 2 ^ 53 * 1 ≤ 3 / 4 * 1e-14 := by norm_num
  linarith

/-- A user, an item, one factor: the hypotheses can be met. -/
example : ∃ v, RawScore ⟨3, [1, 0], [2, 0], [[1], [0]], [[5], [0]]⟩ [0, 0] v := by
  refine exists_rawScore (s := 3 + 1 + 2 + (1 * 5 + 0)) ?_
  rfl

end Kam.Fl

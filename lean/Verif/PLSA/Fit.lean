/-
C150: how well a topic model can fit its training data.  C151: repeating the data.
-/
import Verif.PLSA.Limit

set_option linter.unusedSectionVars false

namespace Kam
namespace Spec
open scoped BigOperators
open PLSA
variable {n nu ni nl k : Nat}

/-- All parameters are probability distributions (entries may be zero). -/
structure Distributions (θ : Theta nu ni nl k) : Prop where
  nonneg : (∀ z, 0 ≤ θ.pZ z) ∧ (∀ j z, 0 ≤ θ.pX j z) ∧ (∀ j z, 0 ≤ θ.pY j z) ∧ ∀ j z, 0 ≤ θ.pR j z
  z : ∑ z, θ.pZ z = 1
  x : ∀ z, ∑ j, θ.pX j z = 1
  y : ∀ z, ∑ j, θ.pY j z = 1
  r : ∀ z, ∑ j, θ.pR j z = 1

open Classical in
/-- How often an event occurs. -/
noncomputable def occurrences (evs : Fin n → Ev nu ni nl) (e : Ev nu ni nl) : Nat := (Finset.univ.filter (fun i => evs i = e)).card

open Classical in
/-- The number of different events. -/
noncomputable def kinds (evs : Fin n → Ev nu ni nl) : Nat := (Finset.univ.image evs).card

/-- The entropy of the relative frequencies of the events. -/
noncomputable def entropy (evs : Fin n → Ev nu ni nl) : ℝ := -(∑ i, Real.log (occurrences evs (evs i) / n)) / n

end Spec

namespace PLSA
open scoped BigOperators
open Spec
variable {n nu ni nl k : Nat}

lemma occ_pos (evs : Fin n → Ev nu ni nl) (i : Fin n) : 0 < occurrences evs (evs i) := by
  classical
  unfold occurrences
  exact Finset.card_pos.2 ⟨i, by simp⟩

open Classical in
/-- Sum over events, grouped by kind. -/
lemma sum_kinds (evs : Fin n → Ev nu ni nl) (g : Ev nu ni nl → ℝ) :
    ∑ i, g (evs i) = ∑ e ∈ Finset.univ.image evs, (occurrences evs e : ℝ) * g e := by
  rw [Finset.sum_comp g evs]
  refine Finset.sum_congr rfl (fun e _ => ?_)
  unfold occurrences
  rw [nsmul_eq_mul]

lemma prob_nonneg {θ : Theta nu ni nl k} (h : Distributions θ) (x : Fin nu) (y : Fin ni) (r : Fin nl) : 0 ≤ prob θ x y r :=
  Finset.sum_nonneg fun z _ => mul_nonneg (mul_nonneg (mul_nonneg (h.nonneg.2.1 x z) (h.nonneg.2.2.1 y z)) (h.nonneg.2.2.2 r z)) (h.nonneg.1 z)

lemma prob_total {θ : Theta nu ni nl k} (h : Distributions θ) : ∑ x, ∑ y, ∑ r, prob θ x y r = 1 := by
  have h1 : ∀ x y, ∑ r, prob θ x y r = ∑ z, θ.pX x z * θ.pY y z * θ.pZ z := by
    intro x y
    unfold prob
    rw [Finset.sum_comm]
    refine Finset.sum_congr rfl (fun z _ => ?_)
    have : ∀ r, θ.pX x z * θ.pY y z * θ.pR r z * θ.pZ z = (θ.pX x z * θ.pY y z * θ.pZ z) * θ.pR r z := fun r => by ring
    simp only [this]
    rw [← Finset.mul_sum, h.r z, mul_one]
  have h2 : ∀ x, ∑ y, ∑ r, prob θ x y r = ∑ z, θ.pX x z * θ.pZ z := by
    intro x
    simp only [h1]
    rw [Finset.sum_comm]
    refine Finset.sum_congr rfl (fun z _ => ?_)
    have : ∀ y, θ.pX x z * θ.pY y z * θ.pZ z = (θ.pX x z * θ.pZ z) * θ.pY y z := fun r => by ring
    simp only [this]
    rw [← Finset.mul_sum, h.y z, mul_one]
  simp only [h2]
  rw [Finset.sum_comm, ← h.z]
  refine Finset.sum_congr rfl (fun z _ => ?_)
  rw [← Finset.sum_mul, h.x z, one_mul]

open Classical in
lemma prob_some {θ : Theta nu ni nl k} (h : Distributions θ) (s : Finset (Ev nu ni nl)) : ∑ e ∈ s, prob θ e.user e.item e.level ≤ 1 := by
  rw [← prob_total h]
  have e1 : ∑ x, ∑ y, ∑ r, prob θ x y r = ∑ t : Fin nu × Fin ni × Fin nl, prob θ t.1 t.2.1 t.2.2 := by
    rw [Fintype.sum_prod_type]
    refine Finset.sum_congr rfl (fun x _ => ?_)
    rw [Fintype.sum_prod_type]
  rw [e1]
  have inj : ∀ a ∈ s, ∀ b ∈ s, ((a.user, a.item, a.level) : Fin nu × Fin ni × Fin nl) = (b.user, b.item, b.level) → a = b := by
    rintro ⟨a1, a2, a3⟩ _ ⟨b1, b2, b3⟩ _ hab
    simp only [Prod.mk.injEq] at hab
    obtain ⟨rfl, rfl, rfl⟩ := hab
    rfl
  rw [← Finset.sum_image (f := fun t : Fin nu × Fin ni × Fin nl => prob θ t.1 t.2.1 t.2.2) (g := fun e : Ev nu ni nl => (e.user, e.item, e.level)) inj]
  exact Finset.sum_le_sum_of_subset_of_nonneg (Finset.subset_univ _) (fun t _ _ => prob_nonneg h _ _ _)

/-- C150: whatever the number of latent classes, the mean loss of parameters that give every event a positive probability is at least the entropy of the relative frequencies. -/
theorem C150_bound (hn : 0 < n) (evs : Fin n → Ev nu ni nl) {θ : Theta nu ni nl k} (h : Distributions θ)
    (hpos : ∀ i, 0 < prob θ (evs i).user (evs i).item (evs i).level) : entropy evs ≤ meanLoss evs θ := by
  classical
  have hn' : (0 : ℝ) < n := by exact_mod_cast hn
  unfold entropy meanLoss logLikelihood
  rw [div_le_div_iff_of_pos_right hn', neg_le_neg_iff]
  have key : ∀ i, Real.log (prob θ (evs i).user (evs i).item (evs i).level) - Real.log (occurrences evs (evs i) / n) ≤
      n * prob θ (evs i).user (evs i).item (evs i).level / occurrences evs (evs i) - 1 := by
    intro i
    have ho : (0 : ℝ) < occurrences evs (evs i) := by exact_mod_cast occ_pos evs i
    rw [← Real.log_div (hpos i).ne' (by positivity)]
    have hq : 0 < prob θ (evs i).user (evs i).item (evs i).level / (occurrences evs (evs i) / n) := div_pos (hpos i) (by positivity)
    refine (Real.log_le_sub_one_of_pos hq).trans (le_of_eq ?_)
    field_simp
  have hs := Finset.sum_le_sum (fun i (_ : i ∈ Finset.univ) => key i)
  rw [Finset.sum_sub_distrib, Finset.sum_sub_distrib] at hs
  have hk := sum_kinds evs (fun e => (n : ℝ) * prob θ e.user e.item e.level / occurrences evs e)
  have hk2 : ∑ e ∈ Finset.univ.image evs, (occurrences evs e : ℝ) * ((n : ℝ) * prob θ e.user e.item e.level / occurrences evs e) =
      n * ∑ e ∈ Finset.univ.image evs, prob θ e.user e.item e.level := by
    rw [Finset.mul_sum]
    refine Finset.sum_congr rfl (fun e he => ?_)
    obtain ⟨i, _, rfl⟩ := Finset.mem_image.1 he
    have ho : (0 : ℝ) < occurrences evs (evs i) := by exact_mod_cast occ_pos evs i
    field_simp
  rw [hk2] at hk
  rw [hk] at hs
  have h1 := mul_le_mul_of_nonneg_left (prob_some h (Finset.univ.image evs)) hn'.le
  simp at hs
  linarith

/-- C150: with as many latent classes as there are different events (or more), some parameters reach it. -/
theorem C150_reached (hn : 0 < n) (evs : Fin n → Ev nu ni nl) (hk : kinds evs ≤ k) :
    ∃ θ : Theta nu ni nl k, Distributions θ ∧ (∀ i, 0 < prob θ (evs i).user (evs i).item (evs i).level) ∧ meanLoss evs θ = entropy evs := by
  classical
  have hn' : (0 : ℝ) < n := by exact_mod_cast hn
  -- latent classes of the kinds of events
  obtain ⟨c, hc⟩ : ∃ c : Ev nu ni nl → Fin k, Set.InjOn c (Finset.univ.image evs) := by
    obtain ⟨f⟩ : Nonempty ((Finset.univ.image evs) ↪ Fin k) := by
      apply Function.Embedding.nonempty_of_card_le
      unfold kinds at hk
      simp only [Fintype.card_coe, Fintype.card_fin]
      convert hk
    have hne : (Finset.univ.image evs).Nonempty := ⟨evs ⟨0, hn⟩, by simp⟩
    refine ⟨fun e => if he : e ∈ Finset.univ.image evs then f ⟨e, he⟩ else f ⟨_, hne.choose_spec⟩, ?_⟩
    intro a ha b hb hab
    simp only [Finset.mem_coe] at ha hb
    simp only [ha, hb, dif_pos] at hab
    exact congrArg Subtype.val (f.injective hab)
  -- the event of a class
  let ev : Fin k → Ev nu ni nl := fun z => if h : ∃ i, c (evs i) = z then evs h.choose else evs ⟨0, hn⟩
  have hev : ∀ i, ev (c (evs i)) = evs i := by
    intro i
    have h : ∃ j, c (evs j) = c (evs i) := ⟨i, rfl⟩
    simp only [ev, dif_pos h]
    exact hc (by simp) (by simp) h.choose_spec
  let θ : Theta nu ni nl k := ⟨fun z => if c (ev z) = z then (occurrences evs (ev z) : ℝ) / n else 0, fun j z => if j = (ev z).user then 1 else 0,
    fun j z => if j = (ev z).item then 1 else 0, fun j z => if j = (ev z).level then 1 else 0⟩
  have hmem : ∀ z, ∃ i, ev z = evs i := by
    intro z
    by_cases h : ∃ i, c (evs i) = z
    · exact ⟨h.choose, by simp only [ev, dif_pos h]⟩
    · exact ⟨⟨0, hn⟩, by simp only [ev, dif_neg h]⟩
  have hZ : ∑ z, θ.pZ z = 1 := by
    have h1 : ∑ z, θ.pZ z = ∑ e ∈ Finset.univ.image evs, (occurrences evs e : ℝ) * (1 / n) := by
      simp only [θ]
      rw [← Finset.sum_filter]
      symm
      refine Finset.sum_bij (fun e _ => c e) ?_ ?_ ?_ ?_
      · intro e he
        obtain ⟨i, _, rfl⟩ := Finset.mem_image.1 he
        simp [hev]
      · intro a ha b hb hab
        exact hc (by simpa using ha) (by simpa using hb) hab
      · intro z hz
        obtain ⟨i, hi⟩ := hmem z
        refine ⟨ev z, by rw [hi]; simp, ?_⟩
        simpa using hz
      · intro e he
        obtain ⟨i, _, rfl⟩ := Finset.mem_image.1 he
        rw [hev]
        ring
    rw [h1, ← sum_kinds evs (fun _ => 1 / (n : ℝ))]
    simp
    field_simp
  have hD : Distributions θ := by
    refine ⟨⟨fun z => ?_, fun j z => ?_, fun j z => ?_, fun j z => ?_⟩, hZ, fun z => ?_, fun z => ?_, fun z => ?_⟩
    · simp only [θ]; split <;> positivity
    · simp only [θ]; split <;> norm_num
    · simp only [θ]; split <;> norm_num
    · simp only [θ]; split <;> norm_num
    · simp [θ]
    · simp [θ]
    · simp [θ]
  have hprob : ∀ i, prob θ (evs i).user (evs i).item (evs i).level = occurrences evs (evs i) / n := by
    intro i
    unfold prob
    rw [Finset.sum_eq_single (c (evs i))]
    · simp [θ, hev]
    · intro z _ hz
      by_cases hcz : c (ev z) = z
      · have : ev z ≠ evs i := fun h => hz (by rw [← hcz, h])
        have hcases : ¬ ((evs i).user = (ev z).user ∧ (evs i).item = (ev z).item ∧ (evs i).level = (ev z).level) := by
          rintro ⟨h1, h2, h3⟩
          apply this
          cases h4 : ev z
          cases h5 : evs i
          rw [h4, h5] at h1 h2 h3
          simp only at h1 h2 h3
          rw [h1, h2, h3]
        simp only [θ]
        by_cases h1 : (evs i).user = (ev z).user <;> by_cases h2 : (evs i).item = (ev z).item <;>
          by_cases h3 : (evs i).level = (ev z).level <;> simp [h1, h2, h3]
        exact absurd ⟨h1, h2, h3⟩ hcases
      · simp [θ, hcz]
    · simp
  refine ⟨θ, hD, fun i => ?_, ?_⟩
  · rw [hprob]
    have := occ_pos evs i
    positivity
  · unfold meanLoss logLikelihood entropy
    simp only [hprob]

lemma proper_dist {θ : Theta nu ni nl k} (h : Proper θ) : Distributions θ :=
  ⟨⟨fun z => (h.z.1 z).le, fun j z => ((h.x z).1 j).le, fun j z => ((h.y z).1 j).le, fun j z => ((h.r z).1 j).le⟩,
    h.z.2, fun z => (h.x z).2, fun z => (h.y z).2, fun z => (h.r z).2⟩

lemma proper_prob {θ : Theta nu ni nl k} (h : Proper θ) (hk : 0 < k) (x : Fin nu) (y : Fin ni) (r : Fin nl) : 0 < prob θ x y r :=
  Finset.sum_pos (fun z _ => mul_pos (mul_pos (mul_pos ((h.x z).1 x) ((h.y z).1 y)) ((h.r z).1 r)) (h.z.1 z)) ⟨⟨0, hk⟩, Finset.mem_univ _⟩

/-- C150: the loss that `fit` reports is never below the entropy of the relative frequencies of the training events. -/
theorem C150_fit {γ : Type} {cf : Config γ} {v : View ℝ γ} {p : Params} {res : List (String × Val)} (h : train cf v = .ok (p, res))
    (ha : 0 < cf.alpha) (hne : v.event ≠ []) (hR : DrawsWeights cf.rng) :
    ∃ (nu ni nl : Nat) (evl : List (Ev nu ni nl)), TrainingEvents v evl ∧
      ∀ x, ("final_loss", .real x) ∈ res → entropy (fun e : Fin evl.length => evl[e]) ≤ x := by
  have hkk : 0 < cf.k := by
    obtain ⟨_, _, _, _, _, _, _, _, _, hk, _⟩ := train_form h
    exact hk
  rcases Nat.eq_zero_or_pos cf.maxiter with hm | hm
  · obtain ⟨⟨_, _, ⟨nu, ni, nl, evl, q, levels, hev, _⟩, _⟩, _, h2, _⟩ := C45_no_iterations h hm
    exact ⟨nu, ni, nl, evl, hev, fun x hx => by cases (h2 _).1 hx⟩
  · obtain ⟨N, stopped, final, ⟨nu, ni, nl, evl, q, levels, hev, ⟨g, hg, hq⟩, hp, hf, _⟩, _, _, _, h5, _⟩ := C45_iterations_partial h hm
    refine ⟨nu, ni, nl, evl, hev, fun x hx => ?_⟩
    have hx' := (h5 hne _).1 hx
    cases hx'
    have hpos : 0 < evl.length := by rw [hev.length]; exact List.length_pos_iff.2 hne
    have hP := reached_proper ha hkk hpos (fun e : Fin evl.length => evl[e]) (q := q) (by rw [hq]; exact drawn_nonneg hR cf.k g evl) N
    rw [hf]
    exact C150_bound hpos _ (proper_dist hP) (fun i => proper_prob hP hkk _ _ _)

/-- One latent class split into two halves. -/
noncomputable def split (θ : Theta nu ni nl (k + 1)) : Theta nu ni nl (k + 2) where
  pZ := Fin.cases (θ.pZ 0 / 2) (fun z => if z = 0 then θ.pZ 0 / 2 else θ.pZ z)
  pX j := Fin.cases (θ.pX j 0) (fun z => θ.pX j z)
  pY j := Fin.cases (θ.pY j 0) (fun z => θ.pY j z)
  pR j := Fin.cases (θ.pR j 0) (fun z => θ.pR j z)

lemma split_prob (θ : Theta nu ni nl (k + 1)) (x : Fin nu) (y : Fin ni) (r : Fin nl) : prob (split θ) x y r = prob θ x y r := by
  unfold prob
  rw [Fin.sum_univ_succ, Fin.sum_univ_succ, Fin.sum_univ_succ]
  simp only [split, Fin.cases_zero, Fin.cases_succ, if_true]
  have : ∀ z : Fin k, (if z.succ = 0 then θ.pZ 0 / 2 else θ.pZ z.succ) = θ.pZ z.succ := fun z => if_neg (Fin.succ_ne_zero z)
  simp only [this]
  ring

/-- C150: with one more latent class, everything can be expressed that could be before: the same joint probabilities, and hence the
same loss and the same predictions. -/
theorem C150_more_classes {θ : Theta nu ni nl (k + 1)} (h : Proper θ) : ∃ θ' : Theta nu ni nl (k + 2), Proper θ' ∧
    (∀ x y r, prob θ' x y r = prob θ x y r) ∧ (∀ {n : Nat} (evs : Fin n → Ev nu ni nl), meanLoss evs θ' = meanLoss evs θ) ∧
    ∀ b levels u i y, PredictedScore b θ' levels u i y ↔ PredictedScore b θ levels u i y := by
  refine ⟨split θ, ⟨⟨fun z => ?_, ?_⟩, fun z => ⟨fun j => ?_, ?_⟩, fun z => ⟨fun j => ?_, ?_⟩, fun z => ⟨fun j => ?_, ?_⟩⟩, split_prob θ, ?_, ?_⟩
  · have h0 := h.z.1 0
    refine Fin.cases ?_ (fun z => ?_) z
    · simp only [split, Fin.cases_zero]; linarith
    · simp only [split, Fin.cases_succ]
      split
      · linarith
      · exact h.z.1 z
  · rw [Fin.sum_univ_succ, Fin.sum_univ_succ, ← h.z.2, Fin.sum_univ_succ]
    simp only [split, Fin.cases_zero, Fin.cases_succ, if_true]
    have : ∀ z : Fin k, (if z.succ = 0 then θ.pZ 0 / 2 else θ.pZ z.succ) = θ.pZ z.succ := fun z => if_neg (Fin.succ_ne_zero z)
    simp only [this]
    ring
  · refine Fin.cases ?_ (fun z => ?_) z
    · exact (h.x 0).1 j
    · exact (h.x z).1 j
  · refine Fin.cases ?_ (fun z => ?_) z
    · exact (h.x 0).2
    · exact (h.x z).2
  · refine Fin.cases ?_ (fun z => ?_) z
    · exact (h.y 0).1 j
    · exact (h.y z).1 j
  · refine Fin.cases ?_ (fun z => ?_) z
    · exact (h.y 0).2
    · exact (h.y z).2
  · refine Fin.cases ?_ (fun z => ?_) z
    · exact (h.r 0).1 j
    · exact (h.r z).1 j
  · refine Fin.cases ?_ (fun z => ?_) z
    · exact (h.r 0).2
    · exact (h.r z).2
  · intro n evs
    unfold meanLoss logLikelihood
    simp only [split_prob]
  · intro b levels u i y
    have : ∀ r, conditional (split θ) u i r = conditional θ u i r := by
      intro r
      have hm : ∀ r, marginal (split θ) u i r = marginal θ u i r := by
        intro r
        unfold marginal
        split <;> simp only [split_prob]
      unfold conditional
      simp only [hm]
    unfold PredictedScore
    simp only [this]

/-! ### Repeated data -/

lemma sum_copies {n' c : Nat} (π : Fin n' → Fin n) (hπ : ∀ e, (Finset.univ.filter (fun i => π i = e)).card = c) (f : Fin n → ℝ) :
    ∑ i, f (π i) = c * ∑ e, f e := by
  rw [← Finset.sum_fiberwise Finset.univ π, Finset.mul_sum]
  refine Finset.sum_congr rfl (fun e _ => ?_)
  rw [Finset.sum_congr rfl (g := fun _ => f e) (fun i hi => by rw [(Finset.mem_filter.1 hi).2]), Finset.sum_const, hπ, nsmul_eq_mul]

lemma mStep_copies {n' c : Nat} (hc : 0 < c) (π : Fin n' → Fin n) (hπ : ∀ e, (Finset.univ.filter (fun i => π i = e)).card = c)
    (a : ℝ) (evs : Fin n → Ev nu ni nl) (q : Resp n k) :
    mStep (c * a) (fun i => evs (π i)) (fun i => q (π i)) = mStep a evs q := by
  have hc' : (c : ℝ) ≠ 0 := by exact_mod_cast hc.ne'
  have hw : ∀ {m : Nat} (id : Fin n → Fin m) j z, weights (c * a) (fun i => id (π i)) (fun i => q (π i)) j z = c * weights a id q j z := by
    intro m id j z
    unfold weights
    rw [sum_copies π hπ (fun e => if id e = j then q e z else 0)]
    ring
  have hN : ∀ {m : Nat} (id : Fin n → Fin m), normalize (weights (c * a) (fun i => id (π i)) (fun i => q (π i))) = normalize (weights a id q) := by
    intro m id
    funext j z
    unfold normalize
    simp only [hw]
    rw [← Finset.mul_sum, mul_div_mul_left _ _ hc']
  have hs : ∀ z, ∑ i, q (π i) z + c * a = c * (∑ e, q e z + a) := by
    intro z
    rw [sum_copies π hπ (fun e => q e z)]
    ring
  unfold mStep
  rw [hN (fun e => (evs e).level), hN (fun e => (evs e).user), hN (fun e => (evs e).item)]
  congr 1
  funext z
  simp only [hs]
  rw [← Finset.mul_sum, mul_div_mul_left _ _ hc']

/-- C151: if every event is repeated `c` times, with its initial weights, and `alpha` is multiplied by `c`, the parameters after every
number of steps are the same, and so is the loss. -/
theorem C151_repeated {n' c : Nat} (hc : 0 < c) (π : Fin n' → Fin n) (hπ : ∀ e, (Finset.univ.filter (fun i => π i = e)).card = c)
    (a : ℝ) (evs : Fin n → Ev nu ni nl) (q : Resp n k) (m : Nat) :
    reached (c * a) (fun i => evs (π i)) (fun i => q (π i)) m = reached a evs q m ∧
    ∀ θ : Theta nu ni nl k, loss (fun i => evs (π i)) θ = loss evs θ := by
  have hstep : ∀ θ : Theta nu ni nl k, emStep (c * a) (fun i => evs (π i)) θ = emStep a evs θ := fun θ => by
    unfold emStep
    exact mStep_copies hc π hπ a evs (eStep θ evs)
  constructor
  · induction m with
    | zero => exact mStep_copies hc π hπ a evs q
    | succ m ih => rw [reached_succ, reached_succ, ih, hstep]
  · intro θ
    have hn : (n' : ℝ) = c * n := by
      have := sum_copies π hπ (fun _ => (1 : ℝ))
      simpa using this
    have hc' : (c : ℝ) ≠ 0 := by exact_mod_cast hc.ne'
    unfold loss
    rw [sum_copies π hπ (fun e => Real.log (∑ z, joint θ (evs e) z)), hn, ← mul_neg, mul_div_mul_left _ _ hc']

/-- C151: without smoothing, repeating the events changes nothing. -/
theorem C151_repeated_plain {n' c : Nat} (hc : 0 < c) (π : Fin n' → Fin n) (hπ : ∀ e, (Finset.univ.filter (fun i => π i = e)).card = c)
    (evs : Fin n → Ev nu ni nl) (q : Resp n k) (m : Nat) :
    reached 0 (fun i => evs (π i)) (fun i => q (π i)) m = reached 0 evs q m := by
  have := (C151_repeated hc π hπ 0 evs q m).1
  rwa [mul_zero] at this

/-- Three events, two of one kind: the entropy is reached with two latent classes. -/
example : ∃ θ : Theta 2 1 2 2, Distributions θ ∧ meanLoss (![⟨0, 0, 0⟩, ⟨1, 0, 1⟩, ⟨0, 0, 0⟩] : Fin 3 → Ev 2 1 2) θ =
    entropy (![⟨0, 0, 0⟩, ⟨1, 0, 1⟩, ⟨0, 0, 0⟩] : Fin 3 → Ev 2 1 2) := by
  classical
  obtain ⟨θ, h1, _, h2⟩ := C150_reached (k := 2) (by norm_num) (![⟨0, 0, 0⟩, ⟨1, 0, 1⟩, ⟨0, 0, 0⟩] : Fin 3 → Ev 2 1 2) (by
    unfold kinds
    have : Finset.univ.image (![⟨0, 0, 0⟩, ⟨1, 0, 1⟩, ⟨0, 0, 0⟩] : Fin 3 → Ev 2 1 2) ⊆ {⟨0, 0, 0⟩, ⟨1, 0, 1⟩} := by
      intro e he
      obtain ⟨i, _, rfl⟩ := Finset.mem_image.1 he
      fin_cases i <;> simp
    exact (Finset.card_le_card this).trans Finset.card_le_two)
  exact ⟨θ, h1, h2⟩

/-- Two events, each three times. -/
example (q : Resp 2 2) (m : Nat) : reached (3 : ℝ) (fun i : Fin 6 => (![⟨0, 0, 0⟩, ⟨1, 0, 1⟩] : Fin 2 → Ev 2 1 2) ⟨i.1 % 2, Nat.mod_lt _ (by norm_num)⟩)
    (fun i => q ⟨i.1 % 2, Nat.mod_lt _ (by norm_num)⟩) m = reached 1 (![⟨0, 0, 0⟩, ⟨1, 0, 1⟩] : Fin 2 → Ev 2 1 2) q m := by
  have := (C151_repeated (c := 3) (by norm_num) (fun i : Fin 6 => (⟨i.1 % 2, Nat.mod_lt _ (by norm_num)⟩ : Fin 2)) (by decide) 1
    (![⟨0, 0, 0⟩, ⟨1, 0, 1⟩] : Fin 2 → Ev 2 1 2) q m).1
  simpa using this

end PLSA
end Kam

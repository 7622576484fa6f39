/-
C149, second part: a best topic model exists, training leaves it alone, and unlimited training tends to stationary points.
-/
import Verif.PLSA.Stationary
import Mathlib.Topology.Order.Compact
import Mathlib.Topology.Order.MonotoneConvergence
import Mathlib.Topology.Sequences
import Mathlib.Topology.Algebra.Monoid
import Mathlib.Topology.Instances.Real.Lemmas

set_option linter.unusedSectionVars false

namespace Kam
namespace Spec
open scoped BigOperators
open PLSA Filter Topology
variable {n nu ni nl k : Nat}

/-- All entries converge. -/
structure TendsTo (f : Nat → Theta nu ni nl k) (θ : Theta nu ni nl k) : Prop where
  z : ∀ z, Tendsto (fun m => (f m).pZ z) atTop (𝓝 (θ.pZ z))
  x : ∀ j z, Tendsto (fun m => (f m).pX j z) atTop (𝓝 (θ.pX j z))
  y : ∀ j z, Tendsto (fun m => (f m).pY j z) atTop (𝓝 (θ.pY j z))
  r : ∀ j z, Tendsto (fun m => (f m).pR j z) atTop (𝓝 (θ.pR j z))

/-- The changes of all entries tend to zero. -/
structure Settles (f : Nat → Theta nu ni nl k) : Prop where
  z : ∀ z, Tendsto (fun m => (f (m + 1)).pZ z - (f m).pZ z) atTop (𝓝 0)
  x : ∀ j z, Tendsto (fun m => (f (m + 1)).pX j z - (f m).pX j z) atTop (𝓝 0)
  y : ∀ j z, Tendsto (fun m => (f (m + 1)).pY j z - (f m).pY j z) atTop (𝓝 0)
  r : ∀ j z, Tendsto (fun m => (f (m + 1)).pR j z - (f m).pR j z) atTop (𝓝 0)

end Spec

namespace PLSA
open scoped BigOperators
open Spec Filter Topology
variable {n nu ni nl k : Nat}

/-- All entries in one product. -/
abbrev Flat (nu ni nl k : Nat) := (Fin k → ℝ) × (Fin nu → Fin k → ℝ) × (Fin ni → Fin k → ℝ) × (Fin nl → Fin k → ℝ)

def ofFlat (x : Flat nu ni nl k) : Theta nu ni nl k := ⟨x.1, x.2.1, x.2.2.1, x.2.2.2⟩
def toFlat (θ : Theta nu ni nl k) : Flat nu ni nl k := (θ.pZ, θ.pX, θ.pY, θ.pR)

/-- Distributions whose entries are at least `d`. -/
def region (nu ni nl k : Nat) (d : ℝ) : Set (Flat nu ni nl k) := {x | Proper (ofFlat x) ∧ Entrywise (fun y => d ≤ y) (ofFlat x)}

theorem region_closed {d : ℝ} (hd : 0 < d) : IsClosed (region nu ni nl k d) := by
  have : region nu ni nl k d = {x | (∀ z, d ≤ x.1 z)} ∩ {x | ∀ j z, d ≤ x.2.1 j z} ∩ {x | ∀ j z, d ≤ x.2.2.1 j z} ∩ {x | ∀ j z, d ≤ x.2.2.2 j z} ∩
      ({x | ∑ z, x.1 z = 1} ∩ {x | ∀ z, ∑ j, x.2.1 j z = 1} ∩ {x | ∀ z, ∑ j, x.2.2.1 j z = 1} ∩ {x | ∀ z, ∑ j, x.2.2.2 j z = 1}) := by
    ext x
    constructor
    · rintro ⟨h1, h2⟩
      exact ⟨⟨⟨⟨h2.z, h2.x⟩, h2.y⟩, h2.r⟩, ⟨⟨h1.z.2, fun z => (h1.x z).2⟩, fun z => (h1.y z).2⟩, fun z => (h1.r z).2⟩
    · rintro ⟨⟨⟨⟨a1, a2⟩, a3⟩, a4⟩, ⟨⟨b1, b2⟩, b3⟩, b4⟩
      exact ⟨⟨⟨fun z => hd.trans_le (a1 z), b1⟩, fun z => ⟨fun j => hd.trans_le (a2 j z), b2 z⟩,
        fun z => ⟨fun j => hd.trans_le (a3 j z), b3 z⟩, fun z => ⟨fun j => hd.trans_le (a4 j z), b4 z⟩⟩, ⟨a1, a2, a3, a4⟩⟩
  rw [this]
  simp only [Set.ofPred_forall]
  refine IsClosed.inter (IsClosed.inter (IsClosed.inter (IsClosed.inter ?_ ?_) ?_) ?_) (IsClosed.inter (IsClosed.inter (IsClosed.inter ?_ ?_) ?_) ?_)
  · exact isClosed_iInter fun z => isClosed_le (by fun_prop) (by fun_prop)
  · exact isClosed_iInter fun j => isClosed_iInter fun z => isClosed_le (by fun_prop) (by fun_prop)
  · exact isClosed_iInter fun j => isClosed_iInter fun z => isClosed_le (by fun_prop) (by fun_prop)
  · exact isClosed_iInter fun j => isClosed_iInter fun z => isClosed_le (by fun_prop) (by fun_prop)
  · exact isClosed_eq (by fun_prop) (by fun_prop)
  · exact isClosed_iInter fun z => isClosed_eq (by fun_prop) (by fun_prop)
  · exact isClosed_iInter fun z => isClosed_eq (by fun_prop) (by fun_prop)
  · exact isClosed_iInter fun z => isClosed_eq (by fun_prop) (by fun_prop)

theorem region_compact {d : ℝ} (hd : 0 < d) : IsCompact (region nu ni nl k d) := by
  refine IsCompact.of_isClosed_subset (isCompact_Icc (a := (0 : Flat nu ni nl k)) (b := 1)) (region_closed hd) ?_
  rintro x ⟨h1, h2⟩
  refine ⟨⟨fun z => (h1.z.1 z).le, fun j z => ((h1.x z).1 j).le, fun j z => ((h1.y z).1 j).le, fun j z => ((h1.r z).1 j).le⟩,
    fun z => entry_le_one h1.z z, fun j z => entry_le_one (h1.x z) j, fun j z => entry_le_one (h1.y z) j, fun j z => entry_le_one (h1.r z) j⟩

lemma joint_cont (e : Ev nu ni nl) (z : Fin k) : Continuous (fun x : Flat nu ni nl k => joint (ofFlat x) e z) := by
  unfold joint ofFlat
  fun_prop

lemma region_joint {d : ℝ} (evs : Fin n → Ev nu ni nl) (e : Fin n) {x : Flat nu ni nl k} (hx : x ∈ region nu ni nl k d) (hk : 0 < k) :
    0 < ∑ z, joint (ofFlat x) (evs e) z :=
  Finset.sum_pos (fun z _ => (hx.1.good 0 evs).joint_pos e z) ⟨⟨0, hk⟩, Finset.mem_univ _⟩

theorem objective_cont (a : ℝ) (evs : Fin n → Ev nu ni nl) (hk : 0 < k) (d : ℝ) :
    ContinuousOn (fun x => objective a evs (ofFlat x)) (region nu ni nl k d) := by
  unfold objective
  have c1 : ContinuousOn (fun x : Flat nu ni nl k => ∑ e, Real.log (∑ z, joint (ofFlat x) (evs e) z)) (region nu ni nl k d) :=
    continuousOn_finsetSum _ fun e _ => ContinuousOn.log (continuous_finsetSum _ fun z _ => joint_cont _ _).continuousOn
      fun x hx => (region_joint evs e hx hk).ne'
  have cz : ContinuousOn (fun x : Flat nu ni nl k => ∑ z, Real.log ((ofFlat x).pZ z)) (region nu ni nl k d) :=
    continuousOn_finsetSum _ fun z _ => ContinuousOn.log (by unfold ofFlat; fun_prop) fun x hx => (hx.1.z.1 z).ne'
  have cx : ContinuousOn (fun x : Flat nu ni nl k => ∑ z, ∑ j, Real.log ((ofFlat x).pX j z)) (region nu ni nl k d) :=
    continuousOn_finsetSum _ fun z _ => continuousOn_finsetSum _ fun j _ => ContinuousOn.log (by unfold ofFlat; fun_prop) fun x hx => ((hx.1.x z).1 j).ne'
  have cy : ContinuousOn (fun x : Flat nu ni nl k => ∑ z, ∑ j, Real.log ((ofFlat x).pY j z)) (region nu ni nl k d) :=
    continuousOn_finsetSum _ fun z _ => continuousOn_finsetSum _ fun j _ => ContinuousOn.log (by unfold ofFlat; fun_prop) fun x hx => ((hx.1.y z).1 j).ne'
  have cr : ContinuousOn (fun x : Flat nu ni nl k => ∑ z, ∑ j, Real.log ((ofFlat x).pR j z)) (region nu ni nl k d) :=
    continuousOn_finsetSum _ fun z _ => continuousOn_finsetSum _ fun j _ => ContinuousOn.log (by unfold ofFlat; fun_prop) fun x hx => ((hx.1.r z).1 j).ne'
  exact c1.add (continuousOn_const.mul (((cz.add cx).add cy).add cr))

@[simp] lemma ofFlat_toFlat (θ : Theta nu ni nl k) : ofFlat (toFlat θ) = θ := rfl

lemma objective_tendsto (a : ℝ) (evs : Fin n → Ev nu ni nl) (hk : 0 < k) {d : ℝ} {f : Nat → Theta nu ni nl k} {θ : Theta nu ni nl k}
    (hθ : toFlat θ ∈ region nu ni nl k d) (h : Tendsto (fun m => toFlat (f m)) atTop (𝓝[region nu ni nl k d] (toFlat θ))) :
    Tendsto (fun m => objective a evs (f m)) atTop (𝓝 (objective a evs θ)) := by
  have h1 := (objective_cont a evs hk d) (toFlat θ) hθ
  unfold ContinuousWithinAt at h1
  have h2 := h1.comp h
  simpa only [Function.comp_def, ofFlat_toFlat] using h2

theorem emStep_cont {a : ℝ} (ha : 0 < a) (evs : Fin n → Ev nu ni nl) (hk : 0 < k) (d : ℝ) :
    ContinuousOn (fun x => toFlat (emStep a evs (ofFlat x))) (region nu ni nl k d) := by
  have cq : ∀ e z, ContinuousOn (fun x : Flat nu ni nl k => eStep (ofFlat x) evs e z) (region nu ni nl k d) := fun e z =>
    ContinuousOn.div (joint_cont _ _).continuousOn (continuous_finsetSum _ fun z _ => joint_cont _ _).continuousOn
      fun x hx => (region_joint evs e hx hk).ne'
  have q0 : ∀ x ∈ region nu ni nl k d, ∀ e z, 0 ≤ eStep (ofFlat x) evs e z := fun x hx e z => (eStep_pos (hx.1.good a evs) e z).le
  have cw : ∀ {m : Nat} (id : Fin n → Fin m) j z, ContinuousOn (fun x : Flat nu ni nl k => weights a id (eStep (ofFlat x) evs) j z) (region nu ni nl k d) := by
    intro m id j z
    unfold weights
    refine ContinuousOn.add (continuousOn_finsetSum _ fun e _ => ?_) continuousOn_const
    split
    · exact cq e z
    · exact continuousOn_const
  have cn : ∀ {m : Nat} (id : Fin n → Fin m), ContinuousOn (fun x : Flat nu ni nl k => normalize (weights a id (eStep (ofFlat x) evs))) (region nu ni nl k d) := by
    intro m id
    refine continuousOn_pi.2 fun j => continuousOn_pi.2 fun z => ?_
    refine ContinuousOn.div (cw id j z) (continuousOn_finsetSum _ fun j _ => cw id j z) fun x hx => ?_
    exact (Finset.sum_pos (fun l _ => weights_pos_of_alpha ha id (q0 x hx) l z) ⟨j, Finset.mem_univ _⟩).ne'
  have cs : ∀ z, ContinuousOn (fun x : Flat nu ni nl k => ∑ e, eStep (ofFlat x) evs e z + a) (region nu ni nl k d) := fun z =>
    ContinuousOn.add (continuousOn_finsetSum _ fun e _ => cq e z) continuousOn_const
  unfold toFlat emStep mStep
  refine ContinuousOn.prodMk ?_ (ContinuousOn.prodMk (cn _) (ContinuousOn.prodMk (cn _) (cn _)))
  refine continuousOn_pi.2 fun z => ContinuousOn.div (cs z) (continuousOn_finsetSum _ fun z _ => cs z) fun x hx => ?_
  refine (Finset.sum_pos (fun z _ => ?_) ⟨z, Finset.mem_univ _⟩).ne'
  have := Finset.sum_nonneg (fun e (_ : e ∈ Finset.univ) => q0 x hx e z)
  linarith

lemma emStep_tendsto {a : ℝ} (ha : 0 < a) (evs : Fin n → Ev nu ni nl) (hk : 0 < k) {d : ℝ} {f : Nat → Theta nu ni nl k} {θ : Theta nu ni nl k}
    (hθ : toFlat θ ∈ region nu ni nl k d) (h : Tendsto (fun m => toFlat (f m)) atTop (𝓝[region nu ni nl k d] (toFlat θ))) :
    Tendsto (fun m => toFlat (emStep a evs (f m))) atTop (𝓝 (toFlat (emStep a evs θ))) := by
  have h1 := (emStep_cont ha evs hk d) (toFlat θ) hθ
  unfold ContinuousWithinAt at h1
  have h2 := h1.comp h
  simpa only [Function.comp_def, ofFlat_toFlat] using h2

theorem emStep_region {a : ℝ} (ha : 0 < a) (hk : 0 < k) (hn : 0 < n) (evs : Fin n → Ev nu ni nl) {θ : Theta nu ni nl k} (h : Proper θ) :
    toFlat (emStep a evs θ) ∈ region nu ni nl k (floor a n nu ni nl k) :=
  ⟨mStep_proper ha hk hn evs (fun e z => (eStep_pos (h.good a evs) e z).le), emStep_floor ha hk hn h⟩

/-- C149: parameters with the highest smoothed likelihood exist. -/
theorem C149_best_exists {a : ℝ} (ha : 0 < a) (hk : 0 < k) (hn : 0 < n) (evs : Fin n → Ev nu ni nl) :
    ∃ θ : Theta nu ni nl k, Best a evs θ := by
  have hP0 : Proper (mStep a evs (fun _ _ => 0 : Resp n k)) := mStep_proper ha hk hn evs (fun _ _ => le_rfl)
  obtain ⟨x, hx, hmax⟩ := (region_compact (nu := nu) (ni := ni) (nl := nl) (k := k) (floor_pos ha hk hn)).exists_isMaxOn
    ⟨_, emStep_region ha hk hn evs hP0⟩ (objective_cont a evs hk _)
  refine ⟨ofFlat x, hx.1, fun θ' hθ' => ?_⟩
  have h1 := C41_any_parameters ha hk hn evs θ' hθ'
  have h2 := hmax (emStep_region ha hk hn evs hθ')
  simp only [Set.mem_ofPred_eq, objective_eq] at h2
  exact h1.trans h2

/-- C149: training leaves the best parameters alone. -/
theorem C149_best_stays {a : ℝ} (ha : 0 < a) (hk : 0 < k) (hn : 0 < n) (evs : Fin n → Ev nu ni nl) {θ : Theta nu ni nl k}
    (h : Best a evs θ) : emStep a evs θ = θ := by
  by_contra hne
  have h1 := C41_strict ha hk hn evs θ h.1 hne
  have h2 := h.2 _ (mStep_proper ha hk hn evs (fun e z => (eStep_pos (h.1.good a evs) e z).le) : Proper (emStep a evs θ))
  exact absurd h2 (not_le.2 h1)

lemma change_small {a g x y : ℝ} (ha : 0 < a) (hx : 0 ≤ x) (hy : 0 ≤ y) (hx1 : x ≤ 1) (hy1 : y ≤ 1) (h : a * (√y - √x) ^ 2 ≤ g) :
    |y - x| ≤ 2 * √(g / a) := by
  have h1 : (√y - √x) ^ 2 ≤ g / a := by rw [le_div_iff₀ ha]; linarith
  have h2 : |√y - √x| ≤ √(g / a) := Real.abs_le_sqrt h1
  have sx : √x ≤ 1 := Real.sqrt_le_one.2 hx1
  have sy : √y ≤ 1 := Real.sqrt_le_one.2 hy1
  have nx := Real.sqrt_nonneg x
  have ny := Real.sqrt_nonneg y
  have e : y - x = (√y - √x) * (√y + √x) := by
    have := Real.sq_sqrt hx
    have := Real.sq_sqrt hy
    nlinarith
  rw [e, abs_mul, abs_of_nonneg (add_nonneg ny nx)]
  have := abs_nonneg (√y - √x)
  nlinarith

/-- C149: training without limit comes to rest: the smoothed likelihood converges, the changes of all parameters tend to zero, every
sequence of numbers of steps has a part along which the parameters converge, and wherever they converge along some numbers of
steps, the limit is a positive, stationary point that EM steps no longer change. -/
theorem C149_limit {a : ℝ} (ha : 0 < a) (hk : 0 < k) (hn : 0 < n) (evs : Fin n → Ev nu ni nl) (q : Resp n k) (hq : ∀ e z, 0 ≤ q e z) :
    Settles (reached a evs q) ∧
    ∃ L, Tendsto (fun m => smoothed a evs (reached a evs q m)) atTop (𝓝 L) ∧
      (∀ φ : Nat → Nat, StrictMono φ → ∃ (ψ : Nat → Nat) (θ : Theta nu ni nl k), StrictMono ψ ∧ TendsTo (fun m => reached a evs q (φ (ψ m))) θ) ∧
      ∀ (φ : Nat → Nat) (θ : Theta nu ni nl k), StrictMono φ → TendsTo (fun m => reached a evs q (φ m)) θ →
        Proper θ ∧ smoothed a evs θ = L ∧ Stationary a evs θ ∧ emStep a evs θ = θ := by
  have hP := reached_proper ha hk hn evs hq
  have hreg : ∀ m, 0 < m → toFlat (reached a evs q m) ∈ region nu ni nl k (floor a n nu ni nl k) := fun m hm => by
    obtain ⟨m, rfl⟩ := Nat.exists_eq_succ_of_ne_zero hm.ne'
    rw [Nat.succ_eq_add_one, reached_succ]; exact emStep_region ha hk hn evs (hP m)
  have hmono : Monotone (fun m => smoothed a evs (reached a evs q m)) := monotone_nat_of_le_succ (C41_em_monotone ha hk hn evs q hq)
  have hbdd : BddAbove (Set.range (fun m => smoothed a evs (reached a evs q m))) :=
    ⟨0, by rintro _ ⟨m, rfl⟩; have := objective_nonpos ha.le (hP m) evs; rw [objective_eq] at this; exact this⟩
  have hL := tendsto_atTop_ciSup hmono hbdd
  have hcomp := region_compact (nu := nu) (ni := ni) (nl := nl) (k := k) (floor_pos (nu := nu) (ni := ni) (nl := nl) ha hk hn)
  refine ⟨?_, _, hL, ?_, ?_⟩
  · have hg : Tendsto (fun m => 2 * √((smoothed a evs (reached a evs q (m + 1)) - smoothed a evs (reached a evs q m)) / a)) atTop (𝓝 0) := by
      have h1 := (((hL.comp (tendsto_add_atTop_nat 1)).sub hL).div_const a).sqrt.const_mul 2
      simpa using h1
    have hgain : ∀ m, Pairwise2 (fun x y => a * (√y - √x) ^ 2 ≤ smoothed a evs (reached a evs q (m + 1)) - smoothed a evs (reached a evs q m))
        (reached a evs q m) (reached a evs q (m + 1)) := by
      intro m
      have := emStep_gain (evs := evs) ha hk hn (hP m)
      rw [objective_eq, objective_eq, ← reached_succ] at this
      exact this
    exact ⟨fun z => squeeze_zero_norm (fun m => change_small ha ((hP m).z.1 z).le ((hP (m+1)).z.1 z).le (entry_le_one (hP m).z z) (entry_le_one (hP (m+1)).z z) ((hgain m).z z)) hg,
      fun j z => squeeze_zero_norm (fun m => change_small ha (((hP m).x z).1 j).le (((hP (m+1)).x z).1 j).le (entry_le_one ((hP m).x z) j) (entry_le_one ((hP (m+1)).x z) j) ((hgain m).x j z)) hg,
      fun j z => squeeze_zero_norm (fun m => change_small ha (((hP m).y z).1 j).le (((hP (m+1)).y z).1 j).le (entry_le_one ((hP m).y z) j) (entry_le_one ((hP (m+1)).y z) j) ((hgain m).y j z)) hg,
      fun j z => squeeze_zero_norm (fun m => change_small ha (((hP m).r z).1 j).le (((hP (m+1)).r z).1 j).le (entry_le_one ((hP m).r z) j) (entry_le_one ((hP (m+1)).r z) j) ((hgain m).r j z)) hg⟩
  · intro φ hφ
    obtain ⟨x, _, ψ, hψ, ht⟩ := hcomp.tendsto_subseq (x := fun m => toFlat (reached a evs q (φ (m + 1))))
      (fun m => hreg _ (lt_of_le_of_lt (Nat.zero_le (φ m)) (hφ (Nat.lt_succ_self m))))
    refine ⟨fun m => ψ m + 1, ofFlat x, fun i j h => Nat.succ_lt_succ (hψ h), ?_⟩
    have t1 := (continuous_fst.tendsto x).comp ht
    have t2 := (continuous_snd.tendsto x).comp ht
    have t3 := (continuous_fst.tendsto _).comp t2
    have t4 := (continuous_snd.tendsto _).comp t2
    have t5 := (continuous_fst.tendsto _).comp t4
    have t6 := (continuous_snd.tendsto _).comp t4
    exact ⟨fun z => tendsto_pi_nhds.1 t1 z, fun j z => tendsto_pi_nhds.1 (tendsto_pi_nhds.1 t3 j) z,
      fun j z => tendsto_pi_nhds.1 (tendsto_pi_nhds.1 t5 j) z, fun j z => tendsto_pi_nhds.1 (tendsto_pi_nhds.1 t6 j) z⟩
  · intro φ θ hφ ht
    have htf : Tendsto (fun m => toFlat (reached a evs q (φ (m + 1)))) atTop (𝓝 (toFlat θ)) := by
      refine Tendsto.comp (g := fun m => toFlat (reached a evs q (φ m))) (f := fun m => m + 1) ?_ (tendsto_add_atTop_nat 1)
      exact Tendsto.prodMk_nhds (tendsto_pi_nhds.2 ht.z) (Tendsto.prodMk_nhds (tendsto_pi_nhds.2 fun j => tendsto_pi_nhds.2 (ht.x j))
        (Tendsto.prodMk_nhds (tendsto_pi_nhds.2 fun j => tendsto_pi_nhds.2 (ht.y j)) (tendsto_pi_nhds.2 fun j => tendsto_pi_nhds.2 (ht.r j))))
    have hmem : ∀ m, toFlat (reached a evs q (φ (m + 1))) ∈ region nu ni nl k (floor a n nu ni nl k) :=
      fun m => hreg _ (lt_of_le_of_lt (Nat.zero_le (φ m)) (hφ (Nat.lt_succ_self m)))
    have hθ : toFlat θ ∈ region nu ni nl k (floor a n nu ni nl k) := hcomp.isClosed.mem_of_tendsto htf (Eventually.of_forall hmem)
    have hw : Tendsto (fun m => toFlat (reached a evs q (φ (m + 1)))) atTop (𝓝[region nu ni nl k (floor a n nu ni nl k)] (toFlat θ)) :=
      tendsto_nhdsWithin_iff.2 ⟨htf, Eventually.of_forall hmem⟩
    have hφ1 : Tendsto (fun m => φ (m + 1)) atTop atTop := (hφ.tendsto_atTop).comp (tendsto_add_atTop_nat 1)
    have o1 : Tendsto (fun m => objective a evs (reached a evs q (φ (m + 1)))) atTop (𝓝 (objective a evs θ)) :=
      objective_tendsto a evs hk hθ hw
    have hL1 : Tendsto (fun m => objective a evs (reached a evs q (φ (m + 1)))) atTop
        (𝓝 (⨆ i, smoothed a evs (reached a evs q i))) := by
      simp only [objective_eq]
      exact hL.comp hφ1
    have hval := tendsto_nhds_unique o1 hL1
    have hmem2 : ∀ m, toFlat (emStep a evs (reached a evs q (φ (m + 1)))) ∈ region nu ni nl k (floor a n nu ni nl k) :=
      fun m => emStep_region ha hk hn evs (hP _)
    have hstep : Tendsto (fun m => toFlat (emStep a evs (reached a evs q (φ (m + 1))))) atTop (𝓝[region nu ni nl k (floor a n nu ni nl k)] (toFlat (emStep a evs θ))) :=
      tendsto_nhdsWithin_iff.2 ⟨emStep_tendsto ha evs hk hθ hw, Eventually.of_forall hmem2⟩
    have o2 : Tendsto (fun m => objective a evs (emStep a evs (reached a evs q (φ (m + 1))))) atTop (𝓝 (objective a evs (emStep a evs θ))) :=
      objective_tendsto a evs hk (emStep_region ha hk hn evs hθ.1) hstep
    have hL2 : Tendsto (fun m => objective a evs (emStep a evs (reached a evs q (φ (m + 1))))) atTop
        (𝓝 (⨆ i, smoothed a evs (reached a evs q i))) := by
      simp only [objective_eq, ← reached_succ]
      exact hL.comp ((tendsto_add_atTop_nat 1).comp hφ1)
    have hval2 := tendsto_nhds_unique o2 hL2
    have hfix : emStep a evs θ = θ := by
      by_contra hne
      have := C41_strict ha hk hn evs θ hθ.1 hne
      rw [← objective_eq, ← objective_eq, hval, hval2] at this
      exact lt_irrefl _ this
    refine ⟨hθ.1, ?_, (C149_stationary ha hk hn evs θ hθ.1).1 hfix, hfix⟩
    rw [objective_eq] at hval
    exact hval

lemma loop_full {σ : Type} (step : σ → σ) (f : σ → ℝ) {tol : ℝ} (ht : tol ≤ 0) (m : Nat) (s : σ) :
    ∃ it cur, loop step f tol m m 0 none s (f s) = (step^[m] s, it, cur) := by
  rcases Nat.eq_zero_or_pos m with rfl | hm
  · exact ⟨0, none, rfl⟩
  · obtain ⟨M, h1, h2, h3, h4⟩ := loop_spec step f tol m m le_rfl hm 0 none s
    have hM : M + 1 = m := by
      by_contra hne
      have := h4 (by omega)
      unfold converged at this
      split at this
      · cases this
      · have hlt := of_decide_eq_true this
        have := abs_nonneg ((f (step^[M + 1] s) - f (step^[M] s)) / f (step^[M + 1] s))
        linarith
    rw [hM] at h2
    exact ⟨_, _, h2⟩

/-- C149 for `fit`: with a tolerance of zero or less, training with `maxiter` equal to `m` gives the parameters after `m` steps from
random nonnegative weights, so all of `C149_limit` holds of the parameters learned with larger and larger `maxiter`. -/
theorem C149_fit {γ : Type} {cf : Config γ} {v : View ℝ γ} {x : Params × List (String × Val)} (h : train cf v = .ok x)
    (ha : 0 < cf.alpha) (ht : cf.tol ≤ 0) (hne : v.event ≠ []) (hR : DrawsWeights cf.rng) :
    ∃ (nu ni nl : Nat) (evl : List (Ev nu ni nl)) (f : Nat → Theta nu ni nl cf.k) (levels : List ℝ) (L : ℝ), TrainingEvents v evl ∧
      (∀ m, ∃ res, train { cf with maxiter := m } v = .ok (store (f m) levels, res)) ∧ Settles f ∧
      Tendsto (fun m => smoothed cf.alpha (fun e : Fin evl.length => evl[e]) (f m)) atTop (𝓝 L) ∧
      (∀ φ : Nat → Nat, StrictMono φ → ∃ (ψ : Nat → Nat) (θ : Theta nu ni nl cf.k), StrictMono ψ ∧ TendsTo (fun m => f (φ (ψ m))) θ) ∧
      ∀ (φ : Nat → Nat) (θ : Theta nu ni nl cf.k), StrictMono φ → TendsTo (fun m => f (φ m)) θ →
        Proper θ ∧ smoothed cf.alpha (fun e : Fin evl.length => evl[e]) θ = L ∧ Stationary cf.alpha (fun e : Fin evl.length => evl[e]) θ := by
  obtain ⟨nu, ni, nl, evl, g, levels, hev, hg, hnl, hk, hform⟩ := train_form h
  have hpos : 0 < evl.length := by rw [hev.length]; exact List.length_pos_iff.2 hne
  have hq := drawn_nonneg hR cf.k g evl
  obtain ⟨h1, L, h2, h3, h4⟩ := C149_limit ha hk hpos (fun e : Fin evl.length => evl[e]) (drawn cf.rng cf.k g evl) hq
  refine ⟨nu, ni, nl.toNat, evl, reached cf.alpha (fun e : Fin evl.length => evl[e]) (drawn cf.rng cf.k g evl), levels, L, hev, ?_, h1, h2, h3,
    fun φ θ hφ ht => ⟨(h4 φ θ hφ ht).1, (h4 φ θ hφ ht).2.1, (h4 φ θ hφ ht).2.2.1⟩⟩
  intro m
  obtain ⟨it, cur, hl⟩ := loop_full (emStep cf.alpha (fun e : Fin evl.length => evl[e])) (loss (fun e => evl[e])) ht m
    (mStep cf.alpha (fun e => evl[e]) (drawn cf.rng cf.k g evl))
  exact ⟨_, hform m _ _ _ hl⟩

/-- The hypotheses are met, e.g. by two events and two latent classes. -/
example : ∃ θ : Theta 2 1 2 2, Best 1 (![⟨0, 0, 0⟩, ⟨1, 0, 1⟩] : Fin 2 → Ev 2 1 2) θ ∧
    emStep 1 (![⟨0, 0, 0⟩, ⟨1, 0, 1⟩] : Fin 2 → Ev 2 1 2) θ = θ ∧ Stationary 1 (![⟨0, 0, 0⟩, ⟨1, 0, 1⟩] : Fin 2 → Ev 2 1 2) θ := by
  obtain ⟨θ, h⟩ := C149_best_exists (k := 2) one_pos (by norm_num) (by norm_num) (![⟨0, 0, 0⟩, ⟨1, 0, 1⟩] : Fin 2 → Ev 2 1 2)
  have h1 := C149_best_stays one_pos (by norm_num) (by norm_num) _ h
  exact ⟨θ, h, h1, (C149_stationary one_pos (by norm_num) (by norm_num) _ θ h.1).1 h1⟩

/-- The hypotheses of `C149_limit` are met, e.g. by two events that start in different latent classes. -/
example : Settles (reached 1 (![⟨0, 0, 0⟩, ⟨1, 0, 1⟩] : Fin 2 → Ev 2 1 2) (fun e z => if e = z then (1 : ℝ) else 0)) :=
  (C149_limit one_pos (by norm_num) (by norm_num) _ _ (fun e z => by split <;> norm_num)).1

/-- The hypotheses of `C149_fit` are met. -/
example : ∃ x, train { exConfig 3 with tol := 0 } exView = .ok x ∧ 0 < (exConfig 3).alpha ∧ exView.event ≠ [] ∧ DrawsWeights (exConfig 3).rng := by
  obtain ⟨p, res, h⟩ := train_total (cf := { exConfig 3 with tol := 0 }) (v := exView) (nu := 1) (ni := 1) (m := 1) (lo := 1) (hi := 2) (st := 1)
    (g := ()) (sc := [1]) rfl rfl rfl rfl one_pos (by norm_num) rfl rfl rfl (by
      intro row hr
      simp only [exView, List.mem_singleton] at hr
      subst hr
      exact ⟨0, 0, rfl, rfl⟩) Nat.one_pos
  exact ⟨_, h, one_pos, by simp [exView], by intro k g α z; exact zero_le_one⟩

end PLSA
end Kam

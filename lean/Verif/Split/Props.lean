/-
C46-C48: the cross-validation splitters.
-/
import Verif.Split.Lemmas
import Mathlib.Data.Int.CardIntervalMod

set_option linter.unusedSectionVars false

namespace Kam.Split

variable {α : Type} [LinearOrder α]

/-! ### C46: `InterlacedKFold` -/

theorem npUnique_mod {k n : Nat} (hk : 0 < k) (hn : k ≤ n) :
    npUnique ((List.range n).map (fun i : Nat => (i : Int) % (k : Int)))
      = (List.range k).map (fun i : Nat => (i : Int)) := by
  apply eq_of_sorted_of_mem (sorted_npUnique _)
  · rw [List.pairwise_map]
    exact (sorted_range k).imp (fun h => by exact_mod_cast h)
  · intro x
    rw [mem_npUnique]
    simp only [List.mem_map, List.mem_range]
    constructor
    · rintro ⟨i, _, rfl⟩
      exact ⟨i % k, Nat.mod_lt _ hk, by simp⟩
    · rintro ⟨i, hi, rfl⟩
      refine ⟨i, by omega, ?_⟩
      rw [← Int.natCast_mod, Nat.mod_eq_of_lt hi]

theorem length_filter_range (p : Nat → Prop) [DecidablePred p] (n : Nat) :
    ((List.range n).filter (fun i => decide (p i))).length = n.count p := by
  induction n with
  | zero => simp
  | succ n ih =>
    rw [List.range_succ, List.filter_append, List.length_append, ih, Nat.count_succ]
    by_cases h : p n <;> simp [h]

/-- **C46.** For `2 ≤ n_splits ≤ n_samples`, `InterlacedKFold` yields exactly `n_splits` folds;
fold `f` tests exactly the samples `i` with `i mod n_splits = f` and trains on all others
(every index list is increasing); the sizes of any two test sets differ by at most one. -/
theorem C46_interlaced (k : Int) (n : Nat) (h2 : 2 ≤ k) (hk : k ≤ n) :
    ∃ folds, interlacedKFold k n = .ok folds ∧ (folds.length : Int) = k ∧
      (∀ (f : Nat) train test, folds[f]? = some (train, test) →
        Spec.IsFold n train test ∧ ∀ i, i ∈ test ↔ i < n ∧ (i : Int) % k = f) ∧
      (∀ fold ∈ folds, ∀ fold' ∈ folds, fold.2.length ≤ fold'.2.length + 1) := by
  obtain ⟨m, rfl⟩ : ∃ m : Nat, k = m := ⟨k.toNat, by omega⟩
  have hm : 0 < m := by omega
  have hmn : m ≤ n := by exact_mod_cast hk
  have hfolds : predefinedSplit ((List.range n).map (fun i : Nat => (i : Int) % (m : Int))) =
      (List.range m).map (fun f =>
        ((List.range n).filter (fun i => !decide (i % m = f)),
         (List.range n).filter (fun i => decide (i % m = f)))) := by
    unfold predefinedSplit baseSplit
    rw [npUnique_mod hm hmn, List.filter_map, List.map_map, List.map_map]
    have : (List.range m).filter ((fun f : Int => decide (f ≠ -1)) ∘ fun i : Nat => (i : Int))
        = List.range m := by
      rw [List.filter_eq_self]
      intro a _
      simp only [Function.comp, decide_eq_true_eq]
      omega
    rw [this]
    simp only [List.length_map, List.length_range, List.map_map]
    apply List.map_congr_left
    intro f _
    have hget : ∀ i, i < n → ((List.range n).map ((fun v : Int => decide (v = (f : Int))) ∘
        fun i : Nat => (i : Int) % (m : Int))).getD i false = decide (i % m = f) := by
      intro i hi
      rw [List.getD_eq_getElem?_getD, List.getElem?_map, List.getElem?_range hi]
      simp only [Option.map_some, Option.getD_some, Function.comp]
      rw [decide_eq_decide]
      constructor
      · intro h; exact_mod_cast h
      · intro h; exact_mod_cast h
    simp only [Function.comp_apply, Prod.mk.injEq]
    constructor
    · apply List.filter_congr
      intro i hi
      rw [hget i (List.mem_range.1 hi)]
    · apply List.filter_congr
      intro i hi
      rw [hget i (List.mem_range.1 hi)]
  refine ⟨predefinedSplit ((List.range n).map (fun i : Nat => (i : Int) % (m : Int))),
    ?_, ?_, ?_, ?_⟩
  · unfold interlacedKFold
    rw [if_neg (by omega), if_neg (by omega)]
  · rw [hfolds]; simp
  · intro f train test hf
    rw [hfolds, List.getElem?_map, Option.map_eq_some_iff] at hf
    obtain ⟨f', hf', heq⟩ := hf
    obtain ⟨hlt, hff⟩ := List.getElem?_eq_some_iff.1 hf'
    rw [List.getElem_range] at hff
    subst hff
    obtain ⟨rfl, rfl⟩ := Prod.mk.inj heq
    refine ⟨⟨(sorted_range n).filter _, (sorted_range n).filter _, ?_, ?_⟩, ?_⟩
    · intro i hi
      simpa using (List.mem_filter.1 hi).1
    · intro i
      simp only [List.mem_filter, List.mem_range, Bool.not_eq_true', decide_eq_false_iff_not,
        decide_eq_true_eq]
      tauto
    · intro i
      simp only [List.mem_filter, List.mem_range, decide_eq_true_eq]
      constructor
      · rintro ⟨h, h'⟩; exact ⟨h, by exact_mod_cast h'⟩
      · rintro ⟨h, h'⟩; exact ⟨h, by exact_mod_cast h'⟩
  · have hlen : ∀ fold ∈ predefinedSplit ((List.range n).map (fun i : Nat => (i : Int) % (m : Int))),
        ∃ e, fold.2.length = n / m + e ∧ e ≤ 1 := by
      intro fold hfold
      rw [hfolds, List.mem_map] at hfold
      obtain ⟨f, hf, rfl⟩ := hfold
      rw [List.mem_range] at hf
      rw [length_filter_range (fun i => i % m = f)]
      have : n.count (fun i => i % m = f) = n.count (· ≡ f [MOD m]) := by
        congr 1
        funext i
        rw [Nat.ModEq, Nat.mod_eq_of_lt hf]
      rw [this, Nat.count_modEq_card n hm]
      refine ⟨_, rfl, ?_⟩
      split <;> omega
    intro fold hfold fold' hfold'
    obtain ⟨e, he, he1⟩ := hlen fold hfold
    obtain ⟨e', he', _⟩ := hlen fold' hfold'
    omega

/-- **C46.** All other arguments raise `ValueError`. -/
theorem C46_rejects (k : Int) (n : Nat) (h : k < 2 ∨ (n : Int) < k) :
    interlacedKFold k n = .error .valueError := by
  unfold interlacedKFold
  by_cases h1 : k ≤ 1
  · rw [if_pos h1]
  · rw [if_neg h1, if_pos (by omega)]

/-- The hypotheses of `C46_interlaced` are met: three folds over seven samples. -/
example : interlacedKFold 3 7 = .ok
    [([1, 2, 4, 5], [0, 3, 6]), ([0, 2, 3, 5, 6], [1, 4]), ([0, 1, 3, 4, 6], [2, 5])] := by
  decide

/-! ### C47, C48: `KFoldWithinGroups` -/

/-- `groups=None` treats all samples as one group. -/
theorem kfoldWithinGroups_none {γ : Type} (rng : Rng γ) (k : Int) (shuffle : Bool) (s : γ)
    (n : Nat) : kfoldWithinGroups rng k shuffle s n (none : Option (List α)) =
      kfoldWithinGroups rng k shuffle s n (some (List.replicate n (0 : Int))) := by
  unfold kfoldWithinGroups
  simp

/-- **C47.** When there are at least two folds and every group has at least `n_splits`
members, `KFoldWithinGroups` yields `n_splits` folds; every fold splits the samples into
increasing training and test lists that exclude each other and together are all samples;
every sample is tested in exactly one fold; and the number of test samples a group
contributes to a fold differs by at most one between any two folds.  With and without
shuffling, for every random number generator. -/
theorem C47_kfold_within_groups {γ : Type} (rng : Rng γ) (k : Int) (shuffle : Bool) (s : γ)
    (groups : List α) (h2 : 2 ≤ k) (hne : groups ≠ [])
    (hg : ∀ g ∈ groups, k ≤ groups.count g) :
    ∃ folds, kfoldWithinGroups rng k shuffle s groups.length (some groups) = .ok folds ∧
      (folds.length : Int) = k ∧
      (∀ fold ∈ folds, Spec.IsFold groups.length fold.1 fold.2) ∧
      (∀ i, i < groups.length → ∃! f : Nat, ∃ fold, folds[f]? = some fold ∧ i ∈ fold.2) ∧
      (∀ g, ∀ fold ∈ folds, ∀ fold' ∈ folds,
        Spec.inGroup groups g fold.2 ≤ Spec.inGroup groups g fold'.2 + 1) := by
  obtain ⟨m, rfl⟩ : ∃ m : Nat, k = m := ⟨k.toNat, by omega⟩
  have hm : 0 < m := by omega
  have hg' : ∀ g ∈ groups, m ≤ groups.count g := fun g h => by exact_mod_cast hg g h
  have hmn : m ≤ groups.length := by
    obtain ⟨g, hgm⟩ := List.exists_mem_of_ne_nil groups hne
    exact le_trans (hg' g hgm) List.count_le_length
  obtain ⟨iters, hit, hmap, hgood⟩ := kfoldGroups_good rng hm shuffle groups (npUnique groups) s
    (fun g hg => hg' g ((mem_npUnique _ _).1 hg))
  -- the blocks of fold `f`
  let Bs : Nat → List (List Nat) := fun f =>
    iters.map (fun it => gather (members groups it.1) (it.2.getD f []))
  have hmasks : kfoldMasks rng m shuffle s groups = .ok ((List.range m).map (fun f =>
      (Bs f).foldl setTrue (List.replicate groups.length false))) := by
    unfold kfoldMasks
    rw [hit]
    apply mapM_ok
    intro f hf
    exact kfoldMask_ok groups (List.mem_range.1 hf) iters (fun it h => (hgood it h).length) _
  have hblock : ∀ f, List.Forall₂ (fun g B => ∀ i ∈ B, i ∈ members groups g)
      (npUnique groups) (Bs f) := by
    intro f
    rw [← hmap]
    simp only [Bs, List.forall₂_map_left_iff, List.forall₂_map_right_iff]
    rw [List.forall₂_same]
    intro it _ i hi
    exact mem_of_mem_gather hi
  have hrun : kfoldWithinGroups rng (m : Int) shuffle s groups.length (some groups) = .ok
      ((List.range m).map (fun f =>
        ((List.range groups.length).filter (fun i => !(((Bs f).foldl setTrue
            (List.replicate groups.length false)).getD i false)),
         (List.range groups.length).filter (fun i => ((Bs f).foldl setTrue
            (List.replicate groups.length false)).getD i false)))) := by
    unfold kfoldWithinGroups
    rw [if_neg (by omega), if_neg (by simp), if_neg (by omega)]
    simp only [Int.toNat_natCast, hmasks, baseSplit, List.map_map]
    rfl
  refine ⟨_, hrun, by simp, ?_, ?_, ?_⟩
  · intro fold hfold
    obtain ⟨f, _, rfl⟩ := List.mem_map.1 hfold
    exact isFold_of_mask _ _
  · intro i hi
    -- the position of the sample in its group
    have hmem : groups[i] ∈ npUnique groups := (mem_npUnique _ _).2 (List.getElem_mem hi)
    rw [← hmap] at hmem
    obtain ⟨it, hitm, hfst⟩ := List.mem_map.1 hmem
    have him : i ∈ members groups it.1 := by
      rw [mem_members, hfst]; exact List.getElem?_eq_getElem hi
    obtain ⟨p, hp, hpi⟩ := List.mem_iff_getElem.1 him
    have hgd := hgood it hitm
    have hkey : ∀ f : Nat, (∃ fold : Fold, ((List.range m).map (fun f =>
        ((List.range groups.length).filter (fun i => !(((Bs f).foldl setTrue
            (List.replicate groups.length false)).getD i false)),
         (List.range groups.length).filter (fun i => ((Bs f).foldl setTrue
            (List.replicate groups.length false)).getD i false))))[f]? = some fold ∧ i ∈ fold.2)
        ↔ ∃ t, it.2[f]? = some t ∧ p ∈ t := by
      intro f
      constructor
      · rintro ⟨fold, hfold, hif⟩
        rw [List.getElem?_map, Option.map_eq_some_iff] at hfold
        obtain ⟨f', hf', rfl⟩ := hfold
        obtain ⟨hlt, hff⟩ := List.getElem?_eq_some_iff.1 hf'
        rw [List.getElem_range] at hff
        subst hff
        rw [List.length_range] at hlt
        simp only at hif
        rw [mem_test (hblock f)] at hif
        obtain ⟨B, hB, hiB⟩ := hif
        obtain ⟨it', hit', rfl⟩ := List.mem_map.1 hB
        have hl1 := mem_of_mem_gather hiB
        rw [mem_members] at hl1 him
        have hsame : it'.1 = it.1 := by
          rw [him] at hl1
          exact (Option.some.inj hl1).symm
        have heq : it' = it := by
          have hnd : (iters.map (·.1)).Nodup := by rw [hmap]; exact nodup_npUnique _
          exact List.inj_on_of_nodup_map hnd hit' hitm hsame
        subst heq
        obtain ⟨q, hq, hqi⟩ := mem_gather_iff.1 hiB
        obtain ⟨hql, hqe⟩ := List.getElem?_eq_some_iff.1 hqi
        have hqp : q = p :=
          (List.Nodup.getElem_inj_iff (nodup_members groups it'.1)).1 (hqe.trans hpi.symm)
        subst hqp
        have hl : f < it'.2.length := by rw [hgd.length]; exact hlt
        refine ⟨it'.2.getD f [], ?_, hq⟩
        rw [List.getD_eq_getElem?_getD, List.getElem?_eq_getElem hl]
        rfl
      · rintro ⟨t, ht, hpt⟩
        have hlt : f < m := by
          rw [← hgd.length]
          exact (List.getElem?_eq_some_iff.1 ht).1
        refine ⟨_, by rw [List.getElem?_map, List.getElem?_range hlt]; rfl, ?_⟩
        simp only
        rw [mem_test (hblock f)]
        refine ⟨_, List.mem_map.2 ⟨it, hitm, rfl⟩, ?_⟩
        rw [mem_gather_iff]
        refine ⟨p, ?_, List.getElem?_eq_some_iff.2 ⟨hp, hpi⟩⟩
        rw [List.getD_eq_getElem?_getD, ht]
        exact hpt
    simp only [hkey]
    apply hgd.cover
    rw [← length_members]
    exact hp
  · -- sizes
    have hcount : ∀ g, ∀ fold ∈ ((List.range m).map (fun f =>
        ((List.range groups.length).filter (fun i => !(((Bs f).foldl setTrue
            (List.replicate groups.length false)).getD i false)),
         (List.range groups.length).filter (fun i => ((Bs f).foldl setTrue
            (List.replicate groups.length false)).getD i false)))),
        ∃ e, Spec.inGroup groups g fold.2 = groups.count g / m + e ∧ e ≤ 1 := by
      intro g fold hfold
      obtain ⟨f, hf, rfl⟩ := List.mem_map.1 hfold
      rw [List.mem_range] at hf
      by_cases hgm : g ∈ groups
      · have hmem : g ∈ npUnique groups := (mem_npUnique _ _).2 hgm
        obtain ⟨j, hj, hjg⟩ := List.mem_iff_getElem.1 hmem
        have hjl : j < iters.length := by
          have := congrArg List.length hmap
          rw [List.length_map] at this
          omega
        have hfst : iters[j].1 = g := by
          have h1 : (iters.map (·.1))[j]? = (npUnique groups)[j]? := by rw [hmap]
          rw [List.getElem?_map, List.getElem?_eq_getElem hjl, List.getElem?_eq_getElem hj,
            hjg] at h1
          simpa using h1
        have hgd := hgood iters[j] (List.getElem_mem hjl)
        have hl : f < iters[j].2.length := by rw [hgd.length]; exact hf
        have ht : iters[j].2[f]? = some (iters[j].2.getD f []) := by
          rw [List.getD_eq_getElem?_getD, List.getElem?_eq_getElem hl]; rfl
        have hlt : ∀ p ∈ iters[j].2.getD f [], p < (members groups iters[j].1).length := by
          intro p hp
          rw [length_members]
          exact hgd.lt _ (List.mem_of_getElem? ht) p hp
        have := test_inGroup (nodup_npUnique groups) (hblock f)
          (j := j) (g := g) (B := gather (members groups iters[j].1) (iters[j].2.getD f []))
          (by rw [List.getElem?_eq_getElem hj, hjg])
          (by simp only [Bs, List.getElem?_map, List.getElem?_eq_getElem hjl, Option.map_some])
          (nodup_gather (nodup_members _ _) (hgd.nodup _ (List.mem_of_getElem? ht)))
        refine ⟨if f < groups.count g % m then 1 else 0, ?_, by split <;> omega⟩
        unfold Spec.inGroup
        rw [this.length_eq, length_gather _ _ hlt, hgd.size f _ ht, hfst]
      · refine ⟨0, ?_, by omega⟩
        rw [List.count_eq_zero_of_not_mem hgm]
        simp only [Nat.zero_div, Nat.add_zero, Spec.inGroup, List.length_eq_zero_iff,
          List.filter_eq_nil_iff, decide_eq_true_eq]
        intro i _ hi
        exact hgm (List.mem_of_getElem? hi)
    intro g fold hfold fold' hfold'
    obtain ⟨e, he, he1⟩ := hcount g fold hfold
    obtain ⟨e', he', _⟩ := hcount g fold' hfold'
    omega

/-- **C48.** `KFoldWithinGroups` raises `ValueError` when `n_splits ≤ 1`, when there are more
folds than samples, and when some group has fewer members than there are folds; otherwise it
raises nothing. -/
theorem C48_rejects {γ : Type} (rng : Rng γ) (k : Int) (shuffle : Bool) (s : γ)
    (groups : List α) :
    ((k ≤ 1 ∨ (groups.length : Int) < k ∨ ∃ g ∈ groups, (groups.count g : Int) < k) →
      kfoldWithinGroups rng k shuffle s groups.length (some groups) = .error .valueError) ∧
    (¬ (k ≤ 1 ∨ (groups.length : Int) < k ∨ ∃ g ∈ groups, (groups.count g : Int) < k) →
      ∃ folds, kfoldWithinGroups rng k shuffle s groups.length (some groups) = .ok folds) := by
  constructor
  · intro h
    unfold kfoldWithinGroups
    by_cases h1 : k ≤ 1
    · rw [if_pos h1]
    rw [if_neg h1, if_neg (by simp)]
    by_cases h2 : (groups.length : Int) < k
    · rw [if_pos h2]
    rw [if_neg h2]
    obtain ⟨g, hg, hc⟩ := (h.resolve_left h1).resolve_left h2
    have hk : 0 < k.toNat := by omega
    have : kfoldMasks rng k.toNat shuffle s groups = .error .valueError := by
      unfold kfoldMasks
      rw [kfoldGroups_error rng hk shuffle groups (npUnique groups) s
        ⟨g, (mem_npUnique _ _).2 hg, by omega⟩]
    simp only [this]
  · intro h
    rw [not_or, not_or] at h
    obtain ⟨h1, h2, h3⟩ := h
    obtain ⟨folds, hf, _⟩ := C47_kfold_within_groups rng k shuffle s groups (by omega)
      (by rintro rfl; simp at h2; omega)
      (fun g hg => by by_contra hlt; exact h3 ⟨g, hg, by omega⟩)
    exact ⟨folds, hf⟩

/-- **C48**, without group labels: all samples form one group, so that exactly `n_splits ≤ 1`
and `n_splits > n_samples` are rejected. -/
theorem C48_rejects_no_groups {γ : Type} (rng : Rng γ) (k : Int) (shuffle : Bool) (s : γ)
    (n : Nat) :
    ((k ≤ 1 ∨ (n : Int) < k) →
      kfoldWithinGroups rng k shuffle s n (none : Option (List α)) = .error .valueError) ∧
    (¬ (k ≤ 1 ∨ (n : Int) < k) →
      ∃ folds, kfoldWithinGroups rng k shuffle s n (none : Option (List α)) = .ok folds) := by
  have key := C48_rejects rng k shuffle s (List.replicate n (0 : Int))
  rw [List.length_replicate] at key
  rw [kfoldWithinGroups_none]
  constructor
  · intro h
    exact key.1 (by tauto)
  · intro h
    refine key.2 ?_
    rintro (h' | h' | ⟨g, hg, hc⟩)
    · exact h (Or.inl h')
    · exact h (Or.inr h')
    · rw [List.eq_of_mem_replicate hg, List.count_replicate_self] at hc
      exact h (Or.inr hc)

/-- A generator that reverses, for the examples. -/
def reverseRng : Rng Nat where
  shuffle s n := ((List.range n).reverse, s + 1)
  perm _ _ := List.reverse_perm _

/-- The hypotheses of `C47_kfold_within_groups` are met: two folds, a group of three and a
group of two samples. -/
example : (2 : Int) ≤ 2 ∧ ([7, 4, 7, 7, 4] : List Int) ≠ [] ∧
    (∀ g ∈ ([7, 4, 7, 7, 4] : List Int), (2 : Int) ≤ (([7, 4, 7, 7, 4] : List Int).count g : Int)) ∧
    kfoldWithinGroups reverseRng 2 true 0 5 (some ([7, 4, 7, 7, 4] : List Int)) =
      .ok [([0, 1], [2, 3, 4]), ([2, 3, 4], [0, 1])] := by
  decide

end Kam.Split

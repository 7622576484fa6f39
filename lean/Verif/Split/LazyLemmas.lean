/-
Lemmas about the splitters as generators: one generator on its own, with unchanged labels.
-/
import Verif.Split.Lazy
import Verif.Split.Props2

set_option linter.unusedSectionVars false

namespace Kam.Split

variable {β : Type} [LinearOrder β] {γ : Type}
variable {K : Type} [Field K] [LinearOrder K] [IsStrictOrderedRing K] [FloorRing K]

/-- What the `i`-th `next` of a generator returns if a call of `split`, described by the list
of everything it yields, has the result `r`: the `i`-th fold, and `StopIteration` after the
last one; an exception is raised by the first `next`, and the generator is finished then. -/
def served (r : Res (List Fold)) (i : Nat) : Out :=
  match r with
  | .error e => if i = 0 then .raised e else .stopped
  | .ok folds =>
    match folds[i]? with
    | some f => .yielded f
    | none => .stopped

/-- The results of one `next` after the other with unchanged labels; the states of the
`RandomState` at these moments are given. -/
def Body.serve (rng : Rng γ) (labels : List β) : Body β K → List γ → List Out
  | _, [] => []
  | b, s :: ss => (b.next rng labels s).1 :: Body.serve rng labels (b.next rng labels s).2.2 ss

/-- The results of `m` calls of `next` of a generator that nobody shares the `RandomState`
with. -/
def Body.serveOwn (rng : Rng γ) (labels : List β) : Body β K → γ → Nat → List Out
  | _, _, 0 => []
  | b, s, m + 1 =>
    (b.next rng labels s).1 ::
      Body.serveOwn rng labels (b.next rng labels s).2.2 (b.next rng labels s).2.1 m

theorem next_kfold (rng : Rng γ) (labels : List β) (s : γ) (k : Nat) (sh : Bool) (n : Nat) :
    (Body.kfold k sh n : Body β K).next rng labels s =
      if (labels.length != n) = true then (.raised .valueError, s, .finished)
      else if k > n then (.raised .valueError, s, .finished)
      else
        match kfoldDraws rng k sh labels s (npUnique labels) with
        | (.error e, s') => (.raised e, s', .finished)
        | (.ok iters, s') =>
          ((kfoldRound (K := K) labels k n iters 0).1, s', (kfoldRound labels k n iters 0).2) := by
  rw [Body.next]
  rcases kfoldDraws rng k sh labels s (npUnique labels) with ⟨r, s'⟩
  cases r <;> rfl

theorem next_kfoldAt (rng : Rng γ) (labels : List β) (s : γ) (k n : Nat)
    (iters : List (β × List (List Nat))) (fold : Nat) :
    (Body.kfoldAt k n iters fold : Body β K).next rng labels s =
      ((kfoldRound (K := K) labels k n iters fold).1, s, (kfoldRound labels k n iters fold).2) :=
  rfl

theorem next_shuffle' (rng : Rng γ) (labels : List β) (s : γ) (c : ShuffleConfig K) (n : Nat) :
    (Body.shuffle c n : Body β K).next rng labels s =
      if (labels.length != n) = true then (.raised .valueError, s, .finished)
      else shuffleRound rng labels s c n (npUnique labels) c.nSplits.toNat := rfl

theorem next_shuffleAt (rng : Rng γ) (labels : List β) (s : γ) (c : ShuffleConfig K) (n : Nat)
    (order : List β) (left : Nat) :
    (Body.shuffleAt c n order left : Body β K).next rng labels s =
      shuffleRound rng labels s c n order left := rfl

theorem Body.serve_length (rng : Rng γ) (labels : List β) (b : Body β K) (ss : List γ) :
    (b.serve rng labels ss).length = ss.length := by
  induction ss generalizing b with
  | nil => rfl
  | cons s ss ih => simp [Body.serve, ih]

theorem Body.serveOwn_length (rng : Rng γ) (labels : List β) (b : Body β K) (s : γ) (m : Nat) :
    (b.serveOwn rng labels s m).length = m := by
  induction m generalizing b s with
  | zero => rfl
  | succ m ih => simp [Body.serveOwn, ih]

/-- A generator of its own is a generator with certain states. -/
theorem Body.serveOwn_serve (rng : Rng γ) (labels : List β) (b : Body β K) (s : γ) (m : Nat) :
    ∃ ss : List γ, ss.length = m ∧ (∀ x, ss.head? = some x → x = s) ∧
      b.serveOwn rng labels s m = b.serve rng labels ss := by
  induction m generalizing b s with
  | zero => exact ⟨[], rfl, by simp, rfl⟩
  | succ m ih =>
    obtain ⟨ss, hl, -, he⟩ := ih (b.next rng labels s).2.2 (b.next rng labels s).2.1
    exact ⟨s :: ss, by simp [hl], by simp, by simp [Body.serveOwn, Body.serve, he]⟩

theorem Body.serve_finished (rng : Rng γ) (labels : List β) (ss : List γ) :
    (Body.finished : Body β K).serve rng labels ss = List.replicate ss.length .stopped := by
  induction ss with
  | nil => rfl
  | cons s ss ih => simp [Body.serve, Body.next, ih, List.replicate_succ]

theorem Body.serveOwn_finished (rng : Rng γ) (labels : List β) (s : γ) (m : Nat) :
    (Body.finished : Body β K).serveOwn rng labels s m = List.replicate m .stopped := by
  induction m with
  | zero => rfl
  | succ m ih => simp [Body.serveOwn, Body.next, ih, List.replicate_succ]

theorem served_error (e : Exc) (m : Nat) :
    (List.range (m + 1)).map (served (.error e)) = .raised e :: List.replicate m .stopped := by
  rw [List.range_succ_eq_map, List.map_cons, List.map_map]
  congr 1
  rw [List.eq_replicate_iff]
  constructor
  · simp
  · intro o ho
    obtain ⟨i, _, rfl⟩ := List.mem_map.1 ho
    simp [served]

/-! ### `KFoldWithinGroups` -/

theorem kfoldDraws_fst (rng : Rng γ) (k : Nat) (sh : Bool) (labels : List β) (gs : List β)
    (s : γ) : (kfoldDraws rng k sh labels s gs).1 = kfoldGroups rng k sh labels s gs := by
  induction gs generalizing s with
  | nil => rfl
  | cons g gs ih =>
    unfold kfoldDraws kfoldGroups
    cases kfold rng k sh s (members labels g).length with
    | error e => rfl
    | ok p =>
      obtain ⟨tests, s'⟩ := p
      have h := ih s'
      dsimp only
      rw [← h]
      rcases kfoldDraws rng k sh labels s' gs with ⟨r, s''⟩
      cases r <;> rfl

theorem pick_eq {arr js : List Nat} (h : ∀ j ∈ js, j < arr.length) :
    pick arr js = .ok (gather arr js) := by
  induction js with
  | nil => rfl
  | cons j js ih =>
    have hj := h j (by simp)
    unfold pick at ih ⊢
    rw [List.mapM_cons, List.getElem?_eq_getElem hj, ih (fun j hj => h j (by simp [hj]))]
    simp [gather, List.getElem?_eq_getElem hj]
    rfl

theorem kfoldGroups_range (rng : Rng γ) {k : Nat} (hk : 0 < k) (sh : Bool) (labels : List β)
    (gs : List β) (s : γ) {iters : List (β × List (List Nat))}
    (h : kfoldGroups rng k sh labels s gs = .ok iters) :
    ∀ it ∈ iters, it.2.length = k ∧ ∀ t ∈ it.2, ∀ p ∈ t, p < (members labels it.1).length := by
  induction gs generalizing s iters with
  | nil => simp [kfoldGroups] at h; subst h; simp
  | cons g gs ih =>
    unfold kfoldGroups at h
    by_cases hn : (members labels g).length < k
    · have : kfold rng k sh s (members labels g).length = .error .valueError := by
        unfold kfold; rw [if_pos hn]
      rw [this] at h
      cases h
    · obtain ⟨tests, s', he, hgood⟩ := kfold_good rng hk sh s (Nat.le_of_not_lt hn)
      rw [he] at h
      dsimp only at h
      cases hr : kfoldGroups rng k sh labels s' gs with
      | error e => rw [hr] at h; cases h
      | ok rest =>
        rw [hr] at h
        cases h
        intro it hit
        rcases List.mem_cons.1 hit with rfl | hit
        · exact ⟨hgood.length, hgood.lt⟩
        · exact ih s' hr it hit

theorem kfoldMark_eq (labels : List β) (fold : Nat) (iters : List (β × List (List Nat)))
    (h : ∀ it ∈ iters, ∀ t ∈ it.2, ∀ p ∈ t, p < (members labels it.1).length)
    (mask : List Bool) : kfoldMark labels fold mask iters = kfoldMask labels fold mask iters := by
  induction iters generalizing mask with
  | nil => rfl
  | cons it rest ih =>
    obtain ⟨g, tests⟩ := it
    unfold kfoldMark kfoldMask
    cases ht : tests[fold]? with
    | none => rfl
    | some t =>
      dsimp only
      rw [pick_eq (h (g, tests) (by simp) t (List.mem_of_getElem? ht))]
      exact ih (fun it hit => h it (by simp [hit])) _

theorem serve_kfoldAt (rng : Rng γ) (labels : List β) (k : Nat)
    (iters : List (β × List (List Nat)))
    (h : ∀ it ∈ iters, it.2.length = k ∧ ∀ t ∈ it.2, ∀ p ∈ t, p < (members labels it.1).length)
    {masks : List (List Bool)}
    (hm : (List.range k).mapM (fun fold =>
      kfoldMask labels fold (List.replicate labels.length false) iters) = .ok masks)
    (ss : List γ) (f : Nat) :
    (Body.kfoldAt k labels.length iters f : Body β K).serve rng labels ss =
      (List.range ss.length).map
        (fun i => served (.ok (baseSplit labels.length masks)) (f + i)) := by
  -- the masks, one by one
  have hall : ∀ f, f < k → kfoldMark labels f (List.replicate labels.length false) iters =
      .ok (masks.getD f []) ∧ masks.length = k := by
    intro f hf
    have hmask : (List.range k).mapM (fun fold =>
        kfoldMask labels fold (List.replicate labels.length false) iters) =
        (.ok ((List.range k).map (fun f => ((iters.map (fun it =>
          gather (members labels it.1) (it.2.getD f []))).foldl setTrue
            (List.replicate labels.length false)))) : Res _) := by
      apply mapM_ok
      intro f hf
      exact kfoldMask_ok labels (List.mem_range.1 hf) iters (fun it hit => (h it hit).1) _
    rw [hmask] at hm
    cases hm
    rw [kfoldMark_eq labels f iters (fun it hit => (h it hit).2),
      kfoldMask_ok labels hf iters (fun it hit => (h it hit).1)]
    simp [hf]
  have hlen : 0 < k → masks.length = k := fun h0 => (hall 0 h0).2
  have hlen0 : k = 0 → masks = [] := by
    rintro rfl
    exact (Except.ok.inj hm).symm
  induction ss generalizing f with
  | nil => rfl
  | cons s ss ih =>
    rw [Body.serve, List.length_cons, List.range_succ_eq_map, List.map_cons, List.map_map]
    rw [next_kfoldAt]
    unfold kfoldRound
    by_cases hf : f < k
    · rw [if_pos hf, (hall f hf).1]
      dsimp only
      rw [ih (f + 1)]
      have hl := hlen (by omega)
      congr 1
      · simp only [served, Nat.add_zero, baseSplit, List.getElem?_map]
        rw [List.getElem?_eq_getElem (by omega)]
        simp [foldOf, List.getD_eq_getElem?_getD, List.getElem?_eq_getElem (show f < masks.length by omega)]
      · apply List.map_congr_left
        intro i _
        simp only [Function.comp]
        congr 1
        omega
    · rw [if_neg hf]
      dsimp only
      rw [Body.serve_finished]
      have hl : masks.length ≤ f := by
        rcases Nat.eq_zero_or_pos k with h0 | h0
        · rw [hlen0 h0]; simp
        · rw [hlen h0]; omega
      have hnone : ∀ i, served (.ok (baseSplit labels.length masks)) (f + i) = .stopped := by
        intro i
        simp only [served, baseSplit, List.getElem?_map]
        rw [List.getElem?_eq_none (by omega)]
        rfl
      congr 1
      · exact (hnone 0).symm
      · symm
        rw [List.eq_replicate_iff]
        refine ⟨by simp, ?_⟩
        intro o ho
        obtain ⟨i, _, rfl⟩ := List.mem_map.1 ho
        exact hnone _

/-- A generator of `KFoldWithinGroups` with unchanged labels: everything is settled by the
state of the `RandomState` at its first `next`. -/
theorem serve_kfold (rng : Rng γ) (labels : List β) (k : Int) (hk : 1 < k) (sh : Bool) (n : Nat)
    (s : γ) (ss : List γ) :
    (Body.kfold k.toNat sh n : Body β K).serve rng labels (s :: ss) =
      (List.range (ss.length + 1)).map
        (served (kfoldWithinGroups rng k sh s n (some labels))) := by
  rw [Body.serve, next_kfold]
  unfold kfoldWithinGroups
  rw [if_neg (not_le.2 hk)]
  simp only [Option.any_some]
  by_cases hl : labels.length = n
  swap
  · have hb : (labels.length != n) = true := by simp [hl]
    rw [if_pos hb, if_pos hb, served_error, Body.serve_finished]
  subst hl
  have hb : ¬ (labels.length != labels.length) = true := by simp
  rw [if_neg hb, if_neg hb]
  by_cases hkn : (labels.length : Int) < k
  · rw [if_pos (by omega), if_pos (by omega), served_error, Body.serve_finished]
  rw [if_neg (by omega), if_neg (by omega)]
  have hfst := kfoldDraws_fst rng k.toNat sh labels (npUnique labels) s
  revert hfst
  rcases kfoldDraws rng k.toNat sh labels s (npUnique labels) with ⟨r, s'⟩
  intro hfst
  dsimp only at hfst
  unfold kfoldMasks
  rw [← hfst]
  cases r with
  | error e => dsimp only; rw [served_error, Body.serve_finished]
  | ok iters =>
    dsimp only
    have hrange := kfoldGroups_range rng (k := k.toNat) (by omega) sh labels (npUnique labels) s
      hfst.symm
    obtain ⟨masks, hm⟩ : ∃ masks, (List.range k.toNat).mapM (fun fold =>
        kfoldMask labels fold (List.replicate labels.length false) iters) = (.ok masks : Res _) :=
      ⟨_, mapM_ok _ (fun f hf =>
        kfoldMask_ok labels (List.mem_range.1 hf) iters (fun it hit => (hrange it hit).1) _)⟩
    rw [hm]
    have key := serve_kfoldAt (K := K) rng labels k.toNat iters hrange hm (s :: ss) 0
    rw [Body.serve] at key
    simp only [Nat.zero_add, List.length_cons] at key
    rw [← key]
    rfl

/-! ### `ShuffleSplitWithinGroups` -/

theorem shuffleMark_mask (rng : Rng γ) (c : ShuffleConfig K) (labels : List β) (gs : List β)
    (s : γ) (mask : List Bool) :
    shuffleMask rng c labels s mask gs =
      match shuffleMark rng c labels s mask gs with
      | (.error e, _) => .error e
      | (.ok m, s') => .ok (m, s') := by
  induction gs generalizing s mask with
  | nil => rfl
  | cons g gs ih =>
    unfold shuffleMask shuffleMark
    cases trainTestSplit rng c s (members labels g) with
    | error e => rfl
    | ok p => exact ih _ _

theorem serve_shuffleAt_ok (rng : Rng γ) (labels : List β) (c : ShuffleConfig K)
    (hfit : ∀ g ∈ labels, Spec.Fits (labels.count g) c.testSize.spec c.trainSize.spec)
    (ss : List γ) (left : Nat) (i : Nat) (o : Out)
    (ho : ((Body.shuffleAt c labels.length (npUnique labels) left : Body β K).serve rng labels
      ss)[i]? = some o) :
    (i < left → ∃ m, GoodMask c labels m ∧ o = .yielded (foldOf labels.length m)) ∧
      (left ≤ i → o = .stopped) := by
  induction ss generalizing left i with
  | nil => simp [Body.serve] at ho
  | cons s ss ih =>
    rw [Body.serve] at ho
    rw [next_shuffleAt] at ho
    cases left with
    | zero =>
      refine ⟨by omega, fun _ => ?_⟩
      unfold shuffleRound at ho
      dsimp only at ho
      rw [Body.serve_finished, ← List.replicate_succ, List.getElem?_replicate] at ho
      split at ho
      · exact (Option.some.inj ho).symm
      · cases ho
    | succ left =>
      unfold shuffleRound at ho
      obtain ⟨Bs, s', he, hall⟩ := shuffleMask_ok rng c labels (npUnique labels)
        (fun g hg => hfit g ((mem_npUnique _ _).1 hg)) s (List.replicate labels.length false)
      rw [shuffleMark_mask] at he
      revert he ho
      rcases shuffleMark rng c labels s (List.replicate labels.length false) (npUnique labels)
        with ⟨r, s''⟩
      intro ho he
      cases r with
      | error e => cases he
      | ok m =>
        dsimp only at ho he
        cases he
        cases i with
        | zero =>
          refine ⟨fun _ => ⟨_, ⟨Bs, rfl, hall⟩, ?_⟩, by omega⟩
          simpa [eq_comm] using ho
        | succ i =>
          rw [List.getElem?_cons_succ] at ho
          obtain ⟨h1, h2⟩ := ih left i ho
          exact ⟨fun h => h1 (by omega), fun h => h2 (by omega)⟩

theorem next_shuffleAt_error (rng : Rng γ) (labels : List β) (c : ShuffleConfig K)
    (hfit : ∃ g ∈ labels, ¬ Spec.Fits (labels.count g) c.testSize.spec c.trainSize.spec)
    (s : γ) (left : Nat) :
    ∃ s', (Body.shuffleAt c labels.length (npUnique labels) (left + 1) : Body β K).next rng labels
      s = (.raised .valueError, s', .finished) := by
  obtain ⟨g, hg, hn⟩ := hfit
  have he := shuffleMask_error rng c labels (npUnique labels) ⟨g, (mem_npUnique _ _).2 hg, hn⟩ s
    (List.replicate labels.length false)
  rw [shuffleMark_mask] at he
  rw [next_shuffleAt]
  unfold shuffleRound
  revert he
  rcases shuffleMark rng c labels s (List.replicate labels.length false) (npUnique labels)
    with ⟨r, s''⟩
  intro he
  cases r with
  | error e => cases he; exact ⟨s'', rfl⟩
  | ok m => cases he

/-- The first `next` continues as if the loop had been entered before. -/
theorem next_shuffle (rng : Rng γ) (labels : List β) (c : ShuffleConfig K) (s : γ) :
    (Body.shuffle c labels.length : Body β K).next rng labels s =
      (Body.shuffleAt c labels.length (npUnique labels) c.nSplits.toNat).next rng labels s := by
  simp [Body.next]

theorem serveOwn_shuffleAt (rng : Rng γ) (labels : List β) (c : ShuffleConfig K)
    (m left : Nat) (s : γ) {masks : List (List Bool)}
    (hm : shuffleMasks rng c labels s left = .ok masks) :
    (Body.shuffleAt c labels.length (npUnique labels) left : Body β K).serveOwn rng labels s m =
      (List.range m).map (served (.ok (baseSplit labels.length masks))) := by
  induction m generalizing left s masks with
  | zero => rfl
  | succ m ih =>
    rw [Body.serveOwn, List.range_succ_eq_map, List.map_cons, List.map_map]
    rw [next_shuffleAt]
    cases left with
    | zero =>
      unfold shuffleRound
      simp [shuffleMasks] at hm
      subst hm
      dsimp only
      rw [Body.serveOwn_finished]
      congr 1
      symm
      rw [List.eq_replicate_iff]
      refine ⟨by simp, ?_⟩
      intro o ho
      obtain ⟨i, _, rfl⟩ := List.mem_map.1 ho
      rfl
    | succ left =>
      unfold shuffleRound
      unfold shuffleMasks at hm
      rw [shuffleMark_mask] at hm
      revert hm
      rcases shuffleMark rng c labels s (List.replicate labels.length false) (npUnique labels)
        with ⟨r, s''⟩
      intro hm
      cases r with
      | error e => cases hm
      | ok mask =>
        dsimp only at hm ⊢
        cases hr : shuffleMasks rng c labels s'' left with
        | error e => rw [hr] at hm; cases hm
        | ok rest =>
          rw [hr] at hm
          cases hm
          rw [ih left s'' hr]
          rfl

/-- A generator of `ShuffleSplitWithinGroups` with a `RandomState` of its own yields what the
description of the whole call says. -/
theorem serveOwn_shuffle (rng : Rng γ) (labels : List β) (c : ShuffleConfig K) (n : Nat)
    (hinit : validateInit c.testSize c.trainSize = .ok ()) (s : γ) (m : Nat) :
    (Body.shuffle c n : Body β K).serveOwn rng labels s m =
      (List.range m).map (served (shuffleSplitWithinGroups rng c s n (some labels))) := by
  cases m with
  | zero => rfl
  | succ m =>
    by_cases hl : labels.length = n
    swap
    · have hb : (labels.length != n) = true := by simp [hl]
      have he : shuffleSplitWithinGroups rng c s n (some labels) = .error .valueError := by
        unfold shuffleSplitWithinGroups
        rw [hinit]
        simp [hl]
      rw [Body.serveOwn, next_shuffle', if_pos hb, he, served_error, Body.serveOwn_finished]
    subst hl
    rw [Body.serveOwn, next_shuffle]
    by_cases hfit : ∀ g ∈ labels, Spec.Fits (labels.count g) c.testSize.spec c.trainSize.spec
    · obtain ⟨masks, hm, -, -⟩ := shuffleMasks_ok rng c labels hfit c.nSplits.toNat s
      have he : shuffleSplitWithinGroups rng c s labels.length (some labels) =
          .ok (baseSplit labels.length masks) := by
        unfold shuffleSplitWithinGroups
        rw [hinit]
        simp [hm]
      rw [he, ← serveOwn_shuffleAt (K := K) rng labels c (m + 1) c.nSplits.toNat s hm]
      rfl
    · push Not at hfit
      rcases Nat.eq_zero_or_pos c.nSplits.toNat with h0 | h0
      · have he : shuffleSplitWithinGroups rng c s labels.length (some labels) = .ok [] := by
          unfold shuffleSplitWithinGroups
          rw [hinit]
          simp [h0, shuffleMasks, baseSplit]
        rw [he, h0, next_shuffleAt]
        unfold shuffleRound
        dsimp only
        rw [Body.serveOwn_finished, ← List.replicate_succ]
        symm
        rw [List.eq_replicate_iff]
        refine ⟨by simp, ?_⟩
        intro o ho
        obtain ⟨i, _, rfl⟩ := List.mem_map.1 ho
        rfl
      · obtain ⟨left, hleft⟩ : ∃ left, c.nSplits.toNat = left + 1 := ⟨c.nSplits.toNat - 1, by omega⟩
        obtain ⟨s', hn⟩ := next_shuffleAt_error rng labels c hfit s left
        rw [hleft, hn, C49_rejects rng c s labels (by omega) hfit, served_error,
          Body.serveOwn_finished]

end Kam.Split

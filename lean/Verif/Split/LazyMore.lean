/-
C118 (continued), C123, C124: generators of the splitters that have ended; labels that are
overwritten while a generator is in use; and what a `RandomState` goes through that is handed
to several of them.
-/
import Verif.Split.LazyProps

set_option linter.unusedSectionVars false

namespace Kam.Spec

/-- Sample `i` is number `p`, counted from zero, among the samples with label `g`. -/
def Nth {α : Type} [DecidableEq α] (labels : List α) (g : α) (p i : Nat) : Prop :=
  labels[i]? = some g ∧ (labels.take i).count g = p

/-- `m` positions distributed evenly over `k` folds. -/
structure Parts (m k : Nat) (pos : Nat → List Nat) : Prop where
  nodup : ∀ f, f < k → (pos f).Nodup
  lt : ∀ f, f < k → ∀ p ∈ pos f, p < m
  cover : ∀ p, p < m → ∃! f, f < k ∧ p ∈ pos f
  even : ∀ f, f < k → m / k ≤ (pos f).length ∧ (pos f).length ≤ m / k + 1

/-- The state of a `RandomState` after arrays of these lengths were shuffled with it, one
after another. -/
def advance {γ : Type} (shuffle : γ → Nat → List Nat × γ) (s : γ) (sizes : List Nat) : γ :=
  sizes.foldl (fun s m => (shuffle s m).2) s

end Kam.Spec

namespace Kam.Split

variable {α : Type} [LinearOrder α] {γ : Type}
variable {K : Type} [Field K] [LinearOrder K] [IsStrictOrderedRing K] [FloorRing K]

/-! ### A generator that has ended -/

/-- A generator that will yield nothing any more. -/
def Gen.over : Gen α γ K → Prop
  | .grouped _ _ .finished => True
  | .whole _ _ .finished => True
  | .predefined [] => True
  | _ => False

/-- `StopIteration` or another exception. -/
def Out.ends : Out → Prop
  | .stopped => True
  | .raised _ => True
  | _ => False

theorem kfoldRound_ends {β : Type} [LinearOrder β] (labels : List β) (k n : Nat)
    (iters : List (β × List (List Nat))) (fold : Nat)
    (h : (kfoldRound (K := K) labels k n iters fold).1.ends) :
    (kfoldRound (K := K) labels k n iters fold).2 = .finished := by
  unfold kfoldRound at h ⊢
  split
  · rename_i hf
    rw [if_pos hf] at h
    cases hm : kfoldMark labels fold (List.replicate n false) iters with
    | error e => rfl
    | ok m => rw [hm] at h; exact absurd h id
  · rfl

theorem shuffleRound_ends {β : Type} [LinearOrder β] (rng : Rng γ) (labels : List β) (s : γ)
    (c : ShuffleConfig K) (n : Nat) (order : List β) (left : Nat)
    (h : (shuffleRound rng labels s c n order left).1.ends) :
    (shuffleRound rng labels s c n order left).2.2 = .finished := by
  cases left with
  | zero => rfl
  | succ left =>
    unfold shuffleRound at h ⊢
    cases hm : shuffleMark rng c labels s (List.replicate n false) order with
    | mk r s' =>
      cases r with
      | error e => rfl
      | ok m => rw [hm] at h; exact absurd h id

theorem next_ends {β : Type} [LinearOrder β] (rng : Rng γ) (labels : List β) (s : γ)
    (b : Body β K) (h : (b.next rng labels s).1.ends) :
    (b.next rng labels s).2.2 = .finished := by
  cases b with
  | kfold k sh n =>
    rw [next_kfold] at h ⊢
    split
    · rfl
    · rename_i h1
      rw [if_neg h1] at h
      split
      · rfl
      · rename_i h2
        rw [if_neg h2] at h
        cases hd : kfoldDraws rng k sh labels s (npUnique labels) with
        | mk r s' =>
          cases r with
          | error e => rfl
          | ok iters => rw [hd] at h; exact kfoldRound_ends _ _ _ _ _ h
  | kfoldAt k n iters fold => exact kfoldRound_ends _ _ _ _ _ h
  | shuffle c n =>
    rw [next_shuffle'] at h ⊢
    split
    · rfl
    · rename_i h1
      rw [if_neg h1] at h
      exact shuffleRound_ends _ _ _ _ _ _ _ h
  | shuffleAt c n order left => exact shuffleRound_ends _ _ _ _ _ _ _ h
  | finished => rfl

theorem step_ends (rng : Rng γ) (seed : Int → γ) (w : LWorld α γ K) (j : Nat)
    (h : (lstep rng seed w (.next j)).1.ends) :
    ∃ g, (lstep rng seed w (.next j)).2.gens[j]? = some g ∧ g.over := by
  cases hj : w.gens[j]? with
  | none => rw [lstep, hj] at h; exact absurd h id
  | some g =>
    have hlt : j < w.gens.length := (List.getElem?_eq_some_iff.1 hj).1
    cases g with
    | grouped a src b =>
      rw [(kind_grouped rng seed j a).next w src b hj] at h ⊢
      dsimp only at h ⊢
      refine ⟨_, List.getElem?_set_self hlt, ?_⟩
      rw [next_ends rng _ _ b h]
      trivial
    | whole n src b =>
      rw [(kind_whole rng seed j n).next w src b hj] at h ⊢
      dsimp only at h ⊢
      refine ⟨_, List.getElem?_set_self hlt, ?_⟩
      rw [next_ends rng _ _ b h]
      trivial
    | predefined folds =>
      cases folds with
      | nil =>
        have hstep : lstep rng seed w (.next j) = (.stopped, w) := by rw [lstep, hj]
        rw [hstep]
        exact ⟨_, hj, trivial⟩
      | cons f fs => rw [lstep, hj] at h; exact absurd h id

theorem over_next (rng : Rng γ) (seed : Int → γ) (w : LWorld α γ K) {j : Nat} {g : Gen α γ K}
    (hj : w.gens[j]? = some g) (hg : g.over) :
    (lstep rng seed w (.next j)).1 = .stopped ∧
      ∃ g, (lstep rng seed w (.next j)).2.gens[j]? = some g ∧ g.over := by
  have h1 : (lstep rng seed w (.next j)).1 = .stopped := by
    cases g with
    | grouped a src b =>
      cases b with
      | finished => rw [(kind_grouped rng seed j a).next w src _ hj]; rfl
      | _ => exact absurd hg id
    | whole n src b =>
      cases b with
      | finished => rw [(kind_whole rng seed j n).next w src _ hj]; rfl
      | _ => exact absurd hg id
    | predefined folds =>
      cases folds with
      | nil => rw [lstep, hj]
      | cons f fs => exact absurd hg id
  exact ⟨h1, step_ends rng seed w j (by rw [h1]; trivial)⟩

theorem over_run (rng : Rng γ) (seed : Int → γ) (ops : List (LOp α K)) (w : LWorld α γ K) {j : Nat}
    {g : Gen α γ K} (hj : w.gens[j]? = some g) (hg : g.over) :
    ∀ o ∈ asked j ops (lrun rng seed w ops).1, o = .stopped := by
  induction ops generalizing w g with
  | nil => simp [asked]
  | cons op ops ih =>
    rw [lrun]
    dsimp only
    by_cases hn : op = .next j
    · subst hn
      rw [asked_next]
      obtain ⟨h1, g', hj', hg'⟩ := over_next rng seed w hj hg
      intro o ho
      rcases List.mem_cons.1 ho with rfl | ho
      · exact h1
      · exact ih _ hj' hg' o ho
    · rw [asked_other hn]
      exact ih _ (step_gens rng seed w op hj hn) hg

/-- **C118**, a generator that has ended stays ended.  Whatever happens - also if the labels
are overwritten -: once `next` has raised `StopIteration` or anything else, every later
`next` raises `StopIteration`. -/
theorem C118_ended (rng : Rng γ) (seed : Int → γ) (w : LWorld α γ K) (j : Nat)
    (ops : List (LOp α K)) (outs : List Out) (ho : outs = asked j ops (lrun rng seed w ops).1)
    (i i' : Nat) (hi : i < i') (o o' : Out) (h : outs[i]? = some o) (h' : outs[i']? = some o')
    (he : o = .stopped ∨ ∃ e, o = .raised e) : o' = .stopped := by
  have hends : o.ends := by rcases he with rfl | ⟨e, rfl⟩ <;> trivial
  clear he
  subst ho
  induction ops generalizing w i i' with
  | nil => simp [asked] at h
  | cons op ops ih =>
    rw [lrun] at h h'
    dsimp only at h h'
    by_cases hn : op = .next j
    · subst hn
      rw [asked_next] at h h'
      obtain ⟨i', rfl⟩ : ∃ m, i' = m + 1 := ⟨i' - 1, by omega⟩
      rw [List.getElem?_cons_succ] at h'
      cases i with
      | zero =>
        rw [List.getElem?_cons_zero, Option.some.injEq] at h
        obtain ⟨g, hj, hg⟩ := step_ends rng seed w j (by rw [h]; exact hends)
        exact over_run rng seed ops _ hj hg o' (List.mem_of_getElem? h')
      | succ i =>
        rw [List.getElem?_cons_succ] at h
        exact ih _ i i' (by omega) h h'
    · rw [asked_other hn] at h h'
      exact ih _ i i' hi h h'

/-! ### Histories in two parts -/

theorem lrun_append (rng : Rng γ) (seed : Int → γ) (w : LWorld α γ K) (a b : List (LOp α K)) :
    lrun rng seed w (a ++ b) =
      ((lrun rng seed w a).1 ++ (lrun rng seed (lrun rng seed w a).2 b).1,
        (lrun rng seed (lrun rng seed w a).2 b).2) := by
  induction a generalizing w with
  | nil => rfl
  | cons o a ih =>
    rw [List.cons_append, lrun, ih]
    rfl

theorem lrun_length (rng : Rng γ) (seed : Int → γ) (w : LWorld α γ K) (a : List (LOp α K)) :
    (lrun rng seed w a).1.length = a.length := by
  induction a generalizing w with
  | nil => rfl
  | cons o a ih => simp [lrun, ih]

theorem asked_append (j : Nat) (a b : List (LOp α K)) (xs ys : List Out)
    (h : xs.length = a.length) : asked j (a ++ b) (xs ++ ys) = asked j a xs ++ asked j b ys := by
  induction a generalizing xs with
  | nil =>
    have : xs = [] := List.eq_nil_of_length_eq_zero (by simpa using h)
    subst this
    simp [asked]
  | cons o a ih =>
    cases xs with
    | nil => simp at h
    | cons x xs =>
      have h' : xs.length = a.length := by simpa using h
      rw [List.cons_append, List.cons_append]
      by_cases hn : o = .next j
      · subst hn
        rw [asked_next, asked_next, ih xs h', List.cons_append]
      · rw [asked_other hn, asked_other hn, ih xs h']

theorem asked_run_append (rng : Rng γ) (seed : Int → γ) (w : LWorld α γ K) (j : Nat)
    (a b : List (LOp α K)) :
    asked j (a ++ b) (lrun rng seed w (a ++ b)).1 =
      asked j a (lrun rng seed w a).1 ++
        asked j b (lrun rng seed (lrun rng seed w a).2 b).1 := by
  rw [lrun_append]
  exact asked_append j a b _ _ (lrun_length rng seed w a)

theorem run_untouched (rng : Rng γ) (seed : Int → γ) (ops : List (LOp α K)) (w : LWorld α γ K)
    {j : Nat} {g : Gen α γ K} (hj : w.gens[j]? = some g) (hn : (.next j : LOp α K) ∉ ops) :
    (lrun rng seed w ops).2.gens[j]? = some g ∧ asked j ops (lrun rng seed w ops).1 = [] := by
  induction ops generalizing w with
  | nil => exact ⟨hj, rfl⟩
  | cons o ops ih =>
    have ho : o ≠ .next j := fun h => hn (by simp [h])
    rw [lrun]
    dsimp only
    rw [asked_other ho]
    exact ih _ (step_gens rng seed w o hj ho) (fun h => hn (by simp [h]))

theorem step_arr_length (rng : Rng γ) (seed : Int → γ) (w : LWorld α γ K) (o : LOp α K) (a : Nat) :
    ((lstep rng seed w o).2.arr a).length = (w.arr a).length := by
  by_cases ho : ∀ i v, o ≠ .write a i v
  · rw [step_arr rng seed w o ho]
  · push Not at ho
    obtain ⟨i, v, rfl⟩ := ho
    simp [lstep]

theorem run_arr_length (rng : Rng γ) (seed : Int → γ) (ops : List (LOp α K)) (w : LWorld α γ K)
    (a : Nat) : ((lrun rng seed w ops).2.arr a).length = (w.arr a).length := by
  induction ops generalizing w with
  | nil => rfl
  | cons o ops ih => rw [lrun]; dsimp only; rw [ih, step_arr_length]

/-! ### Positions of a group -/

theorem members_concat (l : List α) (x g : α) :
    members (l ++ [x]) g = members l g ++ if x = g then [l.length] else [] := by
  unfold members
  rw [List.length_append, List.length_singleton, List.range_succ, List.filter_append]
  congr 1
  · apply List.filter_congr
    intro i hi
    rw [List.getElem?_append_left (List.mem_range.1 hi)]
  · by_cases h : x = g <;> simp [h]

theorem getElem?_members (l : List α) (g : α) (p i : Nat) :
    (members l g)[p]? = some i ↔ Spec.Nth l g p i := by
  induction l using List.reverseRecOn with
  | nil => simp [members, Spec.Nth]
  | append_singleton l x ih =>
    rw [members_concat]
    have hlen := length_members l g
    rcases Nat.lt_trichotomy i l.length with hi | hi | hi
    · have : Spec.Nth (l ++ [x]) g p i ↔ Spec.Nth l g p i := by
        unfold Spec.Nth
        rw [List.getElem?_append_left hi, List.take_append_of_le_length (by omega)]
      rw [this, ← ih]
      rcases Nat.lt_or_ge p (members l g).length with hp | hp
      · rw [List.getElem?_append_left hp]
      · rw [List.getElem?_append_right hp, List.getElem?_eq_none hp]
        by_cases hx : x = g
        · rw [if_pos hx]
          constructor
          · intro h
            have := List.mem_of_getElem? h
            simp at this
            omega
          · intro h; cases h
        · rw [if_neg hx]; simp
    · subst hi
      have hnot : ∀ p : Nat, (members l g)[p]? ≠ some l.length := by
        intro p h
        have := (mem_members l g l.length).1 (List.mem_of_getElem? h)
        simp at this
      have : Spec.Nth (l ++ [x]) g p l.length ↔ x = g ∧ l.count g = p := by
        unfold Spec.Nth
        simp
      rw [this]
      rcases Nat.lt_or_ge p (members l g).length with hp | hp
      · rw [List.getElem?_append_left hp]
        constructor
        · intro h; exact absurd h (hnot p)
        · rintro ⟨-, h⟩; omega
      · rw [List.getElem?_append_right hp]
        by_cases hx : x = g
        · rw [if_pos hx]
          simp only [hx, true_and, List.getElem?_singleton]
          constructor
          · intro h
            split at h
            · omega
            · cases h
          · intro h; rw [if_pos (by omega)]
        · rw [if_neg hx]; simp [hx]
    · have : ¬ Spec.Nth (l ++ [x]) g p i := by
        rintro ⟨h, -⟩
        rw [List.getElem?_eq_none (by simp; omega)] at h
        cases h
      simp only [this, iff_false]
      intro h
      have := List.mem_of_getElem? h
      rcases List.mem_append.1 this with h | h
      · have := (mem_members l g i).1 h
        rw [List.getElem?_eq_none (by omega)] at this
        cases this
      · split at h
        · simp at h; omega
        · simp at h

/-! ### One round of `KFoldWithinGroups` with whatever labels -/

theorem pick_error {arr js : List Nat} (h : ∃ j ∈ js, arr.length ≤ j) :
    pick arr js = .error .indexError := by
  induction js with
  | nil => simp at h
  | cons j js ih =>
    unfold pick at ih ⊢
    rw [List.mapM_cons]
    by_cases hj : j < arr.length
    · rw [List.getElem?_eq_getElem hj]
      dsimp only
      obtain ⟨j', hj', hle⟩ := h
      rcases List.mem_cons.1 hj' with rfl | hj'
      · omega
      · rw [ih ⟨j', hj', hle⟩]; rfl
    · rw [List.getElem?_eq_none (by omega)]; rfl

theorem kfoldMark_ok {β : Type} [LinearOrder β] (labels : List β) {k f : Nat} (hf : f < k)
    (iters : List (β × List (List Nat))) (hk : ∀ it ∈ iters, it.2.length = k)
    (h : ∀ it ∈ iters, ∀ p ∈ it.2.getD f [], p < (members labels it.1).length)
    (mask : List Bool) :
    kfoldMark labels f mask iters = .ok
      ((iters.map (fun it => gather (members labels it.1) (it.2.getD f []))).foldl
        setTrue mask) := by
  induction iters generalizing mask with
  | nil => rfl
  | cons it rest ih =>
    obtain ⟨g, tests⟩ := it
    have hl : tests.length = k := hk (g, tests) (by simp)
    have hin := h (g, tests) (by simp)
    unfold kfoldMark
    have ht : tests[f]? = some (tests.getD f []) := by
      rw [List.getD_eq_getElem?_getD, List.getElem?_eq_getElem (by omega)]; rfl
    rw [ht]
    dsimp only
    rw [pick_eq hin]
    dsimp only
    rw [ih (fun it hit => hk it (by simp [hit])) (fun it hit => h it (by simp [hit]))]
    rfl

theorem kfoldMark_error {β : Type} [LinearOrder β] (labels : List β) {k f : Nat} (hf : f < k)
    (iters : List (β × List (List Nat))) (hk : ∀ it ∈ iters, it.2.length = k)
    (h : ∃ it ∈ iters, ∃ p ∈ it.2.getD f [], (members labels it.1).length ≤ p)
    (mask : List Bool) : kfoldMark labels f mask iters = .error .indexError := by
  induction iters generalizing mask with
  | nil => simp at h
  | cons it rest ih =>
    obtain ⟨g, tests⟩ := it
    have hl : tests.length = k := hk (g, tests) (by simp)
    unfold kfoldMark
    have ht : tests[f]? = some (tests.getD f []) := by
      rw [List.getD_eq_getElem?_getD, List.getElem?_eq_getElem (by omega)]; rfl
    rw [ht]
    dsimp only
    by_cases hin : ∀ p ∈ tests.getD f [], p < (members labels g).length
    · rw [pick_eq hin]
      dsimp only
      apply ih (fun it hit => hk it (by simp [hit]))
      obtain ⟨it, hit, p, hp, hle⟩ := h
      rcases List.mem_cons.1 hit with rfl | hit
      · exact absurd (hin p hp) (Nat.not_lt.2 hle)
      · exact ⟨it, hit, p, hp, hle⟩
    · push Not at hin
      rw [pick_error hin]

/-- The iterators of the groups, by the label. -/
def posOf (iters : List (α × List (List Nat))) (g : α) (f : Nat) : List Nat :=
  match iters.find? (fun it => decide (it.1 = g)) with
  | some it => it.2.getD f []
  | none => []

theorem posOf_eq {iters : List (α × List (List Nat))} (hnd : (iters.map (·.1)).Nodup)
    {it : α × List (List Nat)} (h : it ∈ iters) (f : Nat) :
    posOf iters it.1 f = it.2.getD f [] := by
  unfold posOf
  have : iters.find? (fun it' => decide (it'.1 = it.1)) = some it := by
    induction iters with
    | nil => simp at h
    | cons it' rest ih =>
      rw [List.map_cons, List.nodup_cons] at hnd
      rcases List.mem_cons.1 h with rfl | h
      · simp
      · rw [List.find?_cons]
        have hne : it'.1 ≠ it.1 := fun he => hnd.1 (by rw [he]; exact List.mem_map_of_mem h)
        simp only [hne, decide_false]
        exact ih hnd.2 h
  rw [this]

theorem parts_of_good {n k : Nat} {tests : List (List Nat)} (h : GoodFolds n k tests)
    {pos : Nat → List Nat} (hpos : ∀ f, pos f = tests.getD f []) : Spec.Parts n k pos := by
  have hget : ∀ f, f < k → tests[f]? = some (pos f) := by
    intro f hf
    rw [hpos, List.getD_eq_getElem?_getD, List.getElem?_eq_getElem (by rw [h.length]; exact hf)]
    rfl
  refine ⟨?_, ?_, ?_, ?_⟩
  · intro f hf; exact h.nodup _ (List.mem_of_getElem? (hget f hf))
  · intro f hf; exact h.lt _ (List.mem_of_getElem? (hget f hf))
  · intro p hp
    obtain ⟨f, ⟨t, ht, hpt⟩, huniq⟩ := h.cover p hp
    have hf : f < k := by
      rw [← h.length]; exact (List.getElem?_eq_some_iff.1 ht).1
    refine ⟨f, ⟨hf, ?_⟩, ?_⟩
    · rw [hget f hf] at ht; cases ht; exact hpt
    · rintro f' ⟨hf', hp'⟩
      exact huniq f' ⟨_, hget f' hf', hp'⟩
  · intro f hf
    have := h.size f _ (hget f hf)
    rw [this]
    constructor
    · omega
    · split <;> omega

/-- What one call of `next` of a generator of `KFoldWithinGroups` returns, for fold `f` and
the labels of the moment. -/
theorem kfoldRound_at (L : List α) {k f : Nat} (iters : List (α × List (List Nat)))
    (hk : ∀ it ∈ iters, it.2.length = k) (hnd : (iters.map (·.1)).Nodup) :
    (k ≤ f → (kfoldRound (K := K) L k L.length iters f).1 = .stopped) ∧
    (f < k → (∀ g ∈ iters.map (·.1), ∀ p ∈ posOf iters g f, p < L.count g) →
      ∃ fold, (kfoldRound (K := K) L k L.length iters f).1 = .yielded fold ∧
        Spec.IsFold L.length fold.1 fold.2 ∧
        ∀ i, i ∈ fold.2 ↔ ∃ g ∈ iters.map (·.1), ∃ p ∈ posOf iters g f, Spec.Nth L g p i) ∧
    (f < k → (∃ g ∈ iters.map (·.1), ∃ p ∈ posOf iters g f, L.count g ≤ p) →
      (kfoldRound (K := K) L k L.length iters f).1 = .raised .indexError) := by
  refine ⟨?_, ?_, ?_⟩
  · intro hf
    unfold kfoldRound
    rw [if_neg (by omega)]
  · intro hf hin
    unfold kfoldRound
    rw [if_pos hf, kfoldMark_ok L hf iters hk]
    · refine ⟨_, rfl, isFold_of_mask _ _, ?_⟩
      intro i
      have hall : List.Forall₂ (fun g B => ∀ i ∈ B, i ∈ members L g) (iters.map (·.1))
          (iters.map (fun it => gather (members L it.1) (it.2.getD f []))) := by
        rw [List.forall₂_map_left_iff, List.forall₂_map_right_iff, List.forall₂_same]
        intro it _ i hi
        exact mem_of_mem_gather hi
      have := mem_test hall i
      refine this.trans ?_
      constructor
      · rintro ⟨B, hB, hi⟩
        obtain ⟨it, hit, rfl⟩ := List.mem_map.1 hB
        obtain ⟨p, hp, hpi⟩ := mem_gather_iff.1 hi
        exact ⟨it.1, List.mem_map_of_mem hit, p, by rw [posOf_eq hnd hit]; exact hp,
          (getElem?_members _ _ _ _).1 hpi⟩
      · rintro ⟨g, hg, p, hp, hn⟩
        obtain ⟨it, hit, rfl⟩ := List.mem_map.1 hg
        rw [posOf_eq hnd hit] at hp
        exact ⟨_, List.mem_map_of_mem hit,
          mem_gather_iff.2 ⟨p, hp, (getElem?_members _ _ _ _).2 hn⟩⟩
    · intro it hit p hp
      rw [length_members]
      exact hin it.1 (List.mem_map_of_mem hit) p (by rw [posOf_eq hnd hit]; exact hp)
  · rintro hf ⟨g, hg, p, hp, hle⟩
    obtain ⟨it, hit, rfl⟩ := List.mem_map.1 hg
    rw [posOf_eq hnd hit] at hp
    unfold kfoldRound
    rw [if_pos hf, kfoldMark_error L hf iters hk ⟨it, hit, p, hp, by rw [length_members]; exact hle⟩]

/-- A generator that is the second time or later at its loop over the folds. -/
theorem run_kfoldAt (rng : Rng γ) (seed : Int → γ) {j a k n : Nat}
    {iters : List (α × List (List Nat))} (ops : List (LOp α K)) (w : LWorld α γ K)
    (src : Source γ) (f : Nat) (hj : w.gens[j]? = some (.grouped a src (.kfoldAt k n iters f)))
    (hfold : ∀ o ∈ asked j ops (lrun rng seed w ops).1, o.isFold = true) :
    ∃ src', (lrun rng seed w ops).2.gens[j]? = some (.grouped a src'
      (.kfoldAt k n iters (f + (asked j ops (lrun rng seed w ops).1).length))) ∧
      ∀ r, src = .object r → src' = .object r := by
  induction ops generalizing w src f with
  | nil => exact ⟨src, hj, fun r h => h⟩
  | cons o ops ih =>
    have hlt : j < w.gens.length := (List.getElem?_eq_some_iff.1 hj).1
    rw [lrun] at hfold ⊢
    dsimp only at hfold ⊢
    by_cases hn : o = .next j
    · subst hn
      rw [asked_next] at hfold ⊢
      have hstep := (kind_grouped rng seed j a).next w src _ hj
      have h0 := hfold _ (List.mem_cons_self ..)
      rw [hstep, next_kfoldAt] at h0
      have hb : (kfoldRound (K := K) (w.arr a) k n iters f).2 = .kfoldAt k n iters (f + 1) := by
        dsimp only at h0
        unfold kfoldRound at h0 ⊢
        split
        · rename_i hf
          rw [if_pos hf] at h0
          cases hm : kfoldMark (w.arr a) f (List.replicate n false) iters with
          | error e => rw [hm] at h0; simp [Out.isFold] at h0
          | ok m => rfl
        · rename_i hf
          rw [if_neg hf] at h0
          simp [Out.isFold] at h0
      obtain ⟨src', he, hs⟩ := ih (lstep rng seed w (.next j)).2 _ (f + 1)
        (by rw [hstep, next_kfoldAt]; dsimp only; rw [hb]; exact List.getElem?_set_self hlt)
        (fun o ho => hfold o (List.mem_cons_of_mem _ ho))
      refine ⟨src', ?_, ?_⟩
      · rw [he, List.length_cons]
        congr 3
        omega
      · rintro r rfl
        exact hs r rfl
    · rw [asked_other hn] at hfold ⊢
      exact ih _ src f (step_gens rng seed w o hj hn) hfold

/-! ### C123 -/

/-- **C123**, `KFoldWithinGroups`.  The labels may be overwritten at any time: which
*positions* inside each group are tested in which fold is settled at the first `next`, evenly
and for good, from the labels of that moment; every fold then looks these positions up in the
labels as they are when it is asked for.  It tests exactly the samples found there; if a
group has become too short for one of its positions, it raises `IndexError`. -/
theorem C123_kfold (rng : Rng γ) (seed : Int → γ) (w : LWorld α γ K) (k : Int) (hk : 2 ≤ k)
    (shuffle : Bool) (rs : RState) (a id : Nat) (w' : LWorld α γ K)
    (hop : lstep rng seed w (.split (.kfold k shuffle rs) (w.arr a).length (some a)) =
      (.opened id, w'))
    (pre : List (LOp α K)) (hpre : (.next id : LOp α K) ∉ pre) (first : List α)
    (hfirst : first = (lrun rng seed w' pre).2.arr a) (hne : first ≠ [])
    (hg : ∀ g ∈ first, k ≤ (first.count g : Int)) :
    ∃ pos : α → Nat → List Nat, (∀ g ∈ first, Spec.Parts (first.count g) k.toNat (pos g)) ∧
    ∀ (ops : List (LOp α K)) (w₂ : LWorld α γ K) (outs : List Out) (now : List α) (out : Out),
      (∀ o ∈ ops.head?, o = .next id) → w₂ = (lrun rng seed w' (pre ++ ops)).2 →
      outs = asked id (pre ++ ops) (lrun rng seed w' (pre ++ ops)).1 →
      (∀ o ∈ outs, ∃ fold, o = .yielded fold) → now = w₂.arr a →
      out = (lstep rng seed w₂ (.next id)).1 →
      (k ≤ outs.length → out = .stopped) ∧
      ((outs.length : Int) < k → (∀ g ∈ first, ∀ p ∈ pos g outs.length, p < now.count g) →
        ∃ fold, out = .yielded fold ∧ Spec.IsFold (w.arr a).length fold.1 fold.2 ∧
          ∀ i, i ∈ fold.2 ↔ ∃ g ∈ first, ∃ p ∈ pos g outs.length, Spec.Nth now g p i) ∧
      ((outs.length : Int) < k → (∃ g ∈ first, ∃ p ∈ pos g outs.length, now.count g ≤ p) →
        out = .raised .indexError) := by
  have hcons : (Splitter.kfold k shuffle rs : Splitter K).construct = .ok () := by
    rw [Splitter.construct, if_neg (by omega)]
  have hlen0 : ∀ ops, ((lrun rng seed w' ops).2.arr a).length = (w.arr a).length := by
    intro ops
    rw [run_arr_length]
    rw [lstep, Splitter.make, hcons] at hop
    cases hop
    rfl
  have hgen : w'.gens[id]? = some (.grouped a rs.source (.kfold k.toNat shuffle (w.arr a).length)) := by
    rw [lstep, Splitter.make, hcons] at hop
    cases hop
    simp
  obtain ⟨hgen1, hasked1⟩ := run_untouched rng seed pre w' hgen hpre
  -- the first `next`
  have hflen : first.length = (w.arr a).length := by rw [hfirst]; exact hlen0 pre
  generalize hw1 : (lrun rng seed w' pre).2 = w₁ at *
  generalize hs1 : rs.source.state seed w₁.rs = s at *
  obtain ⟨iters, hit, hkeys, hgood⟩ := kfoldGroups_good rng (k := k.toNat) (by omega) shuffle first
    (npUnique first) s (fun g h => by
      have := hg g ((mem_npUnique _ _).1 h)
      omega)
  have hnd : (iters.map (·.1)).Nodup := by rw [hkeys]; exact nodup_npUnique _
  have hlk : ∀ it ∈ iters, it.2.length = k.toNat := fun it h => (hgood it h).length
  have hmem : ∀ g, g ∈ iters.map (·.1) ↔ g ∈ first := by
    intro g; rw [hkeys]; exact mem_npUnique _ _
  have hkn : ¬ (k.toNat > first.length) := by
    obtain ⟨g, hgf⟩ := List.exists_mem_of_ne_nil _ hne
    have := hg g hgf
    have := List.count_le_length (l := first) (a := g)
    omega
  have hnext1 : ∃ s', (Body.kfold k.toNat shuffle first.length : Body α K).next rng first s =
      ((kfoldRound (K := K) first k.toNat first.length iters 0).1, s',
        (kfoldRound (K := K) first k.toNat first.length iters 0).2) := by
    rw [next_kfold, if_neg (by simp), if_neg hkn]
    have := kfoldDraws_fst rng k.toNat shuffle first (npUnique first) s
    cases hd : kfoldDraws rng k.toNat shuffle first s (npUnique first) with
    | mk r s' =>
      rw [hd, hit] at this
      dsimp only at this
      subst this
      exact ⟨s', rfl⟩
  obtain ⟨s', hnext1⟩ := hnext1
  refine ⟨posOf iters, ?_, ?_⟩
  · intro g hgf
    obtain ⟨it, hit', rfl⟩ := List.mem_map.1 ((hmem g).2 hgf)
    exact parts_of_good (hgood it hit') (posOf_eq hnd hit')
  intro ops w₂ outs now out hhead hw₂ houts hfolds hnow hout
  have hnlen : now.length = (w.arr a).length := by rw [hnow, hw₂]; exact hlen0 _
  -- whatever the call is, it is round number `outs.length`
  have key : out = (kfoldRound (K := K) now k.toNat now.length iters outs.length).1 := by
    cases ops with
    | nil =>
      rw [List.append_nil] at hw₂ houts
      rw [hw1] at hw₂
      subst hw₂
      rw [hasked1] at houts
      subst houts
      rw [hout, (kind_grouped rng seed id a).next w₂ _ _ hgen1]
      dsimp only
      rw [← hnow, ← hnow] at *
      subst hfirst
      rw [hs1, ← hflen, hnext1]
      rfl
    | cons o ops =>
      have : o = .next id := hhead o (by simp)
      subst this
      have hstep := (kind_grouped rng seed id a).next w₁ _ _ hgen1
      rw [hs1, ← hfirst, ← hflen, hnext1] at hstep
      rw [asked_run_append, hasked1, List.nil_append, hw1, lrun] at houts
      dsimp only at houts
      rw [asked_next] at houts
      rw [lrun_append, hw1, lrun] at hw₂
      dsimp only at hw₂
      have hlt : id < w₁.gens.length := (List.getElem?_eq_some_iff.1 hgen1).1
      have h0 := hfolds _ (by rw [houts]; exact List.mem_cons_self ..)
      have hb : (kfoldRound (K := K) first k.toNat first.length iters 0).2 =
          .kfoldAt k.toNat first.length iters 1 := by
        obtain ⟨fold, h0⟩ := h0
        rw [hstep] at h0
        dsimp only at h0
        unfold kfoldRound at h0 ⊢
        rw [if_pos (by omega)] at h0 ⊢
        cases hm : kfoldMark first 0 (List.replicate first.length false) iters with
        | error e => rw [hm] at h0; cases h0
        | ok m => rfl
      obtain ⟨src', hgen2, -⟩ := run_kfoldAt rng seed ops (lstep rng seed w₁ (.next id)).2
        (rs.source.after s') 1 (k := k.toNat) (n := first.length) (iters := iters) (a := a)
        (j := id)
        (by rw [hstep]; dsimp only; rw [hb]; exact List.getElem?_set_self hlt)
        (fun o ho => by
          obtain ⟨fold, rfl⟩ := hfolds o (by rw [houts]; exact List.mem_cons_of_mem _ ho)
          rfl)
      rw [← hw₂] at hgen2
      rw [hout, (kind_grouped rng seed id a).next w₂ _ _ hgen2]
      dsimp only
      rw [next_kfoldAt]
      dsimp only
      rw [← hnow, houts, List.length_cons, hnlen, hflen, Nat.add_comm 1]
  obtain ⟨h1, h2, h3⟩ := kfoldRound_at (K := K) now (f := outs.length) iters hlk hnd
  rw [← key] at h1 h2 h3
  simp only [hmem] at h2 h3
  rw [hnlen] at h2
  exact ⟨fun h => h1 (by omega), fun h => h2 (by omega), fun h => h3 (by omega)⟩

/-! ### One round of `ShuffleSplitWithinGroups` with whatever labels -/

/-- What one call of `next` of a generator of `ShuffleSplitWithinGroups` returns, for the
labels of the moment; `order` are the groups there were at the first `next`. -/
theorem shuffleRound_at (rng : Rng γ) (L : List α) (s : γ) (c : ShuffleConfig K)
    {order : List α} (hnd : order.Nodup) (left : Nat) :
    ((∀ g ∈ order, Spec.Fits (L.count g) c.testSize.spec c.trainSize.spec) →
      ∃ fold, (shuffleRound rng L s c L.length order (left + 1)).1 = .yielded fold ∧
        Spec.IsFold L.length fold.1 fold.2 ∧
        (∀ i ∈ fold.2, ∃ g ∈ order, L[i]? = some g) ∧
        ∀ g ∈ order, Spec.TestCount (L.count g) c.testSize.spec c.trainSize.spec
          (Spec.inGroup L g fold.2)) ∧
    ((∃ g ∈ order, ¬ Spec.Fits (L.count g) c.testSize.spec c.trainSize.spec) →
      (shuffleRound rng L s c L.length order (left + 1)).1 = .raised .valueError) := by
  constructor
  · intro hfit
    obtain ⟨Bs, s', he, hall⟩ := shuffleMask_ok rng c L order hfit s (List.replicate L.length false)
    rw [shuffleMark_mask] at he
    unfold shuffleRound
    cases hm : shuffleMark rng c L s (List.replicate L.length false) order with
    | mk r s'' =>
      rw [hm] at he
      cases r with
      | error e => cases he
      | ok m =>
        simp only [Except.ok.injEq, Prod.mk.injEq] at he
        obtain ⟨rfl, rfl⟩ := he
        have hsub : List.Forall₂ (fun g B => ∀ i ∈ B, i ∈ members L g) order Bs :=
          hall.imp (fun _ _ h => h.2.1)
        refine ⟨_, rfl, isFold_of_mask _ _, ?_, ?_⟩
        · intro i hi
          obtain ⟨B, hB, hiB⟩ := (mem_test hsub i).1 hi
          obtain ⟨x, hx, hxB⟩ := List.mem_iff_getElem.1 hB
          have hxo : x < order.length := by rw [hall.length_eq]; exact hx
          have := (List.forall₂_iff_get.1 hsub).2 x hxo hx i (by
            simp only [List.get_eq_getElem]; rw [hxB]; exact hiB)
          exact ⟨_, List.getElem_mem hxo, (mem_members _ _ _).1 this⟩
        · intro g hg
          obtain ⟨j, hj, hjg⟩ := List.mem_iff_getElem.1 hg
          have hjB : j < Bs.length := by rw [← hall.length_eq]; exact hj
          have hR := (List.forall₂_iff_get.1 hall).2 j hj hjB
          simp only [List.get_eq_getElem] at hR
          rw [hjg] at hR
          have := test_inGroup hnd hsub (j := j) (g := g) (B := Bs[j])
            (by rw [List.getElem?_eq_getElem hj, hjg]) (List.getElem?_eq_getElem hjB) hR.1
          unfold Spec.inGroup foldOf
          dsimp only
          rw [this.length_eq]
          exact hR.2.2
  · intro hfit
    have he := shuffleMask_error rng c L order hfit s (List.replicate L.length false)
    rw [shuffleMark_mask] at he
    unfold shuffleRound
    cases hm : shuffleMark rng c L s (List.replicate L.length false) order with
    | mk r s'' =>
      rw [hm] at he
      cases r with
      | error e => cases he; rfl
      | ok m => cases he

theorem run_shuffleAt {rng : Rng γ} {seed : Int → γ} {β : Type} [LinearOrder β] {j : Nat}
    {mk : Source γ → Body β K → Gen α γ K} {labels : LWorld α γ K → List β}
    {ok : LOp α K → Prop} (hk : Kind rng seed j mk labels ok) {n : Nat} {c : ShuffleConfig K}
    {order : List β} (ops : List (LOp α K)) (w : LWorld α γ K) (src : Source γ) (left : Nat)
    (hj : w.gens[j]? = some (mk src (.shuffleAt c n order left)))
    (hfold : ∀ o ∈ asked j ops (lrun rng seed w ops).1, o.isFold = true) :
    (asked j ops (lrun rng seed w ops).1).length ≤ left ∧
    ∃ src', (lrun rng seed w ops).2.gens[j]? = some (mk src'
      (.shuffleAt c n order (left - (asked j ops (lrun rng seed w ops).1).length))) ∧
      ∀ r, src = .object r → src' = .object r := by
  induction ops generalizing w src left with
  | nil => exact ⟨Nat.zero_le _, src, hj, fun r h => h⟩
  | cons o ops ih =>
    have hlt : j < w.gens.length := (List.getElem?_eq_some_iff.1 hj).1
    rw [lrun] at hfold ⊢
    dsimp only at hfold ⊢
    by_cases hn : o = .next j
    · subst hn
      rw [asked_next] at hfold ⊢
      have hstep := hk.next w src _ hj
      have h0 := hfold _ (List.mem_cons_self ..)
      rw [hstep, next_shuffleAt] at h0
      dsimp only at h0
      cases left with
      | zero => simp [shuffleRound, Out.isFold] at h0
      | succ left =>
        have hb : (shuffleRound rng (labels w) (src.state seed w.rs) c n order (left + 1)).2.2 =
            .shuffleAt c n order left := by
          unfold shuffleRound at h0 ⊢
          cases hm : shuffleMark rng c (labels w) (src.state seed w.rs) (List.replicate n false)
            order with
          | mk r s' =>
            cases r with
            | error e => rw [hm] at h0; simp [Out.isFold] at h0
            | ok m => rfl
        obtain ⟨hle, src', he, hs⟩ := ih (lstep rng seed w (.next j)).2 _ left
          (by rw [hstep, next_shuffleAt]; dsimp only; rw [hb]; exact List.getElem?_set_self hlt)
          (fun o ho => hfold o (List.mem_cons_of_mem _ ho))
        rw [List.length_cons]
        refine ⟨by omega, src', ?_, ?_⟩
        · rw [he]
          congr 3
          omega
        · rintro r rfl
          exact hs r rfl
    · rw [asked_other hn] at hfold ⊢
      exact ih _ src left (step_gens rng seed w o hj hn) hfold

/-- Where a generator of `ShuffleSplitWithinGroups` stands after a history that begins with
its first `next`. -/
theorem shuffle_at {rng : Rng γ} {seed : Int → γ} {β : Type} [LinearOrder β] {j : Nat}
    {mk : Source γ → Body β K → Gen α γ K} {labels : LWorld α γ K → List β}
    {ok : LOp α K → Prop} (hk : Kind rng seed j mk labels ok)
    (hlab : ∀ w gens, labels { w with gens := gens } = labels w) {n : Nat}
    (w₁ : LWorld α γ K) (c : ShuffleConfig K) (src : Source γ)
    (hw1 : w₁.gens[j]? = some (mk src (.shuffle c n)))
    (hn : (labels w₁).length = n) (ops : List (LOp α K)) (hhead : ∀ o ∈ ops.head?, o = .next j)
    (hfold : ∀ o ∈ asked j ops (lrun rng seed w₁ ops).1, o.isFold = true) :
    (asked j ops (lrun rng seed w₁ ops).1).length ≤ c.nSplits.toNat ∧
    ∃ src' b, (lrun rng seed w₁ ops).2.gens[j]? = some (mk src' b) ∧
      (∀ r, src = .object r → src' = .object r) ∧
      ∀ s, b.next rng (labels (lrun rng seed w₁ ops).2) s =
        shuffleRound rng (labels (lrun rng seed w₁ ops).2) s c n (npUnique (labels w₁))
          (c.nSplits.toNat - (asked j ops (lrun rng seed w₁ ops).1).length) := by
  cases ops with
  | nil =>
    refine ⟨Nat.zero_le _, src, _, hw1, fun r h => h, ?_⟩
    subst hn
    intro s
    exact next_shuffle rng (labels w₁) c s
  | cons o ops =>
    have : o = .next j := hhead o (by simp)
    subst this
    have hlt : j < w₁.gens.length := (List.getElem?_eq_some_iff.1 hw1).1
    -- as if it had stood in front of its loop already
    let w₁' : LWorld α γ K := { w₁ with gens := (w₁.gens.set j
      (mk src (.shuffleAt c n (npUnique (labels w₁)) c.nSplits.toNat))) }
    have hg' : w₁'.gens[j]? =
        some (mk src (.shuffleAt c n (npUnique (labels w₁)) c.nSplits.toNat)) :=
      List.getElem?_set_self hlt
    have hsame : lstep rng seed w₁ (.next j) = lstep rng seed w₁' (.next j) := by
      rw [hk.next w₁ _ _ hw1, hk.next w₁' _ _ hg']
      have : (Body.shuffle c n : Body β K).next rng (labels w₁) (src.state seed w₁.rs) =
          (Body.shuffleAt c n (npUnique (labels w₁)) c.nSplits.toNat).next rng (labels w₁')
            (src.state seed w₁'.rs) := by
        rw [show labels w₁' = labels w₁ from hlab w₁ _]
        subst hn
        exact next_shuffle rng (labels w₁) c _
      rw [this]
      simp only [w₁', List.set_set]
    have hrun : lrun rng seed w₁ (.next j :: ops) = lrun rng seed w₁' (.next j :: ops) := by
      rw [lrun, lrun, hsame]
    rw [hrun] at hfold ⊢
    obtain ⟨hle, src', he, hs⟩ := run_shuffleAt hk (.next j :: ops) w₁' src _ hg' hfold
    exact ⟨hle, src', _, he, hs, fun s => rfl⟩

/-- **C123**, `ShuffleSplitWithinGroups`.  The labels may be overwritten at any time: the
groups are the ones there are at the first `next`; every fold draws afresh from the members
these groups have when it is asked for.  It tests the prescribed number of samples of every
such group and no sample of any other group; if the sizes can no longer be met in one of
them, it raises `ValueError`. -/
theorem C123_shuffle (rng : Rng γ) (seed : Int → γ) (w : LWorld α γ K) (c : ShuffleConfig K)
    (hinit : Spec.SizesAllowed c.testSize.spec c.trainSize.spec) (rs : RState) (a id : Nat)
    (w' : LWorld α γ K)
    (hop : lstep rng seed w (.split (.shuffle c rs) (w.arr a).length (some a)) = (.opened id, w'))
    (pre : List (LOp α K)) (hpre : (.next id : LOp α K) ∉ pre) (first : List α)
    (hfirst : first = (lrun rng seed w' pre).2.arr a)
    (ops : List (LOp α K)) (w₂ : LWorld α γ K) (outs : List Out) (now : List α) (out : Out)
    (hhead : ∀ o ∈ ops.head?, o = .next id) (hw₂ : w₂ = (lrun rng seed w' (pre ++ ops)).2)
    (houts : outs = asked id (pre ++ ops) (lrun rng seed w' (pre ++ ops)).1)
    (hfolds : ∀ o ∈ outs, ∃ fold, o = .yielded fold) (hnow : now = w₂.arr a)
    (hout : out = (lstep rng seed w₂ (.next id)).1) :
    (c.nSplits ≤ outs.length → out = .stopped) ∧
    ((outs.length : Int) < c.nSplits →
      (∀ g ∈ first, Spec.Fits (now.count g) c.testSize.spec c.trainSize.spec) →
      ∃ fold, out = .yielded fold ∧ Spec.IsFold (w.arr a).length fold.1 fold.2 ∧
        (∀ i ∈ fold.2, ∃ g ∈ first, now[i]? = some g) ∧
        ∀ g ∈ first, Spec.TestCount (now.count g) c.testSize.spec c.trainSize.spec
          (Spec.inGroup now g fold.2)) ∧
    ((outs.length : Int) < c.nSplits →
      (∃ g ∈ first, ¬ Spec.Fits (now.count g) c.testSize.spec c.trainSize.spec) →
      out = .raised .valueError) := by
  have hcons : (Splitter.shuffle c rs : Splitter K).construct = .ok () :=
    (validateInit_iff _ _).1 hinit
  have hlen0 : ∀ ops, ((lrun rng seed w' ops).2.arr a).length = (w.arr a).length := by
    intro ops
    rw [run_arr_length]
    rw [lstep, Splitter.make, hcons] at hop
    cases hop
    rfl
  have hgen : w'.gens[id]? = some (.grouped a rs.source (.shuffle c (w.arr a).length)) := by
    rw [lstep, Splitter.make, hcons] at hop
    cases hop
    simp
  obtain ⟨hgen1, hasked1⟩ := run_untouched rng seed pre w' hgen hpre
  have hnlen : now.length = (w.arr a).length := by rw [hnow, hw₂]; exact hlen0 _
  rw [asked_run_append, hasked1, List.nil_append] at houts
  rw [lrun_append] at hw₂
  obtain ⟨hle, src', b, hb, -, hnext⟩ := shuffle_at (kind_grouped rng seed id a)
    (fun _ _ => rfl) _ c rs.source hgen1 (hlen0 pre) ops hhead (fun o ho => by
      obtain ⟨fold, rfl⟩ := hfolds o (by rw [houts]; exact ho)
      rfl)
  dsimp only at hw₂
  rw [← hw₂, ← hfirst, ← houts] at hnext
  rw [← hw₂] at hb
  rw [← houts] at hle
  have key : out = (shuffleRound rng now (src'.state seed w₂.rs) c now.length (npUnique first)
      (c.nSplits.toNat - outs.length)).1 := by
    rw [hout, (kind_grouped rng seed id a).next w₂ _ _ hb]
    dsimp only
    rw [hnext, ← hnow, hnlen]
  refine ⟨?_, ?_, ?_⟩
  · intro h
    rw [key, show c.nSplits.toNat - outs.length = 0 by omega]
    rfl
  · intro h hfit
    obtain ⟨left, hl⟩ : ∃ left, c.nSplits.toNat - outs.length = left + 1 :=
      ⟨c.nSplits.toNat - outs.length - 1, by omega⟩
    rw [hl] at key
    obtain ⟨fold, h1, h2, h3, h4⟩ := (shuffleRound_at rng now (src'.state seed w₂.rs) c
      (nodup_npUnique first) left).1 (fun g hg => hfit g ((mem_npUnique _ _).1 hg))
    refine ⟨fold, key.trans h1, hnlen ▸ h2, ?_, fun g hg => h4 g ((mem_npUnique _ _).2 hg)⟩
    intro i hi
    obtain ⟨g, hg, hgi⟩ := h3 i hi
    exact ⟨g, (mem_npUnique _ _).1 hg, hgi⟩
  · rintro h ⟨g, hg, hfit⟩
    obtain ⟨left, hl⟩ : ∃ left, c.nSplits.toNat - outs.length = left + 1 :=
      ⟨c.nSplits.toNat - outs.length - 1, by omega⟩
    rw [hl] at key
    exact key.trans ((shuffleRound_at rng now (src'.state seed w₂.rs) c (nodup_npUnique first)
      left).2 ⟨g, (mem_npUnique _ _).2 hg, hfit⟩)

/-! ### C124 -/

/-- A `RandomState` object is used by this generator. -/
def Gen.uses (r : Nat) : Gen α γ K → Prop
  | .grouped _ src _ => src = .object r
  | .whole _ src _ => src = .object r
  | .predefined _ => False

theorem after_object {src : Source γ} {s : γ} {r : Nat} :
    src.after s = .object r ↔ src = .object r := by
  cases src <;> simp [Source.after]

theorem uses_run (rng : Rng γ) (seed : Int → γ) (r : Nat) (ops : List (LOp α K))
    (w : LWorld α γ K) {j : Nat} {g : Gen α γ K} (hj : w.gens[j]? = some g) (hg : ¬ g.uses r) :
    ∃ g', (lrun rng seed w ops).2.gens[j]? = some g' ∧ ¬ g'.uses r := by
  induction ops generalizing w g with
  | nil => exact ⟨g, hj, hg⟩
  | cons o ops ih =>
    have hlt : j < w.gens.length := (List.getElem?_eq_some_iff.1 hj).1
    rw [lrun]
    dsimp only
    by_cases hn : o = .next j
    · subst hn
      cases g with
      | grouped a src b =>
        refine ih _ (g := .grouped a _ _) (by
          rw [(kind_grouped rng seed j a).next w src b hj]; exact List.getElem?_set_self hlt) ?_
        exact fun h => hg (after_object.1 h)
      | whole n src b =>
        refine ih _ (g := .whole n _ _) (by
          rw [(kind_whole rng seed j n).next w src b hj]; exact List.getElem?_set_self hlt) ?_
        exact fun h => hg (after_object.1 h)
      | predefined folds =>
        cases folds with
        | nil =>
          refine ih _ (g := .predefined []) ?_ (fun h => h)
          rw [lstep, hj]; exact hj
        | cons f fs =>
          refine ih _ (g := .predefined fs) ?_ (fun h => h)
          rw [lstep, hj]; exact List.getElem?_set_self hlt
    · exact ih _ (step_gens rng seed w o hj hn) hg

theorem step_rs_other (rng : Rng γ) (seed : Int → γ) (w : LWorld α γ K) {j : Nat} {g : Gen α γ K}
    (hj : w.gens[j]? = some g) {r : Nat} (hg : ¬ g.uses r) :
    (lstep rng seed w (.next j)).2.rs r = w.rs r := by
  have hupd : ∀ (src : Source γ) (s : γ), src ≠ .object r → src.update w.rs s r = w.rs r := by
    intro src s h
    cases src with
    | object r' =>
      have : r ≠ r' := fun he => h (by rw [he])
      simp [Source.update, this]
    | _ => rfl
  cases g with
  | grouped a src b =>
    rw [(kind_grouped rng seed j a).next w src b hj]
    exact hupd _ _ hg
  | whole n src b =>
    rw [(kind_whole rng seed j n).next w src b hj]
    exact hupd _ _ hg
  | predefined folds =>
    cases folds <;> rw [lstep, hj]

/-- The argument `random_state` of a splitter is this `RandomState`. -/
def Splitter.given (r : Nat) : Splitter K → Prop
  | .kfold _ _ rs => rs = .object r
  | .shuffle _ rs => rs = .object r
  | .interlaced _ => False

theorem opened_uses (rng : Rng γ) (seed : Int → γ) {w w' : LWorld α γ K} {sp : Splitter K}
    {n id : Nat} {groups : Option Nat}
    (h : lstep rng seed w (.split sp n groups) = (.opened id, w')) (r : Nat) (hr : ¬ sp.given r) :
    ∃ g, w'.gens[id]? = some g ∧ ¬ g.uses r := by
  have hsrc : ∀ rs : RState, rs ≠ .object r → (rs.source : Source γ) ≠ .object r := by
    intro rs hrs hc
    cases rs with
    | seed z => cases hc
    | object r' => cases hc; exact hrs rfl
  rw [lstep] at h
  cases hm : sp.make n (groups.map (fun a => (a, w.arr a))) with
  | error e => rw [hm] at h; cases h
  | ok g =>
    rw [hm, LWorld.add] at h
    cases h
    refine ⟨g, by simp, ?_⟩
    have ho : sp.open n (groups.map (fun a => (a, w.arr a))) = .ok g := by
      rw [Splitter.make] at hm
      cases hc : sp.construct with
      | error e => rw [hc] at hm; cases hm
      | ok u => rw [hc] at hm; exact hm
    cases sp with
    | kfold k sh rs =>
      cases groups with
      | none => cases ho; exact hsrc rs hr
      | some a => cases ho; exact hsrc rs hr
    | shuffle c rs =>
      cases groups with
      | none => cases ho; exact hsrc rs hr
      | some a => cases ho; exact hsrc rs hr
    | interlaced k =>
      cases groups with
      | none =>
        rw [Option.map_none, Splitter.open] at ho
        cases hi : interlacedKFold k n with
        | error e => rw [hi] at ho; cases ho
        | ok folds => rw [hi] at ho; cases ho; exact id
      | some a =>
        rw [Option.map_some, Splitter.open] at ho
        split at ho
        · cases ho
        · cases hi : interlacedKFold k n with
          | error e => rw [hi] at ho; cases ho
          | ok folds => rw [hi] at ho; cases ho; exact id

/-- **C124**, other `RandomState` objects.  A call of `split` draws nothing; a call of `next`
leaves every `RandomState` alone that was not given to the splitter of this generator - with
an integer seed, and for `InterlacedKFold`, all of them, `np.random` included. -/
theorem C124_others (rng : Rng γ) (seed : Int → γ) (w w' : LWorld α γ K) (sp : Splitter K)
    (n id : Nat) (groups : Option Nat)
    (h : lstep rng seed w (.split sp n groups) = (.opened id, w')) (ops : List (LOp α K))
    (w₂ : LWorld α γ K) (hw₂ : w₂ = (lrun rng seed w' ops).2) (r : Nat)
    (hr : ∀ k sh c, sp ≠ .kfold k sh (.object r) ∧ sp ≠ .shuffle c (.object r)) :
    w'.rs = w.rs ∧ (lstep rng seed w₂ (.next id)).2.rs r = w₂.rs r := by
  constructor
  · rw [lstep] at h
    cases hm : sp.make n (groups.map (fun a => (a, w.arr a))) with
    | error e => rw [hm] at h; cases h
    | ok g => rw [hm, LWorld.add] at h; cases h; rfl
  · have hg : ¬ sp.given r := by
      intro hg
      cases sp with
      | kfold k sh rs =>
        have : rs = .object r := hg
        subst this
        exact (hr k sh ⟨0, .none, .none, true⟩).1 rfl
      | shuffle c rs =>
        have : rs = .object r := hg
        subst this
        exact (hr 0 true c).2 rfl
      | interlaced k => exact hg
    obtain ⟨g, hj, hu⟩ := opened_uses rng seed h r hg
    obtain ⟨g', hj', hu'⟩ := uses_run rng seed r ops w' hj hu
    subst hw₂
    exact step_rs_other rng seed _ hj' hu'

theorem next_out {β : Type} [LinearOrder β] (rng : Rng γ) (labels : List β) (s : γ)
    (b : Body β K) : (b.next rng labels s).1.isFold = true ∨ (b.next rng labels s).1.ends := by
  have hk : ∀ k n its f, (kfoldRound (K := K) labels k n its f).1.isFold = true ∨
      (kfoldRound (K := K) labels k n its f).1.ends := by
    intro k n its f
    unfold kfoldRound
    split
    · cases kfoldMark labels f (List.replicate n false) its with
      | error e => right; trivial
      | ok m => left; rfl
    · right; trivial
  have hs : ∀ c n order left, (shuffleRound (K := K) rng labels s c n order left).1.isFold = true ∨
      (shuffleRound rng labels s c n order left).1.ends := by
    intro c n order left
    cases left with
    | zero => right; trivial
    | succ left =>
      unfold shuffleRound
      cases hm : shuffleMark rng c labels s (List.replicate n false) order with
      | mk r s' =>
        cases r with
        | error e => right; trivial
        | ok m => left; rfl
  cases b with
  | kfold k sh n =>
    rw [next_kfold]
    split
    · right; trivial
    · split
      · right; trivial
      · cases hd : kfoldDraws rng k sh labels s (npUnique labels) with
        | mk r s' =>
          cases r with
          | error e => right; trivial
          | ok iters => exact hk _ _ _ _
  | kfoldAt k n iters fold => exact hk _ _ _ _
  | shuffle c n =>
    rw [next_shuffle']
    split
    · right; trivial
    · exact hs _ _ _ _
  | shuffleAt c n order left => exact hs _ _ _ _
  | finished => right; trivial

theorem step_out (rng : Rng γ) (seed : Int → γ) (w : LWorld α γ K) {j : Nat} {g : Gen α γ K}
    (hj : w.gens[j]? = some g) :
    (lstep rng seed w (.next j)).1.isFold = true ∨ (lstep rng seed w (.next j)).1.ends := by
  cases g with
  | grouped a src b => rw [(kind_grouped rng seed j a).next w src b hj]; exact next_out ..
  | whole n src b => rw [(kind_whole rng seed j n).next w src b hj]; exact next_out ..
  | predefined folds =>
    cases folds with
    | nil => right; rw [lstep, hj]; trivial
    | cons f fs => left; rw [lstep, hj]; rfl

theorem step_some (rng : Rng γ) (seed : Int → γ) (w : LWorld α γ K) (o : LOp α K) {j : Nat}
    {g : Gen α γ K} (hj : w.gens[j]? = some g) :
    ∃ g', (lstep rng seed w o).2.gens[j]? = some g' := by
  have hlt : j < w.gens.length := (List.getElem?_eq_some_iff.1 hj).1
  by_cases ho : o = .next j
  · subst ho
    cases g with
    | grouped a src b =>
      rw [(kind_grouped rng seed j a).next w src b hj]; exact ⟨_, List.getElem?_set_self hlt⟩
    | whole n src b =>
      rw [(kind_whole rng seed j n).next w src b hj]; exact ⟨_, List.getElem?_set_self hlt⟩
    | predefined folds =>
      cases folds with
      | nil => rw [lstep, hj]; exact ⟨_, hj⟩
      | cons f fs => rw [lstep, hj]; exact ⟨_, List.getElem?_set_self hlt⟩
  · exact ⟨g, step_gens rng seed w o hj ho⟩

theorem run_over (rng : Rng γ) (seed : Int → γ) (ops : List (LOp α K)) (w : LWorld α γ K) {j : Nat}
    {g : Gen α γ K} (hj : w.gens[j]? = some g)
    (h : (∃ o ∈ asked j ops (lrun rng seed w ops).1, o.isFold = false) ∨ g.over) :
    ∃ g', (lrun rng seed w ops).2.gens[j]? = some g' ∧ g'.over := by
  induction ops generalizing w g with
  | nil =>
    rcases h with ⟨o, ho, -⟩ | h
    · simp [asked] at ho
    · exact ⟨g, hj, h⟩
  | cons op ops ih =>
    rw [lrun] at h ⊢
    dsimp only at h ⊢
    by_cases hn : op = .next j
    · subst hn
      rw [asked_next] at h
      rcases h with ⟨o, ho, hf⟩ | h
      · rcases List.mem_cons.1 ho with rfl | ho
        · obtain ⟨g', hg', hov⟩ := step_ends rng seed w j (by
            rcases step_out rng seed w hj with h | h
            · rw [hf] at h; cases h
            · exact h)
          exact ih _ hg' (Or.inr hov)
        · obtain ⟨g', hg'⟩ := step_some rng seed w (.next j) hj
          exact ih _ hg' (Or.inl ⟨o, ho, hf⟩)
      · obtain ⟨-, g', hg', hov⟩ := over_next rng seed w hj h
        exact ih _ hg' (Or.inr hov)
    · rw [asked_other hn] at h
      exact ih _ (step_gens rng seed w op hj hn) h

theorem over_rs (rng : Rng γ) (seed : Int → γ) (w : LWorld α γ K) {j : Nat} {g : Gen α γ K}
    (hj : w.gens[j]? = some g) (hg : g.over) :
    (lstep rng seed w (.next j)).1 = .stopped ∧ (lstep rng seed w (.next j)).2.rs = w.rs := by
  refine ⟨(over_next rng seed w hj hg).1, ?_⟩
  have hupd : ∀ src : Source γ, src.update w.rs (src.state seed w.rs) = w.rs := by
    intro src
    funext r'
    cases src with
    | object r'' =>
      simp only [Source.update, Source.state]
      split
      · rename_i h; rw [h]
      · rfl
    | _ => rfl
  cases g with
  | grouped a src b =>
    cases b with
    | finished => rw [(kind_grouped rng seed j a).next w src _ hj]; exact hupd src
    | _ => exact absurd hg id
  | whole n src b =>
    cases b with
    | finished => rw [(kind_whole rng seed j n).next w src _ hj]; exact hupd src
    | _ => exact absurd hg id
  | predefined folds =>
    cases folds with
    | nil => rw [lstep, hj]
    | cons f fs => exact absurd hg id

theorem kfoldDraws_snd (rng : Rng γ) {k : Nat} (sh : Bool) (labels gs : List α)
    (h : ∀ g ∈ gs, k ≤ labels.count g) (s : γ) :
    (kfoldDraws rng k sh labels s gs).2 =
      if sh then Spec.advance rng.shuffle s (gs.map (fun g => labels.count g)) else s := by
  induction gs generalizing s with
  | nil => cases sh <;> rfl
  | cons g gs ih =>
    have hg := h g (by simp)
    have hk : ∃ tests, kfold rng k sh s (members labels g).length =
        .ok (tests, if sh then (rng.shuffle s (labels.count g)).2 else s) := by
      unfold kfold
      rw [length_members, if_neg (by omega)]
      cases sh <;> exact ⟨_, rfl⟩
    obtain ⟨tests, he⟩ := hk
    unfold kfoldDraws
    rw [he]
    dsimp only
    have := ih (fun g hg => h g (by simp [hg])) (if sh then (rng.shuffle s (labels.count g)).2 else s)
    cases hd : kfoldDraws rng k sh labels (if sh then (rng.shuffle s (labels.count g)).2 else s) gs with
    | mk r s' =>
      rw [hd] at this
      dsimp only at this
      cases sh with
      | false => cases r <;> simpa using this
      | true =>
        simp only [if_true] at this
        cases r <;> simpa [Spec.advance] using this

theorem shuffleMark_snd (rng : Rng γ) (c : ShuffleConfig K) (labels gs : List α) (s : γ)
    (mask m : List Bool) (h : (shuffleMark rng c labels s mask gs).1 = .ok m) :
    (shuffleMark rng c labels s mask gs).2 =
      if c.shuffle then Spec.advance rng.shuffle s (gs.map (fun g => labels.count g)) else s := by
  induction gs generalizing s mask with
  | nil => cases hc : c.shuffle <;> rfl
  | cons g gs ih =>
    unfold shuffleMark at h ⊢
    cases ht : trainTestSplit rng c s (members labels g) with
    | error e => rw [ht] at h; cases h
    | ok r =>
      obtain ⟨tr, te, s'⟩ := r
      have hs' : s' = if c.shuffle then (rng.shuffle s (labels.count g)).2 else s := by
        unfold trainTestSplit at ht
        rw [length_members] at ht
        split at ht
        · cases ht
        · split at ht
          · rename_i hc
            rw [if_pos hc]; cases ht; rfl
          · rename_i hc
            rw [if_neg hc]; cases ht; rfl
      rw [ht] at h
      dsimp only at h ⊢
      rw [ih _ _ h, hs']
      cases hc : c.shuffle <;> simp [Spec.advance]

/-- **C124**, `KFoldWithinGroups`.  At its first `next` a generator shuffles one array per
group with the `RandomState` it was given, in the increasing order of the labels - and nothing
at all if `shuffle=False` -; at every later `next` it draws nothing.  So whoever uses the same
`RandomState` afterwards finds it in a state that is settled by the sizes of the groups. -/
theorem C124_kfold (rng : Rng γ) (seed : Int → γ) (w w' : LWorld α γ K) (k : Int) (hk : 2 ≤ k)
    (shuffle : Bool) (r a id : Nat)
    (hop : lstep rng seed w (.split (.kfold k shuffle (.object r)) (w.arr a).length (some a)) =
      (.opened id, w'))
    (ops : List (LOp α K)) (w₂ : LWorld α γ K) (hw₂ : w₂ = (lrun rng seed w' ops).2)
    (order : List α) (hsort : order.Pairwise (· < ·)) (hmem : ∀ g, g ∈ order ↔ g ∈ w₂.arr a) :
    ((.next id : LOp α K) ∉ ops → w₂.arr a ≠ [] → (∀ g ∈ w₂.arr a, k ≤ (w₂.arr a).count g) →
      (lstep rng seed w₂ (.next id)).2.rs r =
        if shuffle then
          Spec.advance rng.shuffle (w₂.rs r) (order.map (fun g => (w₂.arr a).count g))
        else w₂.rs r) ∧
    ((.next id : LOp α K) ∈ ops → (lstep rng seed w₂ (.next id)).2.rs = w₂.rs) := by
  have hcons : (Splitter.kfold k shuffle (.object r) : Splitter K).construct = .ok () := by
    rw [Splitter.construct, if_neg (by omega)]
  have hlen0 : (w₂.arr a).length = (w.arr a).length := by
    rw [hw₂, run_arr_length]
    rw [lstep, Splitter.make, hcons] at hop
    cases hop
    rfl
  have hgen : w'.gens[id]? =
      some (.grouped a (.object r) (.kfold k.toNat shuffle (w.arr a).length)) := by
    rw [lstep, Splitter.make, hcons] at hop
    cases hop
    simp [RState.source]
  have horder : order = npUnique (w₂.arr a) :=
    eq_of_sorted_of_mem hsort (sorted_npUnique _) (fun x => (hmem x).trans (mem_npUnique _ _).symm)
  constructor
  · intro hn hne hg
    have hgen2 := (run_untouched rng seed ops w' hgen hn).1
    rw [← hw₂] at hgen2
    rw [(kind_grouped rng seed id a).next w₂ _ _ hgen2]
    dsimp only [Source.update, Source.state]
    rw [if_pos rfl, next_kfold, if_neg (by simp [hlen0]), if_neg (by
      obtain ⟨g, hgf⟩ := List.exists_mem_of_ne_nil _ hne
      have := hg g hgf
      have := List.count_le_length (l := w₂.arr a) (a := g)
      omega)]
    have hsnd := kfoldDraws_snd rng (k := k.toNat) shuffle (w₂.arr a) (npUnique (w₂.arr a))
      (fun g h => by
        have := hg g ((mem_npUnique _ _).1 h)
        omega) (w₂.rs r)
    rw [← horder] at hsnd ⊢
    cases hd : kfoldDraws rng k.toNat shuffle (w₂.arr a) (w₂.rs r) order with
    | mk res s' =>
      rw [hd] at hsnd
      cases res with
      | error e => exact hsnd
      | ok iters => exact hsnd
  · intro hn
    -- once asked, the generator stands in its loop or has ended
    have hstands : ∀ (ops : List (LOp α K)) (v : LWorld α γ K) (src : Source γ) (b : Body α K),
        v.gens[id]? = some (.grouped a src b) →
        ((.next id : LOp α K) ∈ ops ∨ b = .finished ∨ ∃ n its f, b = .kfoldAt k.toNat n its f) →
        (b = .finished ∨ (∃ n its f, b = .kfoldAt k.toNat n its f) ∨
          ∃ n, b = .kfold k.toNat shuffle n) →
        ∃ src' b', (lrun rng seed v ops).2.gens[id]? = some (.grouped a src' b') ∧
          (b' = .finished ∨ ∃ n its f, b' = .kfoldAt k.toNat n its f) := by
      have hround : ∀ (L : List α) n its f,
          (kfoldRound (K := K) L k.toNat n its f).2 = .finished ∨
            ∃ n' its' f', (kfoldRound (K := K) L k.toNat n its f).2 = .kfoldAt k.toNat n' its' f' := by
        intro L n its f
        unfold kfoldRound
        split
        · cases kfoldMark L f (List.replicate n false) its with
          | error e => left; rfl
          | ok m => right; exact ⟨_, _, _, rfl⟩
        · left; rfl
      intro ops
      induction ops with
      | nil =>
        intro v src b hb h1 h2
        refine ⟨src, b, hb, ?_⟩
        simpa using h1
      | cons o ops ih =>
        intro v src b hb h1 h2
        have hlt : id < v.gens.length := (List.getElem?_eq_some_iff.1 hb).1
        rw [lrun]
        dsimp only
        by_cases ho : o = .next id
        · subst ho
          have hafter : (b.next rng (v.arr a) (src.state seed v.rs)).2.2 = .finished ∨
              ∃ n its f, (b.next rng (v.arr a) (src.state seed v.rs)).2.2 =
                .kfoldAt k.toNat n its f := by
            rcases h2 with rfl | ⟨n, its, f, rfl⟩ | ⟨n, rfl⟩
            · left; rfl
            · exact hround _ _ _ _
            · rw [next_kfold]
              split
              · left; rfl
              · split
                · left; rfl
                · cases hd : kfoldDraws rng k.toNat shuffle (v.arr a) (src.state seed v.rs)
                    (npUnique (v.arr a)) with
                  | mk res s' =>
                    cases res with
                    | error e => left; rfl
                    | ok iters => exact hround _ _ _ _
          refine ih _ _ _ (by
            rw [(kind_grouped rng seed id a).next v src b hb]
            exact List.getElem?_set_self hlt) (Or.inr hafter) ?_
          rcases hafter with h | h
          · exact Or.inl h
          · exact Or.inr (Or.inl h)
        · refine ih _ src b (step_gens rng seed v o hb ho) ?_ h2
          rcases h1 with h1 | h1
          · left
            rcases List.mem_cons.1 h1 with h1 | h1
            · exact absurd h1.symm ho
            · exact h1
          · exact Or.inr h1
    obtain ⟨src', b', hb', hcase⟩ := hstands ops w' _ _ hgen (Or.inl hn) (Or.inr (Or.inr ⟨_, rfl⟩))
    rw [← hw₂] at hb'
    have hsame : (b'.next rng (w₂.arr a) (src'.state seed w₂.rs)).2.1 = src'.state seed w₂.rs := by
      rcases hcase with rfl | ⟨n, its, f, rfl⟩ <;> rfl
    rw [(kind_grouped rng seed id a).next w₂ _ _ hb']
    dsimp only
    rw [hsame]
    funext r'
    cases src' with
    | object r'' =>
      simp only [Source.update, Source.state]
      split
      · rename_i h; rw [h]
      · rfl
    | _ => rfl

/-- **C124**, `ShuffleSplitWithinGroups`.  Every `next` that yields a fold shuffles one array
per group with the `RandomState` the splitter was given, in the increasing order of the labels
there were at the first `next` - and nothing at all if `shuffle=False` -; a `next` that ends
the generator draws nothing. -/
theorem C124_shuffle (rng : Rng γ) (seed : Int → γ) (w : LWorld α γ K) (c : ShuffleConfig K)
    (hinit : Spec.SizesAllowed c.testSize.spec c.trainSize.spec) (r a id : Nat)
    (w' : LWorld α γ K)
    (hop : lstep rng seed w (.split (.shuffle c (.object r)) (w.arr a).length (some a)) =
      (.opened id, w'))
    (pre : List (LOp α K)) (hpre : (.next id : LOp α K) ∉ pre)
    (order : List α) (hsort : order.Pairwise (· < ·))
    (hmem : ∀ g, g ∈ order ↔ g ∈ (lrun rng seed w' pre).2.arr a)
    (ops : List (LOp α K)) (w₂ : LWorld α γ K) (out : Out)
    (hhead : ∀ o ∈ ops.head?, o = .next id) (hw₂ : w₂ = (lrun rng seed w' (pre ++ ops)).2)
    (hout : out = (lstep rng seed w₂ (.next id)).1) :
    (∀ fold, out = .yielded fold → (lstep rng seed w₂ (.next id)).2.rs r =
      if c.shuffle then
        Spec.advance rng.shuffle (w₂.rs r) (order.map (fun g => (w₂.arr a).count g))
      else w₂.rs r) ∧
    (out = .stopped → (lstep rng seed w₂ (.next id)).2.rs = w₂.rs) := by
  have hcons : (Splitter.shuffle c (.object r) : Splitter K).construct = .ok () :=
    (validateInit_iff _ _).1 hinit
  have hlen0 : ∀ ops, ((lrun rng seed w' ops).2.arr a).length = (w.arr a).length := by
    intro ops
    rw [run_arr_length]
    rw [lstep, Splitter.make, hcons] at hop
    cases hop
    rfl
  have hgen : w'.gens[id]? = some (.grouped a (.object r) (.shuffle c (w.arr a).length)) := by
    rw [lstep, Splitter.make, hcons] at hop
    cases hop
    simp [RState.source]
  obtain ⟨hgen1, hasked1⟩ := run_untouched rng seed pre w' hgen hpre
  have horder : npUnique ((lrun rng seed w' pre).2.arr a) = order :=
    eq_of_sorted_of_mem (sorted_npUnique _) hsort (fun x => (mem_npUnique _ _).trans (hmem x).symm)
  by_cases hfolds : ∀ o ∈ asked id ops (lrun rng seed (lrun rng seed w' pre).2 ops).1,
      o.isFold = true
  · obtain ⟨hle, src', b, hb, hobj, hnext⟩ := shuffle_at (kind_grouped rng seed id a)
      (fun _ _ => rfl) _ c (.object r) hgen1 (hlen0 pre) ops hhead hfolds
    have := hobj r rfl
    subst this
    rw [lrun_append] at hw₂
    dsimp only at hw₂
    rw [← hw₂, horder] at hnext
    rw [← hw₂] at hb
    generalize c.nSplits.toNat -
      (asked id ops (lrun rng seed (lrun rng seed w' pre).2 ops).1).length = left at hnext
    rw [hout, (kind_grouped rng seed id a).next w₂ _ _ hb]
    dsimp only [Source.state]
    rw [hnext]
    constructor
    · intro fold hy
      dsimp only [Source.update]
      rw [if_pos rfl]
      cases left with
      | zero => cases hy
      | succ left =>
        unfold shuffleRound at hy ⊢
        have := shuffleMark_snd rng c (w₂.arr a) order (w₂.rs r)
          (List.replicate (w.arr a).length false)
        cases hm : shuffleMark rng c (w₂.arr a) (w₂.rs r)
            (List.replicate (w.arr a).length false) order with
        | mk res s' =>
          rw [hm] at hy this
          cases res with
          | error e => cases hy
          | ok m => exact this m rfl
    · intro hstop
      cases left with
      | zero =>
        funext r'
        simp only [shuffleRound, Source.update]
        split
        · rename_i h; rw [h]
        · rfl
      | succ left =>
        unfold shuffleRound at hstop
        cases hm : shuffleMark rng c (w₂.arr a) (w₂.rs r)
            (List.replicate (w.arr a).length false) order with
        | mk res s' =>
          rw [hm] at hstop
          cases res <;> cases hstop
  · -- a `next` has not yielded: the generator has ended
    push Not at hfolds
    obtain ⟨o, ho, hnf⟩ := hfolds
    rw [lrun_append] at hw₂
    dsimp only at hw₂
    obtain ⟨g, hg, hover⟩ := run_over rng seed ops _ hgen1 (Or.inl ⟨o, ho, by simpa using hnf⟩)
    rw [← hw₂] at hg
    obtain ⟨h1, h2⟩ := over_rs rng seed w₂ hg hover
    rw [hout, h1]
    exact ⟨(by intro fold h; cases h), fun _ => h2⟩

/-! ### Examples -/

/-- Six samples in two groups, `4` with the samples 0, 2, 4 and `7` with 1, 3, 5. -/
def exTwo : LWorld Int Nat ℚ := ⟨fun _ => 0, fun _ => [4, 7, 4, 7, 4, 7], []⟩

/-- The situation of `C123_kfold`: three folds without shuffling.  After the first fold the
labels of the samples 2 and 3 are exchanged, so that the samples 0, 3, 4 are group `4` now:
position 1 of that group, due in the second fold, is sample 3.  Then sample 5 leaves group
`7`, whose position 2 is due in the third fold. -/
example : (2 : Int) ≤ 3 ∧ ([4, 7, 4, 7, 4, 7] : List Int) ≠ [] ∧
    (∀ g ∈ ([4, 7, 4, 7, 4, 7] : List Int), (3 : Int) ≤ (([4, 7, 4, 7, 4, 7] : List Int).count g : Int)) ∧
    (lrun reverseRng (fun _ => 0) exTwo
      [.split (.kfold 3 false (.seed 0)) 6 (some 0), .next 0, .write 0 2 7, .write 0 3 4, .next 0,
        .write 0 5 9, .next 0, .next 0]).1 =
      [.opened 0, .yielded ([2, 3, 4, 5], [0, 1]), .none, .none, .yielded ([0, 1, 4, 5], [2, 3]),
        .none, .raised .indexError, .stopped] := by
  refine ⟨by decide, by decide, by decide, ?_⟩
  decide +kernel

/-- The situation of `C123_shuffle` and `C124_shuffle`: one test sample per group.  After the
first fold two samples leave group `4`, which makes it too small; the next `next` raises.  The
generator has used its `RandomState` twice, for a group of three samples each time. -/
example : Spec.SizesAllowed exConfig.testSize.spec exConfig.trainSize.spec ∧
    (lrun rotateRng (fun _ => 0) exTwo
      [.split (.shuffle ⟨3, .int 1, .none, true⟩ (.object 5)) 6 (some 0), .next 0,
        .write 0 0 7, .write 0 2 7, .next 0, .next 0]).1 =
      [.opened 0, .yielded ([1, 2, 4, 5], [0, 3]), .none, .none, .raised .valueError, .stopped] ∧
    (lrun rotateRng (fun _ => 0) exTwo
      [.split (.shuffle ⟨3, .int 1, .none, true⟩ (.object 5)) 6 (some 0), .next 0]).2.rs 5 =
      Spec.advance rotateRng.shuffle 0 [3, 3] ∧
    Spec.advance rotateRng.shuffle 0 [3, 3] = 2 := by
  refine ⟨?_, ?_, ?_, ?_⟩
  · refine ⟨Or.inl (by simp [exConfig, Size.spec]), ?_, ?_, ?_⟩ <;> simp [exConfig, Size.spec]
  · decide +kernel
  · decide +kernel
  · decide +kernel

/-- The situation of `C124_kfold`: the first `next` shuffles two groups, the later ones
nothing. -/
example : (lrun rotateRng (fun _ => 0) exTwo
      [.split (.kfold 3 true (.object 5)) 6 (some 0), .next 0]).2.rs 5 = 2 ∧
    (lrun rotateRng (fun _ => 0) exTwo
      [.split (.kfold 3 true (.object 5)) 6 (some 0), .next 0, .next 0, .next 0, .next 0]).2.rs 5 =
      2 := by
  decide +kernel

/-- Three generators over five samples in two groups, asked for their folds in turn; the two
that shuffle share one `RandomState`, from which somebody else draws as well. -/
def exOps : List (LOp Int ℚ) :=
  [.split (.kfold 2 true (.object 0)) 5 (some 0), .split (.interlaced 2) 5 none,
    .split (.shuffle ⟨2, .int 1, .none, true⟩ (.object 0)) 5 (some 0),
    .next 2, .next 0, .next 1, .draw 0 4, .next 2, .next 1, .next 0, .next 2, .next 1, .next 0]

/-- The hypotheses of `C118_kfold_partition` and of the other theorems about histories are met by this history: no label is overwritten,
and every group has two members at least. -/
example : (∀ i v, (.write 0 i v : LOp Int ℚ) ∉ exOps) ∧
    (∀ g ∈ ([7, 4, 7, 7, 4] : List Int), (2 : Int) ≤ (([7, 4, 7, 7, 4] : List Int).count g : Int)) ∧
    (lrun rotateRng (fun _ => 0) ⟨fun _ => 0, fun _ => [7, 4, 7, 7, 4], []⟩ exOps).1 =
      [.opened 0, .opened 1, .opened 2,
        .yielded ([0, 3, 4], [1, 2]), .yielded ([3, 4], [0, 1, 2]), .yielded ([1, 3], [0, 2, 4]),
        .none,
        .yielded ([1, 2, 3], [0, 4]), .yielded ([0, 2, 4], [1, 3]), .yielded ([0, 1, 2], [3, 4]),
        .stopped, .stopped, .stopped] := by
  refine ⟨by simp [exOps], by decide, ?_⟩
  decide +kernel

end Kam.Split

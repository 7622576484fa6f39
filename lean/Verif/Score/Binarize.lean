/-
C160: `binarize_score` interrupted, repeated, and in several threads.
-/
import Verif.Score.Steps
import Verif.Score.Props

set_option linter.unusedSectionVars false

namespace Kam
namespace Bin
open Spec
variable {K α φ ε : Type} [Field K] [LinearOrder K] [IsStrictOrderedRing K] [FloorRing K] [LinearOrder α]

/-! ### Specification -/

/-- The binary score of `x`. -/
def Spec.binary (t x : K) : K := if x ≤ t then 0 else 1

/-- When the scores `sc`, once binarized with `t`, stay as they are when they are binarized with `t` again. -/
def Spec.Stable (t : K) (sc : List K) : Prop := ((∃ s ∈ sc, s ≤ t) → 0 ≤ t) ∧ ((∃ s ∈ sc, t < s) → t < 1)

/-! ### Lemmas -/

lemma binary_le {t x : K} (h : x ≤ t) : Bin.Spec.binary t x = 0 := if_pos h

lemma binary_lt {t x : K} (h : t < x) : Bin.Spec.binary t x = 1 := if_neg (not_le.2 h)

lemma binarize_eq {d : ScoreData K α φ ε} {sc : List K} (hs : d.score = some sc) (t : K) :
    d.binarizeScore (some t) = .ok { d with
      score := some (sc.map (Bin.Spec.binary t)), scoreDomain := some [0, 1, 1], nScoreLevels := some 2 } := by
  unfold ScoreData.binarizeScore
  simp [hs, bind, Except.bind, pure, Except.pure, Bin.Spec.binary]

lemma stable_iff (t : K) (sc : List K) :
    Bin.Spec.Stable t sc ↔ (sc.map (Bin.Spec.binary t)).map (Bin.Spec.binary t) = sc.map (Bin.Spec.binary t) := by
  rw [List.map_map]
  constructor
  · rintro ⟨h0, h1⟩
    apply List.map_congr_left
    intro s hs
    simp only [Function.comp_apply]
    rcases le_or_gt s t with h | h
    · rw [binary_le h, binary_le (h0 ⟨s, hs, h⟩)]
    · rw [binary_lt h, binary_lt (h1 ⟨s, hs, h⟩)]
  · intro h
    rw [List.map_inj_left] at h
    constructor
    · rintro ⟨s, hs, hle⟩
      have := h s hs
      rw [Function.comp_apply, binary_le hle] at this
      by_contra hc
      rw [binary_lt (not_le.1 hc)] at this
      exact one_ne_zero this
    · rintro ⟨s, hs, hlt⟩
      have := h s hs
      rw [Function.comp_apply, binary_lt hlt] at this
      by_contra hc
      rw [binary_le (not_lt.1 hc)] at this
      exact zero_ne_one this

lemma run_eq {d : ScoreData K α φ ε} {sc : List K} (hs : d.score = some sc) (t : K) (thresh : Option K)
    (ht : exec thresh (⟨0, []⟩, d) 0 = .ok (⟨t, []⟩, d)) (n : Nat) (hn : n ≤ 5) :
    run thresh n d = .ok { d with
      score := if 2 < n then some (sc.map (Bin.Spec.binary t)) else some sc
      scoreDomain := if 3 < n then some [0, 1, 1] else d.scoreDomain
      nScoreLevels := if 4 < n then some 2 else d.nScoreLevels } := by
  obtain ⟨b, dom, score, lev⟩ := d
  simp only at hs
  subst hs
  unfold run
  have hn' : n = 0 ∨ n = 1 ∨ n = 2 ∨ n = 3 ∨ n = 4 ∨ n = 5 := by omega
  have e1 : ∀ (l : Locals K) (dom : Option (List K)) (xs : List K) (lev : Option Int),
      exec thresh (l, (⟨b, dom, some xs, lev⟩ : ScoreData K α φ ε)) 1 = .ok (⟨l.thresh, xs.map (Bin.Spec.binary l.thresh)⟩, ⟨b, dom, some xs, lev⟩) :=
    fun _ _ _ _ => rfl
  have e2 : ∀ (s : Locals K × ScoreData K α φ ε), exec thresh s 2 = .ok (s.1, { s.2 with score := some s.1.scores }) := fun _ => rfl
  have e3 : ∀ (s : Locals K × ScoreData K α φ ε), exec thresh s 3 = .ok (s.1, { s.2 with scoreDomain := some [0, 1, 1] }) := fun _ => rfl
  have e4 : ∀ (s : Locals K × ScoreData K α φ ε), exec thresh s 4 = .ok (s.1, { s.2 with nScoreLevels := some 2 }) := fun _ => rfl
  rcases hn' with rfl | rfl | rfl | rfl | rfl | rfl <;>
    simp [List.range_succ, ht, e1, e2, e3, e4, bind, Except.bind, pure, Except.pure, Except.map]

lemma exec_none {d : ScoreData K α φ ε} {lo hi : K} {rest : List K} (hd : d.scoreDomain = some (lo :: hi :: rest)) (l : Locals K) :
    exec none (l, d) 0 = .ok ({ l with thresh := (lo + hi) / 2 }, d) := by
  have g0 : npGet (lo :: hi :: rest) 0 = .ok lo := npGet_ofNat (lo :: hi :: rest) 0 (by simp)
  have g1 : npGet (lo :: hi :: rest) 1 = .ok hi := npGet_ofNat (lo :: hi :: rest) 1 (by simp)
  have hm : (hi - lo) / 2 + lo = (lo + hi) / 2 := by ring
  simp only [exec, hd, g0, g1, bind, Except.bind, pure, Except.pure, hm]

/-! ### C160: interrupted and repeated calls -/

/-- C160: after the first `n` steps of a call with threshold `t`, the scores, the domain and the number of levels are the old ones or those of
the completed call, and `n` says which; nothing else changes. -/
theorem C160_points {d : ScoreData K α φ ε} {rows : List (List α)} {sc : List K} (h : ScoreBuilt d rows sc) (t : K) {d1 : ScoreData K α φ ε}
    (h1 : d.binarizeScore (some t) = .ok d1) (n : Nat) (hn : n ≤ 5) :
    ∃ d', run (some t) n d = .ok d' ∧ d'.toEventData = d.toEventData ∧ d'.score = (if 2 < n then d1.score else d.score) ∧
      d'.scoreDomain = (if 3 < n then d1.scoreDomain else d.scoreDomain) ∧
      d'.nScoreLevels = (if 4 < n then d1.nScoreLevels else d.nScoreLevels) := by
  obtain ⟨_, i2, _, _⟩ := h.inv
  rw [binarize_eq i2, Except.ok.injEq] at h1
  subst h1
  refine ⟨_, run_eq i2 t (some t) rfl n hn, rfl, ?_, rfl, rfl⟩
  simp only [i2]

/-- C160: likewise without a threshold. -/
theorem C160_points_default {d : ScoreData K α φ ε} {rows : List (List α)} {sc : List K} (h : ScoreBuilt d rows sc) {lo hi : K}
    {rest : List K} (hd : d.scoreDomain = some (lo :: hi :: rest)) (n : Nat) (hn : n ≤ 5) :
    run none n d = run (some ((lo + hi) / 2)) n d := by
  obtain ⟨_, i2, _, _⟩ := h.inv
  rw [run_eq i2 ((lo + hi) / 2) none (exec_none hd _) n hn, run_eq i2 ((lo + hi) / 2) (some _) rfl n hn]

/-- C160: all steps together are the call. -/
theorem C160_completed {d : ScoreData K α φ ε} {rows : List (List α)} {sc : List K} (h : ScoreBuilt d rows sc) (t : K) :
    run (some t) 5 d = d.binarizeScore (some t) := by
  obtain ⟨_, i2, _, _⟩ := h.inv
  rw [run_eq i2 t (some t) rfl 5 le_rfl, binarize_eq i2]
  rfl

/-- C160: repeating an interrupted call with the same threshold gives what an uninterrupted one gives if and only if the scores were not
replaced yet or the threshold separates the zeros and ones among the binary scores. -/
theorem C160_retry_iff {d d' : ScoreData K α φ ε} {rows : List (List α)} {sc : List K} (h : ScoreBuilt d rows sc) (t : K) (n : Nat)
    (hn : n ≤ 5) (hr : run (some t) n d = .ok d') :
    d'.binarizeScore (some t) = d.binarizeScore (some t) ↔ n ≤ 2 ∨ Bin.Spec.Stable t sc := by
  obtain ⟨_, i2, _, _⟩ := h.inv
  rw [run_eq i2 t (some t) rfl n hn, Except.ok.injEq] at hr
  subst hr
  rw [stable_iff, binarize_eq i2]
  by_cases h2 : 2 < n
  · rw [binarize_eq (sc := sc.map (Bin.Spec.binary t)) (by simp [h2])]
    have : ¬ n ≤ 2 := by omega
    simp [this]
  · rw [binarize_eq (sc := sc) (by simp [h2])]
    have : n ≤ 2 := by omega
    simp [this]

/-- C160: with the default threshold only an interruption between the assignments of the scores and of the domain can do harm. -/
theorem C160_retry_default_iff {d d' : ScoreData K α φ ε} {rows : List (List α)} {sc : List K} (h : ScoreBuilt d rows sc) {lo hi : K}
    {rest : List K} (hd : d.scoreDomain = some (lo :: hi :: rest)) (n : Nat) (hn : n ≤ 5) (hr : run none n d = .ok d') :
    d'.binarizeScore none = d.binarizeScore none ↔ n ≠ 3 ∨ Bin.Spec.Stable ((lo + hi) / 2) sc := by
  obtain ⟨_, i2, _, _⟩ := h.inv
  rw [run_eq i2 ((lo + hi) / 2) none (exec_none hd _) n hn, Except.ok.injEq] at hr
  rw [ScoreData.binarize_none hd]
  by_cases h3 : 3 < n
  · have hdom : d'.scoreDomain = some (0 :: 1 :: [1]) := by rw [← hr]; simp [h3]
    have hsc : d'.score = some (sc.map (Bin.Spec.binary ((lo + hi) / 2))) := by rw [← hr]; simp [show 2 < n by omega]
    have htd : d'.toEventData = d.toEventData := by rw [← hr]
    rw [ScoreData.binarize_none hdom, binarize_eq hsc, binarize_eq i2, htd]
    have hne : n ≠ 3 := by omega
    have hmap : (sc.map (Bin.Spec.binary ((lo + hi) / 2))).map (Bin.Spec.binary (((0 : K) + 1) / 2)) =
        sc.map (Bin.Spec.binary ((lo + hi) / 2)) := by
      rw [List.map_map]
      apply List.map_congr_left
      intro s _
      simp only [Function.comp_apply]
      rcases le_or_gt s ((lo + hi) / 2) with hx | hx
      · rw [binary_le hx, binary_le (by norm_num)]
      · rw [binary_lt hx, binary_lt (by norm_num)]
    rw [hmap]
    simp [hne]
  · have hdom : d'.scoreDomain = some (lo :: hi :: rest) := by rw [← hr]; simp [h3, hd]
    have hrun : run (some ((lo + hi) / 2)) n d = .ok d' := by rw [run_eq i2 _ (some _) rfl n hn, hr]
    rw [ScoreData.binarize_none hdom, C160_retry_iff h _ n hn hrun]
    constructor
    · rintro (h4 | h4)
      · exact .inl (by omega)
      · exact .inr h4
    · rintro (h4 | h4)
      · exact .inl (by omega)
      · exact .inr h4

/-- C160: what a second call with any threshold makes of binary scores: nothing if it is between the levels, otherwise all scores become equal. -/
theorem C160_twice {d d1 d2 : ScoreData K α φ ε} {rows : List (List α)} {sc : List K} (h : ScoreBuilt d rows sc) (t u : K)
    (h1 : d.binarizeScore (some t) = .ok d1) (h2 : d1.binarizeScore (some u) = .ok d2) :
    (0 ≤ u → u < 1 → d2 = d1) ∧ (1 ≤ u → d2.score = some (List.replicate sc.length 0)) ∧
    (u < 0 → d2.score = some (List.replicate sc.length 1)) := by
  obtain ⟨_, i2, _, _⟩ := h.inv
  rw [binarize_eq i2, Except.ok.injEq] at h1
  subst h1
  rw [binarize_eq (sc := sc.map (Bin.Spec.binary t)) rfl, Except.ok.injEq] at h2
  subst h2
  have key : ∀ (c : K), (∀ s : K, Bin.Spec.binary u (Bin.Spec.binary t s) = c) →
      (sc.map (Bin.Spec.binary t)).map (Bin.Spec.binary u) = List.replicate sc.length c := by
    intro c hc
    rw [List.map_map, List.eq_replicate_iff]
    refine ⟨by simp, ?_⟩
    intro b hb
    rw [List.mem_map] at hb
    obtain ⟨s, -, rfl⟩ := hb
    exact hc s
  have hb01 : ∀ s : K, Bin.Spec.binary t s = 0 ∨ Bin.Spec.binary t s = 1 := by
    intro s
    unfold Bin.Spec.binary
    split
    · exact .inl rfl
    · exact .inr rfl
  refine ⟨?_, ?_, ?_⟩
  · intro h0 h1
    have : (sc.map (Bin.Spec.binary t)).map (Bin.Spec.binary u) = sc.map (Bin.Spec.binary t) := by
      rw [List.map_map]
      apply List.map_congr_left
      intro s _
      simp only [Function.comp_apply]
      rcases hb01 s with h | h
      · rw [h]; exact binary_le h0
      · rw [h]; exact binary_lt h1
    rw [this]
  · intro h1
    refine congrArg some (key 0 ?_)
    intro s
    rcases hb01 s with h | h
    · rw [h]; exact binary_le (le_trans zero_le_one h1)
    · rw [h]; exact binary_le h1
  · intro h0
    refine congrArg some (key 1 ?_)
    intro s
    rcases hb01 s with h | h
    · rw [h]; exact binary_lt h0
    · rw [h]; exact binary_lt (lt_trans h0 zero_lt_one)

/-! ### Lemmas on threads -/

/-- The scores after calls with the thresholds of the threads in `o`, one after another. -/
def chain (t : Nat → K) (sc : List K) (o : List Nat) : List K := o.foldl (fun xs i => xs.map (Bin.Spec.binary (t i))) sc

lemma sequential_eq (t : Nat → K) (o : List Nat) (ho : o ≠ []) {d : ScoreData K α φ ε} {sc : List K} (hs : d.score = some sc) :
    o.foldlM (fun d i => d.binarizeScore (some (t i))) d = .ok { d with
      score := some (chain t sc o), scoreDomain := some [0, 1, 1], nScoreLevels := some 2 } := by
  induction o generalizing d sc with
  | nil => exact absurd rfl ho
  | cons i o ih =>
    rw [List.foldlM_cons, binarize_eq hs]
    simp only [bind, Except.bind]
    by_cases h : o = []
    · subst h; rfl
    · rw [ih h (sc := sc.map (Bin.Spec.binary (t i))) rfl]
      rfl

lemma chain_same (t : K) {sc : List K} (h : Bin.Spec.Stable t sc) (o : List Nat) (ho : o ≠ []) :
    chain (fun _ => t) sc o = sc.map (Bin.Spec.binary t) := by
  rw [stable_iff] at h
  cases o with
  | nil => exact absurd rfl ho
  | cons i o =>
    show chain (fun _ => t) (sc.map (Bin.Spec.binary t)) o = _
    clear ho
    induction o with
    | nil => rfl
    | cons j o ih =>
      show chain (fun _ => t) ((sc.map (Bin.Spec.binary t)).map (Bin.Spec.binary t)) o = _
      rw [h]; exact ih

/-- What holds at any moment while threads binarize with the thresholds `t`. -/
structure Joint (t : Nat → K) (sc : List K) (d : ScoreData K α φ ε) (s : Shared K α φ ε) : Prop where
  base : s.data.toEventData = d.toEventData
  score : ∃ o : List Nat, o.Nodup ∧ (∀ j ∈ o, 3 ≤ s.done j) ∧ s.data.score = some (chain t sc o) ∧ (o = [] → ∀ j, s.done j < 3)
  thresh : ∀ i, 1 ≤ s.done i → (s.locals i).thresh = t i
  scores : ∀ i, 2 ≤ s.done i → ∃ o : List Nat, o.Nodup ∧ i ∈ o ∧ (∀ j ∈ o, 3 ≤ s.done j ∨ j = i) ∧ (s.locals i).scores = chain t sc o
  domain : ∀ i, 4 ≤ s.done i → s.data.scoreDomain = some [0, 1, 1]
  domain' : s.data.scoreDomain = d.scoreDomain ∨ s.data.scoreDomain = some [0, 1, 1]
  levels : ∀ i, 5 ≤ s.done i → s.data.nScoreLevels = some 2
  levels' : s.data.nScoreLevels = d.nScoreLevels ∨ s.data.nScoreLevels = some 2
  raised : ∀ i, s.raised i = none
  bound : ∀ i, s.done i ≤ 5

lemma joint_start (t : Nat → K) {sc : List K} {d : ScoreData K α φ ε} (hs : d.score = some sc) :
    Joint t sc d ⟨d, fun _ => 0, fun _ => ⟨0, []⟩, fun _ => none⟩ where
  base := rfl
  score := ⟨[], List.nodup_nil, by simp, hs, by simp⟩
  thresh := fun _ h => absurd h (by simp)
  scores := fun _ h => absurd h (by simp)
  domain := fun _ h => absurd h (by simp)
  domain' := .inl rfl
  levels := fun _ h => absurd h (by simp)
  levels' := .inl rfl
  raised := fun _ => rfl
  bound := fun _ => by simp

lemma le_update {f : Nat → Nat} {i k c : Nat} (h : c ≤ Function.update f i (f i + 1) k) : c ≤ f k ∨ (k = i ∧ c = f i + 1) := by
  by_cases hk : k = i
  · subst hk
    rw [Function.update_self] at h
    omega
  · rw [Function.update_of_ne hk] at h
    exact .inl h

lemma update_le {f : Nat → Nat} {i k : Nat} : f k ≤ Function.update f i (f i + 1) k := by
  by_cases hk : k = i
  · subst hk; rw [Function.update_self]; omega
  · rw [Function.update_of_ne hk]

lemma joint_step {t : Nat → K} {sc : List K} {d : ScoreData K α φ ε} {s : Shared K α φ ε} (h : Joint t sc d s) (i : Nat) :
    Joint t sc d (step (fun j => some (t j)) s i) ∧
    ∀ k, (step (fun j => some (t j)) s i).done k = if k = i then min (s.done k + 1) 5 else s.done k := by
  unfold step
  rw [h.raised i]
  have hb := h.bound i
  by_cases h5 : 5 ≤ s.done i
  · rw [if_pos (.inr h5)]
    refine ⟨h, fun k => ?_⟩
    split
    · rename_i hk; subst hk; omega
    · rfl
  rw [if_neg (by simp; omega)]
  have hdone : ∀ k, Function.update s.done i (s.done i + 1) k = if k = i then min (s.done k + 1) 5 else s.done k := by
    intro k
    by_cases hk : k = i
    · subst hk; rw [Function.update_self, if_pos rfl]; omega
    · rw [Function.update_of_ne hk, if_neg hk]
  have hbound : ∀ k, Function.update s.done i (s.done i + 1) k ≤ 5 := by
    intro k; rw [hdone]; have := h.bound k; split <;> omega
  have kscore : s.done i ≠ 2 → ∃ o : List Nat, o.Nodup ∧ (∀ j ∈ o, 3 ≤ Function.update s.done i (s.done i + 1) j) ∧
      s.data.score = some (chain t sc o) ∧ (o = [] → ∀ j, Function.update s.done i (s.done i + 1) j < 3) := by
    intro hne
    obtain ⟨o, h1, h2, h3, h4⟩ := h.score
    refine ⟨o, h1, fun j hj => le_trans (h2 j hj) update_le, h3, fun ho j => ?_⟩
    have hj := h4 ho j
    rw [hdone]
    split
    · rename_i hk; subst hk; omega
    · exact hj
  have kthresh : s.done i ≠ 0 → ∀ l, l.thresh = (s.locals i).thresh → ∀ k, 1 ≤ Function.update s.done i (s.done i + 1) k →
      (Function.update s.locals i l k).thresh = t k := by
    intro hne l hl k hk
    by_cases hki : k = i
    · subst hki
      rw [Function.update_self, hl]
      exact h.thresh k (by omega)
    · rw [Function.update_of_ne hki] at hk ⊢
      exact h.thresh k hk
  have kscores : s.done i ≠ 1 → ∀ l, l.scores = (s.locals i).scores → ∀ k, 2 ≤ Function.update s.done i (s.done i + 1) k →
      ∃ o : List Nat, o.Nodup ∧ k ∈ o ∧ (∀ j ∈ o, 3 ≤ Function.update s.done i (s.done i + 1) j ∨ j = k) ∧
      (Function.update s.locals i l k).scores = chain t sc o := by
    intro hne l hl k hk
    have h2 : 2 ≤ s.done k := by
      rcases le_update hk with h2 | ⟨-, h2⟩ <;> omega
    obtain ⟨o, g1, g2, g3, g4⟩ := h.scores k h2
    refine ⟨o, g1, g2, fun j hj => (g3 j hj).imp (fun h => le_trans h update_le) id, ?_⟩
    by_cases hki : k = i
    · subst hki
      rw [Function.update_self, hl, g4]
    · rw [Function.update_of_ne hki, g4]
  have kdomain : s.done i ≠ 3 → ∀ k, 4 ≤ Function.update s.done i (s.done i + 1) k → s.data.scoreDomain = some [0, 1, 1] := by
    intro hne k hk
    rcases le_update hk with h2 | ⟨-, h2⟩
    · exact h.domain k h2
    · omega
  have klevels : s.done i ≠ 4 → ∀ k, 5 ≤ Function.update s.done i (s.done i + 1) k → s.data.nScoreLevels = some 2 := by
    intro hne k hk
    rcases le_update hk with h2 | ⟨-, h2⟩
    · exact h.levels k h2
    · omega
  have hcase : s.done i = 0 ∨ s.done i = 1 ∨ s.done i = 2 ∨ s.done i = 3 ∨ s.done i = 4 := by omega
  rcases hcase with hn | hn | hn | hn | hn
  · have he : exec (some (t i)) (s.locals i, s.data) (s.done i) = .ok (⟨t i, (s.locals i).scores⟩, s.data) := by rw [hn]; rfl
    simp only [he]
    refine ⟨⟨h.base, kscore (by omega), ?_, kscores (by omega) _ rfl, kdomain (by omega), h.domain', klevels (by omega), h.levels', h.raised,
      hbound⟩, hdone⟩
    intro k hk
    by_cases hki : k = i
    · subst hki; simp only [Function.update_self]
    · simp only [Function.update_of_ne hki] at hk ⊢
      exact h.thresh k hk
  · obtain ⟨o, g1, g2, g3, g4⟩ := h.score
    have he : exec (some (t i)) (s.locals i, s.data) (s.done i) =
        .ok (⟨(s.locals i).thresh, (chain t sc o).map (Bin.Spec.binary (t i))⟩, s.data) := by
      rw [hn]
      simp only [exec, g3, h.thresh i (by omega)]
      rfl
    simp only [he]
    refine ⟨⟨h.base, kscore (by omega), kthresh (by omega) _ rfl, ?_, kdomain (by omega), h.domain', klevels (by omega), h.levels', h.raised,
      hbound⟩, hdone⟩
    intro k hk
    by_cases hki : k = i
    · subst hki
      refine ⟨o ++ [k], ?_, by simp, ?_, ?_⟩
      · rw [List.nodup_append]
        refine ⟨g1, by simp, ?_⟩
        intro a ha b hb hab
        rw [List.mem_singleton] at hb
        subst hab hb
        have := g2 _ ha
        omega
      · intro j hj
        rw [List.mem_append, List.mem_singleton] at hj
        exact hj.imp (fun hj => le_trans (g2 j hj) update_le) id
      · simp only [Function.update_self, chain, List.foldl_append, List.foldl_cons, List.foldl_nil]
    · simp only [Function.update_of_ne hki] at hk ⊢
      obtain ⟨o, g1, g2, g3, g4⟩ := h.scores k hk
      exact ⟨o, g1, g2, fun j hj => (g3 j hj).imp (fun h => le_trans h update_le) id, g4⟩
  · have he : exec (some (t i)) (s.locals i, s.data) (s.done i) = .ok (s.locals i, { s.data with score := some (s.locals i).scores }) := by
      rw [hn]; rfl
    simp only [he]
    refine ⟨⟨h.base, ?_, kthresh (by omega) _ rfl, kscores (by omega) _ rfl, kdomain (by omega), h.domain', klevels (by omega), h.levels',
      h.raised, hbound⟩, hdone⟩
    obtain ⟨o, g1, g2, g3, g4⟩ := h.scores i (by omega)
    refine ⟨o, g1, fun j hj => ?_, by rw [g4], fun ho => by rw [ho] at g2; simp at g2⟩
    rcases g3 j hj with g | rfl
    · exact le_trans g update_le
    · simp only [Function.update_self]; omega
  · have he : exec (some (t i)) (s.locals i, s.data) (s.done i) = .ok (s.locals i, { s.data with scoreDomain := some [0, 1, 1] }) := by
      rw [hn]; rfl
    simp only [he]
    exact ⟨⟨h.base, kscore (by omega), kthresh (by omega) _ rfl, kscores (by omega) _ rfl, fun _ _ => rfl, .inr rfl, klevels (by omega),
      h.levels', h.raised, hbound⟩, hdone⟩
  · have he : exec (some (t i)) (s.locals i, s.data) (s.done i) = .ok (s.locals i, { s.data with nScoreLevels := some 2 }) := by
      rw [hn]; rfl
    simp only [he]
    exact ⟨⟨h.base, kscore (by omega), kthresh (by omega) _ rfl, kscores (by omega) _ rfl, kdomain (by omega), h.domain', fun _ _ => rfl,
      .inr rfl, h.raised, hbound⟩, hdone⟩

lemma joint_schedule {t : Nat → K} {sc : List K} {d : ScoreData K α φ ε} (hs : d.score = some sc) (threads : List Nat) :
    Joint t sc d (schedule (fun j => some (t j)) d threads) ∧
    ∀ k, (schedule (fun j => some (t j)) d threads).done k = min (threads.count k) 5 := by
  induction threads using List.reverseRecOn with
  | nil => exact ⟨joint_start t hs, fun k => by simp [schedule]⟩
  | append_singleton l i ih =>
    have hsch : schedule (fun j => some (t j)) d (l ++ [i]) = step (fun j => some (t j)) (schedule (fun j => some (t j)) d l) i := by
      unfold schedule
      rw [List.foldl_append]
      rfl
    rw [hsch]
    obtain ⟨h1, h2⟩ := joint_step ih.1 i
    refine ⟨h1, fun k => ?_⟩
    rw [h2 k, ih.2 k, List.count_append, List.count_singleton]
    by_cases hk : k = i
    · subst hk; simp only [if_true, beq_self_eq_true]; omega
    · have hk' : (i == k) = false := by simpa using fun h => hk h.symm
      rw [if_neg hk, hk']
      simp

/-! ### C160: several threads -/

/-- C160: calls with thresholds in several threads, whatever the schedule: none raises, and when all that have started are finished, the
container is the one that some of the calls leave, made one after another (others may be lost). -/
theorem C160_threads {d : ScoreData K α φ ε} {rows : List (List α)} {sc : List K} (h : ScoreBuilt d rows sc) (t : Nat → K)
    (threads : List Nat) :
    (∀ i, (schedule (fun j => some (t j)) d threads).raised i = none) ∧
    (threads ≠ [] → (∀ i ∈ threads, 5 ≤ threads.count i) → ∃ o : List Nat, o ≠ [] ∧ o.Nodup ∧ (∀ i ∈ o, i ∈ threads) ∧
      o.foldlM (fun d i => d.binarizeScore (some (t i))) d = .ok (schedule (fun j => some (t j)) d threads).data) := by
  obtain ⟨_, i2, _, _⟩ := h.inv
  obtain ⟨hj, hd⟩ := joint_schedule (t := t) i2 threads
  refine ⟨hj.raised, fun hne hall => ?_⟩
  obtain ⟨i, hi⟩ := List.exists_mem_of_ne_nil _ hne
  have hi5 : (schedule (fun j => some (t j)) d threads).done i = 5 := by
    rw [hd i]; have := hall i hi; omega
  obtain ⟨o, g1, g2, g3, g4⟩ := hj.score
  have ho : o ≠ [] := by
    intro ho
    have := g4 ho i
    omega
  refine ⟨o, ho, g1, ?_, ?_⟩
  · intro j hjo
    have := g2 j hjo
    rw [hd j] at this
    by_contra hno
    rw [List.count_eq_zero.2 hno] at this
    simp at this
  · rw [sequential_eq t o ho i2]
    have e1 := hj.base
    have e2 := hj.domain i (by omega)
    have e3 := hj.levels i (by omega)
    generalize (schedule (fun j => some (t j)) d threads).data = d' at *
    obtain ⟨b, dom, score, lev⟩ := d'
    simp only at e1 e2 e3 g3
    subst e1 e2 e3 g3
    rfl

/-- C160: so if all calls have the same threshold, and it separates zeros and ones where both can occur, the container at the end is the one a
single call leaves. -/
theorem C160_threads_same {d d1 : ScoreData K α φ ε} {rows : List (List α)} {sc : List K} (h : ScoreBuilt d rows sc) (t : K)
    (hst : Bin.Spec.Stable t sc) (h1 : d.binarizeScore (some t) = .ok d1) (threads : List Nat) (hne : threads ≠ [])
    (hall : ∀ i ∈ threads, 5 ≤ threads.count i) : (schedule (fun _ => some t) d threads).data = d1 := by
  obtain ⟨o, ho, -, -, hseq⟩ := (C160_threads h (fun _ => t) threads).2 hne hall
  obtain ⟨_, i2, _, _⟩ := h.inv
  rw [sequential_eq (fun _ => t) o ho i2, chain_same t hst o ho, ← binarize_eq i2, h1, Except.ok.injEq] at hseq
  exact hseq.symm

/-! ### Examples -/

example : ScoreBuilt exRegular exEvent3.rows [1, 3, 5] ∧ (∃ d1, exRegular.binarizeScore (some 3) = .ok d1) ∧
    (∃ d', run (some 3) 3 exRegular = .ok d' ∧ d'.score = some [0, 0, 1] ∧ d'.scoreDomain = some [1, 5, 1]) ∧
    exRegular.scoreDomain = some (1 :: 5 :: [1]) ∧ (∃ d', run none 4 exRegular = .ok d') :=
  ⟨exRegular_built, ⟨_, rfl⟩, ⟨_, rfl, by decide +kernel, rfl⟩, rfl, ⟨_, rfl⟩⟩

example : Bin.Spec.Stable (1 / 2 : ℚ) [1, 3, 5] ∧ ¬ Bin.Spec.Stable (3 : ℚ) [1, 3, 5] := by
  constructor
  · exact ⟨fun _ => by norm_num, fun _ => by norm_num⟩
  · rintro ⟨-, h⟩
    have := h ⟨5, by simp, by norm_num⟩
    norm_num at this

example : ∃ d1 d2, exRegular.binarizeScore (some 3) = .ok d1 ∧ d1.binarizeScore (some 3) = .ok d2 ∧ d2.score = some [0, 0, 0] :=
  ⟨_, _, rfl, rfl, by decide +kernel⟩

/-- Two threads: the first reads the scores, then the second call is made, then the first goes on: the second call is lost. -/
example : (schedule (fun i => some (if i = 0 then 4 else 2)) exRegular [0, 0, 1, 1, 1, 1, 1, 0, 0, 0]).data.score = some [0, 0, 1] ∧
    (∀ i ∈ [0, 0, 1, 1, 1, 1, 1, 0, 0, 0], 5 ≤ [0, 0, 1, 1, 1, 1, 1, 0, 0, 0].count i) := by
  decide +kernel

/-- C160: the expectation "repeating an interrupted call gives what an uninterrupted one gives" is false of the code. -/
theorem C160_refuted :
    ¬ ∀ (d d' : ScoreData ℚ Nat Nat Nat) (rows : List (List Nat)) (sc : List ℚ) (t : ℚ) (n : Nat), ScoreBuilt d rows sc → n ≤ 5 →
      run (some t) n d = .ok d' → d'.binarizeScore (some t) = d.binarizeScore (some t) := by
  intro hall
  have h := hall exRegular _ _ _ 3 3 exRegular_built (by omega) rfl
  rw [C160_retry_iff exRegular_built 3 3 (by omega) rfl] at h
  rcases h with h | ⟨-, h⟩
  · omega
  · have := h ⟨5, by simp, by norm_num⟩
    norm_num at this

/-- C160: calls without a threshold in several threads need not be as some calls one after another: both can read the domain before one of them
replaces it. -/
theorem C160_threads_refuted :
    ¬ ∀ (d : ScoreData ℚ Nat Nat Nat) (rows : List (List Nat)) (sc : List ℚ) (threads : List Nat), ScoreBuilt d rows sc →
      d.scoreDomain ≠ none → threads ≠ [] → (∀ i ∈ threads, 5 ≤ threads.count i) →
      ∃ m, (List.replicate m ()).foldlM (fun d _ => d.binarizeScore none) d = .ok (schedule (fun _ => none) d threads).data := by
  intro hall
  obtain ⟨m, hm⟩ := hall exRegular _ _ [0, 1, 0, 0, 0, 0, 1, 1, 1, 1] exRegular_built (by simp [exRegular]) (by simp) (by decide)
  have hsc : (schedule (fun _ => none) exRegular [0, 1, 0, 0, 0, 0, 1, 1, 1, 1]).data.score = some [0, 0, 0] := by decide +kernel
  generalize (schedule (fun _ => none) exRegular [0, 1, 0, 0, 0, 0, 1, 1, 1, 1]).data = d' at hm hsc
  have hdom : exRegular.scoreDomain = some (1 :: 5 :: [1]) := rfl
  obtain ⟨d1, h1, -, -, -, ⟨sc', g1, g2, g3⟩, h2⟩ := C18_binarize exRegular_built ((1 + 5) / 2)
  rw [← C18_default_threshold hdom] at h1
  have hfix : ∀ m, (List.replicate m ()).foldlM (fun d _ => d.binarizeScore none) d1 = .ok d1 := by
    intro m
    induction m with
    | zero => rfl
    | succ m ih =>
      rw [List.replicate_succ, List.foldlM_cons, h2]
      exact ih
  cases m with
  | zero =>
    have : exRegular = d' := by cases hm; rfl
    subst this
    revert hsc
    decide +kernel
  | succ m =>
    rw [List.replicate_succ, List.foldlM_cons, h1] at hm
    have h3 : (List.replicate m ()).foldlM (fun d _ => d.binarizeScore none) d1 = .ok d' := hm
    rw [hfix m, Except.ok.injEq] at h3
    subst h3
    rw [g1, Option.some.injEq] at hsc
    subst hsc
    have := (g3 2 5 rfl).2 (by norm_num)
    revert this
    decide +kernel

end Bin
end Kam

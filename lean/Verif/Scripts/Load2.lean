/-
When loading a file succeeds, and what the container holds.
-/
import Verif.Scripts.Props6

set_option linter.unusedSectionVars false

namespace Kam.Scripts
open Spec

variable {K α φ ε F V T γ M : Type} [Field K] [LinearOrder K] [IsStrictOrderedRing K] [FloorRing K] [LinearOrder α]

/-- The score domain used for a file with the scores `sc` when `dom` is asked for: `dom` with a stride that is not zero, or,
when `dom` is `0 0 0`, the smallest score, the largest score and the smallest difference between two scores. -/
inductive DomainOf (dom sc : List K) : List K → Prop
  | given {lo hi st : K} : dom = [lo, hi, st] → st ≠ 0 → DomainOf dom sc [lo, hi, st]
  | estimated {lo hi st : K} : dom = [0, 0, 0] → (lo ∈ sc ∧ ∀ x ∈ sc, lo ≤ x) → (hi ∈ sc ∧ ∀ x ∈ sc, x ≤ hi) →
      (∃ x ∈ sc, ∃ y ∈ sc, x < y ∧ st = y - x) → (∀ x ∈ sc, ∀ y ∈ sc, x < y → st ≤ y - x) → DomainOf dom sc [lo, hi, st]

/-- The container of a table: two columns, users and items, without object features. -/
structure Holding (d : ScoreData K α φ ε) (t : Table K α ε) (sc dm : List K) : Prop where
  built : ScoreBuilt d t.event.rows sc
  otypes : d.eventOtypes = [0, 1]
  nOtypes : d.nOtypes = 2
  feature : d.feature = [none, none]
  eventFeature : d.eventFeature = t.feature
  domain : d.scoreDomain = some dm

/-- The domain asked for, as `load_data` passes it on. -/
def asked (dom : List K) : Option (List K) := if dom.all (fun x => decide (x = 0)) then none else some dom

lemma DomainOf.stride {dom sc dm : List K} (h : DomainOf dom sc dm) : ∃ lo hi st, dm = [lo, hi, st] ∧ st ≠ 0 := by
  cases h with
  | given _ h => exact ⟨_, _, _, rfl, h⟩
  | estimated _ _ _ h _ =>
    obtain ⟨x, _, y, _, hlt, e⟩ := h
    refine ⟨_, _, _, rfl, ?_⟩
    rw [e]
    exact (sub_pos.2 hlt).ne'

lemma levels_ok (lo hi st : K) (h : st ≠ 0) : ∃ n, ScoreData.levelsOfDomain [lo, hi, st] = .ok n := by
  refine ⟨pyInt ((hi - lo) / st) + 1, ?_⟩
  have g0 : npGet [lo, hi, st] 0 = .ok lo := rfl
  have g1 : npGet [lo, hi, st] 1 = .ok hi := rfl
  have g2 : npGet [lo, hi, st] 2 = .ok st := rfl
  unfold ScoreData.levelsOfDomain
  simp only [g0, g1, g2, ok_bind, if_neg h, pure, Except.pure]

lemma resolve_some_two {sc : List K} (h : ∃ x ∈ sc, ∃ y ∈ sc, x ≠ y) : ∃ lo hi st, ScoreData.resolveDomain sc none = .ok [lo, hi, st] ∧
    (lo ∈ sc ∧ ∀ x ∈ sc, lo ≤ x) ∧ (hi ∈ sc ∧ ∀ x ∈ sc, x ≤ hi) ∧
      (∃ x ∈ sc, ∃ y ∈ sc, x < y ∧ st = y - x) ∧ (∀ x ∈ sc, ∀ y ∈ sc, x < y → st ≤ y - x) := by
  obtain ⟨x, hx, y, hy, hxy⟩ := h
  have hne : sc ≠ [] := by rintro rfl; cases hx
  obtain ⟨lo, l1, l2, l3⟩ := npMin_ok hne
  obtain ⟨hi, u1, u2, u3⟩ := npMax_ok hne
  have hxU := (mem_npUnique x sc).2 hx
  have hyU := (mem_npUnique y sc).2 hy
  obtain ⟨g1, g2⟩ := npDiff_sorted (npUnique sc) (sorted_npUnique sc)
  have hdne : npDiff (npUnique sc) ≠ [] := by
    intro hnil
    rcases lt_or_gt_of_ne hxy with h | h
    · obtain ⟨g, hg, _⟩ := g2 x hxU y hyU h
      rw [hnil] at hg; cases hg
    · obtain ⟨g, hg, _⟩ := g2 y hyU x hxU h
      rw [hnil] at hg; cases hg
  obtain ⟨st, s1, s2, s3⟩ := npMin_ok hdne
  obtain ⟨a, ha, b, hb, hab, hst⟩ := g1 st s2
  refine ⟨lo, hi, st, ?_, ⟨l2, l3⟩, ⟨u2, u3⟩, ⟨a, (mem_npUnique a sc).1 ha, b, (mem_npUnique b sc).1 hb, hab, hst⟩, ?_⟩
  · unfold ScoreData.resolveDomain
    simp [l1, u1, s1, bind, Except.bind, pure, Except.pure]
  · intro p hp q hq hpq
    obtain ⟨g, hg, hgle⟩ := g2 p ((mem_npUnique p sc).2 hp) q ((mem_npUnique q sc).2 hq) hpq
    exact le_trans (s3 g hg) hgle

lemma resolve_constant {sc : List K} (hall : ∀ x ∈ sc, ∀ y ∈ sc, x = y) : ScoreData.resolveDomain sc none = .error .valueError := by
  unfold ScoreData.resolveDomain
  cases sc with
  | nil => rfl
  | cons x sc =>
    obtain ⟨lo, l1, _⟩ := npMin_ok (List.cons_ne_nil x sc)
    obtain ⟨hi, u1, _⟩ := npMax_ok (List.cons_ne_nil x sc)
    have huniq : npUnique (x :: sc) = [x] := by
      apply eq_of_sorted_of_mem (sorted_npUnique _) (by simp)
      intro z
      rw [mem_npUnique]
      constructor
      · intro hz
        rw [hall z hz x (by simp)]; simp
      · intro hz
        simp only [List.mem_singleton] at hz
        subst hz; simp
    simp [l1, u1, huniq, npDiff, npMin, bind, Except.bind]

/-- The domain is determined exactly when there is one. -/
lemma resolve_iff (dom sc dm : List K) (h3 : dom.length = 3) :
    (ScoreData.resolveDomain sc (asked dom) = .ok dm ∧ ∃ n, ScoreData.levelsOfDomain dm = .ok n) ↔ DomainOf dom sc dm := by
  obtain ⟨a, b, c, rfl⟩ := List.length_eq_three.1 h3
  by_cases hz : a = 0 ∧ b = 0 ∧ c = 0
  · obtain ⟨rfl, rfl, rfl⟩ := hz
    have e : asked [(0 : K), 0, 0] = none := by simp [asked]
    rw [e]
    constructor
    · rintro ⟨h1, n, h2⟩
      by_cases hall : ∀ x ∈ sc, ∀ y ∈ sc, x = y
      · rw [resolve_constant hall] at h1
        cases h1
      · push Not at hall
        obtain ⟨lo, hi, st, g1, g2, g3, g4, g5⟩ := resolve_some_two hall
        rw [g1] at h1
        cases h1
        exact .estimated rfl g2 g3 g4 g5
    · intro h
      have hs := h.stride
      cases h with
      | given h1 h2 => cases h1; exact absurd rfl h2
      | @estimated lo hi st _ h2 h3 h4 h5 =>
        obtain ⟨x, hx, y, hy, hlt, hst⟩ := h4
        obtain ⟨lo', hi', st', g1, g2, g3, ⟨x', hx', y', hy', hlt', hst'⟩, g5⟩ := resolve_some_two ⟨x, hx, y, hy, hlt.ne⟩
        have e1 : lo' = lo := le_antisymm (g2.2 _ h2.1) (h2.2 _ g2.1)
        have e2 : hi' = hi := le_antisymm (h3.2 _ g3.1) (g3.2 _ h3.1)
        have e3 : st' = st := le_antisymm (by rw [hst]; exact g5 _ hx _ hy hlt) (by rw [hst']; exact h5 _ hx' _ hy' hlt')
        subst e1 e2 e3
        obtain ⟨_, _, _, e, hne⟩ := hs
        cases e
        exact ⟨g1, levels_ok _ _ _ hne⟩
  · have e : asked [a, b, c] = some [a, b, c] := by
      unfold asked
      rw [if_neg]
      simpa using hz
    rw [e]
    constructor
    · rintro ⟨h1, n, h2⟩
      cases h1
      obtain ⟨_, _, _, _, e, hne⟩ := levels_ok_length h2
      cases e
      exact .given rfl hne
    · intro h
      cases h with
      | given h1 h2 => cases h1; exact ⟨rfl, levels_ok _ _ _ h2⟩
      | estimated h1 => cases h1; exact absurd ⟨rfl, rfl, rfl⟩ hz

lemma loadEvent_iff {t : Table K α ε} (ht : TableOk t) (dom dm : List K) (h3 : dom.length = 3) :
    (∀ d : ScoreData K α φ ε, loadEventWithScore t (asked dom) = .ok d → d.scoreDomain = some dm → DomainOf dom t.score dm) ∧
    (DomainOf dom t.score dm → ∃ d : ScoreData K α φ ε, loadEventWithScore t (asked dom) = .ok d ∧ d.scoreDomain = some dm) ∧
    (∀ d : ScoreData K α φ ε, loadEventWithScore t (asked dom) = .ok d → d.scoreDomain = some dm → Holding d t t.score dm) := by
  have hmain : ∀ d : ScoreData K α φ ε, loadEventWithScore t (asked dom) = .ok d → d.scoreDomain = some dm →
      DomainOf dom t.score dm ∧ Holding d t t.score dm := by
    intro d h hd
    obtain ⟨hb, dm', n, a1, a2, a3⟩ := loadEvent_built ht h
    rw [hd] at a3
    cases a3
    refine ⟨(resolve_iff dom _ dm h3).1 ⟨a1, n, a2⟩, ?_⟩
    unfold loadEventWithScore at h
    obtain ⟨d0, h0, h⟩ := bind_ok h
    have hs : d0.setEvent t.event t.score (asked dom) t.feature = .ok d := by
      unfold dropState at h
      split at h
      · cases h; assumption
      · cases h
    obtain ⟨e1, _⟩ := ScoreData.setEvent_ok hs
    unfold ScoreData.init at h0
    obtain ⟨b, hb0, h0⟩ := bind_ok h0
    simp only [pure, Except.pure, Except.ok.injEq] at h0
    subst h0
    have hr : Reachable b := .init hb0
    unfold EventData.init at hb0
    simp only [] at hb0
    cases hb0
    simp only [] at e1
    rw [EventData.setEvent_eq _ hr.wf _ ht.regular ht.cols] at e1
    simp only [Except.ok.injEq] at e1
    refine ⟨hb, ?_, ?_, ?_, ?_, hd⟩ <;> rw [← e1] <;> rfl
  refine ⟨fun d h hd => (hmain d h hd).1, ?_, fun d h hd => (hmain d h hd).2⟩
  intro hD
  obtain ⟨h1, n, h2⟩ := (resolve_iff dom _ dm h3).2 hD
  unfold loadEventWithScore
  have hi : (ScoreData.init 2 .none : Res (ScoreData K α φ ε)) = .ok ⟨⟨2, [0, 0], [none, none], [none, none], [none, none], 2, [0, 1], 0, none, none⟩, none, none, none⟩ := rfl
  have hr : Reachable (⟨2, [0, 0], [none, none], [none, none], [none, none], 2, [0, 1], 0, none, none⟩ : EventData α φ ε) :=
    .init (n := 2) (arg := .none) rfl
  rw [hi, ok_bind]
  unfold ScoreData.setEvent
  rw [EventData.setEvent_eq _ hr.wf _ ht.regular ht.cols, h1]
  simp only [h2]
  exact ⟨_, rfl, rfl⟩

/-- The score-predictor script loads a file exactly when there is a domain; the container then holds the file's events
and scores. -/
theorem loadDataSP_iff {read : F → Res (Table K α ε)} {f : F} {t : Table K α ε} (hr : read f = .ok t) (ht : TableOk t)
    (dom dm : List K) (h3 : dom.length = 3) :
    (∀ d, (loadDataSP read : Loader K α φ ε F) f dom = .ok (d, dm) → DomainOf dom t.score dm ∧ Holding d t t.score dm) ∧
    (DomainOf dom t.score dm → ∃ d, (loadDataSP read : Loader K α φ ε F) f dom = .ok (d, dm)) := by
  obtain ⟨h1, h2, h4⟩ := loadEvent_iff (φ := φ) ht dom dm h3
  constructor
  · intro d h
    unfold loadDataSP at h
    rw [hr, ok_bind] at h
    obtain ⟨d', h5, h⟩ := bind_ok h
    split at h
    · rename_i dm' hd
      simp only [pure, Except.pure, Except.ok.injEq, Prod.mk.injEq] at h
      obtain ⟨rfl, rfl⟩ := h
      exact ⟨h1 _ h5 hd, h4 _ h5 hd⟩
    · cases h
  · intro hD
    obtain ⟨d, h5, h6⟩ := h2 hD
    refine ⟨d, ?_⟩
    unfold loadDataSP
    rw [hr, ok_bind, show (if dom.all (fun x => decide (x = 0)) then none else some dom) = asked dom from rfl, h5, ok_bind, h6]
    rfl

/-- The scores of the item-finder script: 1 above the middle of the domain, else 0. -/
def binarized (dm : List K) (sc : List K) : List K :=
  sc.map (fun x => if x ≤ (dm.getD 0 0 + dm.getD 1 0) / 2 then 0 else 1)

/-- The item-finder script loads a file exactly when there is a domain; the container then holds the file's events and
binary scores. -/
theorem loadDataIF_iff {read : F → Res (Table K α ε)} {f : F} {t : Table K α ε} (hr : read f = .ok t) (ht : TableOk t)
    (dom dm : List K) (h3 : dom.length = 3) :
    (∀ d, (loadDataIF read : Loader K α φ ε F) f dom = .ok (d, dm) →
      DomainOf dom t.score dm ∧ Holding d t (binarized dm t.score) [0, 1, 1] ∧ d.nScoreLevels = some 2) ∧
    (DomainOf dom t.score dm → ∃ d, (loadDataIF read : Loader K α φ ε F) f dom = .ok (d, dm)) := by
  obtain ⟨h1, h2, h4⟩ := loadEvent_iff (φ := φ) ht dom dm h3
  have key : ∀ d : ScoreData K α φ ε, Holding d t t.score dm → DomainOf dom t.score dm →
      ∃ d' : ScoreData K α φ ε, d.binarizeScore none = .ok d' ∧ Holding d' t (binarized dm t.score) [0, 1, 1] ∧ d'.nScoreLevels = some 2 := by
    intro d hd hD
    obtain ⟨lo, hi, st, rfl, _⟩ := hD.stride
    have hs := hd.built.inv.2.1
    have e := ScoreData.binarize_none hd.domain
    have e' : d.binarizeScore (some ((lo + hi) / 2)) = .ok { d with
        score := some (t.score.map (fun x => if x ≤ (lo + hi) / 2 then 0 else 1))
        scoreDomain := some [0, 1, 1]
        nScoreLevels := some 2 } := by
      unfold ScoreData.binarizeScore
      simp only [ok_bind, hs]
      rfl
    rw [e'] at e
    exact ⟨_, e, ⟨.binarizeDefault hd.built hd.domain e, hd.otypes, hd.nOtypes, hd.feature, hd.eventFeature, rfl⟩, rfl⟩
  constructor
  · intro d h
    unfold loadDataIF at h
    rw [hr, ok_bind] at h
    obtain ⟨d', h5, h⟩ := bind_ok h
    split at h
    · rename_i dm' hd
      obtain ⟨d2, h6, h⟩ := bind_ok h
      simp only [pure, Except.pure, Except.ok.injEq, Prod.mk.injEq] at h
      obtain ⟨rfl, rfl⟩ := h
      have hD := h1 _ h5 hd
      obtain ⟨d3, k1, k2⟩ := key _ (h4 _ h5 hd) hD
      rw [h6] at k1
      cases k1
      exact ⟨hD, k2⟩
    · cases h
  · intro hD
    obtain ⟨d, h5, h6⟩ := h2 hD
    obtain ⟨d3, k1, k2⟩ := key _ (h4 _ h5 h6) hD
    refine ⟨d3, ?_⟩
    unfold loadDataIF
    rw [hr, ok_bind, show (if dom.all (fun x => decide (x = 0)) then none else some dom) = asked dom from rfl, h5, ok_bind, h6]
    simp only []
    rw [k1, ok_bind]
    rfl

/-- Whether there is a domain: given with a stride that is not zero, or `0 0 0` and two different scores. -/
theorem exists_domain (a b c : K) (sc : List K) :
    (∃ dm, DomainOf [a, b, c] sc dm) ↔ c ≠ 0 ∨ (a = 0 ∧ b = 0 ∧ c = 0 ∧ ∃ x ∈ sc, ∃ y ∈ sc, x ≠ y) := by
  constructor
  · rintro ⟨dm, h⟩
    cases h with
    | given h1 h2 => cases h1; exact .inl h2
    | estimated h1 _ _ h2 _ =>
      cases h1
      obtain ⟨x, hx, y, hy, hlt, _⟩ := h2
      exact .inr ⟨rfl, rfl, rfl, x, hx, y, hy, hlt.ne⟩
  · rintro (h | ⟨rfl, rfl, rfl, h⟩)
    · exact ⟨_, .given rfl h⟩
    · obtain ⟨lo, hi, st, g1, g2, g3, g4, g5⟩ := resolve_some_two h
      exact ⟨_, .estimated rfl g2 g3 g4 g5⟩

end Kam.Scripts

/-
Renaming objects: training, prediction and splitting depend on the order of the external ids only.
-/
import Verif.Relabel.Data
import Verif.Rec.Model
import Verif.Split.Model

set_option linter.unusedSectionVars false

namespace Kam.Relabel

variable {α β φ ε : Type} [LinearOrder α] [LinearOrder β]

section recommender
variable {K γ θ V : Type}

/-- A recommender after renaming: only its id tables change. -/
def recommender (f : Nat → α → β) (r : Rec K α φ ε γ θ V) : Rec K β φ ε γ θ V where
  info := data f r.info
  eventIndex := r.eventIndex
  score := r.score
  scoreDomain := r.scoreDomain
  nScoreLevels := r.nScoreLevels
  seed := r.seed
  rng := r.rng
  params := r.params
  fitResults := r.fitResults

theorem eventFit_relabel (f : Nat → α → β) (mk : Int → γ) (g : γ) (r : Rec K α φ ε γ θ V) (d : EventData α φ ε)
    (idx : Option (List Int)) :
    Rec.eventFit mk g (recommender f r) (data f d) idx = mutMap (recommender f) (Rec.eventFit mk g r d idx) := by
  cases idx <;>
  · simp only [Rec.eventFit, Rec.baseFit]
    have h1 : (data f d).event = d.event := rfl
    have h2 : (data f d).sEvent = d.sEvent := rfl
    have h3 : (data f d).nObjects = d.nObjects := rfl
    have h4 : (data f d).eventOtypes = d.eventOtypes := rfl
    rw [h1, h2, h3, h4]
    cases d.event with
    | none => rfl
    | some rs =>
      simp only
      split
      · rfl
      · cases npTake d.nObjects (d.eventOtypes.map Int.ofNat) with
        | error e => rfl
        | ok ns =>
          simp only
          split <;> rfl

theorem view_relabel (f : Nat → α → β) (r : Rec K α φ ε γ θ V) : (recommender f r).view = r.view := rfl

theorem finish_relabel (f : Nat → α → β) (L : Learner K γ θ V) (r : Rec K α φ ε γ θ V) :
    Rec.finish L (recommender f r) = mutMap (recommender f) (Rec.finish L r) := by
  simp only [Rec.finish, view_relabel]
  cases L.train r.view with
  | error e => rfl
  | ok p => rfl

/-- `fit` of a score predictor. -/
theorem fitPredictor_relabel (f : Nat → α → β) (L : Learner K γ θ V) (mk : Int → γ) (g : γ) (r : Rec K α φ ε γ θ V)
    (d : ScoreData K α φ ε) (idx : Option (List Int)) :
    Rec.fitPredictor L mk g (recommender f r) (scoreData f d) idx = mutMap (recommender f) (Rec.fitPredictor L mk g r d idx) := by
  simp only [Rec.fitPredictor, Rec.predictorSuperFit]
  have h : (scoreData f d).toEventData = data f d.toEventData := rfl
  rw [h, eventFit_relabel]
  cases Rec.eventFit mk g r d.toEventData idx with
  | error e => rfl
  | ok r' => exact finish_relabel f L (Rec.setScoreInfo r' d)

/-- `fit` of an explicit item finder. -/
theorem fitExplicit_relabel [Field K] [LinearOrder K] (f : Nat → α → β) (L : Learner K γ θ V) (mk : Int → γ) (g : γ)
    (r : Rec K α φ ε γ θ V) (d : ScoreData K α φ ε) (idx : Option (List Int)) :
    Rec.fitExplicit L mk g (recommender f r) (scoreData f d) idx = mutMap (recommender f) (Rec.fitExplicit L mk g r d idx) := by
  simp only [Rec.fitExplicit, Rec.explicitSuperFit]
  have h : (scoreData f d).toEventData = data f d.toEventData := rfl
  have h' : acceptsBinary (scoreData f d) = acceptsBinary d := rfl
  rw [h, eventFit_relabel, h']
  cases Rec.eventFit mk g r d.toEventData idx with
  | error e => rfl
  | ok r' =>
    simp only [mutMap]
    cases acceptsBinary d with
    | false => rfl
    | true => exact finish_relabel f L (Rec.setScoreInfo r' d)

/-- `fit` of an implicit item finder. -/
theorem fitImplicit_relabel (f : Nat → α → β) (L : Learner K γ θ V) (mk : Int → γ) (g : γ) (r : Rec K α φ ε γ θ V)
    (d : EventData α φ ε) (idx : Option (List Int)) :
    Rec.fitImplicit L mk g (recommender f r) (data f d) idx = mutMap (recommender f) (Rec.fitImplicit L mk g r d idx) := by
  simp only [Rec.fitImplicit]
  rw [eventFit_relabel]
  cases Rec.eventFit mk g r d idx with
  | error e => rfl
  | ok r' => exact finish_relabel f L r'

/-- The columns chosen by `event_index` are of the types their positions stand for, as far as the renaming can tell:
it holds when all columns are taken in their order, and when all types are renamed alike. -/
def Aligned (f : Nat → α → β) (ots : List Nat) (ix : List Int) : Prop :=
  ∀ (n e : Nat) (i : Int) (p : Nat), ix[e]? = some i → npIndex n i = some p → f (ots.getD p 0) = f (ots.getD e 0)

theorem aligned_range (f : Nat → α → β) (ots : List Nat) (s : Nat) : Aligned f ots ((List.range s).map Int.ofNat) := by
  intro n e i p he hp
  rw [List.getElem?_map] at he
  cases h : (List.range s)[e]? with
  | none => rw [h] at he; cases he
  | some j =>
    rw [h] at he
    simp only [Option.map_some, Option.some.injEq] at he
    have hj : j = e := by
      obtain ⟨_, h'⟩ := List.getElem?_eq_some_iff.mp h
      rw [List.getElem_range] at h'
      exact h'.symm
    subst hj
    subst he
    have hlt : j < n := by
      have := npIndex_lt hp
      simp only [npIndex] at hp
      split at hp
      · split at hp
        · rename_i h1 h2; exact Int.ofNat_lt.mp h2
        · cases hp
      · rename_i h1; exact absurd (Int.natCast_nonneg j) h1
    have := npIndex_ofNat hlt
    simp only [Int.ofNat_eq_natCast] at hp
    rw [this] at hp
    cases hp
    rfl

theorem aligned_uniform (f : α → β) (ots : List Nat) (ix : List Int) : Aligned (fun _ => f) ots ix :=
  fun _ _ _ _ _ _ => rfl

theorem npGet_row' (f : Nat → α → β) (ots : List Nat) (r : List α) (i : Int) (t : Nat)
    (h : ∀ p, npIndex r.length i = some p → f (ots.getD p 0) = f t) :
    npGet (row f ots r) i = (npGet r i).map (f t) := by
  simp only [npGet, length_row]
  cases hp : npIndex r.length i with
  | none => rfl
  | some p =>
    simp only [getElem?_row, h p hp]
    cases r[p]? <;> rfl

theorem npTake_row {f : Nat → α → β} {ots : List Nat} {ix : List Int} (h : Aligned f ots ix) (r : List α) :
    npTake (row f ots r) ix = (npTake r ix).map (row f ots) := by
  have key : ∀ (l : List Int) (s : Nat),
      (∀ (e : Nat) (i : Int) (p : Nat), l[e]? = some i → npIndex r.length i = some p →
        f (ots.getD p 0) = f (ots.getD (s + e) 0)) →
      l.mapM (npGet (row f ots r)) = (l.mapM (npGet r)).map (fun xs => xs.mapIdx (fun e x => f (ots.getD (s + e) 0) x)) := by
    intro l
    induction l with
    | nil => intro s _; rfl
    | cons i l ih =>
      intro s hs
      have h0 := npGet_row' f ots r i (ots.getD s 0) (fun p hp => hs 0 i p rfl hp)
      have h1 := ih (s + 1) (fun e j p he hp => by
        have := hs (e + 1) j p (by simpa using he) hp
        rw [this]
        congr 2
        omega)
      simp only [List.mapM_cons, h0, h1]
      cases npGet r i with
      | error e => rfl
      | ok x =>
        cases l.mapM (npGet r) with
        | error e => rfl
        | ok xs =>
          simp only [Except.map, bind, Except.bind, pure, Except.pure, List.mapIdx_cons, Nat.add_zero, Except.ok.injEq,
            List.cons.injEq, true_and]
          apply List.ext_getElem?
          intro k
          simp only [List.getElem?_mapIdx]
          have : s + 1 + k = s + (k + 1) := by omega
          rw [this]
  have := key ix 0 (fun e i p he hp => by rw [Nat.zero_add]; exact h r.length e i p he hp)
  simp only [Nat.zero_add] at this
  exact this

theorem checkArray_arr (f : Nat → α → β) (ots : List Nat) (x : ArrN α) :
    Rec.checkArray (arr f ots x) = (Rec.checkArray x).map (fun a => ⟨a.ncols, rows f ots a.rows⟩) := by
  cases x with
  | vec xs =>
    simp only [Rec.checkArray, arr, bind, Except.bind, length_row, List.isEmpty_cons]
    split <;> rfl
  | mat a =>
    simp only [Rec.checkArray, arr, bind, Except.bind, rows, List.isEmpty_map]
    split <;> rfl
  | other => rfl

/-- `predict` of the renamed recommender for renamed events. -/
theorem predict_relabel {f : Nat → α → β} (hf : ∀ t, StrictMono (f t)) (L : Learner K γ θ V) (r : Rec K α φ ε γ θ V)
    (x : ArrN α) (ha : ∀ ix, r.eventIndex = some ix → Aligned f r.info.eventOtypes ix) :
    Rec.predict L (recommender f r) (arr f r.info.eventOtypes x) = Rec.predict L r x := by
  simp only [Rec.predict, checkArray_arr]
  have h1 : (recommender f r).eventIndex = r.eventIndex := rfl
  have h2 : (recommender f r).params = r.params := rfl
  have h3 : (recommender f r).info = data f r.info := rfl
  rw [h1, h2, h3]
  cases Rec.checkArray x with
  | error e => rfl
  | ok a =>
    simp only [Except.map, bind, Except.bind]
    cases hx : r.eventIndex with
    | none => rfl
    | some ix =>
      have hrows : (rows f r.info.eventOtypes a.rows).mapM (fun row => npTake row ix) =
          (a.rows.mapM (fun row => npTake row ix)).map (rows f r.info.eventOtypes) := by
        simp only [rows]
        rw [mapM_map]
        have := mapM_map_ok (row f r.info.eventOtypes) (fun row => npTake row ix) a.rows
        refine Eq.trans ?_ this
        exact mapM_congr _ (fun q _ => npTake_row (ha ix hx) q)
      simp only [hrows]
      cases a.rows.mapM (fun row => npTake row ix) with
      | error e => rfl
      | ok rs =>
        simp only [Except.map]
        have := toIidEvent_data hf r.info (.mat ⟨ix.length, rs⟩) .none
        simp only [arr] at this
        rw [this]

end recommender

/-! ### Splitting -/

section split
variable {K γ : Type} [Field K] [LinearOrder K] [IsStrictOrderedRing K] [FloorRing K]
open Split

theorem members_map {f : α → β} (hf : StrictMono f) (groups : List α) (g : α) :
    members (groups.map f) (f g) = members groups g := by
  simp only [members, List.length_map]
  refine List.filter_congr (fun i _ => ?_)
  simp only [List.getElem?_map]
  cases groups[i]? with
  | none => simp
  | some x => simp [hf.injective.eq_iff]

theorem shuffleMask_map {f : α → β} (hf : StrictMono f) (rng : Rng γ) (c : ShuffleConfig K) (groups gs : List α) (s : γ)
    (mask : List Bool) :
    shuffleMask rng c (groups.map f) s mask (gs.map f) = shuffleMask rng c groups s mask gs := by
  induction gs generalizing s mask with
  | nil => rfl
  | cons g gs ih =>
    simp only [List.map_cons, shuffleMask, members_map hf]
    cases trainTestSplit rng c s (members groups g) with
    | error e => rfl
    | ok p => exact ih _ _

theorem shuffleMasks_map {f : α → β} (hf : StrictMono f) (rng : Rng γ) (c : ShuffleConfig K) (groups : List α) (s : γ)
    (k : Nat) : shuffleMasks rng c (groups.map f) s k = shuffleMasks rng c groups s k := by
  induction k generalizing s with
  | zero => rfl
  | succ k ih =>
    simp only [shuffleMasks, npUnique_strictMono hf, shuffleMask_map hf, List.length_map]
    cases shuffleMask rng c groups s (List.replicate groups.length false) (npUnique groups) with
    | error e => rfl
    | ok p =>
      simp only
      rw [ih]

/-- `ShuffleSplitWithinGroups` with renamed groups. -/
theorem shuffleSplit_map {f : α → β} (hf : StrictMono f) (rng : Rng γ) (c : ShuffleConfig K) (s : γ) (n : Nat)
    (groups : Option (List α)) :
    shuffleSplitWithinGroups rng c s n (groups.map (List.map f)) = shuffleSplitWithinGroups rng c s n groups := by
  cases groups with
  | none => rfl
  | some g =>
    simp only [shuffleSplitWithinGroups, Option.map_some, Option.any_some, List.length_map, shuffleMasks_map hf]

theorem kfoldGroups_map {f : α → β} (hf : StrictMono f) (rng : Rng γ) (k : Nat) (sh : Bool) (groups gs : List α) (s : γ) :
    kfoldGroups rng k sh (groups.map f) s (gs.map f) =
      (kfoldGroups rng k sh groups s gs).map (List.map (fun p => (f p.1, p.2))) := by
  induction gs generalizing s with
  | nil => rfl
  | cons g gs ih =>
    simp only [List.map_cons, kfoldGroups, members_map hf]
    cases kfold rng k sh s (members groups g).length with
    | error e => rfl
    | ok p =>
      simp only [ih]
      cases kfoldGroups rng k sh groups p.2 gs <;> rfl

theorem kfoldMask_map {f : α → β} (hf : StrictMono f) (groups : List α) (fold : Nat) (mask : List Bool)
    (l : List (α × List (List Nat))) :
    kfoldMask (groups.map f) fold mask (l.map (fun p => (f p.1, p.2))) = kfoldMask groups fold mask l := by
  induction l generalizing mask with
  | nil => rfl
  | cons p l ih =>
    simp only [List.map_cons, kfoldMask, members_map hf]
    cases p.2[fold]? with
    | none => rfl
    | some t => exact ih _

/-- `KFoldWithinGroups` with renamed groups. -/
theorem kfoldWithinGroups_map {f : α → β} (hf : StrictMono f) (rng : Rng γ) (k : Int) (sh : Bool) (s : γ) (n : Nat)
    (groups : Option (List α)) :
    kfoldWithinGroups rng k sh s n (groups.map (List.map f)) = kfoldWithinGroups rng k sh s n groups := by
  cases groups with
  | none => rfl
  | some g =>
    have h : kfoldMasks rng k.toNat sh s (g.map f) = kfoldMasks rng k.toNat sh s g := by
      simp only [kfoldMasks, npUnique_strictMono hf, kfoldGroups_map hf, List.length_map]
      cases kfoldGroups rng k.toNat sh g s (npUnique g) with
      | error e => rfl
      | ok l =>
        simp only [Except.map]
        exact mapM_congr _ (fun i _ => kfoldMask_map hf g i _ l)
    simp only [kfoldWithinGroups, Option.map_some, Option.any_some, List.length_map, h]

end split

end Kam.Relabel

/-
C103, continued: which cross validations of logistic matrix factorization succeed whatever the random numbers are.
-/
import Verif.Exp.Examples
import Verif.Split.Props3
import Mathlib.Data.Finset.Card

set_option linter.unusedSectionVars false

namespace Kam.Exp
open Scripts Spec

variable {F α φ ε V T γ : Type} [LinearOrder α]

/-! ### A test part that holds a whole class -/

lemma inGroup_filter (users : List α) (u : α) (p : Nat → Prop) [DecidablePred p] :
    inGroup users u ((List.range users.length).filter (fun i => decide (p i))) =
      ((Finset.range users.length).filter (fun i => p i ∧ users[i]? = some u)).card := by
  unfold inGroup
  rw [List.filter_filter]
  have : (Finset.range users.length).filter (fun i => p i ∧ users[i]? = some u) =
      ((List.range users.length).filter (fun i => decide (users[i]? = some u) && decide (p i))).toFinset := by
    ext i
    simp only [Finset.mem_filter, Finset.mem_range, List.mem_toFinset, List.mem_filter, List.mem_range, Bool.and_eq_true, decide_eq_true_eq]
    tauto
  rw [this, List.toFinset_card_of_nodup (List.nodup_range.filter _)]

/-- If in every group the samples with a property are not more than the samples to be tested, they can all be tested. -/
lemma exists_test (users : List α) (p : Nat → Prop) (t : α → Nat) (ht : ∀ u, t u ≤ users.count u)
    (hp : ∀ u, open Classical in inGroup users u ((List.range users.length).filter (fun i => decide (p i))) ≤ t u) :
    ∃ T : List Nat, T.Pairwise (· < ·) ∧ (∀ i ∈ T, i < users.length) ∧ (∀ u, inGroup users u T = t u) ∧
      ∀ i, i < users.length → p i → i ∈ T := by
  classical
  have hall : ∀ u, ((Finset.range users.length).filter (fun i => users[i]? = some u)).card = users.count u := by
    intro u
    have := inGroup_filter users u (fun _ => True)
    simp only [decide_true, List.filter_true, true_and] at this
    rw [← this]
    have h := eventsOf_all (rows := users.map (fun x => [x])) (groups := users) (by simp) u
    rw [eventsOf_groups (groups := users) (by simp)] at h
    simpa using h
  have hex : ∀ u, ∃ S : Finset Nat, (Finset.range users.length).filter (fun i => p i ∧ users[i]? = some u) ⊆ S ∧
      S ⊆ (Finset.range users.length).filter (fun i => users[i]? = some u) ∧ S.card = t u := by
    intro u
    refine Finset.exists_subsuperset_card_eq ?_ ?_ ?_
    · intro i hi
      simp only [Finset.mem_filter] at hi ⊢
      exact ⟨hi.1, hi.2.2⟩
    · have := hp u
      rwa [inGroup_filter] at this
    · rw [hall]
      exact ht u
  choose S h1 h2 h3 using hex
  refine ⟨(List.range users.length).filter (fun i => decide (∃ u, users[i]? = some u ∧ i ∈ S u)), ?_, ?_, ?_, ?_⟩
  · exact List.Pairwise.filter _ List.pairwise_lt_range
  · intro i hi
    exact List.mem_range.1 (List.mem_of_mem_filter hi)
  · intro u
    rw [inGroup_filter, ← h3 u]
    congr 1
    ext i
    simp only [Finset.mem_filter, Finset.mem_range]
    constructor
    · rintro ⟨_, ⟨u', e, h⟩, e'⟩
      rw [e] at e'
      cases e'
      exact h
    · intro h
      have := h2 u h
      simp only [Finset.mem_filter, Finset.mem_range] at this
      exact ⟨this.1, ⟨u, this.2, h⟩, this.2⟩
  · intro i hi hpi
    rw [List.mem_filter, List.mem_range, decide_eq_true_eq]
    refine ⟨hi, users[i], List.getElem?_eq_getElem hi, h1 _ ?_⟩
    simp only [Finset.mem_filter, Finset.mem_range]
    exact ⟨hi, hpi, List.getElem?_eq_getElem hi⟩

/-! ### A loop that tests the same samples in every fold -/

/-- If every fold tests the same samples and a fold is run, the recommender is fitted to the others. -/
lemma cvLoop_same {M : Type} {env : Env ℝ α ε F V T γ} {clock : Nat → T} {rec : Recommender ℝ α φ ε V γ M} {seed : Option Int}
    {cfg : Split.ShuffleConfig ℝ} {data : ScoreData ℝ α φ ε} {ev : List (List α)} {users : List α} {target : Option Int}
    {Te : List Nat} (n : Nat) : ∀ (fold : Nat) (sys : Sys γ) (acc acc' : Acc V) (masks : List (List Bool)),
    Split.shuffleMasks env.gen cfg users sys.glob n = .ok masks →
    (∀ m ∈ masks, (List.range users.length).filter (fun i => m.getD i false) = Te) → wanted target fold n ≠ [] →
    cvLoop env clock rec seed cfg data ev users target n fold sys acc = .ok acc' →
    ∃ d g x, data.filterEvent (.index (((List.range users.length).filter (fun i => decide (i ∉ Te))).map Int.ofNat)) = .ok (some d) ∧
      rec.fit g d = .ok x := by
  induction n with
  | zero => intro fold sys acc acc' masks _ _ hw; exact absurd rfl hw
  | succ n ih =>
    intro fold sys acc acc' masks hm hT hw h
    unfold cvLoop at h
    obtain ⟨⟨mask, g⟩, h1, h⟩ := bind_ok h
    dsimp only at h
    unfold Split.shuffleMasks at hm
    rw [h1] at hm
    simp only [] at hm
    cases hms : Split.shuffleMasks env.gen cfg users g n with
    | error e => rw [hms] at hm; cases hm
    | ok ms =>
      rw [hms] at hm
      cases hm
      rw [wanted_succ] at hw
      split at h
      · rename_i hskip
        rw [if_pos hskip, List.nil_append] at hw
        exact ih _ ⟨g, sys.ticks⟩ _ _ _ hms (fun m hm => hT m (by simp [hm])) hw h
      · obtain ⟨⟨acc1, sys1⟩, h2, _⟩ := bind_ok h
        unfold cvFold at h2
        obtain ⟨d, h3, h2⟩ := bind_ok h2
        obtain ⟨⟨m, ti, sys2⟩, h4, _⟩ := bind_ok h2
        obtain ⟨od, h5, h3⟩ := bind_ok h3
        have e : (List.range users.length).filter (fun i => !(mask.getD i false)) =
            (List.range users.length).filter (fun i => decide (i ∉ Te)) := by
          apply List.filter_congr
          intro i hi
          have : i ∈ (List.range users.length).filter (fun i => mask.getD i false) ↔ i ∈ List.range users.length ∧ mask.getD i false = true :=
            List.mem_filter
          rw [hT mask (by simp)] at this
          by_cases hb : mask.getD i false = true
          · rw [hb, decide_eq_false (by simp only [this, hb, hi]; simp)]
            rfl
          · rw [Bool.not_eq_true] at hb
            rw [hb, decide_eq_true (by simp only [this, hb]; simp)]
            rfl
        rw [e] at h5
        cases od with
        | none => cases h3
        | some d' =>
          cases h3
          unfold training at h4
          obtain ⟨⟨m', res, g'⟩, h6, _⟩ := bind_ok h4
          unfold fitWith at h6
          cases seed with
          | none => exact ⟨d, _, _, h5, h6⟩
          | some s =>
            obtain ⟨g'', h7, h8⟩ := bind_ok h6
            obtain ⟨y, h9, _⟩ := bind_ok h8
            exact ⟨d, g'', y, h5, h9⟩

/-! ### C103 -/

/-- A generator of normal and Dirichlet numbers and a library around a given type of generator states. -/
noncomputable def plainLib (α φ ε : Type) (v : V) (γ : Type) : Lib α φ ε V γ where
  opt := fun _ _ _ x _ _ => ⟨x, true, 0, "", 0, 0, 0, 0⟩
  normal := ⟨fun g _ _ _ _ => (fun _ _ => 0, g)⟩
  dirichlet := ⟨fun g _ => (fun _ => 0, g)⟩
  after := fun g _ => g
  str := fun _ => ""
  leaf := fun _ => v
  mf := fun _ => .leaf v
  plsa := fun _ => .leaf v

/-- Encoders that write `v` for everything, with a given generator. -/
def plainEnv (α ε F T : Type) (v : V) {γ : Type} (rng : Split.Rng γ) (s : γ) : Env ℝ α ε F V T γ where
  gen := rng
  ofSeed := fun _ => .ok s
  entropy := s
  id := fun _ => v
  num := fun _ => v
  nat := fun _ => v
  int := fun _ => v
  bool := fun _ => v
  file := fun _ => v
  names := []
  field := fun _ _ => v
  iso := fun _ => v
  elapsed := fun _ _ => v
  elapsedU := fun _ _ => v

/-- If a script succeeds whatever the random numbers are, then also when no event with a label, of which no user has so many that one
is left, is in a training part: the model is fitted without it. -/
lemma left_out [Nonempty V] (clock : Nat → T) (environment : Dict String (J V)) (read : Bool → F → Res (Table ℝ α ε))
    {sc : Script} {o : Namespace F} (hm : o.method ∈ sc.choices) (hcv : o.validation = "cv") (hpos : 0 < o.fold)
    (hfold : ∀ i, o.foldNo = some i → 0 ≤ i ∧ i < o.fold)
    (h : ∀ (γ : Type) (env : Env ℝ α ε F V T γ) (lib : Lib α φ ε V γ), Ready env o → ∃ j, task env lib clock environment read sc o = .ok j)
    {d : ScoreData ℝ α φ ε} {dm dm' : List ℝ} {t : Table ℝ α ε} {scores : List ℝ}
    (hl : (loader read sc o.timestamp : Loader ℝ α φ ε F) (o.infile.getD o.infilep) o.domain = .ok (d, dm)) (hH : Holding d t scores dm')
    (h2 : TwoEach t.event.rows) {lab : List ℝ} {v : ℝ} (hnr : ¬ Robust t.event.rows lab v) :
    ∃ (γ : Type) (lib : Lib α φ ε V γ) (M : Type) (rec : Recommender ℝ α φ ε V γ M) (d' : ScoreData ℝ α φ ε) (train : List Nat) (g : γ)
      (x : M × Dict String (J V) × γ), Trained lib o sc M rec ∧ ScoreBuilt d' (gather t.event.rows train) (gather scores train) ∧
      d'.eventOtypes = [0, 1] ∧ rec.fit g d' = .ok x ∧ (t.event.rows ≠ [] → gather t.event.rows train ≠ []) ∧
      v ∉ gather lab train := by
  obtain ⟨v₀⟩ := ‹Nonempty V›
  obtain ⟨users, hu⟩ := column_total (rows_two hH)
  have hh := column_zero hu
  have hlen : t.event.rows.length = users.length := by simpa using congrArg List.length hh
  obtain ⟨Te, e1, e2, e3, e4⟩ := exists_test users (fun i => lab[i]? = some v)
    (fun u => (users.count u + 4) / 5) (by
      intro u
      have := (twoEach_iff (K := ℝ) hu).1 h2 u
      by_cases hm : u ∈ users
      · have := (fits_iff (K := ℝ) _).1 (this ((mem_npUnique _ _).2 hm))
        omega
      · rw [List.count_eq_zero_of_not_mem hm]) (by
      intro u
      have hn : ¬ (eventsOf t.event.rows u (List.range t.event.rows.length) + 5 ≤
          5 * eventsWith t.event.rows lab u v (List.range t.event.rows.length)) := fun hc => hnr ⟨u, hc⟩
      rw [eventsOf_all hh] at hn
      have e : inGroup users u ((List.range users.length).filter (fun i => open Classical in decide (lab[i]? = some v))) =
          eventsWith t.event.rows lab u v (List.range t.event.rows.length) := by
        unfold inGroup eventsWith
        rw [List.filter_filter, hlen]
        congr 1
        apply List.filter_congr
        intro i _
        have e : (t.event.rows.map List.head?)[i]? = (users.map some)[i]? := by rw [hh]
        rw [List.getElem?_map, List.getElem?_map] at e
        have e' : (t.event.rows[i]?).bind List.head? = users[i]? := by
          cases h1 : t.event.rows[i]? with
          | none =>
            rw [h1] at e
            cases h2 : users[i]? with
            | none => rfl
            | some x => rw [h2] at e; cases e
          | some r =>
            rw [h1] at e
            cases h2 : users[i]? with
            | none => rw [h2] at e; cases e
            | some x => rw [h2] at e; simpa using e
        rw [e']
        simp
      refine le_trans (le_of_eq ?_) (show eventsWith t.event.rows lab u v (List.range t.event.rows.length) ≤ _ by omega)
      rw [← e]
      unfold inGroup
      congr 2
      apply List.filter_congr
      intro i _
      congr)
  obtain ⟨γ, rng, s, folds, f1, f2⟩ := Split.C93_every_split (cvConfig (K := ℝ) o.fold) users rfl
    ⟨.inl (by simp [cvConfig, Split.Size.spec]), by simp [cvConfig, Split.Size.spec]; norm_num, by simp [cvConfig, Split.Size.spec],
      by simp [cvConfig, Split.Size.spec]⟩
    (fun g hg => (twoEach_iff (K := ℝ) hu).1 h2 g ((mem_npUnique _ _).2 hg))
    (List.replicate o.fold.toNat Te) (by simp [cvConfig])
    (by intro T' hT'; rw [List.eq_of_mem_replicate hT']; exact ⟨e1, e2⟩)
    (by
      intro T' hT' g hg
      rw [List.eq_of_mem_replicate hT', e3]
      have h1 : users.count g ≤ 5 * ((users.count g + 4) / 5) := by omega
      have h2 : 5 * ((users.count g + 4) / 5) < users.count g + 5 := by omega
      have h1' : (users.count g : ℝ) ≤ 5 * (((users.count g + 4) / 5 : Nat) : ℝ) := by exact_mod_cast h1
      have h2' : 5 * (((users.count g + 4) / 5 : Nat) : ℝ) < (users.count g : ℝ) + 5 := by exact_mod_cast h2
      refine .frac _ _ _ ?_ ?_ <;> linarith)
  have hmasks : ∃ masks, Split.shuffleMasks rng (cvConfig (K := ℝ) o.fold) users s o.fold.toNat = .ok masks ∧
      folds = Split.baseSplit users.length masks := by
    unfold Split.shuffleSplitWithinGroups at f1
    split at f1
    · cases f1
    · simp only [Option.any_some, bne_self_eq_false, Bool.false_eq_true, if_false] at f1
      have e : (cvConfig (K := ℝ) o.fold).nSplits.toNat = o.fold.toNat := rfl
      rw [e] at f1
      cases hms : Split.shuffleMasks rng (cvConfig (K := ℝ) o.fold) users s o.fold.toNat with
      | error e => rw [hms] at f1; cases f1
      | ok masks => rw [hms] at f1; cases f1; exact ⟨masks, rfl, rfl⟩
  obtain ⟨masks, hmk, hfo⟩ := hmasks
  have hT : ∀ m ∈ masks, (List.range users.length).filter (fun i => m.getD i false) = Te := by
    intro m hm
    refine List.eq_of_mem_replicate (n := o.fold.toNat) ?_
    rw [← f2, hfo]
    unfold Split.baseSplit
    rw [List.map_map, List.mem_map]
    exact ⟨m, hm, rfl⟩
  obtain ⟨j, hj⟩ := h γ (plainEnv α ε F T v₀ rng s) (plainLib α φ ε v₀ γ) ⟨fun n _ => ⟨s, rfl⟩, hfold⟩
  obtain ⟨M, rec, s', h1, h2', _, h4⟩ := task_run (plainEnv α ε F T v₀ rng s) (plainLib α φ ε v₀ γ) read sc o hm
  obtain ⟨cond, e⟩ := (h4 clock environment).1
  rw [e] at hj
  have hs : SetRun o (o.infile.getD o.infilep) { s' with condition := cond, environment := environment } :=
    ⟨h2'.trainFile, h2'.testFile, h2'.scoreDomain, h2'.nFolds, h2'.cv, h2'.seed⟩
  generalize ({ s' with condition := cond, environment := environment } : Setting ℝ F V) = s'' at hs hj
  have hl' : (loader read sc o.timestamp : Loader ℝ α φ ε F) s''.trainFile s''.scoreDomain = .ok (d, dm) := by
    rw [hs.trainFile, hs.scoreDomain]; exact hl
  obtain ⟨glob, data', dom, ev, sc', us, items, groups, acc, h0, hL, _, hloop, _⟩ := doTask_cv_elim (hs.cv.2 hcv)
    (fun d' dm' e => by
      rw [hl'] at e
      cases e
      exact ⟨_, hH.built.inv.2.1⟩) hj
  have e := hL.load
  rw [hl'] at e
  cases e
  have e := hL.events
  rw [externalEvents_built hH.built.inv.1] at e
  cases e
  have e := hL.groups
  rw [hu] at e
  cases e
  have hglob : glob = s := by
    cases hse : s''.seed with
    | none => rw [hse] at h0; cases h0; rfl
    | some n => rw [hse] at h0; cases h0; rfl
  subst hglob
  rw [hs.nFolds] at hloop
  obtain ⟨d', g, x, k1, k2⟩ := cvLoop_same _ _ _ _ _ masks hmk hT (by
    intro hw
    have : ∃ i, i ∈ wanted o.foldNo 0 o.fold.toNat := by
      cases hf : o.foldNo with
      | none => exact ⟨0, by simp [wanted]; omega⟩
      | some i =>
        obtain ⟨h1, h2⟩ := hfold i hf
        refine ⟨i.toNat, ?_⟩
        simp [wanted]
        omega
    obtain ⟨i, hi⟩ := this
    rw [hw] at hi
    cases hi) hloop
  obtain ⟨d'', k3, k4, k5, _⟩ := filter_total hH (ix := (List.range users.length).filter (fun i => decide (i ∉ Te))) (by
    intro i hi
    rw [hlen]
    exact List.mem_range.1 (List.mem_of_mem_filter hi))
  rw [k1] at k3
  cases k3
  refine ⟨γ, plainLib α φ ε v₀ γ, M, rec, d', _, g, x, h1, k4, k5, k2, ?_, ?_⟩
  · intro hne hg
    have hempty : (List.range users.length).filter (fun i => decide (i ∉ Te)) = [] := by
      have := congrArg List.length hg
      rw [length_gather _ _ (by
        intro i hi
        rw [hlen]
        exact List.mem_range.1 (List.mem_of_mem_filter hi))] at this
      exact List.length_eq_zero_iff.1 this
    have hall : ∀ i, i < users.length → i ∈ Te := by
      intro i hi
      have := List.filter_eq_nil_iff.1 hempty i (List.mem_range.2 hi)
      simpa using this
    have hperm : Te.Perm (List.range users.length) := by
      rw [List.perm_ext_iff_of_nodup (e1.imp fun h => h.ne) List.nodup_range]
      intro i
      rw [List.mem_range]
      exact ⟨e2 i, hall i⟩
    have hpos' : 0 < users.length := by
      rw [← hlen]
      exact List.length_pos_iff.2 hne
    have hu0 : users[0] ∈ users := List.getElem_mem hpos'
    have hc := (fits_iff (K := ℝ) _).1 ((twoEach_iff (K := ℝ) hu).1 h2 users[0] ((mem_npUnique _ _).2 hu0))
    have h3 := e3 users[0]
    have h4 : inGroup users users[0] Te = users.count users[0] := by
      have : inGroup users users[0] Te = inGroup users users[0] (List.range users.length) := by
        unfold inGroup
        exact (hperm.filter _).length_eq
      rw [this]
      have h := eventsOf_all (rows := users.map (fun x => [x])) (groups := users) (by simp) users[0]
      rw [eventsOf_groups (groups := users) (by simp)] at h
      simpa using h
    omega
  · intro hmem
    unfold gather at hmem
    rw [List.mem_filterMap] at hmem
    obtain ⟨i, hi, hi'⟩ := hmem
    rw [List.mem_filter, List.mem_range, decide_eq_true_eq] at hi
    exact hi.2 (e4 i hi.1 hi')

/-- A file in which for some item no user has so many other events is not used by a matrix factorization with every generator. -/
lemma spread_of_left_out {rows : List (List α)} {x : α} {train : List Nat} (h : (1 : ℝ) ∉ gather (otherItem rows x) train) :
    ¬ TwoIds 1 (gather rows train) := by
  have all : ∀ r ∈ gather rows train, r[1]? = some x := by
    intro r hr
    obtain ⟨i, hi, e⟩ := List.mem_filterMap.1 hr
    by_contra hc
    refine h (List.mem_filterMap.2 ⟨i, hi, ?_⟩)
    unfold otherItem
    rw [List.getElem?_map, e, Option.map_some, if_neg hc]
  rintro ⟨r, hr, r', hr', y, z, e1, e2, hyz⟩
  rw [all r hr] at e1
  rw [all r' hr'] at e2
  cases e1
  cases e2
  exact hyz rfl

/-- C103: a cross validation of matrix factorization succeeds whatever the random numbers are exactly when the file can be read, its
score domain can be determined, the number of factors is not negative, the file has two users, every user has at least two events, and for
each item some user has so many events with other items that the user's test events cannot be all of them. -/
theorem C103_pmf_every_generator [Nonempty V] (clock : Nat → T) (environment : Dict String (J V)) (read : Bool → F → Res (Table ℝ α ε))
    (hread : ∀ b f t, read b f = .ok t → TableOk t) {o : Namespace F} (hm : o.method = "pmf")
    (hcv : o.validation = "cv") {a b c : ℝ} (hdom : o.domain = [a, b, c]) (hpos : 0 < o.fold)
    (hfold : ∀ i, o.foldNo = some i → 0 ≤ i ∧ i < o.fold) :
    (∀ (γ : Type) (env : Env ℝ α ε F V T γ) (lib : Lib α φ ε V γ), Ready env o →
      ∃ j, task env lib clock environment read .sp o = .ok j) ↔
    ∃ t, read o.timestamp (o.infile.getD o.infilep) = .ok t ∧ Usable a b c t.score ∧ 0 ≤ o.k ∧ TwoEach t.event.rows ∧
      TwoIds 0 t.event.rows ∧ Spread t.event.rows := by
  constructor
  · intro h
    obtain ⟨v₀⟩ := ‹Nonempty V›
    obtain ⟨j, hj⟩ := h Unit (plainEnv α ε F T v₀ ⟨fun _ n => (List.range n, ()), fun _ _ => .refl _⟩ ()) (plainLib α φ ε v₀ Unit)
      ⟨fun n _ => ⟨(), rfl⟩, hfold⟩
    obtain ⟨_, t, ht, hU, hrest⟩ := C103_pmf_cross_validation_needs _ _ clock environment read hread hm hcv hdom hj
    obtain ⟨hk, h2, hu, _⟩ := hrest hpos
    refine ⟨t, ht, hU, hk, h2, hu, fun x => ?_⟩
    by_contra hnr
    obtain ⟨dm, hD⟩ := (exists_domain a b c t.score).2 hU
    obtain ⟨hH, hE⟩ := loadDataSP_iff (φ := φ) ht (hread _ _ _ ht) [a, b, c] dm rfl
    obtain ⟨d, hl⟩ := hE hD
    obtain ⟨_, hH⟩ := hH d hl
    have : Nonempty V := ⟨v₀⟩
    obtain ⟨γ, lib, M, rec, d', train, g, y, h1, h3, h4, h5, h6, h7⟩ := left_out clock environment read (sc := .sp)
      (by simp [hm, Script.choices]) hcv hpos hfold h (by rw [hdom]; exact hl) hH h2 hnr
    exact spread_of_left_out h7 (pmf_needs hm h1 h3 (h6 hu.ne) h4 h5).2
  · rintro ⟨t, ht, hU, hk, h2, hu, hi⟩ γ env lib hr
    exact C103_pmf_cross_validation env lib clock environment read hread hm hcv hdom hr ht hU fun _ => ⟨hk, h2, hu, hi⟩

/-- C103: a cross validation of logistic matrix factorization succeeds whatever the random numbers are exactly when the file can be
read, its score domain can be determined, the number of factors is not negative, the file has two users, every user has at least two events, for each
of the two classes some user has so many events in it, and for each item so many with other items, that the user's test events cannot be
all of them. -/
theorem C103_lpmf_every_generator [Nonempty V] (clock : Nat → T) (environment : Dict String (J V)) (read : Bool → F → Res (Table ℝ α ε))
    (hread : ∀ b f t, read b f = .ok t → TableOk t) {o : Namespace F} (hm : o.method = "lpmf")
    (hcv : o.validation = "cv") {a b c : ℝ} (hdom : o.domain = [a, b, c]) (hpos : 0 < o.fold)
    (hfold : ∀ i, o.foldNo = some i → 0 ≤ i ∧ i < o.fold) :
    (∀ (γ : Type) (env : Env ℝ α ε F V T γ) (lib : Lib α φ ε V γ), Ready env o →
      ∃ j, task env lib clock environment read .itemFinder o = .ok j) ↔
    ∃ t dm, read o.timestamp (o.infile.getD o.infilep) = .ok t ∧ DomainOf [a, b, c] t.score dm ∧ 0 ≤ o.k ∧ TwoEach t.event.rows ∧
      TwoIds 0 t.event.rows ∧ Spread t.event.rows ∧ Robust t.event.rows (binarized dm t.score) 0 ∧ Robust t.event.rows (binarized dm t.score) 1 := by
  constructor
  · intro h
    obtain ⟨v₀⟩ := ‹Nonempty V›
    obtain ⟨j, hj⟩ := h Unit (plainEnv α ε F T v₀ ⟨fun _ n => (List.range n, ()), fun _ _ => .refl _⟩ ()) (plainLib α φ ε v₀ Unit)
      ⟨fun n _ => ⟨(), rfl⟩, hfold⟩
    obtain ⟨_, t, dm, ht, hD, hrest⟩ := C103_lpmf_cross_validation_needs _ _ clock environment read hread hm hcv hdom hj
    obtain ⟨hk, h2, _, hu, _⟩ := hrest hpos
    obtain ⟨hH, hE⟩ := loadDataIF_iff (φ := φ) ht (hread _ _ _ ht) [a, b, c] dm rfl
    obtain ⟨d, hl⟩ := hE hD
    obtain ⟨_, hH, hlev⟩ := hH d hl
    have : Nonempty V := ⟨v₀⟩
    have key : ∀ (lab : List ℝ) (v : ℝ), (∀ train, v ∉ gather lab train → 0 ∈ gather (binarized dm t.score) train →
        1 ∈ gather (binarized dm t.score) train → TwoIds 1 (gather t.event.rows train) → False) → Robust t.event.rows lab v := by
      intro lab v hv
      by_contra hnr
      obtain ⟨γ, lib, M, rec, d', train, g, y, h1, h3, h4, h5, h6, h7⟩ := left_out clock environment read (sc := .itemFinder)
        (by simp [hm, Script.choices]) hcv hpos hfold h (by rw [hdom]; exact hl) hH h2 hnr
      obtain ⟨n0, n1, _, n2⟩ := lpmf_needs h1 h3 h4 h5
      exact hv train h7 n0 n1 n2
    exact ⟨t, dm, ht, hD, hk, h2, hu, fun x => key _ _ fun _ h7 _ _ n2 => spread_of_left_out h7 n2,
      key _ _ fun _ h7 n0 _ _ => h7 n0, key _ _ fun _ h7 _ n1 _ => h7 n1⟩
  · rintro ⟨t, dm, ht, hD, hk, h2, hu, hi, r0, r1⟩ γ env lib hr
    exact C103_lpmf_cross_validation env lib clock environment read hread hm hcv hdom hr ht hD fun _ => ⟨hk, h2, hu, hi, r0, r1⟩

/-- The command line of Verif/Exp/Examples runs with every generator. -/
example : ∃ o, commandLine .itemFinder "stdin" "stdout" (Ex.args "lpmf") ["data"] = some o ∧
    ∀ (γ : Type) (env : Env ℝ Nat Nat String Ex.Val Nat γ) (lib : Lib Nat Unit Nat Ex.Val γ), Ready env o →
      ∃ j, task env lib id [] Ex.read .itemFinder o = .ok j := by
  have : Nonempty Ex.Val := ⟨.nat 0⟩
  obtain ⟨o, h0, h1, h2, h3, h4, h5, h6, h7, h8, h9⟩ := Ex.options .itemFinder "lpmf" (by simp [Script.choices])
  refine ⟨o, h0, (C103_lpmf_every_generator id [] Ex.read Ex.read_ok h1 h2 h6 (by omega) (by rw [h5]; simp)).2
    ⟨⟨⟨2, Ex.rows⟩, Ex.scores, some [1, 2, 3, 4, 5, 6, 7, 8]⟩, [1, 5, 1], by rw [h7]; rfl, .given rfl one_ne_zero, by omega, Ex.twoEach,
      Ex.twoIds.1, Ex.spread, Ex.robust 0 (.inl rfl), Ex.robust 1 (.inr rfl)⟩⟩

/-- The same with matrix factorization. -/
example : ∃ o, commandLine .sp "stdin" "stdout" (Ex.args "pmf") ["data"] = some o ∧
    ∀ (γ : Type) (env : Env ℝ Nat Nat String Ex.Val Nat γ) (lib : Lib Nat Unit Nat Ex.Val γ), Ready env o →
      ∃ j, task env lib id [] Ex.read .sp o = .ok j := by
  have : Nonempty Ex.Val := ⟨.nat 0⟩
  obtain ⟨o, h0, h1, h2, h3, h4, h5, h6, h7, h8, h9⟩ := Ex.options .sp "pmf" (by simp [Script.choices])
  exact ⟨o, h0, (C103_pmf_every_generator id [] Ex.read Ex.read_ok h1 h2 h6 (by omega) (by rw [h5]; simp)).2
    ⟨⟨⟨2, Ex.rows⟩, Ex.scores, some [1, 2, 3, 4, 5, 6, 7, 8]⟩, by rw [h7]; rfl, .inl one_ne_zero, by omega, Ex.twoEach, Ex.twoIds.1,
      Ex.spread⟩⟩

end Kam.Exp

/-
When the experiment scripts succeed.
-/
import Verif.Scripts.Load2

set_option linter.unusedSectionVars false

namespace Kam.Scripts
open Spec

variable {K α φ ε F V T γ M : Type} [Field K] [LinearOrder K] [IsStrictOrderedRing K] [FloorRing K] [LinearOrder α]

/-! ### Specification -/

/-- The recommender can be trained on the container `d` with every generator, and then scores every request that is not
empty. -/
def Learns (rec : Recommender K α φ ε V γ M) (d : ScoreData K α φ ε) : Prop :=
  ∀ g, ∃ m res g', rec.fit g d = .ok (m, res, g') ∧
    ∀ evs : List (List α), evs ≠ [] → (∀ r ∈ evs, r.length = 2) → ∃ esc, rec.predict m evs = .ok esc

/-- The recommender scores no empty request. -/
def NeedsEvents (rec : Recommender K α φ ε V γ M) : Prop := ∀ m esc, rec.predict m [] ≠ .ok esc

/-- Every user with an event has at least two. -/
def TwoEach (rows : List (List α)) : Prop :=
  ∀ u, 0 < eventsOf rows u (List.range rows.length) → 2 ≤ eventsOf rows u (List.range rows.length)

/-- A split of the events of every user: a fifth of them, rounded up, are test events. -/
structure FifthSplit (rows : List (List α)) (train test : List Nat) : Prop where
  fold : IsFold rows.length train test
  fifth : ∀ u, 0 < eventsOf rows u (List.range rows.length) →
    eventsOf rows u (List.range rows.length) ≤ 5 * eventsOf rows u test ∧
    5 * eventsOf rows u test < eventsOf rows u (List.range rows.length) + 5

/-! ### Lemmas -/

lemma bind_intro {β δ : Type} {x : Res β} {f : β → Res δ} {a : β} {y : δ} (h : x = .ok a) (h' : f a = .ok y) : (x >>= f) = .ok y := by
  rw [h]
  exact h'

lemma fits_iff (m : Nat) : Fits m (some (.inr (1 / 5 : K))) none ↔ 2 ≤ m := by
  constructor
  · rintro ⟨_, _, t, r, ht, hr, h0, hle⟩
    by_contra hm
    cases ht with
    | frac _ _ _ h₁ h₂ =>
      have : t = 0 := by omega
      subst this
      have : r = 1 := by omega
      have : m = 1 := by omega
      subst this
      norm_num at h₁
  · intro hm
    refine ⟨⟨by norm_num, by norm_num⟩, trivial, (m + 4) / 5, m - (m + 4) / 5, ?_, ?_, by omega, by omega⟩
    all_goals
      have h1 : m ≤ 5 * ((m + 4) / 5) := by omega
      have h2 : 5 * ((m + 4) / 5) < m + 5 := by omega
      have h1' : (m : K) ≤ 5 * (((m + 4) / 5 : Nat) : K) := by exact_mod_cast h1
      have h2' : 5 * (((m + 4) / 5 : Nat) : K) < (m : K) + 5 := by exact_mod_cast h2
      have tc : TestCount m (some (.inr (1 / 5 : K))) none ((m + 4) / 5) := by
        refine .frac _ _ _ ?_ ?_ <;> linarith
    · exact tc
    · exact .rest _ _ _ tc (by omega)

lemma column_total {rows : List (List α)} (h : ∀ r ∈ rows, r.length = 2) : ∃ gs, column rows 0 = .ok gs := by
  induction rows with
  | nil => exact ⟨[], rfl⟩
  | cons r rows ih =>
    obtain ⟨gs, hg⟩ := ih fun x hx => h x (by simp [hx])
    have hr := h r (by simp)
    match r, hr with
    | [a, b], _ =>
      refine ⟨a :: gs, ?_⟩
      unfold column at hg ⊢
      rw [List.mapM_cons, hg]
      rfl

lemma FifthSplit.of_drawn {rng : Split.Rng γ} {n : Int} {rows : List (List α)} {users : List α} (hu : column rows 0 = .ok users)
    {trainI testI : List Nat} (h : DrawnFold rng (cvConfig (K := K) n) users trainI testI) : FifthSplit rows trainI testI := by
  have hh := column_zero hu
  have hl : rows.length = users.length := by simpa using congrArg List.length hh
  refine ⟨by rw [hl]; exact h.isFold, ?_⟩
  intro u hp
  rw [eventsOf_all hh] at hp ⊢
  rw [eventsOf_groups hh]
  have hm : u ∈ users := List.count_pos_iff.1 hp
  have tc := testCount_drawn h hm
  simp only [cvConfig, Split.Size.spec] at tc
  generalize inGroup users u testI = t at tc ⊢
  cases tc with
  | frac _ _ _ h₁ h₂ =>
    constructor
    · have : ((users.count u : Nat) : K) ≤ ((5 * t : Nat) : K) := by push_cast; linarith
      exact_mod_cast this
    · have : ((5 * t : Nat) : K) < ((users.count u + 5 : Nat) : K) := by push_cast; linarith
      exact_mod_cast this

lemma twoEach_iff {rows : List (List α)} {users : List α} (hu : column rows 0 = .ok users) :
    TwoEach rows ↔ ∀ u ∈ npUnique users, Fits (users.count u) (some (.inr (1 / 5 : K))) none := by
  have hh := column_zero hu
  constructor
  · intro h u hm
    rw [mem_npUnique] at hm
    rw [fits_iff, ← eventsOf_all hh]
    apply h
    rw [eventsOf_all hh]
    exact List.count_pos_iff.2 hm
  · intro h u hp
    rw [eventsOf_all hh] at hp ⊢
    exact (fits_iff (K := K) _).1 (h u ((mem_npUnique _ _).2 (List.count_pos_iff.1 hp)))

/-- The parts of a split of events with at least two of every user. -/
lemma FifthSplit.nonempty {rows : List (List α)} (hl : ∀ r ∈ rows, r.length = 2) (hne : rows ≠ []) {train test : List Nat}
    (h : FifthSplit rows train test) : test ≠ [] := by
  obtain ⟨r, rest, rfl⟩ := List.exists_cons_of_ne_nil hne
  have hr := hl r (by simp)
  match r, hr with
  | [u, i], _ =>
    have hp : 0 < eventsOf ([u, i] :: rest) u (List.range ([u, i] :: rest).length) := by
      unfold eventsOf
      apply List.length_pos_of_mem (a := 0)
      simp
    rintro rfl
    have := (h.fifth u hp).1
    simp only [eventsOf, List.filter_nil, List.length_nil] at this hp
    omega

lemma eventsOf_split {rows : List (List α)} {train test : List Nat} (h : IsFold rows.length train test) (p : Nat → Bool) :
    (train.filter p).length + (test.filter p).length = ((List.range rows.length).filter p).length := by
  have hnd1 : train.Nodup := h.train_sorted.imp fun h => h.ne
  have hnd2 : test.Nodup := h.test_sorted.imp fun h => h.ne
  have hperm : (train ++ test).Perm (List.range rows.length) := by
    rw [List.perm_ext_iff_of_nodup]
    · intro i
      rw [List.mem_append, List.mem_range, h.train_iff]
      constructor
      · rintro (h1 | h1)
        · exact h1.1
        · exact h.test_lt i h1
      · intro hi
        by_cases ht : i ∈ test
        · exact .inr ht
        · exact .inl ⟨hi, ht⟩
    · rw [List.nodup_append]
      refine ⟨hnd1, hnd2, ?_⟩
      rintro a ha b hb rfl
      exact ((h.train_iff a).1 ha).2 hb
    · exact List.nodup_range
  rw [← (hperm.filter p).length_eq, List.filter_append, List.length_append]

lemma FifthSplit.train_nonempty {rows : List (List α)} (hl : ∀ r ∈ rows, r.length = 2) (hne : rows ≠ []) (h2 : TwoEach rows)
    {train test : List Nat} (h : FifthSplit rows train test) : train ≠ [] := by
  obtain ⟨r, rest, rfl⟩ := List.exists_cons_of_ne_nil hne
  have hr := hl r (by simp)
  match r, hr with
  | [u, i], _ =>
    have hp : 0 < eventsOf ([u, i] :: rest) u (List.range ([u, i] :: rest).length) := by
      unfold eventsOf
      apply List.length_pos_of_mem (a := 0)
      simp
    rintro rfl
    have h5 := (h.fifth u hp).2
    have h6 := h2 u hp
    have h8 : eventsOf ([u, i] :: rest) u test = eventsOf ([u, i] :: rest) u (List.range ([u, i] :: rest).length) := by
      have := eventsOf_split h.fold (fun j => decide ((([u, i] :: rest)[j]?).bind List.head? = some u))
      simpa [eventsOf] using this
    omega

/-- Filtering a loaded container succeeds. -/
lemma filter_total {d : ScoreData K α φ ε} {t : Table K α ε} {sc dm : List K} (h : Holding d t sc dm) {ix : List Nat}
    (hix : ∀ i ∈ ix, i < t.event.rows.length) :
    ∃ d', d.filterEvent (.index (ix.map Int.ofNat)) = .ok (some d') ∧
      ScoreBuilt d' (gather t.event.rows ix) (gather sc ix) ∧ d'.eventOtypes = [0, 1] ∧
      d'.scoreDomain = some dm ∧ d'.nScoreLevels = d.nScoreLevels := by
  have hb := h.built
  obtain ⟨h1, h2, h3, _⟩ := hb.inv
  have hsel : (Sel.index (ix.map Int.ofNat)).apply t.event.rows = .ok (gather t.event.rows ix) := by
    unfold Sel.apply; rw [positions_nat ix _ hix]
  have hsel' : (Sel.index (ix.map Int.ofNat)).apply sc = .ok (gather sc ix) := by
    unfold Sel.apply; rw [h3, positions_nat ix _ hix]
  obtain ⟨e', he⟩ := C06_filter_total h1 (by
    intro t f hf
    rw [h.feature] at hf
    match t, hf with
    | 0, hf => cases hf
    | 1, hf => cases hf
    | t + 2, hf => cases hf) _ hsel
  obtain ⟨js, _, e2, _⟩ := EventData.filterEvent_gen _ _ t.event.rows h1.holds _ he
  have hf : d.filterEvent (.index (ix.map Int.ofNat)) = .ok (some { d with toEventData := e', score := some (gather sc ix) }) := by
    unfold ScoreData.filterEvent
    rw [he, ok_bind]
    simp only [h2, hsel', ok_bind]
    rfl
  refine ⟨_, hf, filter_built hb hix hf, ?_, h.domain, rfl⟩
  show e'.eventOtypes = _
  rw [e2]
  exact h.otypes

lemma training_total {env : Env K α ε F V T γ} (clock : Nat → T) {rec : Recommender K α φ ε V γ M} {seed : Option Int}
    (hseed : ∀ n, seed = some n → ∃ g, env.ofSeed n = .ok g) {d : ScoreData K α φ ε} (h : Learns rec d) (sys : Sys γ) :
    ∃ m info sys', training env clock rec seed sys d = .ok (m, info, sys') ∧
      ∀ evs : List (List α), evs ≠ [] → (∀ r ∈ evs, r.length = 2) → ∃ esc, rec.predict m evs = .ok esc := by
  cases seed with
  | none =>
    obtain ⟨m, res, g', h1, h2⟩ := h sys.glob
    exact ⟨m, _, _, by unfold training fitWith; simp only [h1, ok_bind]; rfl, h2⟩
  | some n =>
    obtain ⟨g, hg⟩ := hseed n rfl
    obtain ⟨m, res, g', h1, h2⟩ := h g
    exact ⟨m, _, _, by unfold training fitWith; simp only [hg, h1, ok_bind]; rfl, h2⟩

lemma testing_total {env : Env K α ε F V T γ} (clock : Nat → T) {rec : Recommender K α φ ε V γ M} {m : M} {evs : List (List α)}
    (h : ∃ esc, rec.predict m evs = .ok esc) (sys : Sys γ) : ∃ x, testing env clock rec m sys evs = .ok x := by
  obtain ⟨esc, h⟩ := h
  exact ⟨_, by unfold testing; simp only [h, ok_bind]; rfl⟩

/-- The loop of a cross validation succeeds when every user has two events and every possible training part can be learnt. -/
lemma cvLoop_total {env : Env K α ε F V T γ} (clock : Nat → T) {rec : Recommender K α φ ε V γ M} {seed : Option Int}
    (hseed : ∀ n, seed = some n → ∃ g, env.ofSeed n = .ok g) {data : ScoreData K α φ ε} {t : Table K α ε} {sc dm : List K}
    (hd : Holding data t sc dm) (hl : ∀ r ∈ t.event.rows, r.length = 2) (hne : t.event.rows ≠ []) {users : List α} (hu : column t.event.rows 0 = .ok users)
    (h2 : TwoEach t.event.rows)
    (hrec : ∀ train test d', FifthSplit t.event.rows train test → data.filterEvent (.index (train.map Int.ofNat)) = .ok (some d') → Learns rec d')
    (n' : Int) (target : Option Int) (n : Nat) : ∀ (fold : Nat) (sys : Sys γ) (acc : Acc V),
    ∃ acc', cvLoop env clock rec seed (cvConfig n') data t.event.rows users target n fold sys acc = .ok acc' := by
  have hfit := (twoEach_iff (K := K) hu).1 h2
  induction n with
  | zero => intro fold sys acc; exact ⟨acc, rfl⟩
  | succ n ih =>
    intro fold sys acc
    obtain ⟨Bs, s', he, _⟩ := Split.shuffleMask_ok env.gen (cvConfig (K := K) n') users (npUnique users) hfit sys.glob
      (List.replicate users.length false)
    unfold cvLoop
    rw [he, ok_bind]
    simp only []
    split
    · exact ih _ _ _
    · generalize htr : (List.range users.length).filter (fun i => !((Bs.foldl Split.setTrue (List.replicate users.length false)).getD i false)) = trainI
      generalize hte : (List.range users.length).filter (fun i => ((Bs.foldl Split.setTrue (List.replicate users.length false)).getD i false)) = testI
      have hsp : FifthSplit t.event.rows trainI testI := FifthSplit.of_drawn (K := K) (n := n') hu ⟨_, _, _, he, htr.symm, hte.symm⟩
      have hix : ∀ i ∈ trainI, i < t.event.rows.length := fun i hi => ((hsp.fold.train_iff i).1 hi).1
      obtain ⟨d', hf, _⟩ := filter_total hd hix
      have hL := hrec _ _ _ hsp hf
      obtain ⟨m, info, sys1, k1, k2⟩ := training_total clock hseed hL ⟨s', sys.ticks⟩
      have hg : gather t.event.rows testI ≠ [] := by
        intro e
        have := congrArg List.length e
        rw [length_gather _ _ hsp.fold.test_lt] at this
        exact hsp.nonempty hl hne (List.length_eq_zero_iff.1 this)
      obtain ⟨⟨esc, ti, sys2⟩, k3⟩ := testing_total (env := env) clock (k2 _ hg fun r hr => hl r (mem_of_mem_gather hr)) sys1
      have : ∃ x, cvFold env clock rec seed data t.event.rows fold trainI testI ⟨s', sys.ticks⟩ acc = .ok x := by
        unfold cvFold
        simp only [hf, ok_bind, k1, k3, hd.built.inv.2.1]
        exact ⟨_, rfl⟩
      obtain ⟨⟨acc1, sys3⟩, k4⟩ := this
      rw [k4, ok_bind]
      exact ih _ _ _

lemma objectsAt_total {d : ScoreData K α φ ε} {t : Table K α ε} {sc dm : List K} (h : Holding d t sc dm) :
    (∃ n, objectsAt d 0 = .ok n) ∧ ∃ n, objectsAt d 1 = .ok n := by
  have hn := h.built.inv.1.holds.nObjects
  unfold objectsAt
  rw [hn, h.otypes, h.nOtypes]
  exact ⟨⟨_, rfl⟩, ⟨_, rfl⟩⟩

lemma rows_two {d : ScoreData K α φ ε} {t : Table K α ε} {sc dm : List K} (h : Holding d t sc dm) : ∀ r ∈ t.event.rows, r.length = 2 := by
  intro r hr
  rw [h.built.inv.1.holds.reg r hr, h.otypes]
  rfl

lemma seed_total {env : Env K α ε F V T γ} {seed : Option Int} :
    (∃ g, ((match seed with | some n => env.ofSeed n | none => .ok env.entropy) : Res γ) = .ok g) ↔
      ∀ n, seed = some n → ∃ g, env.ofSeed n = .ok g := by
  cases seed with
  | none => simp
  | some n => simp

/-- A cross validation succeeds when the seed and the fold are in range, the file is loaded, and — unless there is no fold —
there are events, every user has at least two, and every possible training part can be learnt. -/
theorem doTask_cv_total {env : Env K α ε F V T γ} (clock : Nat → T) {rec : Recommender K α φ ε V γ M}
    {load : Loader K α φ ε F} {s : Setting K F V} {target : Option Int} (hcv : s.cv = true)
    (hseed : ∀ n, s.seed = some n → ∃ g, env.ofSeed n = .ok g) (htarget : ∀ i, target = some i → 0 ≤ i ∧ i < s.nFolds)
    {data : ScoreData K α φ ε} {dm dm' : List K} (hl : load s.trainFile s.scoreDomain = .ok (data, dm))
    {t : Table K α ε} {sc : List K} (hd : Holding data t sc dm')
    (h : 0 < s.nFolds → t.event.rows ≠ [] ∧ TwoEach t.event.rows ∧
      ∀ train test d', FifthSplit t.event.rows train test → data.filterEvent (.index (train.map Int.ofNat)) = .ok (some d') → Learns rec d') :
    ∃ j, doTask env clock rec load s target = .ok j := by
  obtain ⟨glob, hg⟩ := (seed_total (env := env)).2 hseed
  obtain ⟨⟨users, hus⟩, ⟨items, hit⟩⟩ := objectsAt_total hd
  have hrl := rows_two hd
  obtain ⟨groups, hgr⟩ := column_total hrl
  have hloop : ∃ acc, cvLoop env clock rec s.seed (cvConfig s.nFolds) data t.event.rows groups target s.nFolds.toNat 0 ⟨glob, 0⟩
      (accOf env t.event.rows sc data.eventFeature ([] : List (FD K V T))) = .ok acc := by
    by_cases h0 : 0 < s.nFolds
    · obtain ⟨h1, h2, h3⟩ := h h0
      exact cvLoop_total clock hseed hd hrl h1 hgr h2 h3 s.nFolds target _ _ _ _
    · rw [show s.nFolds.toNat = 0 by omega]
      exact ⟨_, rfl⟩
  obtain ⟨acc, ha⟩ := hloop
  have hv : Split.validateInit (cvConfig (K := K) s.nFolds).testSize (cvConfig (K := K) s.nFolds).trainSize = .ok () := by
    simp only [cvConfig, Split.validateInit]
    rw [if_neg (by norm_num)]
  have hc := cvTest_intro (T := T) ⟨hl, externalEvents_built hd.built.inv.1, hus, hit, hgr, hv⟩ ha
  refine ⟨(reportOf s dm data users items acc).render env, ?_⟩
  · unfold doTask
    refine bind_intro hg ?_
    rw [if_neg ?_]
    · simp only [hcv, if_true, hc, ok_bind]
      rfl
    · simp only [Option.any_eq_true, decide_eq_true_eq, not_exists, not_and]
      intro i hi hcon
      have := htarget i hi
      omega

/-- What a successful cross validation shows. -/
theorem doTask_cv_needs {env : Env K α ε F V T γ} {clock : Nat → T} {rec : Recommender K α φ ε V γ M}
    {load : Loader K α φ ε F} {s : Setting K F V} {target : Option Int} (hcv : s.cv = true) (hrec : NeedsEvents rec)
    {data : ScoreData K α φ ε} {dm dm' : List K} (hl : load s.trainFile s.scoreDomain = .ok (data, dm))
    {t : Table K α ε} {sc : List K} (hd : Holding data t sc dm') {j : J V} (h : doTask env clock rec load s target = .ok j) :
    (∀ n, s.seed = some n → ∃ g, env.ofSeed n = .ok g) ∧ (∀ i, target = some i → 0 ≤ i ∧ i < s.nFolds) ∧
      (0 < s.nFolds → t.event.rows ≠ [] ∧ TwoEach t.event.rows ∧
        ∃ train test d' g m res g', FifthSplit t.event.rows train test ∧
          data.filterEvent (.index (train.map Int.ofNat)) = .ok (some d') ∧ rec.fit g d' = .ok (m, res, g')) := by
  have htarget : ∀ i, target = some i → 0 ≤ i ∧ i < s.nFolds := by
    intro i hi
    have h' := h
    unfold doTask at h'
    obtain ⟨glob, _, h'⟩ := bind_ok h'
    split at h'
    · cases h'
    · rename_i hn
      rw [hi] at hn
      simp only [Option.any_some, decide_eq_true_eq] at hn
      omega
  have hsc : ∀ d dm, load s.trainFile s.scoreDomain = .ok (d, dm) → ∃ sc, d.score = some sc := by
    intro d dm e
    rw [hl] at e
    cases e
    exact ⟨sc, hd.built.inv.2.1⟩
  refine ⟨?_, htarget, ?_⟩
  · obtain ⟨glob, _, _, _, _, _, _, _, _, h0, _⟩ := doTask_cv_elim hcv hsc h
    exact (seed_total (env := env)).1 ⟨glob, h0⟩
  · intro hn
    obtain ⟨data', dom, ev, sc', users, items, groups, l, hL, _, _, hf, hr⟩ := doTask_cv hcv hsc h
    have e := hL.load
    rw [hl] at e
    cases e
    have e := hL.events
    rw [externalEvents_built hd.built.inv.1] at e
    cases e
    have hw : ∃ i, i ∈ wanted target 0 s.nFolds.toNat := by
      cases target with
      | none => exact ⟨0, by simp [wanted]; omega⟩
      | some i =>
        obtain ⟨h1, h2⟩ := htarget i rfl
        refine ⟨i.toNat, ?_⟩
        simp [wanted]
        omega
    obtain ⟨i, hi⟩ := hw
    rw [← hf] at hi
    obtain ⟨r, hrl, _⟩ := List.mem_map.1 hi
    obtain ⟨hdr, g, d', m, g', f1, f2, f3⟩ := hr r hrl
    have hu := hL.groups
    refine ⟨?_, ?_, r.trainI, r.testI, d', g, m, r.res, g', FifthSplit.of_drawn hu hdr, f1, f2⟩
    · intro e
      rw [e] at f3
      have : gather ([] : List (List α)) r.testI = [] := by simp [gather]
      rw [this] at f3
      exact hrec _ _ f3
    · rw [twoEach_iff (K := K) hu]
      by_contra hfit
      push Not at hfit
      obtain ⟨g1, g2, mask, k1, _⟩ := hdr
      rw [Split.shuffleMask_error env.gen (cvConfig (K := K) s.nFolds) groups (npUnique groups) hfit] at k1
      cases k1

/-- A hold-out test succeeds when the seed and the fold are in range, both files are loaded, there are test events and the
training events can be learnt. -/
theorem doTask_holdout_total {env : Env K α ε F V T γ} (clock : Nat → T) {rec : Recommender K α φ ε V γ M}
    {load : Loader K α φ ε F} {s : Setting K F V} {target : Option Int} (hcv : s.cv = false)
    (hseed : ∀ n, s.seed = some n → ∃ g, env.ofSeed n = .ok g) (htarget : ∀ i, target = some i → 0 ≤ i ∧ i < s.nFolds)
    {f : F} (hf : s.testFile = some f) {train test : ScoreData K α φ ε} {dm₁ dm₂ dm₁' dm₂' : List K}
    (hl : load s.trainFile s.scoreDomain = .ok (train, dm₁)) (hl' : load f dm₁ = .ok (test, dm₂))
    {t t' : Table K α ε} {sc sc' : List K} (hd : Holding train t sc dm₁') (hd' : Holding test t' sc' dm₂')
    (hne : t'.event.rows ≠ []) (hrec : Learns rec train) :
    ∃ j, doTask env clock rec load s target = .ok j := by
  obtain ⟨glob, hg⟩ := (seed_total (env := env)).2 hseed
  obtain ⟨⟨users, hus⟩, ⟨items, hit⟩⟩ := objectsAt_total hd
  obtain ⟨⟨users', hus'⟩, ⟨items', hit'⟩⟩ := objectsAt_total hd'
  obtain ⟨m, info, sys1, k1, k2⟩ := training_total clock hseed hrec ⟨glob, 0⟩
  obtain ⟨⟨esc, ti, sys2⟩, k3⟩ := testing_total (env := env) clock (k2 _ hne (rows_two hd')) sys1
  have he := externalEvents_built hd'.built.inv.1
  have hh : ∃ r, holdoutTest env clock rec load s ⟨glob, 0⟩ = .ok r := by
    unfold holdoutTest
    simp only [hl, hf, hl', he, hus, hit, hus', hit', k1, k3, hd'.built.inv.2.1, ok_bind]
    exact ⟨_, rfl⟩
  obtain ⟨r, hh⟩ := hh
  refine ⟨r.render env, ?_⟩
  · unfold doTask
    refine bind_intro hg ?_
    rw [if_neg ?_]
    · simp only [hcv, Bool.false_eq_true, if_false, hh, ok_bind]
      rfl
    · simp only [Option.any_eq_true, decide_eq_true_eq, not_exists, not_and]
      intro i hi hcon
      have := htarget i hi
      omega

/-- What a successful hold-out test shows. -/
theorem doTask_holdout_needs {env : Env K α ε F V T γ} {clock : Nat → T} {rec : Recommender K α φ ε V γ M}
    {load : Loader K α φ ε F} {s : Setting K F V} {target : Option Int} (hcv : s.cv = false) (hload : Loads load) (hrec : NeedsEvents rec)
    {j : J V} (h : doTask env clock rec load s target = .ok j) :
    (∀ n, s.seed = some n → ∃ g, env.ofSeed n = .ok g) ∧ (∀ i, target = some i → 0 ≤ i ∧ i < s.nFolds) ∧
      ∃ f train test dm₁ dm₂ g m res g', s.testFile = some f ∧ load s.trainFile s.scoreDomain = .ok (train, dm₁) ∧
        load f dm₁ = .ok (test, dm₂) ∧ (∀ rows, Built test.toEventData rows → rows ≠ []) ∧
        rec.fit g train = .ok (m, res, g') := by
  refine ⟨?_, ?_, ?_⟩
  · have h' := h
    unfold doTask at h'
    obtain ⟨glob, h0, _⟩ := bind_ok h'
    exact (seed_total (env := env)).1 ⟨glob, h0⟩
  · intro i hi
    have h' := h
    unfold doTask at h'
    obtain ⟨glob, _, h'⟩ := bind_ok h'
    split at h'
    · cases h'
    · rename_i hn
      rw [hi] at hn
      simp only [Option.any_some, decide_eq_true_eq] at hn
      omega
  · obtain ⟨f, train, test, dom₁, dom₂, rows, sc, tu, ti, su, si, g, g', m, res, esc, hh, _⟩ := doTask_holdout hload hcv h
    refine ⟨f, train, test, dom₁, dom₂, g, m, res, g', hh.file, hh.loadTrain, hh.loadTest, ?_, hh.fit⟩
    intro rows' hb e
    have e1 := externalEvents_built hb
    rw [externalEvents_built hh.built.inv.1] at e1
    cases e1
    have := hh.predict
    rw [e] at this
    exact hrec _ _ this

end Kam.Scripts

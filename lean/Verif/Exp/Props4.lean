/-
C103: which calls of the experiment scripts succeed.
-/
import Verif.Exp.Props3
import Verif.Scripts.Total
import Verif.Fit.Props

set_option linter.unusedSectionVars false

namespace Kam.Exp
open Scripts Spec

variable {F α φ ε V T γ : Type} [LinearOrder α]

/-! ### Specification -/

/-- Seed and fold number are valid. -/
structure Ready (env : Env ℝ α ε F V T γ) (o : Namespace F) : Prop where
  seed : ∀ n, o.rseed = some n → ∃ g, env.ofSeed n = .ok g
  fold : ∀ i, o.foldNo = some i → 0 ≤ i ∧ i < o.fold

/-- The score domain asked for can be used with the scores of a file: its stride is not zero, or it is `0 0 0` and two
scores differ. -/
def Usable (a b c : ℝ) (sc : List ℝ) : Prop := c ≠ 0 ∨ (a = 0 ∧ b = 0 ∧ c = 0 ∧ ∃ x ∈ sc, ∃ y ∈ sc, x ≠ y)

/-- A score domain whose largest score is some strides above the smallest. -/
def Regular (dm : List ℝ) : Prop := ∃ (lo st : ℝ) (m : Nat), dm = [lo, lo + (m : ℝ) * st, st] ∧ 0 < st

/-- The number of events of a user at the given positions with the score `v`. -/
noncomputable def eventsWith (rows : List (List α)) (sc : List ℝ) (u : α) (v : ℝ) (ix : List Nat) : Nat :=
  open Classical in (ix.filter (fun i => decide ((rows[i]?).bind List.head? = some u ∧ sc[i]? = some v))).length

/-- The scores of a file, cut at the middle of its score domain: some are above, some are not. -/
def BothSides (dm sc : List ℝ) : Prop :=
  (∃ x ∈ sc, x ≤ (dm.getD 0 0 + dm.getD 1 0) / 2) ∧ ∃ x ∈ sc, (dm.getD 0 0 + dm.getD 1 0) / 2 < x

/-- Some user has so many events with the score `v` that a fifth of the user's events, rounded up, cannot be all of them. -/
def Robust (rows : List (List α)) (sc : List ℝ) (v : ℝ) : Prop :=
  ∃ u, eventsOf rows u (List.range rows.length) + 5 ≤ 5 * eventsWith rows sc u v (List.range rows.length)

/-- The events have two different ids in the column `c`: 0 for users and 1 for items. -/
def TwoIds (c : Nat) (rows : List (List α)) : Prop := ∃ r ∈ rows, ∃ r' ∈ rows, ∃ x y, r[c]? = some x ∧ r'[c]? = some y ∧ x ≠ y

/-- For each item, the label 1 for the events with another item. -/
noncomputable def otherItem (rows : List (List α)) (x : α) : List ℝ :=
  rows.map (fun r => if r[1]? = some x then 0 else 1)

/-- For each item, some user has so many events with other items that a fifth of the user's events, rounded up, cannot be all of them. -/
def Spread (rows : List (List α)) : Prop := ∀ x, Robust rows (otherItem rows x) 1

/-! ### The recommenders learn -/

/-- Two users and two items are what the matrix factorization models need. -/
lemma several_iff {rows : List (List α)} (hl : ∀ r ∈ rows, r.length = 2) (hne : rows ≠ []) {c : Nat} (hc : c < 2) :
    Several [0, 1] rows c ↔ TwoIds c rows := by
  have ho : ∀ t, ([0, 1] : List Nat)[c]? = some t ↔ t = c := by
    intro t
    match c, hc with
    | 0, _ => simp [eq_comm]
    | 1, _ => simp [eq_comm]
  have hob : ∀ x, IsObject [0, 1] rows c x ↔ ∃ r ∈ rows, r[c]? = some x := by
    intro x
    constructor
    · rintro ⟨r, hr, e, h1, h2⟩
      have : e = c := by
        match e, h1 with
        | 0, h1 => simpa using h1
        | 1, h1 => simpa using h1
        | e + 2, h1 => simp at h1
      subst this
      exact ⟨r, hr, h2⟩
    · rintro ⟨r, hr, h⟩
      exact ⟨r, hr, c, (ho c).2 rfl, h⟩
  have hS : Several [0, 1] rows c ↔ count [0, 1] rows c ≠ 1 := by
    constructor
    · intro h
      exact h c ((ho c).2 rfl)
    · intro h t ht
      rw [(ho t).1 ht]
      exact h
  rw [hS]
  unfold count
  rw [Ne, Set.ncard_eq_one]
  constructor
  · intro h
    by_contra hn
    obtain ⟨r, hr⟩ := List.exists_mem_of_ne_nil _ hne
    have hrc : c < r.length := by rw [hl r hr]; exact hc
    refine h ⟨r[c], Set.eq_singleton_iff_unique_mem.2 ⟨(hob _).2 ⟨r, hr, List.getElem?_eq_getElem hrc⟩, fun y hy => ?_⟩⟩
    obtain ⟨r', hr', hy'⟩ := (hob y).1 hy
    by_contra hxy
    exact hn ⟨r', hr', r, hr, y, _, hy', List.getElem?_eq_getElem hrc, hxy⟩
  · rintro ⟨r, hr, r', hr', x, y, h1, h2, hxy⟩ ⟨z, hz⟩
    have e1 : x ∈ ({z} : Set α) := by rw [← hz]; exact (hob x).2 ⟨r, hr, h1⟩
    have e2 : y ∈ ({z} : Set α) := by rw [← hz]; exact (hob y).2 ⟨r', hr', h2⟩
    rw [Set.mem_singleton_iff] at e1 e2
    exact hxy (e1.trans e2.symm)

lemma TwoIds.ne {c : Nat} {rows : List (List α)} (h : TwoIds c rows) : rows ≠ [] := by
  obtain ⟨r, hr, _⟩ := h
  exact List.ne_nil_of_mem hr

lemma TwoIds.mono {c : Nat} {rows rows' : List (List α)} (h : TwoIds c rows) (hs : ∀ r ∈ rows, r ∈ rows') : TwoIds c rows' := by
  obtain ⟨r, hr, r', hr', h⟩ := h
  exact ⟨r, hs r hr, r', hs r' hr', h⟩

lemma sEvent_two {d : EventData α φ ε} {rows : List (List α)} (h : Built d rows) (ho : d.eventOtypes = [0, 1]) : d.sEvent = 2 := by
  rw [← h.holds.wf.len_otypes, ho]
  rfl

lemma columns_two {d : EventData α φ ε} {rows : List (List α)} (h : Built d rows) (ho : d.eventOtypes = [0, 1]) :
    columnsOf d none = .ok [0, 1] := by
  unfold columnsOf
  rw [sEvent_two h ho]
  rfl

lemma needs_predict {θ W : Type} {L : Learner ℝ γ θ W} (r : Rec ℝ α φ ε γ θ W) (esc : Pred ℝ) : Rec.predict L r (.mat ⟨2, []⟩) ≠ .ok esc := by
  intro h
  cases h

lemma guardK_needs {M : Type} {k : Int} {rec : Recommender ℝ α φ ε V γ M} (h : NeedsEvents rec) : NeedsEvents (guardK k rec) := by
  unfold guardK
  split
  · intro m esc he
    cases he
  · exact h

lemma Trained.needs {lib : Lib α φ ε V γ} {o : Namespace F} {sc : Script} {M : Type} {rec : Recommender ℝ α φ ε V γ M}
    (h : Trained lib o sc M rec) : NeedsEvents rec := by
  cases h with
  | pmf cf _ _ => exact guardK_needs fun m esc => needs_predict m esc
  | plsa cf e _ _ => exact guardK_needs fun m esc => needs_predict m esc
  | lpmf cf _ _ => exact guardK_needs fun m esc => needs_predict m esc

lemma Trained.k {lib : Lib α φ ε V γ} {o : Namespace F} {sc : Script} {M : Type} {rec : Recommender ℝ α φ ε V γ M}
    (h : Trained lib o sc M rec) {g : γ} {d : ScoreData ℝ α φ ε} {x : M × Dict String (J V) × γ} (hf : rec.fit g d = .ok x) : 0 ≤ o.k := by
  by_contra hk
  have e : ∀ {M : Type} (rec : Recommender ℝ α φ ε V γ M), guardK o.k rec = failing .valueError := by
    intro M rec
    unfold guardK
    rw [if_pos (by omega)]
  cases h <;> rw [e] at hf <;> cases hf

lemma predictor_learns {θ W : Type} {L : Learner ℝ γ θ W} (fresh : Dict String W) (enc : W → J V) (after : γ → ScoreData ℝ α φ ε → γ)
    {k : Int} (hk : 0 ≤ k) {d : ScoreData ℝ α φ ε}
    (h : ∀ g, ∃ r', Rec.fitPredictor L (fun _ => g) g (Rec.init none fresh) d none = .ok r' ∧
      ∀ a : Arr2 α, a.Regular → a.ncols = 2 → a.rows ≠ [] → ∃ ys, Rec.predict L r' (.mat a) = .ok (squeeze ys)) :
    Learns (guardK k (predictor L fresh enc after)) d := by
  unfold guardK
  rw [if_neg (by omega)]
  intro g
  obtain ⟨r', h1, h2⟩ := h g
  refine ⟨r', r'.fitResults.map (fun p => (p.1, enc p.2)), after g d, ?_, ?_⟩
  · unfold predictor
    simp only [h1]
  · intro evs hne hl
    obtain ⟨ys, h3⟩ := h2 ⟨2, evs⟩ hl rfl hne
    exact ⟨_, h3⟩

lemma finder_learns {θ W : Type} {L : Learner ℝ γ θ W} (fresh : Dict String W) (enc : W → J V) (after : γ → ScoreData ℝ α φ ε → γ)
    {k : Int} (hk : 0 ≤ k) {d : ScoreData ℝ α φ ε}
    (h : ∀ g, ∃ r', Rec.fitExplicit L (fun _ => g) g (Rec.init none fresh) d none = .ok r' ∧
      ∀ a : Arr2 α, a.Regular → a.ncols = 2 → a.rows ≠ [] → ∃ ys, Rec.predict L r' (.mat a) = .ok (squeeze ys)) :
    Learns (guardK k (finder L fresh enc after)) d := by
  unfold guardK
  rw [if_neg (by omega)]
  intro g
  obtain ⟨r', h1, h2⟩ := h g
  refine ⟨r', r'.fitResults.map (fun p => (p.1, enc p.2)), after g d, ?_, ?_⟩
  · unfold finder
    simp only [h1]
  · intro evs hne hl
    obtain ⟨ys, h3⟩ := h2 ⟨2, evs⟩ hl rfl hne
    exact ⟨_, h3⟩

lemma built_two {d : EventData α φ ε} {rows : List (List α)} (h : Built d rows) (ho : d.eventOtypes = [0, 1]) : ∀ r ∈ rows, r.length = 2 := by
  intro r hr
  rw [h.holds.reg r hr, ho]
  rfl

lemma several_built {d : EventData α φ ε} {rows : List (List α)} (h : Built d rows) (hne : rows ≠ []) (ho : d.eventOtypes = [0, 1]) :
    (Several d.eventOtypes rows 0 ↔ TwoIds 0 rows) ∧ (Several d.eventOtypes rows 1 ↔ TwoIds 1 rows) := by
  rw [ho]
  exact ⟨several_iff (built_two h ho) hne (by omega), several_iff (built_two h ho) hne (by omega)⟩

/-- Matrix factorization learns from every container of events of several users with several items. -/
lemma learns_pmf {lib : Lib α φ ε V γ} {o : Namespace F} (hm : o.method = "pmf") {M : Type} {rec : Recommender ℝ α φ ε V γ M}
    (h : Trained lib o .sp M rec) (hk : 0 ≤ o.k) {d : ScoreData ℝ α φ ε} {rows : List (List α)} {sc : List ℝ}
    (hb : ScoreBuilt d rows sc) (hne : rows ≠ []) (ho : d.eventOtypes = [0, 1]) (hu : TwoIds 0 rows) (hi : TwoIds 1 rows) :
    Learns rec d := by
  obtain ⟨su, si⟩ := several_built hb.inv.1 hne ho
  cases h with
  | plsa cf e h1 _ => rw [hm] at h1; cases e <;> simp at h1
  | pmf cf _ _ =>
    refine predictor_learns _ _ _ hk fun g => ?_
    obtain ⟨r', _, _, _, _, h1, _⟩ := MF.C70_pmf_fit_partial cf (fun _ => g) g (Rec.init none MF.initialResults) hb hne none 0 1
      (columns_two hb.inv.1 ho) (su.2 hu) (si.2 hi)
    obtain ⟨_, _, _, _, h2⟩ := MF.C32_unknown_objects (MF.Model.pmf (cf := cf)) hb.inv.1 ho none (.inl rfl) (.predictor h1)
    refine ⟨r', h1, fun a h3 h4 h5 => ?_⟩
    obtain ⟨ys, h6, _⟩ := h2 a h3 h4 h5
    exact ⟨ys, h6⟩

/-- The topic models learn from every container of user-item events with a regular score domain. -/
lemma learns_plsa {lib : Lib α φ ε V γ} {o : Namespace F} (hm : o.method = "plsam" ∨ o.method = "plsamm") {M : Type}
    {rec : Recommender ℝ α φ ε V γ M} (h : Trained lib o .sp M rec) (hk : 0 < o.k) (ha : 0 < o.alpha) (hR : PLSA.DrawsWeights lib.dirichlet)
    {d : ScoreData ℝ α φ ε} {rows : List (List α)} {sc dm : List ℝ}
    (hb : ScoreBuilt d rows sc) (hne : rows ≠ []) (ho : d.eventOtypes = [0, 1]) (hd : d.scoreDomain = some dm) (hreg : Regular dm) :
    Learns rec d := by
  cases h with
  | pmf cf h1 _ => rw [h1] at hm; simp at hm
  | plsa cf e _ hs =>
    refine predictor_learns _ _ _ hk.le fun g => ?_
    obtain ⟨lo, st, m, rfl, hst⟩ := hreg
    have hk' : 0 < cf.k := by
      have := hs.k
      omega
    obtain ⟨r', _, _, _, _, _, _, _, h1, _⟩ := PLSA.C70_plsa_fit cf hk' (fun _ => g) g (Rec.init none PLSA.initialResults) hb hne
      lo _ st m hd hst rfl none 0 1 (columns_two hb.inv.1 ho)
    have hR' : PLSA.DrawsWeights cf.rng := by rw [hs.rng]; exact hR
    obtain ⟨_, _, _, _, _, _, h2⟩ := PLSA.C43_prediction (by rw [hs.alpha]; exact ha) hR' hb hne ho none (.inl rfl) h1
    refine ⟨r', h1, fun a h3 h4 h5 => ?_⟩
    obtain ⟨ys, h6, _⟩ := h2 a h3 h4 h5
    exact ⟨ys, h6⟩

/-- Logistic matrix factorization learns from every container of user-item events of several users with several items and both classes. -/
lemma learns_lpmf {lib : Lib α φ ε V γ} {o : Namespace F} {M : Type}
    {rec : Recommender ℝ α φ ε V γ M} (h : Trained lib o .itemFinder M rec) (hk : 0 ≤ o.k)
    {d : ScoreData ℝ α φ ε} {rows : List (List α)} {sc : List ℝ}
    (hb : ScoreBuilt d rows sc) (ho : d.eventOtypes = [0, 1]) (hd : d.scoreDomain = some [0, 1, 1]) (hlev : d.nScoreLevels = some 2)
    (hbin : ∀ s ∈ sc, s = 0 ∨ s = 1) (h0 : 0 ∈ sc) (h1 : 1 ∈ sc) (hu : TwoIds 0 rows)
    (hi : TwoIds 1 rows) : Learns rec d := by
  obtain ⟨su, si⟩ := several_built hb.inv.1 hu.ne ho
  cases h with
  | lpmf cf _ hs =>
    refine finder_learns _ _ _ hk fun g => ?_
    obtain ⟨r', _, _, _, _, h1, _⟩ := MF.C70_logistic_fit_partial cf (fun _ => g) g (Rec.init none MF.initialResults) hb hd hlev hbin h0 h1 none 0 1
      (columns_two hb.inv.1 ho) (su.2 hu) (si.2 hi)
    obtain ⟨_, _, _, _, h2⟩ := MF.C32_unknown_objects (MF.Model.logistic (cf := cf)) hb.inv.1 ho none (.inl rfl) (.explicit h1)
    refine ⟨r', h1, fun a h3 h4 h5 => ?_⟩
    obtain ⟨ys, h6, _⟩ := h2 a h3 h4 h5
    exact ⟨ys, h6⟩

/-- Matrix factorization learns from no container of the events of one user or with one item. -/
lemma pmf_needs {lib : Lib α φ ε V γ} {o : Namespace F} (hm : o.method = "pmf") {M : Type}
    {rec : Recommender ℝ α φ ε V γ M} (h : Trained lib o .sp M rec) {d : ScoreData ℝ α φ ε} {rows : List (List α)} {sc : List ℝ}
    (hb : ScoreBuilt d rows sc) (hne : rows ≠ []) (ho : d.eventOtypes = [0, 1]) {g : γ} {x : M × Dict String (J V) × γ}
    (hf : rec.fit g d = .ok x) : TwoIds 0 rows ∧ TwoIds 1 rows := by
  have hk := h.k hf
  obtain ⟨su, si⟩ := several_built hb.inv.1 hne ho
  cases h with
  | plsa cf e h1 _ => rw [hm] at h1; cases e <;> simp at h1
  | pmf cf _ _ =>
    unfold guardK at hf
    rw [if_neg (by omega)] at hf
    unfold predictor at hf
    simp only [] at hf
    split at hf
    · rename_i r' hr
      obtain ⟨h1, h2⟩ := MF.pmf_several hb (columns_two hb.inv.1 ho) hr
      exact ⟨su.1 h1, si.1 h2⟩
    · cases hf

/-- Logistic matrix factorization learns from no container in which a class does not occur, nor from the events of one user or with one item. -/
lemma lpmf_needs {lib : Lib α φ ε V γ} {o : Namespace F} {M : Type}
    {rec : Recommender ℝ α φ ε V γ M} (h : Trained lib o .itemFinder M rec) {d : ScoreData ℝ α φ ε} {rows : List (List α)} {sc : List ℝ}
    (hb : ScoreBuilt d rows sc) (ho : d.eventOtypes = [0, 1]) {g : γ} {x : M × Dict String (J V) × γ} (hf : rec.fit g d = .ok x) :
    0 ∈ sc ∧ 1 ∈ sc ∧ TwoIds 0 rows ∧ TwoIds 1 rows := by
  have hk := h.k hf
  cases h with
  | lpmf cf _ hs =>
    unfold guardK at hf
    rw [if_neg (by omega)] at hf
    unfold finder at hf
    simp only [] at hf
    split at hf
    · rename_i r' hr
      have hr0 := hr
      unfold Rec.fitExplicit Rec.explicitSuperFit at hr
      rw [eventFit_eq (fun _ => g) g _ hb.inv.1.holds none _ (columns_two hb.inv.1 ho)] at hr
      simp only [] at hr
      by_cases hacc : acceptsBinary d = true
      · obtain ⟨_, _, sc', hs', _, h0, h1⟩ := (acceptsBinary_iff d).1 hacc
        rw [hb.inv.2.1] at hs'
        cases hs'
        have hne : rows ≠ [] := by
          rintro rfl
          rw [List.length_eq_zero_iff.1 hb.inv.2.2.1] at h0
          cases h0
        obtain ⟨su, si⟩ := several_built hb.inv.1 hne ho
        obtain ⟨k1, k2⟩ := MF.logistic_several hb (columns_two hb.inv.1 ho) hacc hr0
        exact ⟨h0, h1, su.1 k1, si.1 k2⟩
      · rw [if_neg hacc] at hr
        cases hr
    · cases hf

/-! ### Loading -/

lemma loadSP_read {read : F → Res (Table ℝ α ε)} {f : F} {dom : List ℝ} {x : ScoreData ℝ α φ ε × List ℝ}
    (h : (loadDataSP read : Loader ℝ α φ ε F) f dom = .ok x) : ∃ t, read f = .ok t := by
  unfold loadDataSP at h
  obtain ⟨t, ht, _⟩ := bind_ok h
  exact ⟨t, ht⟩

lemma loadIF_read {read : F → Res (Table ℝ α ε)} {f : F} {dom : List ℝ} {x : ScoreData ℝ α φ ε × List ℝ}
    (h : (loadDataIF read : Loader ℝ α φ ε F) f dom = .ok x) : ∃ t, read f = .ok t := by
  unfold loadDataIF at h
  obtain ⟨t, ht, _⟩ := bind_ok h
  exact ⟨t, ht⟩

lemma cv_loaded {env : Env ℝ α ε F V T γ} {clock : Nat → T} {M : Type} {rec : Recommender ℝ α φ ε V γ M}
    {load : Loader ℝ α φ ε F} (hload : Loads load) {s : Setting ℝ F V} {target : Option Int} (hcv : s.cv = true) {j : J V}
    (h : doTask env clock rec load s target = .ok j) : ∃ d dm, load s.trainFile s.scoreDomain = .ok (d, dm) := by
  obtain ⟨_, d, dm, _, _, _, _, _, _, _, hl, _⟩ := doTask_cv_elim hcv hload.score h
  exact ⟨d, dm, hl.load⟩

/-- What a cross validation of a score predictor needs. -/
lemma sp_cv_needs {env : Env ℝ α ε F V T γ} {clock : Nat → T} {lib : Lib α φ ε V γ} {o : Namespace F} {M : Type}
    {rec : Recommender ℝ α φ ε V γ M} (hT : Trained lib o .sp M rec)
    {read : Bool → F → Res (Table ℝ α ε)} (hread : ∀ b f t, read b f = .ok t → TableOk t) {f : F} {s : Setting ℝ F V} (hs : SetRun o f s)
    (hcv : o.validation = "cv") {a b c : ℝ} (hdom : o.domain = [a, b, c]) {j : J V}
    (h : doTask env clock rec (loadDataSP (read o.timestamp)) s o.foldNo = .ok j) :
    Ready env o ∧ ∃ t, read o.timestamp f = .ok t ∧ Usable a b c t.score ∧
      (0 < o.fold → 0 ≤ o.k ∧ t.event.rows ≠ [] ∧ TwoEach t.event.rows ∧ ∃ train test d g x, FifthSplit t.event.rows train test ∧
        ScoreBuilt d (gather t.event.rows train) (gather t.score train) ∧ gather t.event.rows train ≠ [] ∧ d.eventOtypes = [0, 1] ∧
        rec.fit g d = .ok x) := by
  have hload : Loads (loadDataSP (read o.timestamp) : Loader ℝ α φ ε F) := loadDataSP_loads (hread _)
  have hcv' : s.cv = true := hs.cv.2 hcv
  obtain ⟨d, dm, hl⟩ := cv_loaded hload hcv' h
  have hl' := hl
  rw [hs.trainFile, hs.scoreDomain, hdom] at hl'
  obtain ⟨t, ht⟩ := loadSP_read hl'
  obtain ⟨hD, hH⟩ := (loadDataSP_iff ht (hread _ _ _ ht) [a, b, c] dm rfl).1 d hl'
  obtain ⟨h1, h2, h3⟩ := doTask_cv_needs hcv' hT.needs hl hH h
  rw [hs.seed] at h1
  rw [hs.nFolds] at h2 h3
  refine ⟨⟨h1, h2⟩, t, ht, (exists_domain a b c t.score).1 ⟨dm, hD⟩, fun h0 => ?_⟩
  obtain ⟨k1, k2, train, test, d', g, m, res, g', hsp, hf, k3⟩ := h3 h0
  have hix : ∀ i ∈ train, i < t.event.rows.length := fun i hi => ((hsp.fold.train_iff i).1 hi).1
  obtain ⟨d'', hf', e1, e2, _⟩ := filter_total hH hix
  rw [hf] at hf'
  cases hf'
  refine ⟨hT.k k3, k1, k2, train, test, d', g, _, hsp, e1, ?_, e2, k3⟩
  intro e
  have := congrArg List.length e
  rw [length_gather _ _ hix] at this
  exact hsp.train_nonempty (rows_two hH) k1 k2 (List.length_eq_zero_iff.1 this)

/-- What suffices for a cross validation of a score predictor. -/
lemma sp_cv_total {env : Env ℝ α ε F V T γ} (clock : Nat → T) {o : Namespace F} {M : Type}
    {rec : Recommender ℝ α φ ε V γ M}
    {read : Bool → F → Res (Table ℝ α ε)} (hread : ∀ b f t, read b f = .ok t → TableOk t) {f : F} {s : Setting ℝ F V} (hs : SetRun o f s)
    (hcv : o.validation = "cv") {a b c : ℝ} (hdom : o.domain = [a, b, c]) (hr : Ready env o) {t : Table ℝ α ε}
    (ht : read o.timestamp f = .ok t) (hU : Usable a b c t.score)
    (h : 0 < o.fold → t.event.rows ≠ [] ∧ TwoEach t.event.rows ∧ ∀ dm (d : ScoreData ℝ α φ ε) train test, DomainOf [a, b, c] t.score dm →
      (∀ r ∈ t.event.rows, r.length = 2) → FifthSplit t.event.rows train test →
      ScoreBuilt d (gather t.event.rows train) (gather t.score train) → gather t.event.rows train ≠ [] → d.eventOtypes = [0, 1] →
      d.scoreDomain = some dm → Learns rec d) :
    ∃ j, doTask env clock rec (loadDataSP (read o.timestamp)) s o.foldNo = .ok j := by
  have hcv' : s.cv = true := hs.cv.2 hcv
  obtain ⟨dm, hD⟩ := (exists_domain a b c t.score).2 hU
  obtain ⟨hH, hE⟩ := loadDataSP_iff (φ := φ) ht (hread _ _ _ ht) [a, b, c] dm rfl
  obtain ⟨d, hl⟩ := hE hD
  obtain ⟨_, hH⟩ := hH d hl
  refine doTask_cv_total clock hcv' (by rw [hs.seed]; exact hr.seed) (by rw [hs.nFolds]; exact hr.fold)
    (by rw [hs.trainFile, hs.scoreDomain, hdom]; exact hl) hH ?_
  rw [hs.nFolds]
  intro h0
  obtain ⟨k2, k3, hlearn⟩ := h h0
  refine ⟨k2, k3, fun train test d' hsp hf => ?_⟩
  have hix : ∀ i ∈ train, i < t.event.rows.length := fun i hi => ((hsp.fold.train_iff i).1 hi).1
  obtain ⟨d'', hf', e1, e2, e3, _⟩ := filter_total hH hix
  rw [hf] at hf'
  cases hf'
  refine hlearn dm d' train test hD (rows_two hH) hsp e1 ?_ e2 e3
  intro e
  have := congrArg List.length e
  rw [length_gather _ _ hix] at this
  exact hsp.train_nonempty (rows_two hH) k2 k3 (List.length_eq_zero_iff.1 this)

/-- Hold-out test of a score predictor. -/
lemma sp_holdout_iff {env : Env ℝ α ε F V T γ} (clock : Nat → T) {lib : Lib α φ ε V γ} {o : Namespace F} {M : Type}
    {rec : Recommender ℝ α φ ε V γ M} (hT : Trained lib o .sp M rec)
    {read : Bool → F → Res (Table ℝ α ε)} (hread : ∀ b f t, read b f = .ok t → TableOk t) {f : F} {s : Setting ℝ F V} (hs : SetRun o f s)
    (hcv : o.validation = "holdout") {a b c : ℝ} (hdom : o.domain = [a, b, c])
    (hne : ∀ t, read o.timestamp f = .ok t → t.event.rows ≠ []) (P : List (List α) → Prop)
    (hlearn : 0 ≤ o.k → ∀ t dm (d : ScoreData ℝ α φ ε) rows sc, read o.timestamp f = .ok t → DomainOf [a, b, c] t.score dm →
      ScoreBuilt d rows sc → rows ≠ [] → d.eventOtypes = [0, 1] → d.scoreDomain = some dm → P rows → Learns rec d)
    (hneeds : ∀ (d : ScoreData ℝ α φ ε) rows sc g x, ScoreBuilt d rows sc → rows ≠ [] → d.eventOtypes = [0, 1] →
      rec.fit g d = .ok x → P rows) :
    (∃ j, doTask env clock rec (loadDataSP (read o.timestamp)) s o.foldNo = .ok j) ↔
      Ready env o ∧ 0 ≤ o.k ∧ (∃ t, read o.timestamp f = .ok t ∧ Usable a b c t.score ∧ P t.event.rows) ∧
        ∃ f' t', o.testfile = some f' ∧ read o.timestamp f' = .ok t' ∧ t'.event.rows ≠ [] := by
  have hload : Loads (loadDataSP (read o.timestamp) : Loader ℝ α φ ε F) := loadDataSP_loads (hread _)
  have hcv' : s.cv = false := by
    by_contra h
    rw [Bool.not_eq_false, hs.cv, hcv] at h
    simp at h
  have given : ∀ {dm : List ℝ} {sc sc' : List ℝ}, DomainOf [a, b, c] sc dm → dm.length = 3 ∧ DomainOf dm sc' dm := by
    intro dm sc sc' h
    obtain ⟨lo, hi, st, rfl, hst⟩ := h.stride
    exact ⟨rfl, .given rfl hst⟩
  constructor
  · rintro ⟨j, h⟩
    obtain ⟨h1, h2, f', train, test, dm₁, dm₂, g, m, res, g', k1, k2, k3, k4, k5⟩ := doTask_holdout_needs hcv' hload hT.needs h
    rw [hs.seed] at h1
    rw [hs.nFolds] at h2
    rw [hs.trainFile, hs.scoreDomain, hdom] at k2
    rw [hs.testFile] at k1
    obtain ⟨t, ht⟩ := loadSP_read k2
    obtain ⟨t', ht'⟩ := loadSP_read k3
    obtain ⟨hD, hH⟩ := (loadDataSP_iff ht (hread _ _ _ ht) [a, b, c] dm₁ rfl).1 _ k2
    obtain ⟨_, hH'⟩ := (loadDataSP_iff ht' (hread _ _ _ ht') dm₁ dm₂ (given (sc' := t.score) hD).1).1 _ k3
    exact ⟨⟨h1, h2⟩, hT.k k5, ⟨t, ht, (exists_domain a b c t.score).1 ⟨dm₁, hD⟩,
      hneeds _ _ _ _ _ hH.built (hne t ht) hH.otypes k5⟩, f', t', k1, ht', k4 _ hH'.built.inv.1⟩
  · rintro ⟨⟨h1, h2⟩, hk, ⟨t, ht, hU, hP⟩, f', t', k1, ht', k4⟩
    obtain ⟨dm, hD⟩ := (exists_domain a b c t.score).2 hU
    obtain ⟨hH, hE⟩ := loadDataSP_iff (φ := φ) ht (hread _ _ _ ht) [a, b, c] dm rfl
    obtain ⟨d, hl⟩ := hE hD
    obtain ⟨_, hH⟩ := hH d hl
    obtain ⟨g1, g2⟩ := given (sc' := t'.score) hD
    obtain ⟨hH', hE'⟩ := loadDataSP_iff (φ := φ) ht' (hread _ _ _ ht') dm dm g1
    obtain ⟨d', hl'⟩ := hE' g2
    obtain ⟨_, hH'⟩ := hH' d' hl'
    exact doTask_holdout_total clock hcv' (by rw [hs.seed]; exact h1) (by rw [hs.nFolds]; exact h2) (by rw [hs.testFile]; exact k1)
      (by rw [hs.trainFile, hs.scoreDomain, hdom]; exact hl) hl' hH hH' k4
      (hlearn hk t dm d _ _ ht hD hH.built (hne t ht) hH.otypes hH.domain hP)

lemma binarized_zero (dm sc : List ℝ) : 0 ∈ binarized dm sc ↔ ∃ x ∈ sc, x ≤ (dm.getD 0 0 + dm.getD 1 0) / 2 := by
  unfold binarized
  rw [List.mem_map]
  refine exists_congr fun x => and_congr_right fun _ => ?_
  split_ifs with h
  · exact ⟨fun _ => h, fun _ => rfl⟩
  · exact ⟨fun e => absurd e one_ne_zero, fun e => absurd e h⟩

lemma binarized_one (dm sc : List ℝ) : 1 ∈ binarized dm sc ↔ ∃ x ∈ sc, (dm.getD 0 0 + dm.getD 1 0) / 2 < x := by
  unfold binarized
  rw [List.mem_map]
  refine exists_congr fun x => and_congr_right fun _ => ?_
  split_ifs with h
  · simp only [zero_ne_one, false_iff, not_lt]
    exact h
  · simp only [true_iff]
    exact not_le.1 h

lemma binarized_binary (dm sc : List ℝ) : ∀ s ∈ binarized dm sc, s = 0 ∨ s = 1 := by
  intro s hs
  unfold binarized at hs
  rw [List.mem_map] at hs
  obtain ⟨x, _, rfl⟩ := hs
  split_ifs
  · exact .inl rfl
  · exact .inr rfl

/-- A class with so many events of a user is in every training part. -/
lemma Robust.mem {rows : List (List α)} {sc : List ℝ} {v : ℝ} (h : Robust rows sc v) {train test : List Nat}
    (hs : FifthSplit rows train test) : v ∈ gather sc train := by
  obtain ⟨u, hu⟩ := h
  have h1 := eventsOf_split hs.fold
    (fun i => open Classical in decide ((rows[i]?).bind List.head? = some u ∧ sc[i]? = some v))
  have sub : ∀ ix : List Nat, eventsWith rows sc u v ix ≤ eventsOf rows u ix := by
    intro ix
    unfold eventsWith eventsOf
    refine (List.monotone_filter_right ix ?_).length_le
    intro i hi
    simp only [decide_eq_true_eq] at hi ⊢
    exact hi.1
  have h2 := sub test
  have h3 := sub (List.range rows.length)
  have h4 := (hs.fifth u (by omega)).2
  unfold eventsWith at hu h2 h3
  have h5 : 0 < (train.filter (fun i => open Classical in decide ((rows[i]?).bind List.head? = some u ∧ sc[i]? = some v))).length := by
    omega
  obtain ⟨i, hi⟩ := List.exists_mem_of_length_pos h5
  rw [List.mem_filter, decide_eq_true_eq] at hi
  unfold gather
  rw [List.mem_filterMap]
  exact ⟨i, hi.1, hi.2.2⟩

lemma Spread.two {rows : List (List α)} (hs : Spread rows) (hl : ∀ r ∈ rows, r.length = 2) {train test : List Nat}
    (h : FifthSplit rows train test) (hne : gather rows train ≠ []) : TwoIds 1 (gather rows train) := by
  obtain ⟨r, hr⟩ := List.exists_mem_of_ne_nil _ hne
  have hlt : 1 < r.length := by rw [hl r (mem_of_mem_gather hr)]; omega
  have hm := (hs r[1]).mem h
  unfold gather otherItem at hm
  obtain ⟨i, hi, e⟩ := List.mem_filterMap.1 hm
  rw [List.getElem?_map] at e
  cases hr' : rows[i]? with
  | none => rw [hr'] at e; cases e
  | some r' =>
    rw [hr', Option.map_some, Option.some.injEq] at e
    have hlt' : 1 < r'.length := by rw [hl r' (List.mem_of_getElem? hr')]; omega
    refine ⟨r, hr, r', ?_, r[1], r'[1], List.getElem?_eq_getElem hlt, List.getElem?_eq_getElem hlt', ?_⟩
    · unfold gather
      exact List.mem_filterMap.2 ⟨i, hi, hr'⟩
    · intro hc
      rw [if_pos (by rw [List.getElem?_eq_getElem hlt', hc])] at e
      exact zero_ne_one e

/-- Every user keeps an event in every training part. -/
lemma TwoIds.train {rows : List (List α)} (hu : TwoIds 0 rows) (hl : ∀ r ∈ rows, r.length = 2) (h2 : TwoEach rows) {train test : List Nat}
    (h : FifthSplit rows train test) : TwoIds 0 (gather rows train) := by
  have keep : ∀ r ∈ rows, ∀ x, r[0]? = some x → ∃ r' ∈ gather rows train, r'[0]? = some x := by
    intro r hr x hx
    have hh : ∀ r : List α, r.head? = r[0]? := fun r => by cases r <;> rfl
    have h1 := eventsOf_split h.fold (fun i => decide ((rows[i]?).bind List.head? = some x))
    have hpos : 0 < eventsOf rows x (List.range rows.length) := by
      obtain ⟨i, hi, rfl⟩ := List.mem_iff_getElem.1 hr
      refine List.length_pos_of_mem (a := i) (List.mem_filter.2 ⟨List.mem_range.2 hi, ?_⟩)
      rw [decide_eq_true_eq, List.getElem?_eq_getElem hi, Option.bind_some, hh, hx]
    have h3 := h2 x
    have h4 := (h.fifth x hpos).2
    unfold eventsOf at h3 h4 hpos
    have h5 : 0 < (train.filter (fun i => decide ((rows[i]?).bind List.head? = some x))).length := by omega
    obtain ⟨i, hi⟩ := List.exists_mem_of_length_pos h5
    rw [List.mem_filter, decide_eq_true_eq] at hi
    cases hr' : rows[i]? with
    | none => rw [hr'] at hi; cases hi.2
    | some r' =>
      rw [hr', Option.bind_some, hh] at hi
      exact ⟨r', List.mem_filterMap.2 ⟨i, hi.1, hr'⟩, hi.2⟩
  obtain ⟨r, hr, r', hr', x, y, hx, hy, hxy⟩ := hu
  obtain ⟨q, hq, hq'⟩ := keep r hr x hx
  obtain ⟨p, hp, hp'⟩ := keep r' hr' y hy
  exact ⟨q, hq, p, hp, x, y, hq', hp', hxy⟩

/-! ### C103 -/

section
variable (env : Env ℝ α ε F V T γ) (lib : Lib α φ ε V γ) (clock : Nat → T) (environment : Dict String (J V))
    (read : Bool → F → Res (Table ℝ α ε))

/-- C103: a cross validation of matrix factorization succeeds when seed and fold number are valid, the file can be
read, its score domain can be determined, and — unless the number of folds is not positive — there is no negative number
of factors, the file has events of two users, every user in it has at least two events, and for each item some user has so many events
with other items that the user's test events cannot be all of them. -/
theorem C103_pmf_cross_validation (hread : ∀ b f t, read b f = .ok t → TableOk t) {o : Namespace F} (hm : o.method = "pmf")
    (hcv : o.validation = "cv") {a b c : ℝ} (hdom : o.domain = [a, b, c]) (hr : Ready env o) {t : Table ℝ α ε}
    (ht : read o.timestamp (o.infile.getD o.infilep) = .ok t) (hU : Usable a b c t.score)
    (h : 0 < o.fold → 0 ≤ o.k ∧ TwoEach t.event.rows ∧ TwoIds 0 t.event.rows ∧ Spread t.event.rows) :
    ∃ j, task env lib clock environment read .sp o = .ok j := by
  obtain ⟨M, rec, s, h1, h2, _, h4⟩ := task_run env lib read .sp o (by simp [hm, Script.choices])
  obtain ⟨cond, e⟩ := (h4 clock environment).1
  rw [e]
  have h2' : SetRun o (o.infile.getD o.infilep) { s with condition := cond, environment := environment } :=
    ⟨h2.trainFile, h2.testFile, h2.scoreDomain, h2.nFolds, h2.cv, h2.seed⟩
  refine sp_cv_total clock hread h2' hcv hdom hr ht hU fun h0 => ?_
  obtain ⟨k1, k2, k3, k4⟩ := h h0
  exact ⟨k3.ne, k2, fun dm d train test _ hl hsp hb hne ho _ => learns_pmf hm h1 k1 hb hne ho (k3.train hl k2 hsp) (k4.two hl hsp hne)⟩

/-- C103: what a successful cross validation of matrix factorization shows. -/
theorem C103_pmf_cross_validation_needs (hread : ∀ b f t, read b f = .ok t → TableOk t) {o : Namespace F} (hm : o.method = "pmf")
    (hcv : o.validation = "cv") {a b c : ℝ} (hdom : o.domain = [a, b, c]) {j : J V}
    (h : task env lib clock environment read .sp o = .ok j) :
    Ready env o ∧ ∃ t, read o.timestamp (o.infile.getD o.infilep) = .ok t ∧ Usable a b c t.score ∧
      (0 < o.fold → 0 ≤ o.k ∧ TwoEach t.event.rows ∧ TwoIds 0 t.event.rows ∧ TwoIds 1 t.event.rows) := by
  obtain ⟨M, rec, s, h1, h2, _, h4⟩ := task_run env lib read .sp o (by simp [hm, Script.choices])
  obtain ⟨cond, e⟩ := (h4 clock environment).1
  rw [e] at h
  have h2' : SetRun o (o.infile.getD o.infilep) { s with condition := cond, environment := environment } :=
    ⟨h2.trainFile, h2.testFile, h2.scoreDomain, h2.nFolds, h2.cv, h2.seed⟩
  obtain ⟨k1, t, k2, k3, k4⟩ := sp_cv_needs h1 hread h2' hcv hdom h
  refine ⟨k1, t, k2, k3, fun h0 => ?_⟩
  obtain ⟨q1, q2, q3, train, test, d, g, x, _, q5, q6, q7, q8⟩ := k4 h0
  obtain ⟨p1, p2⟩ := pmf_needs hm h1 q5 q6 q7 q8
  exact ⟨q1, q3, p1.mono fun r hr => mem_of_mem_gather hr, p2.mono fun r hr => mem_of_mem_gather hr⟩

/-- C103: a hold-out test of matrix factorization on a file with events succeeds exactly when seed, fold number and number
of factors are valid, both files can be read, the score domain of the training file can be determined, the training file has two users and
two items and the test file has events. -/
theorem C103_pmf_holdout (hread : ∀ b f t, read b f = .ok t → TableOk t) {o : Namespace F} (hm : o.method = "pmf")
    (hcv : o.validation = "holdout") {a b c : ℝ} (hdom : o.domain = [a, b, c])
    (hne : ∀ t, read o.timestamp (o.infile.getD o.infilep) = .ok t → t.event.rows ≠ []) :
    (∃ j, task env lib clock environment read .sp o = .ok j) ↔
      Ready env o ∧ 0 ≤ o.k ∧ (∃ t, read o.timestamp (o.infile.getD o.infilep) = .ok t ∧ Usable a b c t.score ∧
        TwoIds 0 t.event.rows ∧ TwoIds 1 t.event.rows) ∧
        ∃ f' t', o.testfile = some f' ∧ read o.timestamp f' = .ok t' ∧ t'.event.rows ≠ [] := by
  obtain ⟨M, rec, s, h1, h2, _, h4⟩ := task_run env lib read .sp o (by simp [hm, Script.choices])
  obtain ⟨cond, e⟩ := (h4 clock environment).1
  rw [e]
  have h2' : SetRun o (o.infile.getD o.infilep) { s with condition := cond, environment := environment } :=
    ⟨h2.trainFile, h2.testFile, h2.scoreDomain, h2.nFolds, h2.cv, h2.seed⟩
  exact sp_holdout_iff clock h1 hread h2' hcv hdom hne (fun rows => TwoIds 0 rows ∧ TwoIds 1 rows)
    (fun hk _ _ d rows sc _ _ hb hne ho _ hP => learns_pmf hm h1 hk hb hne ho hP.1 hP.2)
    fun d rows sc g x hb hne ho hf => pmf_needs hm h1 hb hne ho hf

/-- C103: a cross validation of a topic model with positive smoothing and a regular score domain succeeds exactly when
seed and fold number are valid, the file can be read, its score domain can be determined, and — unless the number of folds is not
positive — the file has events and every user in it has at least two. -/
theorem C103_plsa_cross_validation (hread : ∀ b f t, read b f = .ok t → TableOk t) (hR : PLSA.DrawsWeights lib.dirichlet)
    {o : Namespace F} (hm : o.method = "plsam" ∨ o.method = "plsamm") (hk : 0 < o.k) (ha : 0 < o.alpha)
    (hcv : o.validation = "cv") {a b c : ℝ} (hdom : o.domain = [a, b, c])
    (hreg : ∀ t dm, read o.timestamp (o.infile.getD o.infilep) = .ok t → DomainOf [a, b, c] t.score dm → Regular dm) :
    (∃ j, task env lib clock environment read .sp o = .ok j) ↔
      Ready env o ∧ ∃ t, read o.timestamp (o.infile.getD o.infilep) = .ok t ∧ Usable a b c t.score ∧
        (0 < o.fold → t.event.rows ≠ [] ∧ TwoEach t.event.rows) := by
  obtain ⟨M, rec, s, h1, h2, _, h4⟩ := task_run env lib read .sp o (by rcases hm with hm | hm <;> simp [hm, Script.choices])
  obtain ⟨cond, e⟩ := (h4 clock environment).1
  rw [e]
  have h2' : SetRun o (o.infile.getD o.infilep) { s with condition := cond, environment := environment } :=
    ⟨h2.trainFile, h2.testFile, h2.scoreDomain, h2.nFolds, h2.cv, h2.seed⟩
  constructor
  · rintro ⟨j, h⟩
    obtain ⟨k1, t, k2, k3, k4⟩ := sp_cv_needs h1 hread h2' hcv hdom h
    refine ⟨k1, t, k2, k3, fun h0 => ?_⟩
    obtain ⟨_, q2, q3, _⟩ := k4 h0
    exact ⟨q2, q3⟩
  · rintro ⟨hr, t, ht, hU, h⟩
    refine sp_cv_total clock hread h2' hcv hdom hr ht hU fun h0 => ?_
    obtain ⟨k2, k3⟩ := h h0
    exact ⟨k2, k3, fun dm d train test hD _ _ hb hne ho hd => learns_plsa hm h1 hk ha hR hb hne ho hd (hreg t dm ht hD)⟩

/-- C103: a hold-out test of a topic model with positive smoothing and a regular score domain succeeds under the same
conditions as that of matrix factorization, but for the numbers of users and items. -/
theorem C103_plsa_holdout (hread : ∀ b f t, read b f = .ok t → TableOk t) (hR : PLSA.DrawsWeights lib.dirichlet)
    {o : Namespace F} (hm : o.method = "plsam" ∨ o.method = "plsamm") (hk : 0 < o.k) (ha : 0 < o.alpha)
    (hcv : o.validation = "holdout") {a b c : ℝ} (hdom : o.domain = [a, b, c])
    (hne : ∀ t, read o.timestamp (o.infile.getD o.infilep) = .ok t → t.event.rows ≠ [])
    (hreg : ∀ t dm, read o.timestamp (o.infile.getD o.infilep) = .ok t → DomainOf [a, b, c] t.score dm → Regular dm) :
    (∃ j, task env lib clock environment read .sp o = .ok j) ↔
      Ready env o ∧ (∃ t, read o.timestamp (o.infile.getD o.infilep) = .ok t ∧ Usable a b c t.score) ∧
        ∃ f' t', o.testfile = some f' ∧ read o.timestamp f' = .ok t' ∧ t'.event.rows ≠ [] := by
  obtain ⟨M, rec, s, h1, h2, _, h4⟩ := task_run env lib read .sp o (by rcases hm with hm | hm <;> simp [hm, Script.choices])
  obtain ⟨cond, e⟩ := (h4 clock environment).1
  rw [e]
  have h2' : SetRun o (o.infile.getD o.infilep) { s with condition := cond, environment := environment } :=
    ⟨h2.trainFile, h2.testFile, h2.scoreDomain, h2.nFolds, h2.cv, h2.seed⟩
  have := sp_holdout_iff (env := env) clock h1 hread h2' hcv hdom hne (fun _ => True)
    (fun _ t dm d rows sc ht hD hb hne ho hd _ => learns_plsa hm h1 hk ha hR hb hne ho hd (hreg t dm ht hD)) fun _ _ _ _ _ _ _ _ _ => trivial
  simp only [hk.le, true_and, and_true] at this
  exact this

/-- C103: a hold-out test of logistic matrix factorization succeeds exactly when seed, fold number and number of factors are
valid, both files can be read, the training file has two users, two items and scores on both sides of the middle of its score domain and
the test file has events. -/
theorem C103_lpmf_holdout (hread : ∀ b f t, read b f = .ok t → TableOk t) {o : Namespace F} (hm : o.method = "lpmf")
    (hcv : o.validation = "holdout") {a b c : ℝ} (hdom : o.domain = [a, b, c]) :
    (∃ j, task env lib clock environment read .itemFinder o = .ok j) ↔
      Ready env o ∧ 0 ≤ o.k ∧
        (∃ t dm, read o.timestamp (o.infile.getD o.infilep) = .ok t ∧ DomainOf [a, b, c] t.score dm ∧ BothSides dm t.score ∧
          TwoIds 0 t.event.rows ∧ TwoIds 1 t.event.rows) ∧
        ∃ f' t', o.testfile = some f' ∧ read o.timestamp f' = .ok t' ∧ t'.event.rows ≠ [] := by
  obtain ⟨M, rec, s, h1, h2, _, h4⟩ := task_run env lib read .itemFinder o (by simp [hm, Script.choices])
  obtain ⟨cond, e⟩ := (h4 clock environment).1
  rw [e]
  have hs : SetRun o (o.infile.getD o.infilep) { s with condition := cond, environment := environment } :=
    ⟨h2.trainFile, h2.testFile, h2.scoreDomain, h2.nFolds, h2.cv, h2.seed⟩
  generalize ({ s with condition := cond, environment := environment } : Setting ℝ F V) = s' at hs ⊢
  have hload : Loads (loadDataIF (read o.timestamp) : Loader ℝ α φ ε F) := loadDataIF_loads (hread _)
  have hcv' : s'.cv = false := by
    by_contra h
    rw [Bool.not_eq_false, hs.cv, hcv] at h
    simp at h
  have given : ∀ {dm : List ℝ} {sc sc' : List ℝ}, DomainOf [a, b, c] sc dm → dm.length = 3 ∧ DomainOf dm sc' dm := by
    intro dm sc sc' h
    obtain ⟨lo, hi, st, rfl, hst⟩ := h.stride
    exact ⟨rfl, .given rfl hst⟩
  constructor
  · rintro ⟨j, h⟩
    obtain ⟨g1, g2, f', train, test, dm₁, dm₂, g, m, res, g', k1, k2, k3, k4, k5⟩ := doTask_holdout_needs hcv' hload h1.needs h
    rw [hs.seed] at g1
    rw [hs.nFolds] at g2
    rw [hs.trainFile, hs.scoreDomain, hdom] at k2
    rw [hs.testFile] at k1
    obtain ⟨t, ht⟩ := loadIF_read k2
    obtain ⟨t', ht'⟩ := loadIF_read k3
    obtain ⟨hD, hH, _⟩ := (loadDataIF_iff ht (hread _ _ _ ht) [a, b, c] dm₁ rfl).1 _ k2
    obtain ⟨_, hH', _⟩ := (loadDataIF_iff ht' (hread _ _ _ ht') dm₁ dm₂ (given (sc' := t.score) hD).1).1 _ k3
    obtain ⟨b0, b1, i0, i1⟩ := lpmf_needs h1 hH.built hH.otypes k5
    exact ⟨⟨g1, g2⟩, h1.k k5, ⟨t, dm₁, ht, hD, ⟨(binarized_zero _ _).1 b0, (binarized_one _ _).1 b1⟩, i0, i1⟩, f', t', k1, ht', k4 _ hH'.built.inv.1⟩
  · rintro ⟨⟨g1, g2⟩, hk, ⟨t, dm, ht, hD, ⟨b0, b1⟩, i0, i1⟩, f', t', k1, ht', k4⟩
    obtain ⟨hH, hE⟩ := loadDataIF_iff (φ := φ) ht (hread _ _ _ ht) [a, b, c] dm rfl
    obtain ⟨d, hl⟩ := hE hD
    obtain ⟨_, hH, hlev⟩ := hH d hl
    obtain ⟨e1, e2⟩ := given (sc' := t'.score) hD
    obtain ⟨hH', hE'⟩ := loadDataIF_iff (φ := φ) ht' (hread _ _ _ ht') dm dm e1
    obtain ⟨d', hl'⟩ := hE' e2
    obtain ⟨_, hH', _⟩ := hH' d' hl'
    exact doTask_holdout_total clock hcv' (by rw [hs.seed]; exact g1) (by rw [hs.nFolds]; exact g2) (by rw [hs.testFile]; exact k1)
      (by rw [hs.trainFile, hs.scoreDomain, hdom]; exact hl) hl' hH hH' k4
      (learns_lpmf h1 hk hH.built hH.otypes hH.domain hlev (binarized_binary _ _) ((binarized_zero _ _).2 b0) ((binarized_one _ _).2 b1)
        i0 i1)

/-- C103: a cross validation of logistic matrix factorization succeeds under the conditions of matrix factorization when, for
each of the two classes, some user has so many events in it that the user's test events cannot be all of them. -/
theorem C103_lpmf_cross_validation (hread : ∀ b f t, read b f = .ok t → TableOk t) {o : Namespace F} (hm : o.method = "lpmf")
    (hcv : o.validation = "cv") {a b c : ℝ} (hdom : o.domain = [a, b, c]) (hr : Ready env o)
    {t : Table ℝ α ε} {dm : List ℝ} (ht : read o.timestamp (o.infile.getD o.infilep) = .ok t) (hD : DomainOf [a, b, c] t.score dm)
    (h : 0 < o.fold → 0 ≤ o.k ∧ TwoEach t.event.rows ∧ TwoIds 0 t.event.rows ∧ Spread t.event.rows ∧
      Robust t.event.rows (binarized dm t.score) 0 ∧ Robust t.event.rows (binarized dm t.score) 1) :
    ∃ j, task env lib clock environment read .itemFinder o = .ok j := by
  obtain ⟨M, rec, s, h1, h2, _, h4⟩ := task_run env lib read .itemFinder o (by simp [hm, Script.choices])
  obtain ⟨cond, e⟩ := (h4 clock environment).1
  rw [e]
  have hs : SetRun o (o.infile.getD o.infilep) { s with condition := cond, environment := environment } :=
    ⟨h2.trainFile, h2.testFile, h2.scoreDomain, h2.nFolds, h2.cv, h2.seed⟩
  generalize ({ s with condition := cond, environment := environment } : Setting ℝ F V) = s' at hs ⊢
  obtain ⟨hH, hE⟩ := loadDataIF_iff (φ := φ) ht (hread _ _ _ ht) [a, b, c] dm rfl
  obtain ⟨d, hl⟩ := hE hD
  obtain ⟨_, hH, hlev⟩ := hH d hl
  refine doTask_cv_total clock (hs.cv.2 hcv) (by rw [hs.seed]; exact hr.seed) (by rw [hs.nFolds]; exact hr.fold)
    (by rw [hs.trainFile, hs.scoreDomain, hdom]; exact hl) hH ?_
  rw [hs.nFolds]
  intro h0
  obtain ⟨k1, k3, hu, hi, r0, r1⟩ := h h0
  have k2 := hu.ne
  refine ⟨k2, k3, fun train test d' hsp hf => ?_⟩
  have hix : ∀ i ∈ train, i < t.event.rows.length := fun i hi => ((hsp.fold.train_iff i).1 hi).1
  obtain ⟨d'', hf', e1, e2, e3, e4⟩ := filter_total hH hix
  rw [hf] at hf'
  cases hf'
  have hne : gather t.event.rows train ≠ [] := by
    intro e
    have := congrArg List.length e
    rw [length_gather _ _ hix] at this
    exact hsp.train_nonempty (rows_two hH) k2 k3 (List.length_eq_zero_iff.1 this)
  exact learns_lpmf h1 k1 e1 e2 e3 (e4.trans hlev) (fun x hx => binarized_binary _ _ x (mem_of_mem_gather hx)) (r0.mem hsp) (r1.mem hsp)
    (hu.train (rows_two hH) k3 hsp) (hi.two (rows_two hH) hsp hne)

/-- C103: what a successful cross validation of logistic matrix factorization shows. -/
theorem C103_lpmf_cross_validation_needs (hread : ∀ b f t, read b f = .ok t → TableOk t) {o : Namespace F} (hm : o.method = "lpmf")
    (hcv : o.validation = "cv") {a b c : ℝ} (hdom : o.domain = [a, b, c]) {j : J V}
    (h : task env lib clock environment read .itemFinder o = .ok j) :
    Ready env o ∧ ∃ t dm, read o.timestamp (o.infile.getD o.infilep) = .ok t ∧ DomainOf [a, b, c] t.score dm ∧
      (0 < o.fold → 0 ≤ o.k ∧ TwoEach t.event.rows ∧ BothSides dm t.score ∧ TwoIds 0 t.event.rows ∧ TwoIds 1 t.event.rows) := by
  obtain ⟨M, rec, s, h1, h2, _, h4⟩ := task_run env lib read .itemFinder o (by simp [hm, Script.choices])
  obtain ⟨cond, e⟩ := (h4 clock environment).1
  rw [e] at h
  have hs : SetRun o (o.infile.getD o.infilep) { s with condition := cond, environment := environment } :=
    ⟨h2.trainFile, h2.testFile, h2.scoreDomain, h2.nFolds, h2.cv, h2.seed⟩
  generalize ({ s with condition := cond, environment := environment } : Setting ℝ F V) = s' at hs h
  have hload : Loads (loadDataIF (read o.timestamp) : Loader ℝ α φ ε F) := loadDataIF_loads (hread _)
  obtain ⟨d, dm, hl⟩ := cv_loaded hload (hs.cv.2 hcv) h
  have hl' := hl
  rw [hs.trainFile, hs.scoreDomain, hdom] at hl'
  obtain ⟨t, ht⟩ := loadIF_read hl'
  obtain ⟨hD, hH, _⟩ := (loadDataIF_iff ht (hread _ _ _ ht) [a, b, c] dm rfl).1 d hl'
  obtain ⟨g1, g2, g3⟩ := doTask_cv_needs (hs.cv.2 hcv) h1.needs hl hH h
  rw [hs.seed] at g1
  rw [hs.nFolds] at g2 g3
  refine ⟨⟨g1, g2⟩, t, dm, ht, hD, fun h0 => ?_⟩
  obtain ⟨k1, k2, train, test, d', g, m, res, g', hsp, hf, k3⟩ := g3 h0
  have hix : ∀ i ∈ train, i < t.event.rows.length := fun i hi => ((hsp.fold.train_iff i).1 hi).1
  obtain ⟨d'', hf', e1, e2, _⟩ := filter_total hH hix
  rw [hf] at hf'
  cases hf'
  obtain ⟨b0, b1, i0, i1⟩ := lpmf_needs h1 e1 e2 k3
  exact ⟨h1.k k3, k2, ⟨(binarized_zero _ _).1 (mem_of_mem_gather b0), (binarized_one _ _).1 (mem_of_mem_gather b1)⟩,
    i0.mono fun r hr => mem_of_mem_gather hr, i1.mono fun r hr => mem_of_mem_gather hr⟩

end

end Kam.Exp

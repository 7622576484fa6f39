/-
C106: which runs on text files succeed, for every method.
-/
import Verif.Exp.Files
import Verif.Exp.Robust

set_option linter.unusedSectionVars false

namespace Kam.Exp
open Scripts Spec Kam.Convert.Spec
open Kam.Convert (Str Cell FType)

variable {F φ V T γ : Type}

/-- What `readText` makes of a file of events. -/
lemma readText_eq (nan : ℝ) {content : F → Option Str} {times : Bool} {f : F} {text : Str} (hc : content f = some text)
    {es : List (Entry ℝ)} (h : EventFile times text es) : readText nan content times f = if es.length = 1 then .error .indexError
      else .ok ⟨⟨2, es.map Entry.ids⟩, es.map Entry.score, if times then some (es.map Entry.feats) else none⟩ := by
  unfold readText
  rw [hc]
  exact readTable_events nan h

/-- A file of events can be read and its arrays have a property. -/
lemma readText_iff (nan : ℝ) {content : F → Option Str} {times : Bool} {f : F} {text : Str} (hc : content f = some text)
    {es : List (Entry ℝ)} (h : EventFile times text es) (P : List (List Int) → List ℝ → Prop) :
    (∃ t, readText nan content times f = .ok t ∧ P t.event.rows t.score) ↔
      es.length ≠ 1 ∧ P (es.map Entry.ids) (es.map Entry.score) := by
  rw [readText_eq nan hc h]
  constructor
  · rintro ⟨t, h2, h3⟩
    split at h2
    · cases h2
    · cases h2
      exact ⟨by assumption, h3⟩
  · rintro ⟨h1, h2⟩
    rw [if_neg h1]
    exact ⟨_, rfl, h2⟩

lemma testfile_iff (nan : ℝ) {content : F → Option Str} {o : Namespace F} {text' : Str} {es' : List (Entry ℝ)}
    (hc' : ∀ f, o.testfile = some f → content f = some text') (hf' : EventFile o.timestamp text' es') :
    (∃ f' t', o.testfile = some f' ∧ readText nan content o.timestamp f' = .ok t' ∧ t'.event.rows ≠ []) ↔
      o.testfile ≠ none ∧ 2 ≤ es'.length := by
  constructor
  · rintro ⟨f', t', h1, h2, h3⟩
    obtain ⟨k1, k2⟩ := (readText_iff nan (hc' _ h1) hf' (fun r _ => r ≠ [])).1 ⟨t', h2, h3⟩
    refine ⟨by rw [h1]; simp, ?_⟩
    have : es' ≠ [] := by simpa using k2
    have := List.length_pos_iff.2 this
    omega
  · rintro ⟨h1, h2⟩
    obtain ⟨f', hf⟩ := Option.ne_none_iff_exists'.1 h1
    have hne : es' ≠ [] := by rintro rfl; simp at h2
    obtain ⟨t', k1, k2⟩ := (readText_iff nan (hc' _ hf) hf' (fun r _ => r ≠ [])).2 ⟨by omega, by simpa using hne⟩
    exact ⟨f', t', hf, k1, k2⟩

lemma regular_text (nan : ℝ) {content : F → Option Str} {times : Bool} {f : F} {text : Str} (hc : content f = some text)
    {es : List (Entry ℝ)} (h : EventFile times text es) {a b c : ℝ} (hreg : ∀ dm, DomainOf [a, b, c] (es.map Entry.score) dm → Regular dm) :
    ∀ t dm, readText nan content times f = .ok t → DomainOf [a, b, c] t.score dm → Regular dm := by
  intro t dm ht hd
  rw [readText_events nan hc h ht] at hd
  exact hreg dm hd

lemma rows_text (nan : ℝ) {content : F → Option Str} {times : Bool} {f : F} {text : Str} (hc : content f = some text)
    {es : List (Entry ℝ)} (h : EventFile times text es) (hne : es ≠ []) :
    ∀ t, readText nan content times f = .ok t → t.event.rows ≠ [] := by
  intro t ht
  rw [readText_events nan hc h ht]
  simpa using hne

variable (env : Env ℝ Int (List (Cell ℝ)) F V T γ) (lib : Lib Int φ (List (Cell ℝ)) V γ) (clock : Nat → T)
  (environment : Dict String (J V)) (nan : ℝ) (content : F → Option Str)

/-- C106: which hold-out tests of matrix factorization succeed on a training file with events: those with valid seed, fold number
and number of factors and a score domain that is given or can be estimated, if a test file is named and neither file has just one
event, the training file has two users and two items, and the test file at least two events. -/
theorem C106_pmf_holdout_runs {o : Namespace F} (hm : o.method = "pmf") (hcv : o.validation = "holdout") {a b c : ℝ}
    (hdom : o.domain = [a, b, c]) {text text' : Str} (hc : content (o.infile.getD o.infilep) = some text)
    {es es' : List (Entry ℝ)} (hf : EventFile o.timestamp text es) (hne : es ≠ [])
    (hc' : ∀ f, o.testfile = some f → content f = some text') (hf' : EventFile o.timestamp text' es') :
    (∃ j, task env lib clock environment (readText nan content) .sp o = .ok j) ↔
      Ready env o ∧ 0 ≤ o.k ∧ es.length ≠ 1 ∧ Usable a b c (es.map Entry.score) ∧ TwoIds 0 (es.map Entry.ids) ∧
        TwoIds 1 (es.map Entry.ids) ∧ o.testfile ≠ none ∧ 2 ≤ es'.length := by
  rw [C103_pmf_holdout env lib clock environment _ (readText_ok nan content) hm hcv hdom (rows_text nan hc hf hne),
    readText_iff nan hc hf (fun r s => Usable a b c s ∧ TwoIds 0 r ∧ TwoIds 1 r), testfile_iff nan hc' hf']
  simp only [and_assoc]

/-- C106: which cross validations of a topic model with positive smoothing and a regular score domain succeed on a file of events. -/
theorem C106_plsa_runs (hR : PLSA.DrawsWeights lib.dirichlet) {o : Namespace F} (hm : o.method = "plsam" ∨ o.method = "plsamm")
    (hk : 0 < o.k) (ha : 0 < o.alpha) (hcv : o.validation = "cv") {a b c : ℝ} (hdom : o.domain = [a, b, c])
    {text : Str} (hc : content (o.infile.getD o.infilep) = some text) {es : List (Entry ℝ)} (hf : EventFile o.timestamp text es)
    (hreg : ∀ dm, DomainOf [a, b, c] (es.map Entry.score) dm → Regular dm) :
    (∃ j, task env lib clock environment (readText nan content) .sp o = .ok j) ↔
      Ready env o ∧ es.length ≠ 1 ∧ Usable a b c (es.map Entry.score) ∧ (0 < o.fold → es ≠ [] ∧ TwoEach (es.map Entry.ids)) := by
  rw [C103_plsa_cross_validation env lib clock environment _ (readText_ok nan content) hR hm hk ha hcv hdom (regular_text nan hc hf hreg),
    readText_iff nan hc hf (fun r s => Usable a b c s ∧ (0 < o.fold → r ≠ [] ∧ TwoEach r))]
  simp

/-- C106: which hold-out tests of a topic model with positive smoothing and a regular score domain succeed on a training file with
events. -/
theorem C106_plsa_holdout_runs (hR : PLSA.DrawsWeights lib.dirichlet) {o : Namespace F} (hm : o.method = "plsam" ∨ o.method = "plsamm")
    (hk : 0 < o.k) (ha : 0 < o.alpha) (hcv : o.validation = "holdout") {a b c : ℝ} (hdom : o.domain = [a, b, c])
    {text text' : Str} (hc : content (o.infile.getD o.infilep) = some text) {es es' : List (Entry ℝ)} (hf : EventFile o.timestamp text es)
    (hne : es ≠ []) (hreg : ∀ dm, DomainOf [a, b, c] (es.map Entry.score) dm → Regular dm)
    (hc' : ∀ f, o.testfile = some f → content f = some text') (hf' : EventFile o.timestamp text' es') :
    (∃ j, task env lib clock environment (readText nan content) .sp o = .ok j) ↔
      Ready env o ∧ es.length ≠ 1 ∧ Usable a b c (es.map Entry.score) ∧ o.testfile ≠ none ∧ 2 ≤ es'.length := by
  rw [C103_plsa_holdout env lib clock environment _ (readText_ok nan content) hR hm hk ha hcv hdom (rows_text nan hc hf hne)
      (regular_text nan hc hf hreg),
    readText_iff nan hc hf (fun _ s => Usable a b c s), testfile_iff nan hc' hf']
  simp only [and_assoc]

/-- C106: which cross validations of matrix factorization succeed whatever the random numbers are: those of files with two users in which
every user has two events and, for each item, those with other items are so frequent with some user that no test part can hold them all. -/
theorem C106_pmf_runs_always [Nonempty V] {o : Namespace F} (hm : o.method = "pmf") (hcv : o.validation = "cv") {a b c : ℝ}
    (hdom : o.domain = [a, b, c]) (hpos : 0 < o.fold) (hfold : ∀ i, o.foldNo = some i → 0 ≤ i ∧ i < o.fold)
    {text : Str} (hc : content (o.infile.getD o.infilep) = some text) {es : List (Entry ℝ)} (hf : EventFile o.timestamp text es) :
    (∀ (γ : Type) (env : Env ℝ Int (List (Cell ℝ)) F V T γ) (lib : Lib Int φ (List (Cell ℝ)) V γ), Ready env o →
      ∃ j, task env lib clock environment (readText nan content) .sp o = .ok j) ↔
    es.length ≠ 1 ∧ Usable a b c (es.map Entry.score) ∧ 0 ≤ o.k ∧ TwoEach (es.map Entry.ids) ∧ TwoIds 0 (es.map Entry.ids) ∧
      Spread (es.map Entry.ids) := by
  rw [C103_pmf_every_generator clock environment _ (readText_ok nan content) hm hcv hdom hpos hfold]
  exact readText_iff nan hc hf (fun r s => Usable a b c s ∧ 0 ≤ o.k ∧ TwoEach r ∧ TwoIds 0 r ∧ Spread r)

/-- C106: which cross validations of logistic matrix factorization succeed whatever the random numbers are: those of files with two users
in which every user has two events and each class, and for each item those with other items, are so frequent with some user that no test
part can hold them all. -/
theorem C106_lpmf_runs [Nonempty V] {o : Namespace F} (hm : o.method = "lpmf") (hcv : o.validation = "cv") {a b c : ℝ}
    (hdom : o.domain = [a, b, c]) (hpos : 0 < o.fold) (hfold : ∀ i, o.foldNo = some i → 0 ≤ i ∧ i < o.fold)
    {text : Str} (hc : content (o.infile.getD o.infilep) = some text) {es : List (Entry ℝ)} (hf : EventFile o.timestamp text es) :
    (∀ (γ : Type) (env : Env ℝ Int (List (Cell ℝ)) F V T γ) (lib : Lib Int φ (List (Cell ℝ)) V γ), Ready env o →
      ∃ j, task env lib clock environment (readText nan content) .itemFinder o = .ok j) ↔
    ∃ dm, DomainOf [a, b, c] (es.map Entry.score) dm ∧ es.length ≠ 1 ∧ 0 ≤ o.k ∧ TwoEach (es.map Entry.ids) ∧
      TwoIds 0 (es.map Entry.ids) ∧ Spread (es.map Entry.ids) ∧ Robust (es.map Entry.ids) (binarized dm (es.map Entry.score)) 0 ∧
      Robust (es.map Entry.ids) (binarized dm (es.map Entry.score)) 1 := by
  rw [C103_lpmf_every_generator clock environment _ (readText_ok nan content) hm hcv hdom hpos hfold]
  have := fun dm => readText_iff nan hc hf (fun r s => DomainOf [a, b, c] s dm ∧ 0 ≤ o.k ∧ TwoEach r ∧
      TwoIds 0 r ∧ Spread r ∧ Robust r (binarized dm s) 0 ∧ Robust r (binarized dm s) 1)
  constructor
  · rintro ⟨t, dm, h1, h2⟩
    obtain ⟨k1, k2, k3⟩ := (this dm).1 ⟨t, h1, h2⟩
    exact ⟨dm, k2, k1, k3⟩
  · rintro ⟨dm, h1, h2, h3⟩
    obtain ⟨t, k1, k2⟩ := (this dm).2 ⟨h2, h1, h3⟩
    exact ⟨t, dm, k1, k2⟩

/-- C106: which hold-out tests of logistic matrix factorization succeed: those with valid seed, fold number and number of factors,
two users, two items and scores on both sides of the middle of the score domain in the training file, and at least two events in a test file. -/
theorem C106_lpmf_holdout_runs {o : Namespace F} (hm : o.method = "lpmf") (hcv : o.validation = "holdout") {a b c : ℝ}
    (hdom : o.domain = [a, b, c]) {text text' : Str} (hc : content (o.infile.getD o.infilep) = some text)
    {es es' : List (Entry ℝ)} (hf : EventFile o.timestamp text es)
    (hc' : ∀ f, o.testfile = some f → content f = some text') (hf' : EventFile o.timestamp text' es') :
    (∃ j, task env lib clock environment (readText nan content) .itemFinder o = .ok j) ↔
      Ready env o ∧ 0 ≤ o.k ∧ (∃ dm, DomainOf [a, b, c] (es.map Entry.score) dm ∧ BothSides dm (es.map Entry.score) ∧
        TwoIds 0 (es.map Entry.ids) ∧ TwoIds 1 (es.map Entry.ids)) ∧ o.testfile ≠ none ∧ 2 ≤ es'.length := by
  rw [C103_lpmf_holdout env lib clock environment _ (readText_ok nan content) hm hcv hdom, testfile_iff nan hc' hf']
  have h1 : (∃ t dm, readText nan content o.timestamp (o.infile.getD o.infilep) = .ok t ∧ DomainOf [a, b, c] t.score dm ∧
      BothSides dm t.score ∧ TwoIds 0 t.event.rows ∧ TwoIds 1 t.event.rows) ↔ ∃ dm, DomainOf [a, b, c] (es.map Entry.score) dm ∧
        BothSides dm (es.map Entry.score) ∧ TwoIds 0 (es.map Entry.ids) ∧ TwoIds 1 (es.map Entry.ids) := by
    have := readText_iff nan hc hf (fun r s => ∃ dm, DomainOf [a, b, c] s dm ∧ BothSides dm s ∧ TwoIds 0 r ∧ TwoIds 1 r)
    constructor
    · rintro ⟨t, dm, k1, k2⟩
      exact (this.1 ⟨t, k1, dm, k2⟩).2
    · rintro ⟨dm, k1, k2⟩
      have hl : es.length ≠ 1 := by
        intro hl
        obtain ⟨e, rfl⟩ := List.length_eq_one_iff.1 hl
        obtain ⟨⟨⟨x, x1, x2⟩, y, y1, y2⟩, _⟩ := k2
        simp only [List.map_cons, List.map_nil, List.mem_singleton] at x1 y1
        subst x1; subst y1
        exact absurd x2 (not_le.2 y2)
      obtain ⟨t, q1, dm, q2⟩ := this.2 ⟨hl, dm, k1, k2⟩
      exact ⟨t, dm, q1, q2⟩
  rw [h1]

/-! ### Examples -/

namespace Ex

lemma ratings_file : EventFile true (Convert.convMl100kEvent ratingsText) (ratings.map (Rating.entry true)) :=
  C106_movielens100k true ratings_text

/-- Cross validation of a topic model, on converted ratings with the domain 1 5 1. -/
example : ∃ o j, commandLine .sp "stdin" "stdout" [.method "plsam", .validation "cv", .domain 1 5 1] ["data"] = some o ∧
    task tenv tlib _root_.id [] (readText 0 contents) .sp o = .ok j := by
  obtain ⟨o, ho⟩ := (C99_accepted (F := String) .sp "stdin" "stdout" [.method "plsam", .validation "cv", .domain 1 5 1] ["data"]).2
    ⟨by simp, by simp, by simp, by simp, by simp⟩
  have h := C99_options ho
  have ht : o.timestamp = true := by simpa using h.timestamp
  have hs : o.rseed = none := h.rseed
  have hn : o.foldNo = none := h.foldNo
  have hd : o.domain = [1, 5, 1] := h.domain
  have ha : o.alpha = 1 := h.alpha
  have hk : o.k = 1 := h.k
  obtain ⟨j, hj⟩ := (C106_plsa_runs tenv tlib _root_.id [] 0 contents (by intro k g a z; exact zero_le_one) (o := o)
    (.inl h.method) (by rw [hk]; decide) (by rw [ha]; exact one_pos) h.validation hd
    (text := Convert.convMl100kEvent ratingsText) (by rw [h.infile]; rfl) (by rw [ht]; exact ratings_file) (by
      intro dm hdm
      cases hdm with
      | given h1 h2 =>
        cases h1
        exact ⟨1, 1, 4, by norm_num, one_pos⟩
      | estimated h1 => norm_num at h1)).2
    ⟨⟨fun n hr => absurd (hs ▸ hr) (by simp), fun i hi => absurd (hn ▸ hi) (by simp)⟩, by decide, .inl one_ne_zero,
      fun _ => ⟨by simp [ratings], twoEachRatings⟩⟩
  exact ⟨o, j, ho, hj⟩

/-- Hold-out tests of logistic and of probabilistic matrix factorization, on converted ratings. -/
example : (∃ o j, commandLine .itemFinder "stdin" "stdout" [.testfile "data"] ["data"] = some o ∧
      task tenv tlib _root_.id [] (readText 0 contents) .itemFinder o = .ok j) ∧
    ∃ o j, commandLine .sp "stdin" "stdout" [.testfile "data"] ["data"] = some o ∧
      task tenv tlib _root_.id [] (readText 0 contents) .sp o = .ok j := by
  refine ⟨?_, ?_⟩
  · obtain ⟨o, ho⟩ := (C99_accepted (F := String) .itemFinder "stdin" "stdout" [.testfile "data"] ["data"]).2
      ⟨by simp, by simp, by simp, by simp, by simp⟩
    have h := C99_options ho
    have ht : o.timestamp = true := by simpa using h.timestamp
    have hs : o.rseed = none := h.rseed
    have hn : o.foldNo = none := h.foldNo
    have hd : o.domain = [0, 0, 0] := h.domain
    have hk : o.k = 1 := h.k
    have hte : o.testfile = some "data" := h.testfile
    have hdm : DomainOf [0, 0, 0] ((ratings.map (Rating.entry (K := ℝ) true)).map Entry.score) [1, 5, 1] := by
      refine .estimated rfl ?_ ?_ ⟨1, ?_, 2, ?_, by norm_num, by norm_num⟩ ?_ <;> simp [ratings, Rating.entry] <;> norm_num
    obtain ⟨j, hj⟩ := (C106_lpmf_holdout_runs tenv tlib _root_.id [] 0 contents (o := o) h.method h.validation hd
      (text := Convert.convMl100kEvent ratingsText) (text' := Convert.convMl100kEvent ratingsText)
      (by rw [h.infile]; rfl) (by rw [ht]; exact ratings_file)
      (by intro f hf; rw [hte] at hf; cases hf; rfl) (by rw [ht]; exact ratings_file)).2
      ⟨⟨fun n hr => absurd (hs ▸ hr) (by simp), fun i hi => absurd (hn ▸ hi) (by simp)⟩, by rw [hk]; decide,
        ⟨_, hdm, ⟨⟨2, by simp [ratings, Rating.entry], by norm_num⟩, 5, by simp [ratings, Rating.entry], by norm_num⟩, twoIdsRatings⟩,
        by rw [hte]; simp, by decide⟩
    exact ⟨o, j, ho, hj⟩
  · obtain ⟨o, ho⟩ := (C99_accepted (F := String) .sp "stdin" "stdout" [.testfile "data"] ["data"]).2
      ⟨by simp, by simp, by simp, by simp, by simp⟩
    have h := C99_options ho
    have ht : o.timestamp = true := by simpa using h.timestamp
    have hs : o.rseed = none := h.rseed
    have hn : o.foldNo = none := h.foldNo
    have hd : o.domain = [0, 0, 0] := h.domain
    have hk : o.k = 1 := h.k
    have hte : o.testfile = some "data" := h.testfile
    obtain ⟨j, hj⟩ := (C106_pmf_holdout_runs tenv tlib _root_.id [] 0 contents (o := o) h.method h.validation hd
      (text := Convert.convMl100kEvent ratingsText) (text' := Convert.convMl100kEvent ratingsText)
      (by rw [h.infile]; rfl) (by rw [ht]; exact ratings_file) (by simp [ratings])
      (by intro f hf; rw [hte] at hf; cases hf; rfl) (by rw [ht]; exact ratings_file)).2
      ⟨⟨fun n hr => absurd (hs ▸ hr) (by simp), fun i hi => absurd (hn ▸ hi) (by simp)⟩, by rw [hk]; decide, by decide,
        .inr ⟨rfl, rfl, rfl, 5, by simp [ratings, Rating.entry], 2, by simp [ratings, Rating.entry], by norm_num⟩,
        twoIdsRatings.1, twoIdsRatings.2, by rw [hte]; simp, by decide⟩
    exact ⟨o, j, ho, hj⟩

/-- Six ratings of two users. -/
def mixed : List Rating := [⟨7, 1, 1, 0⟩, ⟨7, 2, 5, 0⟩, ⟨7, 3, 1, 0⟩, ⟨7, 4, 5, 0⟩, ⟨8, 1, 5, 0⟩, ⟨8, 2, 1, 0⟩]

/-- Their text. -/
def mixedText : Str := "7\t1\t1\t0\n7\t2\t5\t0\n7\t3\t1\t0\n7\t4\t5\t0\n8\t1\t5\t0\n8\t2\t1\t0".toList

lemma mixed_text : Text (mixed.map Rating.line) mixedText := by
  have : mixed.map Rating.line = ["7\t1\t1\t0".toList, "7\t2\t5\t0".toList, "7\t3\t1\t0".toList, "7\t4\t5\t0".toList, "8\t1\t5\t0".toList,
      "8\t2\t1\t0".toList] := by decide
  rw [this]
  exact .lf (.lf (.lf (.lf (.lf (.last (by decide))))))

lemma twoEachMixed : TwoEach ([[7, 1], [7, 2], [7, 3], [7, 4], [8, 1], [8, 2]] : List (List Int)) := by
  intro u hu
  by_cases h1 : u = 7
  · subst h1; decide
  by_cases h2 : u = 8
  · subst h2; decide
  exfalso
  have : eventsOf ([[7, 1], [7, 2], [7, 3], [7, 4], [8, 1], [8, 2]] : List (List Int)) u (List.range (0 + 1 + 1 + 1 + 1 + 1 + 1)) = 0 := by
    unfold eventsOf
    rw [List.length_eq_zero_iff, List.filter_eq_nil_iff]
    intro i hi
    have hi' : i ∈ [0, 1, 2, 3, 4, 5] := by simpa [List.range_succ] using hi
    simp only [List.mem_cons, List.not_mem_nil, or_false] at hi'
    rcases hi' with rfl | rfl | rfl | rfl | rfl | rfl <;> simp <;> omega
  simp only [List.length_cons, List.length_nil] at hu
  omega

lemma robustMixed (v : ℝ) (hv : v = 0 ∨ v = 1) :
    Robust ([[7, 1], [7, 2], [7, 3], [7, 4], [8, 1], [8, 2]] : List (List Int)) (binarized [1, 5, 1] [1, 5, 1, 5, 5, 1]) v := by
  refine ⟨7, ?_⟩
  have e : binarized ([1, 5, 1] : List ℝ) [1, 5, 1, 5, 5, 1] = [0, 1, 0, 1, 1, 0] := by
    unfold binarized
    norm_num
  have e1 : eventsOf ([[7, 1], [7, 2], [7, 3], [7, 4], [8, 1], [8, 2]] : List (List Int)) 7 (List.range 6) = 4 := by decide
  have e2 : eventsWith ([[7, 1], [7, 2], [7, 3], [7, 4], [8, 1], [8, 2]] : List (List Int)) [0, 1, 0, 1, 1, 0] 7 v (List.range 6) = 2 := by
    have er : List.range 6 = [0, 1, 2, 3, 4, 5] := by decide
    unfold eventsWith
    rw [er]
    rcases hv with rfl | rfl
    · simp [List.filter]
    · simp [List.filter]
  show eventsOf _ 7 (List.range 6) + 5 ≤ 5 * eventsWith _ _ 7 v (List.range 6)
  rw [e, e1, e2]
  norm_num

lemma spreadMixed : Spread ([[7, 1], [7, 2], [7, 3], [7, 4], [8, 1], [8, 2]] : List (List Int)) := by
  intro x
  refine ⟨7, ?_⟩
  have e1 : eventsOf ([[7, 1], [7, 2], [7, 3], [7, 4], [8, 1], [8, 2]] : List (List Int)) 7 (List.range 6) = 4 := by decide
  have er : List.range 6 = [0, 1, 2, 3, 4, 5] := by decide
  have e2 : 3 ≤ eventsWith ([[7, 1], [7, 2], [7, 3], [7, 4], [8, 1], [8, 2]] : List (List Int))
      (otherItem [[7, 1], [7, 2], [7, 3], [7, 4], [8, 1], [8, 2]] x) 7 1 (List.range 6) := by
    unfold eventsWith otherItem
    rw [er]
    by_cases h1 : x = 1
    · subst h1; simp [List.filter]
    by_cases h2 : x = 2
    · subst h2; simp [List.filter]
    by_cases h3 : x = 3
    · subst h3; simp [List.filter]
    by_cases h4 : x = 4
    · subst h4; simp [List.filter]
    simp [List.filter, Ne.symm h1, Ne.symm h2, Ne.symm h3, Ne.symm h4]
  show eventsOf _ 7 (List.range 6) + 5 ≤ 5 * eventsWith _ _ 7 1 (List.range 6)
  omega

/-- Cross validation of logistic matrix factorization on converted ratings succeeds whatever the random numbers are. -/
example : ∃ o, commandLine .itemFinder "stdin" "stdout" [.validation "cv", .fold 3, .rseed 5, .domain 1 5 1, .method "lpmf"] ["data"] = some o ∧
    ∀ (γ : Type) (env : Env ℝ Int (List (Cell ℝ)) String Val Nat γ) (lib : Lib Int Unit (List (Cell ℝ)) Val γ), Ready env o →
      ∃ j, task env lib _root_.id [] (readText 0 (fun _ => some (Convert.convMl100kEvent mixedText))) .itemFinder o = .ok j := by
  have : Nonempty Val := ⟨.nat 0⟩
  obtain ⟨o, ho⟩ := (C99_accepted (F := String) .itemFinder "stdin" "stdout"
      [.validation "cv", .fold 3, .rseed 5, .domain 1 5 1, .method "lpmf"] ["data"]).2
    ⟨by simp, by simp, by simp, by simp, by simp⟩
  have h := C99_options ho
  have ht : o.timestamp = true := by simpa using h.timestamp
  have hd : o.domain = [1, 5, 1] := h.domain
  have hk : o.k = 1 := h.k
  have hfo : o.fold = 3 := h.fold
  have hn : o.foldNo = none := h.foldNo
  have hsc : (mixed.map (Rating.entry (K := ℝ) true)).map Entry.score = [1, 5, 1, 5, 5, 1] := by simp [mixed, Rating.entry]
  refine ⟨o, ho, (C106_lpmf_runs _root_.id [] 0 _ h.method h.validation hd (by rw [hfo]; decide) (by rw [hn]; simp)
    (text := Convert.convMl100kEvent mixedText) (es := mixed.map (Rating.entry true)) rfl (by rw [ht]; exact C106_movielens100k true mixed_text)).2
    ⟨[1, 5, 1], .given rfl one_ne_zero, by decide, by rw [hk]; decide, twoEachMixed,
      ⟨[7, 1], by simp [mixed, Rating.entry], [8, 1], by simp [mixed, Rating.entry], 7, 8, rfl, rfl, by decide⟩, spreadMixed, ?_, ?_⟩⟩
  · rw [hsc]
    exact robustMixed 0 (.inl rfl)
  · rw [hsc]
    exact robustMixed 1 (.inr rfl)

end Ex

end Kam.Exp

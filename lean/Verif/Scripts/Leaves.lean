/-
C116, first part: the leaves of result trees come from the values the scripts were given.
-/
import Verif.Scripts.Lemmas
import Verif.Scripts.Stats
import Verif.Py.Lemmas

set_option linter.unusedSectionVars false

namespace Kam.Scripts

variable {K α φ ε F V T γ M : Type} [Field K] [LinearOrder K] [IsStrictOrderedRing K] [FloorRing K] [LinearOrder α]

/-- Every leaf of a tree satisfies `P`. -/
inductive J.Leaves (P : V → Prop) : J V → Prop
  | leaf {v : V} (h : P v) : J.Leaves P (.leaf v)
  | list {l : List (J V)} (h : ∀ j ∈ l, J.Leaves P j) : J.Leaves P (.list l)
  | dict {d : List (String × J V)} (h : ∀ p ∈ d, J.Leaves P p.2) : J.Leaves P (.dict d)

/-- Every leaf of the values of a dictionary satisfies `P`. -/
def AllLeaves (P : V → Prop) (d : Dict String (J V)) : Prop := ∀ p ∈ d, J.Leaves P p.2

/-- The values the scripts write satisfy `P`. -/
structure Env.Writes (P : V → Prop) (env : Env K α ε F V T γ) : Prop where
  id : ∀ x, P (env.id x)
  num : ∀ x, P (env.num x)
  nat : ∀ n, P (env.nat n)
  int : ∀ n, P (env.int n)
  file : ∀ f, P (env.file f)
  field : ∀ k e, P (env.field k e)
  iso : ∀ t, P (env.iso t)
  elapsed : ∀ t u, P (env.elapsed t u)
  elapsedU : ∀ t u, P (env.elapsedU t u)

/-- The values in the results of fits satisfy `P`. -/
def Recommender.Writes (P : V → Prop) (rec : Recommender K α φ ε V γ M) : Prop :=
  ∀ g d m res g', rec.fit g d = .ok (m, res, g') → AllLeaves P res

section tree
variable {P : V → Prop}

lemma AllLeaves.nil : AllLeaves P ([] : Dict String (J V)) := fun _ h => by cases h

lemma AllLeaves.cons {k : String} {j : J V} {d : Dict String (J V)} (h : J.Leaves P j) (hd : AllLeaves P d) :
    AllLeaves P ((k, j) :: d) := by
  intro p hp
  rcases List.mem_cons.1 hp with rfl | hp
  · exact h
  · exact hd p hp

lemma AllLeaves.append {d e : Dict String (J V)} (hd : AllLeaves P d) (he : AllLeaves P e) :
    AllLeaves P (d ++ e : List _) := by
  intro p hp
  rcases List.mem_append.1 hp with hp | hp
  · exact hd p hp
  · exact he p hp

lemma mem_set {β : Type} {d : Dict String β} {k : String} {v : β} {p : String × β} (h : p ∈ Dict.set d k v) :
    p ∈ d ∨ p.2 = v := by
  induction d with
  | nil =>
    simp only [Dict.set, List.mem_cons, List.not_mem_nil, or_false] at h
    subst h; exact Or.inr rfl
  | cons q d ih =>
    obtain ⟨k', v'⟩ := q
    simp only [Dict.set] at h
    split at h
    · rcases List.mem_cons.1 h with rfl | h
      · exact Or.inr rfl
      · exact Or.inl (List.mem_cons_of_mem _ h)
    · rcases List.mem_cons.1 h with rfl | h
      · exact Or.inl List.mem_cons_self
      · rcases ih h with h | h
        · exact Or.inl (List.mem_cons_of_mem _ h)
        · exact Or.inr h

lemma AllLeaves.set {d : Dict String (J V)} {k : String} {v : J V} (hd : AllLeaves P d) (hv : J.Leaves P v) :
    AllLeaves P (d.set k v) := by
  intro p hp
  rcases mem_set hp with hp | hp
  · exact hd p hp
  · rw [hp]; exact hv

lemma AllLeaves.update {d e : Dict String (J V)} (hd : AllLeaves P d) (he : AllLeaves P e) :
    AllLeaves P (update d e) := by
  unfold Scripts.update
  induction e generalizing d with
  | nil => exact hd
  | cons p e ih =>
    simp only [List.foldl_cons]
    exact ih (hd.set (he p List.mem_cons_self)) (fun q hq => he q (List.mem_cons_of_mem _ hq))

lemma mem_of_getItem {d : Dict String (J V)} {k : String} {v : J V} (h : Dict.getItem d k = .ok v) : (k, v) ∈ d := by
  induction d with
  | nil => simp [Dict.getItem, Dict.get?] at h
  | cons q d ih =>
    obtain ⟨k', v'⟩ := q
    simp only [Dict.getItem, Dict.get?] at h ih
    split at h
    · rename_i w hw
      split at hw
      · rename_i hk
        injection hw with hw
        injection h with h
        subst hw; subst h; subst hk
        exact List.mem_cons_self
      · apply List.mem_cons_of_mem
        apply ih
        rw [hw]
        exact h
    · cases h

lemma J.Leaves.item {j : J V} {k : String} {v : J V} (hj : J.Leaves P j) (h : j.item k = .ok v) : J.Leaves P v := by
  cases hj with
  | leaf _ => cases h
  | list _ => cases h
  | dict hd => exact hd _ (mem_of_getItem h)

lemma J.Leaves.setItem {j : J V} {k : String} {v w : J V} (hj : J.Leaves P j) (hv : J.Leaves P v)
    (h : j.setItem k v = .ok w) : J.Leaves P w := by
  cases hj with
  | leaf _ => cases h
  | list _ => cases h
  | dict hd =>
    cases h
    exact .dict (AllLeaves.set hd hv)

lemma J.Leaves.item2 {j : J V} {x y : String} {v : J V} (hj : J.Leaves P j) (h : j.item2 x y = .ok v) :
    J.Leaves P v := by
  obtain ⟨a, h1, h2⟩ := bind_ok h
  exact (hj.item h1).item h2

lemma J.Leaves.setItem2 {j : J V} {x y : String} {v w : J V} (hj : J.Leaves P j) (hv : J.Leaves P v)
    (h : j.setItem2 x y v = .ok w) : J.Leaves P w := by
  obtain ⟨a, h1, h⟩ := bind_ok h
  obtain ⟨b, h2, h3⟩ := bind_ok h
  exact hj.setItem ((hj.item h1).setItem hv h2) h3

lemma J.Leaves.setItem3 {j : J V} {x y z : String} {v w : J V} (hj : J.Leaves P j) (hv : J.Leaves P v)
    (h : j.setItem3 x y z v = .ok w) : J.Leaves P w := by
  obtain ⟨a, h1, h⟩ := bind_ok h
  obtain ⟨b, h2, h3⟩ := bind_ok h
  exact hj.setItem ((hj.item h1).setItem2 hv h2) h3

lemma foldlM_leaves {β : Type} {f : J V → β → Res (J V)} (hf : ∀ j x w, J.Leaves P j → f j x = .ok w → J.Leaves P w)
    (l : List β) {j w : J V} (hj : J.Leaves P j) (h : l.foldlM f j = .ok w) : J.Leaves P w := by
  induction l generalizing j with
  | nil => cases h; exact hj
  | cons x l ih =>
    rw [List.foldlM_cons] at h
    obtain ⟨a, h1, h2⟩ := bind_ok h
    exact ih (hf j x a hj h1) h2

end tree

/-! ### Runs -/

section runs
variable {P : V → Prop} {env : Env K α ε F V T γ}

lemma leaves_map {β : Type} {l : List β} {f : β → J V} (h : ∀ x, J.Leaves P (f x)) : J.Leaves P (.list (l.map f)) := by
  refine .list ?_
  intro j hj
  obtain ⟨x, _, rfl⟩ := List.mem_map.1 hj
  exact h x

lemma encScores_leaves (he : env.Writes P) (xs : List K) : J.Leaves P (encScores env xs) :=
  leaves_map (fun x => .leaf (he.num x))

lemma encPred_leaves (he : env.Writes P) (p : Pred K) : J.Leaves P (encPred env p) := by
  cases p with
  | scalar x => exact .leaf (he.num x)
  | vec xs => exact encScores_leaves he xs

lemma encEvents_leaves (he : env.Writes P) (rows : List (List α)) : J.Leaves P (encEvents env rows) :=
  leaves_map (fun _ => leaves_map (fun x => .leaf (he.id x)))

lemma encIndex_leaves (he : env.Writes P) (ix : List Nat) : J.Leaves P (encIndex env ix) :=
  leaves_map (fun x => .leaf (he.nat x))

lemma encFeature_leaves (he : env.Writes P) (k : String) (rows : List ε) : J.Leaves P (encFeature env k rows) :=
  leaves_map (fun x => .leaf (he.field k x))

lemma training_leaves (he : env.Writes P) {rec : Recommender K α φ ε V γ M} (hr : rec.Writes P) {clock : Nat → T}
    {seed : Option Int} {sys sys' : Sys γ} {data : ScoreData K α φ ε} {m : M} {info : Dict String (J V)}
    (h : training env clock rec seed sys data = .ok (m, info, sys')) : AllLeaves P info := by
  unfold training at h
  obtain ⟨⟨m', res, g⟩, h1, h2⟩ := bind_ok h
  cases h2
  have hres : AllLeaves P res := by
    unfold fitWith at h1
    split at h1
    · obtain ⟨g0, _, h1⟩ := bind_ok h1
      obtain ⟨⟨m'', res', g1⟩, h3, h4⟩ := bind_ok h1
      cases h4
      exact hr _ _ _ _ _ h3
    · exact hr _ _ _ _ _ h1
  refine AllLeaves.update ?_ hres
  exact .cons (.leaf (he.iso _)) (.cons (.leaf (he.iso _)) (.cons (.leaf (he.elapsed _ _))
    (.cons (.leaf (he.elapsedU _ _)) .nil)))

lemma testing_leaves (he : env.Writes P) {rec : Recommender K α φ ε V γ M} {clock : Nat → T} {m : M}
    {sys sys' : Sys γ} {ev : List (List α)} {esc : Pred K} {info : Dict String (J V)}
    (h : testing env clock rec m sys ev = .ok (esc, info, sys')) : AllLeaves P info := by
  unfold testing at h
  obtain ⟨e, h1, h2⟩ := bind_ok h
  cases h2
  exact .cons (.leaf (he.iso _)) (.cons (.leaf (he.iso _)) (.cons (.leaf (he.elapsed _ _))
    (.cons (.leaf (he.elapsedU _ _)) (.cons (.leaf (he.nat _)) .nil))))

/-- The sections given on the command line satisfy `P`. -/
structure Setting.Writes (P : V → Prop) (s : Setting K F V) : Prop where
  condition : AllLeaves P s.condition
  environment : AllLeaves P s.environment
  model : AllLeaves P s.model

/-- The sections of a report satisfy `P`. -/
structure Report.Writes (P : V → Prop) (r : Report F K V) : Prop where
  condition : AllLeaves P r.condition
  environment : AllLeaves P r.environment
  training : AllLeaves P r.training.results
  test : AllLeaves P r.test.results
  model : AllLeaves P r.model
  prediction : AllLeaves P r.prediction

lemma part_leaves (he : env.Writes P) {p : Part F V} (h : AllLeaves P p.results) : J.Leaves P (p.render env) :=
  .dict (AllLeaves.cons (.leaf (he.file _)) (.cons (.leaf (he.nat _)) (.cons (.leaf (he.nat _))
    (.cons (.leaf (he.nat _)) (.cons (.dict h) .nil)))))

lemma render_leaves (he : env.Writes P) {r : Report F K V} (h : r.Writes P) : J.Leaves P (r.render env) :=
  .dict (AllLeaves.cons (.dict ((h.condition.set (encScores_leaves he _)).set (.leaf (he.int _))))
    (.cons (.dict h.environment) (.cons (part_leaves he h.training) (.cons (part_leaves he h.test)
      (.cons (.dict h.model) (.cons (.dict h.prediction) .nil))))))

lemma holdoutTest_leaves (he : env.Writes P) {rec : Recommender K α φ ε V γ M} (hr : rec.Writes P) {clock : Nat → T}
    {load : Loader K α φ ε F} {s : Setting K F V} (hs : s.Writes P) {sys : Sys γ} {r : Report F K V}
    (h : holdoutTest env clock rec load s sys = .ok r) : r.Writes P := by
  unfold holdoutTest at h
  obtain ⟨⟨train, dom⟩, _, h⟩ := bind_ok h
  obtain ⟨⟨test, dom'⟩, _, h⟩ := bind_ok h
  obtain ⟨_, _, h⟩ := bind_ok h
  obtain ⟨_, _, h⟩ := bind_ok h
  obtain ⟨_, _, h⟩ := bind_ok h
  obtain ⟨_, _, h⟩ := bind_ok h
  obtain ⟨_, _, h⟩ := bind_ok h
  obtain ⟨⟨m, trainInfo, sys1⟩, h1, h⟩ := bind_ok h
  obtain ⟨⟨esc, testInfo, sys2⟩, h2, h⟩ := bind_ok h
  obtain ⟨_, _, h⟩ := bind_ok h
  obtain ⟨_, _, h⟩ := bind_ok h
  cases h
  refine ⟨hs.condition, hs.environment, .cons (.dict (training_leaves he hr h1)) .nil,
    .cons (.dict (testing_leaves he h2)) .nil, hs.model, ?_⟩
  refine .cons (encEvents_leaves he _) (.cons (encScores_leaves he _) (.cons (encPred_leaves he _) ?_))
  split
  · exact .nil
  · refine .cons (.dict ?_) .nil
    intro p hp
    obtain ⟨k, _, rfl⟩ := List.mem_map.1 hp
    exact encFeature_leaves he _ _

/-- The dictionaries of the folds satisfy `P`. -/
structure Acc.Writes (P : V → Prop) (a : Acc V) : Prop where
  training : AllLeaves P a.training
  test : AllLeaves P a.test
  event : AllLeaves P a.event
  trues : AllLeaves P a.trues
  predicted : AllLeaves P a.predicted
  mask : AllLeaves P a.mask
  feature : ∀ fs, a.feature = some fs → ∀ p ∈ fs, AllLeaves P p.2

lemma cvFold_leaves (he : env.Writes P) {rec : Recommender K α φ ε V γ M} (hr : rec.Writes P) {clock : Nat → T}
    {seed : Option Int} {data : ScoreData K α φ ε} {ev : List (List α)} {fold : Nat} {trainI testI : List Nat}
    {sys sys' : Sys γ} {acc acc' : Acc V} (ha : acc.Writes P)
    (h : cvFold env clock rec seed data ev fold trainI testI sys acc = .ok (acc', sys')) : acc'.Writes P := by
  unfold cvFold at h
  obtain ⟨train, _, h⟩ := bind_ok h
  obtain ⟨⟨m, trainInfo, sys1⟩, h1, h⟩ := bind_ok h
  obtain ⟨⟨esc, testInfo, sys2⟩, h2, h⟩ := bind_ok h
  obtain ⟨_, _, h⟩ := bind_ok h
  cases h
  refine ⟨ha.training.set (.dict (training_leaves he hr h1)), ha.test.set (.dict (testing_leaves he h2)),
    ha.event.set (encEvents_leaves he _), ha.trues.set (encScores_leaves he _),
    ha.predicted.set (encPred_leaves he _), ha.mask.set (encIndex_leaves he _), ?_⟩
  intro fs hfs p hp
  dsimp only at hfs
  split at hfs
  · rename_i rows fs0 h3 h4
    cases hfs
    obtain ⟨q, hq, rfl⟩ := List.mem_map.1 hp
    exact (ha.feature _ h4 q hq).set (encFeature_leaves he _ _)
  · exact ha.feature fs hfs p hp

lemma cvLoop_leaves (he : env.Writes P) {rec : Recommender K α φ ε V γ M} (hr : rec.Writes P) {clock : Nat → T}
    {seed : Option Int} {cfg : Split.ShuffleConfig K} {data : ScoreData K α φ ε} {ev : List (List α)} {users : List α}
    {target : Option Int} (n fold : Nat) {sys : Sys γ} {acc acc' : Acc V} (ha : acc.Writes P)
    (h : cvLoop env clock rec seed cfg data ev users target n fold sys acc = .ok acc') : acc'.Writes P := by
  induction n generalizing fold sys acc with
  | zero => cases h; exact ha
  | succ n ih =>
    unfold cvLoop at h
    obtain ⟨⟨mask, g⟩, _, h⟩ := bind_ok h
    dsimp only at h
    split at h
    · exact ih _ ha h
    · obtain ⟨⟨acc1, sys1⟩, h1, h⟩ := bind_ok h
      exact ih _ (cvFold_leaves he hr ha h1) h

lemma cvTest_leaves (he : env.Writes P) {rec : Recommender K α φ ε V γ M} (hr : rec.Writes P) {clock : Nat → T}
    {load : Loader K α φ ε F} {s : Setting K F V} (hs : s.Writes P) {target : Option Int} {sys : Sys γ}
    {r : Report F K V} (h : cvTest env clock rec load s target sys = .ok r) : r.Writes P := by
  unfold cvTest at h
  obtain ⟨⟨data, dom⟩, _, h⟩ := bind_ok h
  obtain ⟨ev, _, h⟩ := bind_ok h
  obtain ⟨_, _, h⟩ := bind_ok h
  obtain ⟨_, _, h⟩ := bind_ok h
  obtain ⟨_, _, h⟩ := bind_ok h
  obtain ⟨_, _, h⟩ := bind_ok h
  obtain ⟨acc, h1, h⟩ := bind_ok h
  cases h
  have ha : acc.Writes P := by
    refine cvLoop_leaves he hr _ _ ?_ h1
    refine ⟨.nil, .nil, .nil, .nil, .nil, .nil, ?_⟩
    intro fs hfs p hp
    dsimp only at hfs
    split at hfs
    · cases hfs
    · cases hfs
      obtain ⟨k, _, rfl⟩ := List.mem_map.1 hp
      exact .nil
  refine ⟨hs.condition, hs.environment, ha.training, ha.test, hs.model, ?_⟩
  refine .cons (.dict ha.event) (.cons (.dict ha.trues) (.cons (.dict ha.predicted) (.cons (.dict ha.mask) ?_)))
  split
  · exact .nil
  · rename_i fs hfs
    refine .cons (.dict ?_) .nil
    intro p hp
    obtain ⟨q, hq, rfl⟩ := List.mem_map.1 hp
    exact .dict (ha.feature _ hfs q hq)

/-- The leaves of a result come from the values the scripts were given. -/
theorem doTask_leaves (he : env.Writes P) {rec : Recommender K α φ ε V γ M} (hr : rec.Writes P) {clock : Nat → T}
    {load : Loader K α φ ε F} {s : Setting K F V} (hs : s.Writes P) {target : Option Int} {j : J V}
    (h : doTask env clock rec load s target = .ok j) : J.Leaves P j := by
  unfold doTask at h
  obtain ⟨glob, _, h⟩ := bind_ok h
  split at h
  · cases h
  · dsimp only at h
    split at h
    · obtain ⟨r, h1, h⟩ := bind_ok h
      cases h
      exact render_leaves he (cvTest_leaves he hr hs h1)
    · obtain ⟨r, h1, h⟩ := bind_ok h
      cases h
      exact render_leaves he (holdoutTest_leaves he hr hs h1)

end runs

/-! ### Merging and statistics -/

section merging
variable {P : V → Prop}

lemma firstFold_leaves {tru : V} (ht : P tru) {j w : J V} (hj : J.Leaves P j) (h : firstFold tru j = .ok w) :
    J.Leaves P w := by
  unfold firstFold at h
  obtain ⟨cond, h1, h⟩ := bind_ok h
  obtain ⟨cond', h2, h⟩ := bind_ok h
  obtain ⟨j1, h3, h⟩ := bind_ok h
  have hj1 := hj.setItem ((hj.item h1).setItem (.leaf ht) h2) h3
  obtain ⟨_, _, h⟩ := bind_ok h
  obtain ⟨_, _, h⟩ := bind_ok h
  obtain ⟨_, _, h⟩ := bind_ok h
  obtain ⟨en, h4, h⟩ := bind_ok h
  obtain ⟨en', h5, h⟩ := bind_ok h
  have hen := hj1.item h4
  exact hj1.setItem (hen.setItem (.dict (AllLeaves.cons hen .nil)) h5) h

lemma mergeSub_leaves {info cv w : J V} {fold sub : String} (hi : J.Leaves P info) (hc : J.Leaves P cv)
    (h : mergeSub info fold cv sub = .ok w) : J.Leaves P w := by
  unfold mergeSub at h
  split at h
  · obtain ⟨_, _, h⟩ := bind_ok h
    obtain ⟨ks, _, h⟩ := bind_ok h
    refine foldlM_leaves ?_ ks hc h
    intro j k w hj h
    obtain ⟨a, h1, h⟩ := bind_ok h
    obtain ⟨b, h2, h⟩ := bind_ok h
    obtain ⟨c, h3, h⟩ := bind_ok h
    obtain ⟨s, h4, h⟩ := bind_ok h
    obtain ⟨s', h5, h⟩ := bind_ok h
    exact hj.setItem ((hj.item h4).setItem3 (((hi.item2 h1).item h2).item h3) h5) h
  · obtain ⟨a, h1, h⟩ := bind_ok h
    obtain ⟨b, h2, h⟩ := bind_ok h
    exact hc.setItem3 ((hi.item2 h1).item h2) h

lemma restFold_leaves {info cv w : J V} (hi : J.Leaves P info) (hc : J.Leaves P cv)
    (h : restFold info cv = .ok w) : J.Leaves P w := by
  unfold restFold at h
  obtain ⟨fold, _, h⟩ := bind_ok h
  obtain ⟨en, h1, h⟩ := bind_ok h
  obtain ⟨cv1, h2, h⟩ := bind_ok h
  have hc1 := hc.setItem3 (hi.item h1) h2
  obtain ⟨a, h3, h⟩ := bind_ok h
  obtain ⟨b, h4, h⟩ := bind_ok h
  obtain ⟨cv2, h5, h⟩ := bind_ok h
  have hc2 := hc1.setItem3 ((hi.item2 h3).item h4) h5
  obtain ⟨a', h6, h⟩ := bind_ok h
  obtain ⟨b', h7, h⟩ := bind_ok h
  obtain ⟨cv3, h8, h⟩ := bind_ok h
  have hc3 := hc2.setItem3 ((hi.item2 h6).item h7) h8
  obtain ⟨_, _, h⟩ := bind_ok h
  obtain ⟨subs, _, h⟩ := bind_ok h
  exact foldlM_leaves (fun j x w hj hw => mergeSub_leaves hi hj hw) subs hc3 h

lemma restFolds_leaves {fs : List (J V)} (hfs : ∀ j ∈ fs, J.Leaves P j) {cv w : J V} (hc : J.Leaves P cv)
    (h : fs.foldlM (fun cv info => restFold info cv) cv = .ok w) : J.Leaves P w := by
  induction fs generalizing cv with
  | nil => cases h; exact hc
  | cons g fs ih =>
    rw [List.foldlM_cons] at h
    obtain ⟨a, h3, h4⟩ := bind_ok h
    exact ih (fun j hj => hfs j (List.mem_cons_of_mem _ hj)) (restFold_leaves (hfs g List.mem_cons_self) hc h3) h4

/-- The leaves of a merged result come from the files. -/
theorem merge_leaves {tru out : V} (ht : P tru) (ho : P out) {files : List (J V)} (hf : ∀ j ∈ files, J.Leaves P j)
    {w : J V} (h : merge tru out files = .ok w) : J.Leaves P w := by
  unfold merge at h
  split at h
  · cases h
  · rename_i f fs
    obtain ⟨cv, h1, h⟩ := bind_ok h
    obtain ⟨cv', h2, h⟩ := bind_ok h
    have hc := firstFold_leaves ht (hf f List.mem_cons_self) h1
    exact (restFolds_leaves (fun j hj => hf j (List.mem_cons_of_mem _ hj)) hc h2).setItem2 (.leaf ho) h

/-- The values the statistics script writes satisfy `P`. -/
structure StatsEnv.Writes (P : V → Prop) (se : StatsEnv V) : Prop where
  num : ∀ x, P (se.num x)
  nat : ∀ x, P (se.nat x)
  int : ∀ x, P (se.int x)

lemma descItems_leaves {se : StatsEnv V} (he : se.Writes P) (d : Metrics.Desc) : AllLeaves P (descItems se d) :=
  .cons (.leaf (he.num _)) (.cons (.leaf (he.num _)) .nil)

lemma histTree_leaves {se : StatsEnv V} (he : se.Writes P) (d : Metrics.HistDesc) : J.Leaves P (histTree se d) :=
  .dict (AllLeaves.append (descItems_leaves he _) (.cons (leaves_map (fun x => .leaf (he.int x)))
    (.cons (leaves_map (fun x => .leaf (he.num x))) .nil)))

lemma predictorTree_leaves {se : StatsEnv V} (he : se.Writes P) (r : Metrics.PredictorStats) :
    J.Leaves P (predictorTree se r) :=
  .dict (AllLeaves.cons (.leaf (he.nat _)) (.cons (leaves_map (fun _ => .leaf (he.num _)))
    (.cons (.dict (AllLeaves.cons (.leaf (he.num _)) (.cons (.leaf (he.num _)) .nil)))
      (.cons (.dict (AllLeaves.cons (.leaf (he.num _)) (.cons (.leaf (he.num _)) (.cons (.leaf (he.num _)) .nil))))
        (.cons (histTree_leaves he _) (.cons (histTree_leaves he _) .nil))))))

lemma finderTree_leaves {se : StatsEnv V} (he : se.Writes P) (r : Metrics.FinderStats) :
    J.Leaves P (finderTree se r) := by
  refine .dict (AllLeaves.append (AllLeaves.cons (.leaf (he.nat _)) (.cons (.dict (descItems_leaves he _))
    (.cons (.dict (descItems_leaves he _)) .nil))) ?_)
  split
  · exact .nil
  · exact .cons (.leaf (he.num _)) .nil

lemma statsOf_leaves {se : StatsEnv V} (he : se.Writes P) {j w : J V} (h : statsOf se j = .ok w) : J.Leaves P w := by
  unfold statsOf at h
  obtain ⟨⟨t, p⟩, _, h⟩ := bind_ok h
  obtain ⟨task, _, h⟩ := bind_ok h
  cases task
  all_goals
    dsimp only at h
    split at h
    · obtain ⟨_, _, h⟩ := bind_ok h
      obtain ⟨_, _, h⟩ := bind_ok h
      obtain ⟨_, _, h⟩ := bind_ok h
      obtain ⟨_, _, h⟩ := bind_ok h
      obtain ⟨_, _, h⟩ := bind_ok h
      cases h
      exact predictorTree_leaves he _
    · split at h
      · obtain ⟨_, _, h⟩ := bind_ok h
        obtain ⟨_, _, h⟩ := bind_ok h
        obtain ⟨_, _, h⟩ := bind_ok h
        cases h
        exact finderTree_leaves he _
      · cases h

lemma J.Leaves.delItem {j w : J V} {k : String} (hj : J.Leaves P j) (h : j.delItem k = .ok w) : J.Leaves P w := by
  cases hj with
  | leaf _ => cases h
  | list _ => cases h
  | dict hd =>
    simp only [J.delItem] at h
    split at h
    · cases h
      exact .dict (fun p hp => hd p (List.mem_of_mem_filter hp))
    · cases h

/-- The leaves of a file with statistics come from the input file and the statistics. -/
theorem stats_leaves {se : StatsEnv V} (he : se.Writes P) {keep : Bool} {j w : J V} (hj : J.Leaves P j)
    (h : stats se keep j = .ok w) : J.Leaves P w := by
  unfold stats at h
  obtain ⟨st, h1, h⟩ := bind_ok h
  obtain ⟨j1, h2, h⟩ := bind_ok h
  have hj1 := hj.setItem (statsOf_leaves he h1) h2
  split at h
  · cases h; exact hj1
  · exact hj1.delItem h

end merging

end Kam.Scripts

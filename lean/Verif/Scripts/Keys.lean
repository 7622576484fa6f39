/-
No dictionary in a result has a key twice, and a result is a dictionary (for C125 and C126).
-/
import Verif.Json.Spec
import Verif.Scripts.Leaves
import Verif.Exp.Model
import Verif.Rec.Props

set_option linter.unusedSectionVars false

namespace Kam.Scripts

variable {K α φ ε F V T γ M : Type} [Field K] [LinearOrder K] [IsStrictOrderedRing K] [FloorRing K] [LinearOrder α]

/-- No key twice, also not in the values. -/
def AllKeys (d : Dict String (J V)) : Prop := d.keys.Nodup ∧ ∀ p ∈ d, J.Keys p.2

/-- A result: a dictionary in which no dictionary has a key twice. -/
def J.Result (j : J V) : Prop := ∃ d, j = .dict d ∧ AllKeys d

section tree

lemma AllKeys.dict {d : Dict String (J V)} (h : AllKeys d) : J.Keys (.dict d) := .dict h.1 h.2

lemma J.Result.keys {j : J V} (h : J.Result j) : J.Keys j := by
  obtain ⟨d, rfl, h⟩ := h
  exact h.dict

lemma AllKeys.nil : AllKeys ([] : Dict String (J V)) := ⟨List.nodup_nil, fun _ h => by cases h⟩

lemma AllKeys.cons {k : String} {j : J V} {d : Dict String (J V)} (h : J.Keys j) (hd : AllKeys d) (hk : k ∉ d.keys) :
    AllKeys ((k, j) :: d) := by
  refine ⟨List.nodup_cons.2 ⟨hk, hd.1⟩, ?_⟩
  intro p hp
  rcases List.mem_cons.1 hp with rfl | hp
  · exact h
  · exact hd.2 p hp

lemma nodup_set {β : Type} {d : Dict String β} (h : d.keys.Nodup) (k : String) (v : β) : (d.set k v).keys.Nodup := by
  rw [Dict.keys_set]
  split
  · exact h
  · rename_i hk
    rw [List.nodup_append]
    refine ⟨h, by simp, ?_⟩
    intro a ha b hb
    rw [List.mem_singleton] at hb
    subst hb
    rintro rfl
    exact hk ha

lemma AllKeys.set {d : Dict String (J V)} {k : String} {v : J V} (hd : AllKeys d) (hv : J.Keys v) : AllKeys (d.set k v) := by
  refine ⟨nodup_set hd.1 k v, ?_⟩
  intro p hp
  rcases mem_set hp with hp | hp
  · exact hd.2 p hp
  · rw [hp]; exact hv

lemma AllKeys.update {d e : Dict String (J V)} (hd : AllKeys d) (he : ∀ p ∈ e, J.Keys p.2) : AllKeys (update d e) := by
  unfold Scripts.update
  induction e generalizing d with
  | nil => exact hd
  | cons p e ih =>
    simp only [List.foldl_cons]
    exact ih (hd.set (he p List.mem_cons_self)) (fun q hq => he q (List.mem_cons_of_mem _ hq))

lemma J.Keys.item {j : J V} {k : String} {v : J V} (hj : J.Keys j) (h : j.item k = .ok v) : J.Keys v := by
  cases hj with
  | leaf _ => cases h
  | list _ => cases h
  | dict _ hd => exact hd _ (mem_of_getItem h)

lemma J.Keys.setItem {j : J V} {k : String} {v w : J V} (hj : J.Keys j) (hv : J.Keys v)
    (h : j.setItem k v = .ok w) : J.Result w := by
  cases hj with
  | leaf _ => cases h
  | list _ => cases h
  | dict hn hd =>
    cases h
    exact ⟨_, rfl, AllKeys.set ⟨hn, hd⟩ hv⟩

lemma J.Keys.item2 {j : J V} {x y : String} {v : J V} (hj : J.Keys j) (h : j.item2 x y = .ok v) : J.Keys v := by
  obtain ⟨a, h1, h2⟩ := bind_ok h
  exact (hj.item h1).item h2

lemma J.Keys.setItem2 {j : J V} {x y : String} {v w : J V} (hj : J.Keys j) (hv : J.Keys v)
    (h : j.setItem2 x y v = .ok w) : J.Result w := by
  obtain ⟨a, h1, h⟩ := bind_ok h
  obtain ⟨b, h2, h3⟩ := bind_ok h
  exact hj.setItem ((hj.item h1).setItem hv h2).keys h3

lemma J.Keys.setItem3 {j : J V} {x y z : String} {v w : J V} (hj : J.Keys j) (hv : J.Keys v)
    (h : j.setItem3 x y z v = .ok w) : J.Result w := by
  obtain ⟨a, h1, h⟩ := bind_ok h
  obtain ⟨b, h2, h3⟩ := bind_ok h
  exact hj.setItem ((hj.item h1).setItem2 hv h2).keys h3

lemma foldlM_keys {β : Type} {f : J V → β → Res (J V)} (hf : ∀ j x w, J.Keys j → f j x = .ok w → J.Keys w)
    (l : List β) {j w : J V} (hj : J.Keys j) (h : l.foldlM f j = .ok w) : J.Keys w := by
  induction l generalizing j with
  | nil => cases h; exact hj
  | cons x l ih =>
    rw [List.foldlM_cons] at h
    obtain ⟨a, h1, h2⟩ := bind_ok h
    exact ih (hf j x a hj h1) h2

end tree

/-! ### Runs -/

section runs
variable {env : Env K α ε F V T γ}

/-- In the results of fits no key is there twice. -/
def Recommender.Keys (rec : Recommender K α φ ε V γ M) : Prop :=
  ∀ g d m res g', rec.fit g d = .ok (m, res, g') → AllKeys res

lemma keysMap {β : Type} {l : List β} {f : β → J V} (h : ∀ x, J.Keys (f x)) : J.Keys (.list (l.map f)) := by
  refine .list ?_
  intro j hj
  obtain ⟨x, _, rfl⟩ := List.mem_map.1 hj
  exact h x

lemma encScores_keys (xs : List K) : J.Keys (encScores env xs) := keysMap (fun _ => .leaf _)

lemma encPred_keys (p : Pred K) : J.Keys (encPred env p) := by
  cases p with
  | scalar x => exact .leaf _
  | vec xs => exact encScores_keys xs

lemma encEvents_keys (rows : List (List α)) : J.Keys (encEvents env rows) :=
  keysMap (fun _ => keysMap (fun _ => .leaf _))

lemma encIndex_keys (ix : List Nat) : J.Keys (encIndex env ix) := keysMap (fun _ => .leaf _)

lemma encFeature_keys (k : String) (rows : List ε) : J.Keys (encFeature env k rows) := keysMap (fun _ => .leaf _)

lemma training_keys {rec : Recommender K α φ ε V γ M} (hr : rec.Keys) {clock : Nat → T}
    {seed : Option Int} {sys sys' : Sys γ} {data : ScoreData K α φ ε} {m : M} {info : Dict String (J V)}
    (h : training env clock rec seed sys data = .ok (m, info, sys')) : AllKeys info := by
  unfold training at h
  obtain ⟨⟨m', res, g⟩, h1, h2⟩ := bind_ok h
  cases h2
  have hres : AllKeys res := by
    unfold fitWith at h1
    split at h1
    · obtain ⟨g0, _, h1⟩ := bind_ok h1
      obtain ⟨⟨m'', res', g1⟩, h3, h4⟩ := bind_ok h1
      cases h4
      exact hr _ _ _ _ _ h3
    · exact hr _ _ _ _ _ h1
  refine AllKeys.update ?_ hres.2
  refine ⟨by simp [Dict.keys], ?_⟩
  intro p hp
  simp only [List.mem_cons, List.not_mem_nil, or_false] at hp
  rcases hp with rfl | rfl | rfl | rfl <;> exact .leaf _

lemma testing_keys {rec : Recommender K α φ ε V γ M} {clock : Nat → T} {m : M}
    {sys sys' : Sys γ} {ev : List (List α)} {esc : Pred K} {info : Dict String (J V)}
    (h : testing env clock rec m sys ev = .ok (esc, info, sys')) : AllKeys info := by
  unfold testing at h
  obtain ⟨e, h1, h2⟩ := bind_ok h
  cases h2
  refine ⟨by simp [Dict.keys], ?_⟩
  intro p hp
  simp only [List.mem_cons, List.not_mem_nil, or_false] at hp
  rcases hp with rfl | rfl | rfl | rfl | rfl <;> exact .leaf _

/-- In the sections given on the command line no key is there twice. -/
structure Setting.Keys (s : Setting K F V) : Prop where
  condition : AllKeys s.condition
  environment : AllKeys s.environment
  model : AllKeys s.model

/-- In the sections of a report no key is there twice. -/
structure Report.Keys (r : Report F K V) : Prop where
  condition : AllKeys r.condition
  environment : AllKeys r.environment
  training : AllKeys r.training.results
  test : AllKeys r.test.results
  model : AllKeys r.model
  prediction : AllKeys r.prediction

lemma part_keys {p : Part F V} (h : AllKeys p.results) : J.Keys (p.render env) := by
  refine .dict (by simp) ?_
  intro q hq
  simp only [List.mem_cons, List.not_mem_nil, or_false] at hq
  rcases hq with rfl | rfl | rfl | rfl | rfl
  · exact .leaf _
  · exact .leaf _
  · exact .leaf _
  · exact .leaf _
  · exact h.dict

lemma render_keys {r : Report F K V} (h : r.Keys) : J.Result (r.render env) := by
  refine ⟨_, rfl, by simp [Dict.keys], ?_⟩
  intro q hq
  simp only [List.mem_cons, List.not_mem_nil, or_false] at hq
  rcases hq with rfl | rfl | rfl | rfl | rfl | rfl
  · exact ((h.condition.set (encScores_keys _)).set (.leaf _)).dict
  · exact h.environment.dict
  · exact part_keys h.training
  · exact part_keys h.test
  · exact h.model.dict
  · exact h.prediction.dict

lemma keys_map_names {β : Type} (l : List String) (f : String → β) :
    Dict.keys (l.map (fun k => (k, f k))) = l := by
  simp [Dict.keys, Function.comp_def]

lemma holdoutTest_keys (hn : env.names.Nodup) {rec : Recommender K α φ ε V γ M} (hr : rec.Keys) {clock : Nat → T}
    {load : Loader K α φ ε F} {s : Setting K F V} (hs : s.Keys) {sys : Sys γ} {r : Report F K V}
    (h : holdoutTest env clock rec load s sys = .ok r) : r.Keys := by
  unfold holdoutTest at h
  obtain ⟨⟨train, dom⟩, _, h⟩ := bind_ok h
  obtain ⟨⟨test, dom'⟩, _, h⟩ := bind_ok h
  obtain ⟨_, _, h⟩ := bind_ok h
  obtain ⟨_, _, h⟩ := bind_ok h
  obtain ⟨_, _, h⟩ := bind_ok h
  obtain ⟨_, _, h⟩ := bind_ok h
  obtain ⟨_, _, h⟩ := bind_ok h
  obtain ⟨⟨m, trainInfo, sys1⟩, h1, h⟩ := bind_ok h
  obtain ⟨⟨esc, testInfo, sys2⟩, h2, h⟩ := bind_ok h
  obtain ⟨_, _, h⟩ := bind_ok h
  obtain ⟨_, _, h⟩ := bind_ok h
  cases h
  refine ⟨hs.condition, hs.environment, AllKeys.nil.cons (training_keys hr h1).dict (by simp [Dict.keys]),
    AllKeys.nil.cons (testing_keys h2).dict (by simp [Dict.keys]), hs.model, ?_⟩
  cases hf : test.eventFeature with
  | none =>
    refine ⟨by simp [Dict.keys], ?_⟩
    intro q hq
    simp only [List.append_nil, List.mem_cons, List.not_mem_nil, or_false] at hq
    rcases hq with rfl | rfl | rfl
    · exact encEvents_keys _
    · exact encScores_keys _
    · exact encPred_keys _
  | some rows =>
    refine ⟨by simp [Dict.keys], ?_⟩
    intro q hq
    simp only [List.cons_append, List.nil_append, List.mem_cons, List.not_mem_nil, or_false] at hq
    rcases hq with rfl | rfl | rfl | rfl
    · exact encEvents_keys _
    · exact encScores_keys _
    · exact encPred_keys _
    · refine .dict ?_ ?_
      · have := keys_map_names env.names (fun k => encFeature env k rows)
        simp only [Dict.keys] at this
        rw [this]
        exact hn
      · intro p hp
        obtain ⟨k, _, rfl⟩ := List.mem_map.1 hp
        exact encFeature_keys _ _

/-- In the dictionaries of the folds no key is there twice. -/
structure Acc.Keys (env : Env K α ε F V T γ) (a : Acc V) : Prop where
  training : AllKeys a.training
  test : AllKeys a.test
  event : AllKeys a.event
  trues : AllKeys a.trues
  predicted : AllKeys a.predicted
  mask : AllKeys a.mask
  feature : ∀ fs, a.feature = some fs → fs.map (·.1) = env.names ∧ ∀ p ∈ fs, AllKeys p.2

lemma cvFold_keys {rec : Recommender K α φ ε V γ M} (hr : rec.Keys) {clock : Nat → T}
    {seed : Option Int} {data : ScoreData K α φ ε} {ev : List (List α)} {fold : Nat} {trainI testI : List Nat}
    {sys sys' : Sys γ} {acc acc' : Acc V} (ha : acc.Keys env)
    (h : cvFold env clock rec seed data ev fold trainI testI sys acc = .ok (acc', sys')) : acc'.Keys env := by
  unfold cvFold at h
  obtain ⟨train, _, h⟩ := bind_ok h
  obtain ⟨⟨m, trainInfo, sys1⟩, h1, h⟩ := bind_ok h
  obtain ⟨⟨esc, testInfo, sys2⟩, h2, h⟩ := bind_ok h
  obtain ⟨_, _, h⟩ := bind_ok h
  cases h
  refine ⟨ha.training.set (training_keys hr h1).dict, ha.test.set (testing_keys h2).dict,
    ha.event.set (encEvents_keys _), ha.trues.set (encScores_keys _),
    ha.predicted.set (encPred_keys _), ha.mask.set (encIndex_keys _), ?_⟩
  intro fs hfs
  dsimp only at hfs
  split at hfs
  · rename_i rows fs0 h3 h4
    cases hfs
    refine ⟨?_, ?_⟩
    · rw [← (ha.feature _ h4).1, List.map_map]
      rfl
    · intro p hp
      obtain ⟨q, hq, rfl⟩ := List.mem_map.1 hp
      exact ((ha.feature _ h4).2 q hq).set (encFeature_keys _ _)
  · exact ha.feature fs hfs

lemma cvLoop_keys {rec : Recommender K α φ ε V γ M} (hr : rec.Keys) {clock : Nat → T}
    {seed : Option Int} {cfg : Split.ShuffleConfig K} {data : ScoreData K α φ ε} {ev : List (List α)} {users : List α}
    {target : Option Int} (n fold : Nat) {sys : Sys γ} {acc acc' : Acc V} (ha : acc.Keys env)
    (h : cvLoop env clock rec seed cfg data ev users target n fold sys acc = .ok acc') : acc'.Keys env := by
  induction n generalizing fold sys acc with
  | zero => cases h; exact ha
  | succ n ih =>
    unfold cvLoop at h
    obtain ⟨⟨mask, g⟩, _, h⟩ := bind_ok h
    dsimp only at h
    split at h
    · exact ih _ ha h
    · obtain ⟨⟨acc1, sys1⟩, h1, h⟩ := bind_ok h
      exact ih _ (cvFold_keys hr ha h1) h

lemma cvTest_keys (hn : env.names.Nodup) {rec : Recommender K α φ ε V γ M} (hr : rec.Keys) {clock : Nat → T}
    {load : Loader K α φ ε F} {s : Setting K F V} (hs : s.Keys) {target : Option Int} {sys : Sys γ}
    {r : Report F K V} (h : cvTest env clock rec load s target sys = .ok r) : r.Keys := by
  unfold cvTest at h
  obtain ⟨⟨data, dom⟩, _, h⟩ := bind_ok h
  obtain ⟨ev, _, h⟩ := bind_ok h
  obtain ⟨_, _, h⟩ := bind_ok h
  obtain ⟨_, _, h⟩ := bind_ok h
  obtain ⟨_, _, h⟩ := bind_ok h
  obtain ⟨_, _, h⟩ := bind_ok h
  obtain ⟨acc, h1, h⟩ := bind_ok h
  cases h
  have ha : acc.Keys env := by
    refine cvLoop_keys hr _ _ ?_ h1
    refine ⟨.nil, .nil, .nil, .nil, .nil, .nil, ?_⟩
    intro fs hfs
    dsimp only at hfs
    split at hfs
    · cases hfs
    · cases hfs
      refine ⟨keys_map_names _ _, ?_⟩
      intro p hp
      obtain ⟨k, _, rfl⟩ := List.mem_map.1 hp
      exact .nil
  refine ⟨hs.condition, hs.environment, ha.training, ha.test, hs.model, ?_⟩
  cases hf : acc.feature with
  | none =>
    refine ⟨by simp [Dict.keys], ?_⟩
    intro q hq
    simp only [List.append_nil, List.mem_cons, List.not_mem_nil, or_false] at hq
    rcases hq with rfl | rfl | rfl | rfl
    · exact ha.event.dict
    · exact ha.trues.dict
    · exact ha.predicted.dict
    · exact ha.mask.dict
  | some fs =>
    obtain ⟨f1, f2⟩ := ha.feature _ hf
    refine ⟨by simp [Dict.keys], ?_⟩
    intro q hq
    simp only [List.cons_append, List.nil_append, List.mem_cons, List.not_mem_nil, or_false] at hq
    rcases hq with rfl | rfl | rfl | rfl | rfl
    · exact ha.event.dict
    · exact ha.trues.dict
    · exact ha.predicted.dict
    · exact ha.mask.dict
    · refine .dict ?_ ?_
      · rw [List.map_map]
        exact f1 ▸ hn
      · intro p hp
        obtain ⟨q, hq, rfl⟩ := List.mem_map.1 hp
        exact (f2 q hq).dict

/-- The result of an experiment is a dictionary and has no key twice. -/
theorem doTask_keys (hn : env.names.Nodup) {rec : Recommender K α φ ε V γ M} (hr : rec.Keys) {clock : Nat → T}
    {load : Loader K α φ ε F} {s : Setting K F V} (hs : s.Keys) {target : Option Int} {j : J V}
    (h : doTask env clock rec load s target = .ok j) : J.Result j := by
  unfold doTask at h
  obtain ⟨glob, _, h⟩ := bind_ok h
  split at h
  · cases h
  · dsimp only at h
    split at h
    · obtain ⟨r, h1, h⟩ := bind_ok h
      cases h
      exact render_keys (cvTest_keys hn hr hs h1)
    · obtain ⟨r, h1, h⟩ := bind_ok h
      cases h
      exact render_keys (holdoutTest_keys hn hr hs h1)

end runs

/-! ### Merging and statistics -/

section merging

lemma firstFold_keys {tru : V} {j w : J V} (hj : J.Keys j) (h : firstFold tru j = .ok w) : J.Result w := by
  unfold firstFold at h
  obtain ⟨cond, h1, h⟩ := bind_ok h
  obtain ⟨cond', h2, h⟩ := bind_ok h
  obtain ⟨j1, h3, h⟩ := bind_ok h
  have hj1 := (hj.setItem ((hj.item h1).setItem (.leaf tru) h2).keys h3).keys
  obtain ⟨_, _, h⟩ := bind_ok h
  obtain ⟨_, _, h⟩ := bind_ok h
  obtain ⟨_, _, h⟩ := bind_ok h
  obtain ⟨en, h4, h⟩ := bind_ok h
  obtain ⟨en', h5, h⟩ := bind_ok h
  have hen := hj1.item h4
  exact hj1.setItem (hen.setItem (AllKeys.nil.cons hen (by simp [Dict.keys])).dict h5).keys h

lemma mergeSub_keys {info cv w : J V} {fold sub : String} (hi : J.Keys info) (hc : J.Keys cv)
    (h : mergeSub info fold cv sub = .ok w) : J.Keys w := by
  unfold mergeSub at h
  split at h
  · obtain ⟨_, _, h⟩ := bind_ok h
    obtain ⟨ks, _, h⟩ := bind_ok h
    refine foldlM_keys ?_ ks hc h
    intro j k w hj h
    obtain ⟨a, h1, h⟩ := bind_ok h
    obtain ⟨b, h2, h⟩ := bind_ok h
    obtain ⟨c, h3, h⟩ := bind_ok h
    obtain ⟨s, h4, h⟩ := bind_ok h
    obtain ⟨s', h5, h⟩ := bind_ok h
    exact (hj.setItem ((hj.item h4).setItem3 (((hi.item2 h1).item h2).item h3) h5).keys h).keys
  · obtain ⟨a, h1, h⟩ := bind_ok h
    obtain ⟨b, h2, h⟩ := bind_ok h
    exact (hc.setItem3 ((hi.item2 h1).item h2) h).keys

lemma restFold_keys {info cv w : J V} (hi : J.Keys info) (hc : J.Keys cv) (h : restFold info cv = .ok w) : J.Keys w := by
  unfold restFold at h
  obtain ⟨fold, _, h⟩ := bind_ok h
  obtain ⟨en, h1, h⟩ := bind_ok h
  obtain ⟨cv1, h2, h⟩ := bind_ok h
  have hc1 := (hc.setItem3 (hi.item h1) h2).keys
  obtain ⟨a, h3, h⟩ := bind_ok h
  obtain ⟨b, h4, h⟩ := bind_ok h
  obtain ⟨cv2, h5, h⟩ := bind_ok h
  have hc2 := (hc1.setItem3 ((hi.item2 h3).item h4) h5).keys
  obtain ⟨a', h6, h⟩ := bind_ok h
  obtain ⟨b', h7, h⟩ := bind_ok h
  obtain ⟨cv3, h8, h⟩ := bind_ok h
  have hc3 := (hc2.setItem3 ((hi.item2 h6).item h7) h8).keys
  obtain ⟨_, _, h⟩ := bind_ok h
  obtain ⟨subs, _, h⟩ := bind_ok h
  exact foldlM_keys (fun j x w hj hw => mergeSub_keys hi hj hw) subs hc3 h

lemma restFolds_keys {fs : List (J V)} (hfs : ∀ j ∈ fs, J.Keys j) {cv w : J V} (hc : J.Keys cv)
    (h : fs.foldlM (fun cv info => restFold info cv) cv = .ok w) : J.Keys w := by
  induction fs generalizing cv with
  | nil => cases h; exact hc
  | cons g fs ih =>
    rw [List.foldlM_cons] at h
    obtain ⟨a, h3, h4⟩ := bind_ok h
    exact ih (fun j hj => hfs j (List.mem_cons_of_mem _ hj)) (restFold_keys (hfs g List.mem_cons_self) hc h3) h4

/-- The merged result is a dictionary and has no key twice. -/
theorem merge_keys {tru out : V} {files : List (J V)} (hf : ∀ j ∈ files, J.Keys j) {w : J V}
    (h : merge tru out files = .ok w) : J.Result w := by
  unfold merge at h
  split at h
  · cases h
  · rename_i f fs
    obtain ⟨cv, h1, h⟩ := bind_ok h
    obtain ⟨cv', h2, h⟩ := bind_ok h
    have hc := firstFold_keys (hf f List.mem_cons_self) h1
    exact (restFolds_keys (fun j hj => hf j (List.mem_cons_of_mem _ hj)) hc.keys h2).setItem2 (.leaf _) h

lemma descItems_keys (se : StatsEnv V) (d : Metrics.Desc) : AllKeys (descItems se d) := by
  refine ⟨by simp [descItems, Dict.keys], ?_⟩
  intro p hp
  simp only [descItems, List.mem_cons, List.not_mem_nil, or_false] at hp
  rcases hp with rfl | rfl <;> exact .leaf _

lemma histTree_keys (se : StatsEnv V) (d : Metrics.HistDesc) : J.Keys (histTree se d) := by
  refine .dict (by simp [descItems]) ?_
  intro p hp
  simp only [descItems, List.cons_append, List.nil_append, List.mem_cons, List.not_mem_nil, or_false] at hp
  rcases hp with rfl | rfl | rfl | rfl
  · exact .leaf _
  · exact .leaf _
  · exact keysMap (fun _ => .leaf _)
  · exact keysMap (fun _ => .leaf _)

lemma predictorTree_keys (se : StatsEnv V) (r : Metrics.PredictorStats) : J.Keys (predictorTree se r) := by
  refine .dict (by simp) ?_
  intro p hp
  simp only [List.mem_cons, List.not_mem_nil, or_false] at hp
  rcases hp with rfl | rfl | rfl | rfl | rfl | rfl
  · exact .leaf _
  · exact keysMap (fun _ => .leaf _)
  · refine .dict (by simp) ?_
    intro p hp
    simp only [List.mem_cons, List.not_mem_nil, or_false] at hp
    rcases hp with rfl | rfl <;> exact .leaf _
  · refine .dict (by simp) ?_
    intro p hp
    simp only [List.mem_cons, List.not_mem_nil, or_false] at hp
    rcases hp with rfl | rfl | rfl <;> exact .leaf _
  · exact histTree_keys se _
  · exact histTree_keys se _

lemma finderTree_keys (se : StatsEnv V) (r : Metrics.FinderStats) : J.Keys (finderTree se r) := by
  unfold finderTree
  cases r.auc with
  | none =>
    refine .dict (by simp) ?_
    intro p hp
    simp only [List.append_nil, List.mem_cons, List.not_mem_nil, or_false] at hp
    rcases hp with rfl | rfl | rfl
    · exact .leaf _
    · exact (descItems_keys se _).dict
    · exact (descItems_keys se _).dict
  | some a =>
    refine .dict (by simp) ?_
    intro p hp
    simp only [List.cons_append, List.nil_append, List.mem_cons, List.not_mem_nil, or_false] at hp
    rcases hp with rfl | rfl | rfl | rfl
    · exact .leaf _
    · exact (descItems_keys se _).dict
    · exact (descItems_keys se _).dict
    · exact .leaf _

lemma statsOf_keys {se : StatsEnv V} {j w : J V} (h : statsOf se j = .ok w) : J.Keys w := by
  unfold statsOf at h
  obtain ⟨⟨t, p⟩, _, h⟩ := bind_ok h
  obtain ⟨task, _, h⟩ := bind_ok h
  cases task
  all_goals
    dsimp only at h
    split at h
    · obtain ⟨_, _, h⟩ := bind_ok h
      obtain ⟨_, _, h⟩ := bind_ok h
      obtain ⟨_, _, h⟩ := bind_ok h
      obtain ⟨_, _, h⟩ := bind_ok h
      obtain ⟨_, _, h⟩ := bind_ok h
      cases h
      exact predictorTree_keys se _
    · split at h
      · obtain ⟨_, _, h⟩ := bind_ok h
        obtain ⟨_, _, h⟩ := bind_ok h
        obtain ⟨_, _, h⟩ := bind_ok h
        cases h
        exact finderTree_keys se _
      · cases h

/-- A file with statistics is a dictionary and has no key twice. -/
theorem stats_keys {se : StatsEnv V} {keep : Bool} {j w : J V} (hj : J.Keys j) (h : stats se keep j = .ok w) :
    J.Result w := by
  unfold stats at h
  obtain ⟨st, h1, h⟩ := bind_ok h
  obtain ⟨j1, h2, h⟩ := bind_ok h
  have hj1 := hj.setItem (statsOf_keys h1) h2
  split at h
  · cases h; exact hj1
  · obtain ⟨d, rfl, hd⟩ := hj1
    simp only [J.delItem] at h
    split at h
    · cases h
      refine ⟨_, rfl, ?_, fun p hp => hd.2 p (List.mem_of_mem_filter hp)⟩
      exact hd.1.sublist (List.filter_sublist.map _)
    · cases h

end merging

end Kam.Scripts

namespace Kam.Exp
open Scripts

variable {F α φ ε V T γ : Type} [LinearOrder α]

lemma finish_keys {θ W : Type} {L : Learner ℝ γ θ W} {r r' : Rec ℝ α φ ε γ θ W} (hr : r.fitResults.keys.Nodup)
    (h : Rec.finish L r = .ok r') : r'.fitResults.keys.Nodup := by
  obtain ⟨p, res, ht, rfl⟩ := finish_ok h
  show (res.foldl (fun d kv => d.set kv.1 kv.2) r.fitResults).keys.Nodup
  clear h ht
  generalize r.fitResults = d at hr
  induction res generalizing d with
  | nil => exact hr
  | cons kv res ih => exact ih _ (nodup_set hr _ _)

lemma eventFit_results {θ W : Type} {mk : Int → γ} {g : γ} {r r1 : Rec ℝ α φ ε γ θ W} {d : EventData α φ ε}
    {idx : Option (List Int)} (h : Rec.eventFit mk g r d idx = .ok r1) : r1.fitResults = r.fitResults := by
  unfold Rec.eventFit Rec.baseFit at h
  simp only at h
  split at h
  · cases h
  · split at h
    · cases h
    · split at h
      · cases h
      · split at h
        · cases h
        · cases h; rfl

lemma predictor_keys {θ W : Type} {L : Learner ℝ γ θ W} {fresh : Dict String W} {enc : W → J V}
    {after : γ → ScoreData ℝ α φ ε → γ} (hf : fresh.keys.Nodup) (he : ∀ w, J.Keys (enc w)) :
    (predictor L fresh enc after).Keys := by
  intro g d m res g' h
  simp only [predictor] at h
  split at h
  · rename_i r hr
    injection h with h
    injection h with h h2
    injection h2 with h2 h3
    subst h2
    have hk : r.fitResults.keys.Nodup := by
      unfold Rec.fitPredictor Rec.predictorSuperFit at hr
      split at hr
      · cases hr
      · rename_i r1 h1
        split at h1
        · cases h1
        · rename_i r0 h0
          cases h1
          refine finish_keys ?_ hr
          show r0.fitResults.keys.Nodup
          rw [eventFit_results h0]
          exact hf
    refine ⟨?_, ?_⟩
    · simpa [Dict.keys, List.map_map, Function.comp_def] using hk
    · intro p hp
      obtain ⟨q, _, rfl⟩ := List.mem_map.1 hp
      exact he _
  · cases h

lemma finder_keys {θ W : Type} {L : Learner ℝ γ θ W} {fresh : Dict String W} {enc : W → J V}
    {after : γ → ScoreData ℝ α φ ε → γ} (hf : fresh.keys.Nodup) (he : ∀ w, J.Keys (enc w)) :
    (finder L fresh enc after).Keys := by
  intro g d m res g' h
  simp only [finder] at h
  split at h
  · rename_i r hr
    injection h with h
    injection h with h h2
    injection h2 with h2 h3
    subst h2
    have hk : r.fitResults.keys.Nodup := by
      unfold Rec.fitExplicit Rec.explicitSuperFit at hr
      split at hr
      · cases hr
      · rename_i r1 h1
        split at h1
        · cases h1
        · rename_i r0 h0
          split at h1
          · cases h1
            refine finish_keys ?_ hr
            show r0.fitResults.keys.Nodup
            rw [eventFit_results h0]
            exact hf
          · cases h1
    refine ⟨?_, ?_⟩
    · simpa [Dict.keys, List.map_map, Function.comp_def] using hk
    · intro p hp
      obtain ⟨q, _, rfl⟩ := List.mem_map.1 hp
      exact he _
  · cases h

lemma guardK_keys {M : Type} {rec : Recommender ℝ α φ ε V γ M} (h : rec.Keys) (k : Int) : (guardK k rec).Keys := by
  unfold guardK
  split
  · intro g d m res g' h
    cases h
  · exact h

lemma initInfo_keys {sc : Script} {o : Namespace F} {info : Info F} (h : initInfo sc o = .ok info) : info.options.keys.Nodup := by
  have hm : ∀ {d : Dict String OptVal}, d.keys.Nodup → (addMaxiter o d).keys.Nodup := by
    intro d hd
    unfold addMaxiter
    split
    · exact hd
    · exact nodup_set hd _ _
  unfold initInfo at h
  obtain ⟨⟨cls, method, options⟩, h1, h⟩ := bind_ok h
  cases h
  refine nodup_set ?_ _ _
  unfold initModel at h1
  split at h1
  · split_ifs at h1 <;> cases h1 <;> exact hm (by simp [Dict.keys])
  · split_ifs at h1; cases h1; exact hm (by simp [Dict.keys])

lemma setting_keys {info : Info F} (hi : info.options.keys.Nodup) {leaf : OptVal → V} {file : F → V}
    {environment : Dict String (J V)} {seed : Option Int} (he : AllKeys environment) :
    (info.setting leaf file environment seed).Keys := by
  refine ⟨⟨by simp [Info.setting, Dict.keys], ?_⟩, he, ⟨by simp [Info.setting, Dict.keys], ?_⟩⟩
  · intro p hp
    simp only [Info.setting, List.mem_cons, List.not_mem_nil, or_false] at hp
    rcases hp with rfl | rfl | rfl | rfl | rfl | rfl
    · exact .leaf _
    · exact keysMap (fun _ => .leaf _)
    · exact .leaf _
    · exact .leaf _
    · exact .leaf _
    · exact .leaf _
  · intro p hp
    simp only [Info.setting, List.mem_cons, List.not_mem_nil, or_false] at hp
    rcases hp with rfl | rfl | rfl | rfl | rfl | rfl | rfl
    · refine .dict ?_ ?_
      · simpa [Dict.keys, List.map_map, Function.comp_def] using hi
      · intro p hp
        obtain ⟨q, _, rfl⟩ := List.mem_map.1 hp
        exact .leaf _
    · exact .leaf _
    · exact .leaf _
    · exact .leaf _
    · exact .leaf _
    · exact .leaf _
    · exact .leaf _

/-- What the library writes for a result of a fit has no key twice. -/
structure Lib.Keys (lib : Lib α φ ε V γ) : Prop where
  mf : ∀ x, J.Keys (lib.mf x)
  plsa : ∀ x, J.Keys (lib.plsa x)

/-- The result of an experiment script is a dictionary and has no key twice. -/
theorem task_keys {env : Env ℝ α ε F V T γ} (hn : env.names.Nodup) {lib : Lib α φ ε V γ} (hl : lib.Keys)
    {clock : Nat → T} {environment : Dict String (J V)} (he : AllKeys environment)
    {read : Bool → F → Res (Table ℝ α ε)} {sc : Script} {o : Namespace F} {j : J V}
    (h : task env lib clock environment read sc o = .ok j) : J.Result j := by
  unfold task at h
  obtain ⟨info, hi, h⟩ := bind_ok h
  obtain ⟨seed, _, h⟩ := bind_ok h
  have hs := setting_keys (initInfo_keys hi) (leaf := lib.leaf) (file := fun f => env.file (some f)) (seed := seed) he
  dsimp only at h
  split at h
  · obtain ⟨⟨k, cf⟩, _, h⟩ := bind_ok h
    exact doTask_keys hn (guardK_keys (predictor_keys (by simp [MF.initialResults, Dict.keys]) hl.mf) k) hs h
  · obtain ⟨⟨k, cf⟩, _, h⟩ := bind_ok h
    exact doTask_keys hn (guardK_keys (finder_keys (by simp [MF.initialResults, Dict.keys]) hl.mf) k) hs h
  · obtain ⟨⟨k, cf⟩, _, h⟩ := bind_ok h
    exact doTask_keys hn (guardK_keys (predictor_keys (by simp [PLSA.initialResults, Dict.keys]) hl.plsa) k) hs h

end Kam.Exp

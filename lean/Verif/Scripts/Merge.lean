/-
The merge script in closed form, on files that consist of a head and a list of folds.
-/
import Verif.Scripts.Lemmas

set_option linter.unusedSectionVars false

namespace Kam.Scripts

variable {V : Type}

/-- All that a result file has for one fold. -/
structure Rec (V : Type) where
  key : String
  training : J V
  test : J V
  event : J V
  trues : J V
  predicted : J V
  mask : J V
  feature : String → J V

/-- The rest of a result file. -/
structure Head (V : Type) where
  condition : Dict String (J V)
  environment : Dict String (J V)
  trainFile : J V
  trainEvents : J V
  trainUsers : J V
  trainItems : J V
  testFile : J V
  testEvents : J V
  testUsers : J V
  testItems : J V
  model : Dict String (J V)
  names : Option (List String)

/-- A dictionary with one entry per fold. -/
def perFold (l : List (Rec V)) (f : Rec V → J V) : Dict String (J V) := l.map (fun r => (r.key, f r))

/-- The section `prediction`. -/
def predictionOf (names : Option (List String)) (l : List (Rec V)) : Dict String (J V) :=
  [("event", .dict (perFold l (·.event))), ("true", .dict (perFold l (·.trues))),
   ("predicted", .dict (perFold l (·.predicted))), ("mask", .dict (perFold l (·.mask)))] ++
  (match names with
   | none => []
   | some ns => [("event_feature", J.dict (ns.map (fun k => (k, J.dict (perFold l (fun r => r.feature k))))))])

/-- A result file. -/
def tree (h : Head V) (l : List (Rec V)) : J V :=
  .dict [("condition", .dict h.condition), ("environment", .dict h.environment),
    ("training", .dict [("file", h.trainFile), ("n_events", h.trainEvents), ("n_users", h.trainUsers),
      ("n_items", h.trainItems), ("results", .dict (perFold l (·.training)))]),
    ("test", .dict [("file", h.testFile), ("n_events", h.testEvents), ("n_users", h.testUsers),
      ("n_items", h.testItems), ("results", .dict (perFold l (·.test)))]),
    ("model", .dict h.model), ("prediction", .dict (predictionOf h.names l))]

/-- Replace the fold with the same key, or add it. -/
def upsert (l : List (Rec V)) (r : Rec V) : List (Rec V) :=
  match l with
  | [] => [r]
  | x :: l => if x.key = r.key then r :: l else x :: upsert l r

lemma perFold_upsert (l : List (Rec V)) (r : Rec V) (f : Rec V → J V) :
    (perFold l f).set r.key (f r) = perFold (upsert l r) f := by
  induction l with
  | nil => rfl
  | cons x l ih =>
    unfold upsert
    by_cases h : x.key = r.key
    · rw [if_pos h]
      show Dict.set ((x.key, f x) :: perFold l f) r.key (f r) = _
      unfold Dict.set
      rw [if_pos h, h]
      rfl
    · rw [if_neg h]
      show Dict.set ((x.key, f x) :: perFold l f) r.key (f r) = (x.key, f x) :: perFold (upsert l r) f
      rw [← ih]
      conv_lhs => unfold Dict.set
      rw [if_neg h]

lemma getItem_perFold_head (l : List (Rec V)) (r : Rec V) (f : Rec V → J V) :
    Dict.getItem (perFold (r :: l) f) r.key = .ok (f r) := by
  have : Dict.get? (perFold (r :: l) f) r.key = some (f r) := by
    show Dict.get? ((r.key, f r) :: perFold l f) r.key = _
    unfold Dict.get?
    rw [if_pos rfl]
  unfold Dict.getItem
  rw [this]

lemma getItem_append_mid {ν : Type} (A B : Dict String ν) (k : String) (v : ν) (h : k ∉ A.keys) :
    Dict.getItem (A ++ (k, v) :: B) k = .ok v := by
  have : Dict.get? (A ++ (k, v) :: B) k = some v := by
    induction A with
    | nil => simp [Dict.get?]
    | cons p A ih =>
      obtain ⟨k0, v0⟩ := p
      simp [Dict.keys] at h
      show Dict.get? ((k0, v0) :: (A ++ (k, v) :: B)) k = some v
      unfold Dict.get?
      rw [if_neg (Ne.symm h.1)]
      exact ih (by simpa [Dict.keys] using h.2)
  unfold Dict.getItem
  rw [this]

lemma set_append_mid {ν : Type} (A B : Dict String ν) (k : String) (v v' : ν) (h : k ∉ A.keys) :
    Dict.set (A ++ (k, v) :: B) k v' = A ++ (k, v') :: B := by
  induction A with
  | nil => simp [Dict.set]
  | cons p A ih =>
    obtain ⟨k0, v0⟩ := p
    simp [Dict.keys] at h
    show Dict.set ((k0, v0) :: (A ++ (k, v) :: B)) k v' = (k0, v0) :: (A ++ (k, v') :: B)
    unfold Dict.set
    rw [if_neg (Ne.symm h.1), ih (by simpa [Dict.keys] using h.2)]

lemma getItem_map_mem (ns : List String) (f : String → J V) (k : String) (h : k ∈ ns) :
    Dict.getItem (ns.map (fun k => (k, f k))) k = .ok (f k) := by
  induction ns with
  | nil => simp at h
  | cons a ns ih =>
    by_cases e : a = k
    · subst e
      simp [Dict.getItem, Dict.get?]
    · have := ih (by simpa [Ne.symm e] using h)
      unfold Dict.getItem at this ⊢
      rw [List.map_cons]
      unfold Dict.get?
      rw [if_neg e]
      exact this

/-- The first key of the results. -/
def firstKey (results : J V) : Res String := do
  match ← results.iter with
  | k :: _ => .ok k
  | [] => .error .stopIteration

lemma firstFold_tree (tru : V) (h : Head V) (r : Rec V) (l : List (Rec V)) :
    firstFold tru (tree h (r :: l)) = .ok (tree { h with
      condition := h.condition.set "merged" (.leaf tru)
      environment := h.environment.set "environment_fold" (.dict [(r.key, .dict h.environment)]) } (r :: l)) := by
  unfold firstFold tree
  simp [J.item, J.setItem, J.iter, Dict.getItem, Dict.get?, Dict.set, bind, Except.bind, perFold, Dict.keys]

/-- Head and folds with the feature loop done for the names `A`, not yet for `B`. -/
def midway (h : Head V) (cond env : Dict String (J V)) (l : List (Rec V)) (r : Rec V) (A B : List String) : J V :=
  .dict [("condition", .dict cond), ("environment", .dict env),
    ("training", .dict [("file", h.trainFile), ("n_events", h.trainEvents), ("n_users", h.trainUsers),
      ("n_items", h.trainItems), ("results", .dict (perFold (upsert l r) (·.training)))]),
    ("test", .dict [("file", h.testFile), ("n_events", h.testEvents), ("n_users", h.testUsers),
      ("n_items", h.testItems), ("results", .dict (perFold (upsert l r) (·.test)))]),
    ("model", .dict h.model), ("prediction", .dict
    [("event", .dict (perFold (upsert l r) (·.event))), ("true", .dict (perFold (upsert l r) (·.trues))),
     ("predicted", .dict (perFold (upsert l r) (·.predicted))), ("mask", .dict (perFold (upsert l r) (·.mask))),
     ("event_feature", .dict (A.map (fun k => (k, J.dict (perFold (upsert l r) (fun r => r.feature k)))) ++
       B.map (fun k => (k, J.dict (perFold l (fun r => r.feature k))))))])]

lemma features_loop (h h2 : Head V) (cond env : Dict String (J V)) (l l2 : List (Rec V)) (r : Rec V)
    (ns2 : List String) (hn2 : h2.names = some ns2) (B : List String) :
    ∀ A : List String, (A ++ B).Nodup → (∀ k ∈ B, k ∈ ns2) →
    B.foldlM (fun cv k => do
      let v ← (← (← (tree h2 (r :: l2)).item2 "prediction" "event_feature").item k).item r.key
      let s ← cv.item "prediction"
      let s ← s.setItem3 "event_feature" k r.key v
      cv.setItem "prediction" s) (midway h cond env l r A B) = (.ok (midway h cond env l r (A ++ B) []) : Res (J V)) := by
  have hsec : (tree h2 (r :: l2)).item2 "prediction" "event_feature" =
      .ok (.dict (ns2.map (fun k => (k, J.dict (perFold (r :: l2) (fun r => r.feature k)))))) := by
    simp [tree, J.item2, J.item, Dict.getItem, Dict.get?, bind, Except.bind, predictionOf, hn2]
  rw [hsec]
  induction B with
  | nil => intro A _ _; simp [pure, Except.pure]
  | cons k B ih =>
    intro A hnd hB
    have hkA : k ∉ A := by
      intro hk
      exact (List.disjoint_of_nodup_append hnd) hk (by simp)
    rw [List.foldlM_cons]
    have hstep : (do
        let v ← (← (← (Except.ok (J.dict (ns2.map (fun k => (k, J.dict (perFold (r :: l2) (fun r => r.feature k)))))) : Res (J V))).item k).item r.key
        let s ← (midway h cond env l r A (k :: B)).item "prediction"
        let s ← s.setItem3 "event_feature" k r.key v
        (midway h cond env l r A (k :: B)).setItem "prediction" s) = (.ok (midway h cond env l r (A ++ [k]) B) : Res (J V)) := by
      have e1 : (J.dict (ns2.map (fun k => (k, J.dict (perFold (r :: l2) (fun r => r.feature k)))))).item k
          = .ok (J.dict (perFold (r :: l2) (fun r => r.feature k))) :=
        getItem_map_mem ns2 (fun k => J.dict (perFold (r :: l2) (fun r => r.feature k))) k (hB k (by simp))
      have e2 : (J.dict (perFold (r :: l2) (fun r => r.feature k))).item r.key = .ok (r.feature k) :=
        getItem_perFold_head l2 r _
      have hkeys : k ∉ Dict.keys (A.map (fun k => (k, J.dict (perFold (upsert l r) (fun r => r.feature k))))) := by
        rw [show (fun k : String => (k, J.dict (perFold (upsert l r) (fun r => r.feature k)))) = (fun k => (id k, J.dict (perFold (upsert l r) (fun r => r.feature k)))) from rfl, keys_map]
        simpa using hkA
      have e3 : (J.dict (A.map (fun k => (k, J.dict (perFold (upsert l r) (fun r => r.feature k)))) ++
          (k :: B).map (fun k => (k, J.dict (perFold l (fun r => r.feature k)))))).setItem2 k r.key (r.feature k) =
          .ok (J.dict ((A ++ [k]).map (fun k => (k, J.dict (perFold (upsert l r) (fun r => r.feature k)))) ++
          B.map (fun k => (k, J.dict (perFold l (fun r => r.feature k)))))) := by
        unfold J.setItem2 J.item
        simp only [List.map_cons]
        rw [getItem_append_mid _ _ _ _ hkeys, ok_bind]
        simp only [J.setItem, ok_bind]
        rw [set_append_mid _ _ _ _ _ hkeys, perFold_upsert l r (fun r => r.feature k)]
        simp
      rw [ok_bind, e1, ok_bind, e2, ok_bind]
      simp [midway, J.item, J.setItem, J.setItem3, Dict.getItem, Dict.get?, Dict.set, ok_bind, -List.map_cons, -List.map_append, e3]
    rw [hstep, ok_bind, ih (A ++ [k]) (by simpa using hnd) (fun x hx => hB x (by simp [hx]))]
    simp

/-- `rest_fold` takes the first fold of its file. -/
lemma restFold_tree (h h2 : Head V) (l l2 : List (Rec V)) (r : Rec V) (ef : Dict String (J V))
    (he : h.environment.get? "environment_fold" = some (.dict ef))
    (hn : ∀ ns, h.names = some ns → ns.Nodup ∧ ∀ k ∈ ns, ∃ ns2, h2.names = some ns2 ∧ k ∈ ns2) :
    restFold (tree h2 (r :: l2)) (tree h l) = .ok (tree { h with
      environment := h.environment.set "environment_fold" (.dict (ef.set r.key (.dict h2.environment))) } (upsert l r)) := by
  have hef : h.environment.getItem "environment_fold" = .ok (.dict ef) := by unfold Dict.getItem; rw [he]
  have g : ∀ f : Rec V → J V, Dict.getItem (perFold (r :: l2) f) r.key = .ok (f r) := getItem_perFold_head l2 r
  have gq : ∀ f : Rec V → J V, Dict.get? (perFold (r :: l2) f) r.key = some (f r) := by
    intro f
    show Dict.get? ((r.key, f r) :: perFold l2 f) r.key = _
    unfold Dict.get?
    rw [if_pos rfl]
  have gi : ∀ f : Rec V → J V, (J.dict (perFold (r :: l2) f)).item r.key = .ok (f r) := g
  have si : ∀ f : Rec V → J V, (J.dict (perFold l f)).setItem r.key (f r) = .ok (J.dict (perFold (upsert l r) f)) := by
    intro f
    show (Except.ok (J.dict ((perFold l f).set r.key (f r))) : Res (J V)) = _
    rw [perFold_upsert]
  have sef : (J.dict ef).setItem r.key (.dict h2.environment) = .ok (J.dict (ef.set r.key (.dict h2.environment))) := rfl
  have ei : (J.dict h.environment).item "environment_fold" = .ok (.dict ef) := hef
  -- parts of the source file
  have p1 : (tree h2 (r :: l2)).item2 "training" "results" = .ok (.dict (perFold (r :: l2) (·.training))) := by
    simp [tree, J.item2, J.item, Dict.getItem, Dict.get?, bind, Except.bind]
  have p2 : (tree h2 (r :: l2)).item2 "test" "results" = .ok (.dict (perFold (r :: l2) (·.test))) := by
    simp [tree, J.item2, J.item, Dict.getItem, Dict.get?, bind, Except.bind]
  have p3 : (tree h2 (r :: l2)).item "environment" = .ok (.dict h2.environment) := by
    simp [tree, J.item, Dict.getItem, Dict.get?]
  have q1 : (tree h2 (r :: l2)).item2 "prediction" "event" = .ok (.dict (perFold (r :: l2) (·.event))) := by
    simp [tree, J.item2, J.item, Dict.getItem, Dict.get?, bind, Except.bind, predictionOf]
  have q2 : (tree h2 (r :: l2)).item2 "prediction" "true" = .ok (.dict (perFold (r :: l2) (·.trues))) := by
    simp [tree, J.item2, J.item, Dict.getItem, Dict.get?, bind, Except.bind, predictionOf]
  have q3 : (tree h2 (r :: l2)).item2 "prediction" "predicted" = .ok (.dict (perFold (r :: l2) (·.predicted))) := by
    simp [tree, J.item2, J.item, Dict.getItem, Dict.get?, bind, Except.bind, predictionOf]
  have q4 : (tree h2 (r :: l2)).item2 "prediction" "mask" = .ok (.dict (perFold (r :: l2) (·.mask))) := by
    simp [tree, J.item2, J.item, Dict.getItem, Dict.get?, bind, Except.bind, predictionOf]
  have pit : (J.dict (perFold (r :: l2) (·.training))).iter = .ok (r.key :: Dict.keys (perFold l2 (·.training))) := rfl
  unfold restFold
  rw [p1, ok_bind, pit]
  simp only [ok_bind, p3, p2, gi]
  cases hnm : h.names with
  | none =>
    have st : tree h l = J.dict [("condition", .dict h.condition), ("environment", .dict h.environment),
      ("training", .dict [("file", h.trainFile), ("n_events", h.trainEvents), ("n_users", h.trainUsers),
        ("n_items", h.trainItems), ("results", .dict (perFold l (·.training)))]),
      ("test", .dict [("file", h.testFile), ("n_events", h.testEvents), ("n_users", h.testUsers),
        ("n_items", h.testItems), ("results", .dict (perFold l (·.test)))]),
      ("model", .dict h.model), ("prediction", .dict [("event", .dict (perFold l (·.event))),
        ("true", .dict (perFold l (·.trues))), ("predicted", .dict (perFold l (·.predicted))),
        ("mask", .dict (perFold l (·.mask)))])] := by
      simp [tree, predictionOf, hnm]
    rw [st]
    simp [J.setItem3, J.setItem2, J.item, J.setItem, J.iter, Dict.getItem, Dict.get?, Dict.set, he, ok_bind, Dict.keys,
      mergeSub, q1, q2, q3, q4, gq, perFold_upsert]
    simp [tree, predictionOf]
  | some ns =>
    obtain ⟨hnd, hsub⟩ := hn ns hnm
    have st : tree h l = J.dict [("condition", .dict h.condition), ("environment", .dict h.environment),
      ("training", .dict [("file", h.trainFile), ("n_events", h.trainEvents), ("n_users", h.trainUsers),
        ("n_items", h.trainItems), ("results", .dict (perFold l (·.training)))]),
      ("test", .dict [("file", h.testFile), ("n_events", h.testEvents), ("n_users", h.testUsers),
        ("n_items", h.testItems), ("results", .dict (perFold l (·.test)))]),
      ("model", .dict h.model), ("prediction", .dict [("event", .dict (perFold l (·.event))),
        ("true", .dict (perFold l (·.trues))), ("predicted", .dict (perFold l (·.predicted))),
        ("mask", .dict (perFold l (·.mask))),
        ("event_feature", J.dict (ns.map (fun k => (k, J.dict (perFold l (fun r => r.feature k))))))])] := by
      simp [tree, predictionOf, hnm]
    have loop : mergeSub (tree h2 (r :: l2)) r.key (midway h h.condition (h.environment.set "environment_fold" (.dict (ef.set r.key (.dict h2.environment)))) l r [] ns) "event_feature" = .ok (midway h h.condition (h.environment.set "environment_fold" (.dict (ef.set r.key (.dict h2.environment)))) l r ns []) := by
      unfold mergeSub
      rw [if_pos rfl]
      have hk : (midway h h.condition (h.environment.set "environment_fold" (.dict (ef.set r.key (.dict h2.environment)))) l r [] ns).item2 "prediction" "event_feature" = .ok (J.dict (ns.map (fun k => (k, J.dict (perFold l (fun r => r.feature k)))))) := by
        simp [midway, J.item2, J.item, Dict.getItem, Dict.get?, ok_bind]
      rw [hk, ok_bind]
      have hit : (J.dict (ns.map (fun k => (k, J.dict (perFold l (fun r => r.feature k)))))).iter = (.ok ns : Res _) := by
        show (Except.ok (Dict.keys (ns.map (fun k => (id k, J.dict (perFold l (fun r => r.feature k)))))) : Res _) = _
        rw [keys_map]; simp
      rw [hit, ok_bind]
      cases hns : ns with
      | nil => simp [pure, Except.pure]
      | cons k ks =>
        rw [hns] at hnd hsub
        obtain ⟨ns2, hn2, _⟩ := hsub k (by simp)
        refine features_loop h h2 h.condition _ l l2 r ns2 hn2 (k :: ks) [] (by simpa using hnd) ?_
        intro x hx
        obtain ⟨ns3, hn3, hx3⟩ := hsub x hx
        rw [hn2] at hn3
        cases hn3
        exact hx3
    rw [st]
    simp [J.setItem3, J.setItem2, J.item, J.setItem, J.iter, Dict.getItem, Dict.get?, Dict.set, he, ok_bind, Dict.keys,
      mergeSub.eq_def _ _ _ "event", mergeSub.eq_def _ _ _ "true", mergeSub.eq_def _ _ _ "predicted",
      mergeSub.eq_def _ _ _ "mask", q1, q2, q3, q4, gq, perFold_upsert]
    refine (Eq.trans ?_ loop).trans ?_
    · simp [midway]
    · simp [midway, tree, predictionOf]

/-! ### Merging a list of files -/

lemma set_set {ν : Type} (d : Dict String ν) (k : String) (a b : ν) : (d.set k a).set k b = d.set k b := by
  induction d with
  | nil => simp [Dict.set]
  | cons p d ih =>
    obtain ⟨k0, v0⟩ := p
    by_cases h : k0 = k
    · subst h; simp [Dict.set]
    · simp [Dict.set, h, ih]

lemma get?_set_self {ν : Type} (d : Dict String ν) (k : String) (a : ν) : (d.set k a).get? k = some a := by
  induction d with
  | nil => simp [Dict.set, Dict.get?]
  | cons p d ih =>
    obtain ⟨k0, v0⟩ := p
    by_cases h : k0 = k
    · subst h; simp [Dict.set, Dict.get?]
    · simp [Dict.set, Dict.get?, h, ih]

/-- A file to be merged: its head, its first fold and its other folds. -/
abbrev File (V : Type) := Head V × Rec V × List (Rec V)

/-- The content of a file. -/
def File.tree (f : File V) : J V := Scripts.tree f.1 (f.2.1 :: f.2.2)

/-- `environment_fold` after merging further files. -/
def envFold (ef : Dict String (J V)) (fs : List (File V)) : Dict String (J V) :=
  fs.foldl (fun ef f => ef.set f.2.1.key (.dict f.1.environment)) ef

lemma rest_loop (fs : List (File V)) : ∀ (h : Head V) (env0 : Dict String (J V)) (ef : Dict String (J V)) (l : List (Rec V)),
    h.environment = env0.set "environment_fold" (.dict ef) →
    (∀ ns, h.names = some ns → ns.Nodup ∧ ∀ f ∈ fs, ∀ k ∈ ns, ∃ ns2, f.1.names = some ns2 ∧ k ∈ ns2) →
    (fs.map File.tree).foldlM (fun cv info => restFold info cv) (tree h l) = (.ok (tree { h with
      environment := env0.set "environment_fold" (.dict (envFold ef fs)) } ((fs.map (fun f => f.2.1)).foldl upsert l)) : Res (J V)) := by
  induction fs with
  | nil =>
    intro h env0 ef l he hn
    simp [envFold, ← he, pure, Except.pure]
  | cons f fs ih =>
    intro h env0 ef l he hn
    rw [List.map_cons, List.foldlM_cons]
    have e : restFold f.tree (tree h l) = .ok (tree { h with
        environment := h.environment.set "environment_fold" (.dict (ef.set f.2.1.key (.dict f.1.environment))) } (upsert l f.2.1)) :=
      restFold_tree h f.1 l f.2.2 f.2.1 ef (by rw [he]; exact get?_set_self _ _ _) (by
        intro ns hns
        exact ⟨(hn ns hns).1, (hn ns hns).2 f (by simp)⟩)
    rw [e, ok_bind]
    rw [ih { h with environment := h.environment.set "environment_fold" (.dict (ef.set f.2.1.key (.dict f.1.environment))) } env0 (ef.set f.2.1.key (.dict f.1.environment)) (upsert l f.2.1)
      (by simp only [he, set_set]) (fun ns hns => ⟨(hn ns hns).1, fun g hg => (hn ns hns).2 g (by simp [hg])⟩)]
    simp [envFold]

/-- The merge script: the folds of the first file and the first fold of every other file. -/
lemma merge_tree (tru out : V) (f : File V) (fs : List (File V))
    (hn : ∀ ns, f.1.names = some ns → ns.Nodup ∧ ∀ g ∈ fs, ∀ k ∈ ns, ∃ ns2, g.1.names = some ns2 ∧ k ∈ ns2) :
    merge tru out ((f :: fs).map File.tree) = .ok (tree { f.1 with
      condition := (f.1.condition.set "merged" (.leaf tru)).set "out_file" (.leaf out)
      environment := f.1.environment.set "environment_fold"
        (.dict (envFold [(f.2.1.key, .dict f.1.environment)] fs)) }
      ((fs.map (fun g => g.2.1)).foldl upsert (f.2.1 :: f.2.2))) := by
  have e1 : firstFold tru f.tree = _ := firstFold_tree tru f.1 f.2.1 f.2.2
  unfold merge
  rw [List.map_cons]
  simp only []
  rw [e1, ok_bind, rest_loop fs { f.1 with
      condition := f.1.condition.set "merged" (.leaf tru)
      environment := f.1.environment.set "environment_fold" (.dict [(f.2.1.key, .dict f.1.environment)]) }
      f.1.environment [(f.2.1.key, .dict f.1.environment)] (f.2.1 :: f.2.2) rfl hn, ok_bind]
  simp [tree, J.setItem2, J.item, J.setItem, Dict.getItem, Dict.get?, Dict.set, ok_bind]

lemma upsert_new (l : List (Rec V)) (r : Rec V) (h : r.key ∉ l.map (·.key)) : upsert l r = l ++ [r] := by
  induction l with
  | nil => rfl
  | cons x l ih =>
    simp at h
    unfold upsert
    rw [if_neg (Ne.symm h.1), ih (by simpa using h.2)]
    rfl

lemma foldl_upsert_new (rs : List (Rec V)) : ∀ l : List (Rec V), ((l ++ rs).map (·.key)).Nodup →
    rs.foldl upsert l = l ++ rs := by
  induction rs with
  | nil => intro l _; simp
  | cons r rs ih =>
    intro l h
    have : r.key ∉ l.map (·.key) := by
      intro hm
      rw [List.map_append] at h
      exact List.disjoint_of_nodup_append h hm (by simp)
    rw [List.foldl_cons, upsert_new l r this, ih (l ++ [r]) (by simpa using h)]
    simp

/-! ### Reading a result file -/

lemma get?_perFold (l : List (Rec V)) (f : Rec V → J V) (hnd : (l.map (·.key)).Nodup) {r : Rec V} (hr : r ∈ l) :
    Dict.get? (perFold l f) r.key = some (f r) := by
  induction l with
  | nil => simp at hr
  | cons x l ih =>
    show Dict.get? ((x.key, f x) :: perFold l f) r.key = _
    unfold Dict.get?
    rw [List.map_cons, List.nodup_cons] at hnd
    rw [List.mem_cons] at hr
    rcases hr with rfl | hr
    · rw [if_pos rfl]
    · have : x.key ≠ r.key := by
        intro e
        exact hnd.1 (by rw [e]; exact List.mem_map.2 ⟨r, hr, rfl⟩)
      rw [if_neg this]
      exact ih hnd.2 hr

lemma keys_perFold (l : List (Rec V)) (f : Rec V → J V) : (perFold l f).keys = l.map (·.key) := keys_map l _ _

end Kam.Scripts

/-
Helper lemmas for C117, continued: worlds that differ in the addresses of numbers only stay alike.
-/
import Verif.Heap.CallerLemmas

set_option linter.unusedSectionVars false

namespace Kam.Heap

variable {K α φ ε γ θ V : Type} {P Q : Nat → Prop} {n m : List (List K)}

/-- Two containers that differ in the addresses of `score` and `score_domain` only. -/
structure Like (P Q : Nat → Prop) (n m : List (List K)) (o o' : Obj) : Prop where
  eq : o' = o.rebase o'.score o'.scoreDomain
  score : Ref P n m o.score o'.score
  dom : Ref Q n m o.scoreDomain o'.scoreDomain

/-- Two recommenders that differ in the addresses of `score` and `score_domain` only. -/
structure LikeR (P Q : Nat → Prop) (n m : List (List K)) (r r' : RObj γ θ V) : Prop where
  eq : r' = r.rebase r'.score r'.scoreDomain
  score : Ref P n m r.score r'.score
  dom : Ref Q n m r.scoreDomain r'.scoreDomain

lemma Like.grow {o o' : Obj} (h : Like P Q n m o o') {n' m' : List (List K)} (hn : n <+: n') (hm : m <+: m') :
    Like P Q n' m' o o' := ⟨h.eq, h.score.grow hn hm, h.dom.grow hn hm⟩

lemma LikeR.grow {r r' : RObj γ θ V} (h : LikeR P Q n m r r') {n' m' : List (List K)} (hn : n <+: n')
    (hm : m <+: m') : LikeR P Q n' m' r r' := ⟨h.eq, h.score.grow hn hm, h.dom.grow hn hm⟩

lemma Like.val {o o' : Obj} {h : Arrays K α φ ε} (hl : Like P Q h.nums m o o') :
    o'.val (h.rebase m) = o.val h := by
  rw [hl.eq]
  have e1 := hl.score.eq
  have e2 := hl.dom.eq
  simp [Obj.val, Obj.rebase, Arrays.rebase, e1, e2]

lemma LikeR.val {r r' : RObj γ θ V} {h : Arrays K α φ ε} (hl : LikeR P Q h.nums m r r') :
    r'.val (h.rebase m) = r.val h := by
  rw [hl.eq]
  have e1 := hl.score.eq
  have e2 := hl.dom.eq
  simp [RObj.val, RObj.rebase, Arrays.rebase, e1, e2]

/-- Two states of a call that started with the numbers `n` and `m`. -/
structure LikeS (P Q : Nat → Prop) (n m : List (List K)) (x y : St K α φ ε) : Prop where
  heap : y.1 = x.1.rebase y.1.nums
  obj : Like P Q x.1.nums y.1.nums x.2 y.2
  left : n <+: x.1.nums
  right : m <+: y.1.nums

/-- Two states of a call that started with the numbers `n` and `m`. -/
structure LikeT (P Q : Nat → Prop) (n m : List (List K)) (x y : RSt K α φ ε γ θ V) : Prop where
  heap : y.1 = x.1.rebase y.1.nums
  obj : LikeR P Q x.1.nums y.1.nums x.2 y.2
  left : n <+: x.1.nums
  right : m <+: y.1.nums

/-- Two results of a call. -/
def LikeM {σ : Type} (R : σ → σ → Prop) : Mut σ σ → Mut σ σ → Prop
  | .ok x, .ok y => R x y
  | .error (e, x), .error (e', y) => e = e' ∧ R x y
  | _, _ => False

/-- Two results of a call that leaves no trace when it raises. -/
def LikeE {σ : Type} (R : σ → σ → Prop) : Res σ → Res σ → Prop
  | .ok x, .ok y => R x y
  | .error e, .error e' => e = e'
  | _, _ => False

/-- Two results of a call that may return `None`. -/
def LikeO {σ : Type} (R : σ → σ → Prop) : Res (Option σ) → Res (Option σ) → Prop
  | .ok (some x), .ok (some y) => R x y
  | .ok none, .ok none => True
  | .error e, .error e' => e = e'
  | _, _ => False

lemma LikeS.rebase {x y : St K α φ ε} (h : LikeS P Q n m x y) :
    y = x.rebase y.1.nums y.2.score y.2.scoreDomain := by
  have h1 := h.heap
  have h2 := h.obj.eq
  exact Prod.ext h1 h2

lemma LikeT.rebase {x y : RSt K α φ ε γ θ V} (h : LikeT P Q n m x y) :
    y = x.rebase y.1.nums y.2.score y.2.scoreDomain := by
  have h1 := h.heap
  have h2 := h.obj.eq
  exact Prod.ext h1 h2

lemma LikeS.val {x y : St K α φ ε} (h : LikeS P Q n m x y) : y.2.val y.1 = x.2.val x.1 := by
  rw [h.heap]
  exact h.obj.val

lemma LikeT.val {x y : RSt K α φ ε γ θ V} (h : LikeT P Q n m x y) : y.2.val y.1 = x.2.val x.1 := by
  rw [h.heap]
  exact h.obj.val

/-- A call that leaves the arrays of numbers alone. -/
lemma LikeS.same {x y z : St K α φ ε} (h : LikeS P Q n m x y)
    (hz : z = z.rebase x.1.nums x.2.score x.2.scoreDomain) :
    LikeS P Q n m z (z.rebase y.1.nums y.2.score y.2.scoreDomain) := by
  have e1 : z.1.nums = x.1.nums := by rw [hz]; rfl
  have e2 : z.2.score = x.2.score := by rw [hz]; rfl
  have e3 : z.2.scoreDomain = x.2.scoreDomain := by rw [hz]; rfl
  refine ⟨rfl, ⟨rfl, ?_, ?_⟩, by rw [e1]; exact h.left, h.right⟩
  · rw [e1, e2]; exact h.obj.score
  · rw [e1, e3]; exact h.obj.dom

lemma LikeT.same {x y z : RSt K α φ ε γ θ V} (h : LikeT P Q n m x y)
    (hz : z = z.rebase x.1.nums x.2.score x.2.scoreDomain) :
    LikeT P Q n m z (z.rebase y.1.nums y.2.score y.2.scoreDomain) := by
  have e1 : z.1.nums = x.1.nums := by rw [hz]; rfl
  have e2 : z.2.score = x.2.score := by rw [hz]; rfl
  have e3 : z.2.scoreDomain = x.2.scoreDomain := by rw [hz]; rfl
  refine ⟨rfl, ⟨rfl, ?_, ?_⟩, by rw [e1]; exact h.left, h.right⟩
  · rw [e1, e2]; exact h.obj.score
  · rw [e1, e3]; exact h.obj.dom

lemma prefix_len {a b : List (List K)} (h : a <+: b) {P : Nat → Prop} (hP : ∀ i, a.length ≤ i → P i) :
    ∀ i, b.length ≤ i → P i := fun i hi => hP i (h.length_le.trans hi)

lemma LikeS.bindScore {x y : St K α φ ε} (h : LikeS P Q n m x y) (hP : ∀ a, n.length ≤ a → P a)
    (xs : List K) : LikeS P Q n m (bindScore x.1 x.2 xs) (bindScore y.1 y.2 xs) := by
  have e1 := h.heap
  have e2 := h.obj.eq
  refine ⟨?_, ⟨?_, ?_, ?_⟩, h.left.trans (List.prefix_append _ _), h.right.trans (List.prefix_append _ _)⟩
  · show ({ y.1 with nums := y.1.nums ++ [xs] } : Arrays K α φ ε) = _
    rw [e1]
    rfl
  · show ({ y.2 with score := some y.1.nums.length } : Obj) = _
    rw [e2]
    rfl
  · exact Ref.new (prefix_len h.left hP) xs
  · exact h.obj.dom.grow (List.prefix_append _ _) (List.prefix_append _ _)

lemma LikeS.bindDomain {x y : St K α φ ε} (h : LikeS P Q n m x y) (hQ : ∀ a, n.length ≤ a → Q a)
    (xs : List K) : LikeS P Q n m (bindDomain x.1 x.2 xs) (bindDomain y.1 y.2 xs) := by
  have e1 := h.heap
  have e2 := h.obj.eq
  refine ⟨?_, ⟨?_, ?_, ?_⟩, h.left.trans (List.prefix_append _ _), h.right.trans (List.prefix_append _ _)⟩
  · show ({ y.1 with nums := y.1.nums ++ [xs] } : Arrays K α φ ε) = _
    rw [e1]
    rfl
  · show ({ y.2 with scoreDomain := some y.1.nums.length } : Obj) = _
    rw [e2]
    rfl
  · exact h.obj.score.grow (List.prefix_append _ _) (List.prefix_append _ _)
  · exact Ref.new (prefix_len h.left hQ) xs

/-- On the left `score_domain` becomes an array that exists, on the right a copy. -/
lemma LikeS.shareDomain {x y : St K α φ ε} (h : LikeS P Q n m x y) {a : Nat} (ha : a < x.1.nums.length)
    (hQ : Q a) :
    LikeS P Q n m (x.1, { x.2 with scoreDomain := some a }) (Heap.bindDomain y.1 y.2 (cell x.1.nums a)) := by
  have e1 := h.heap
  have e2 := h.obj.eq
  refine ⟨?_, ⟨?_, ?_, ?_⟩, h.left, h.right.trans (List.prefix_append _ _)⟩
  · show ({ y.1 with nums := y.1.nums ++ [cell x.1.nums a] } : Arrays K α φ ε) = _
    rw [e1]
    rfl
  · show ({ y.2 with scoreDomain := some y.1.nums.length } : Obj) = _
    rw [e2]
    rfl
  · exact h.obj.score.grow List.prefix_rfl (List.prefix_append _ _)
  · refine ⟨ha, ?_, hQ, ?_⟩
    · simp [Heap.bindDomain]
    · simp [Heap.bindDomain]

/-- On both sides. -/
lemma LikeS.shareDomain' {x y : St K α φ ε} (h : LikeS P Q n m x y) {a b : Nat} (ha : a < x.1.nums.length)
    (hb : b < y.1.nums.length) (hQ : Q a) (hab : cell x.1.nums a = cell y.1.nums b) :
    LikeS P Q n m (x.1, { x.2 with scoreDomain := some a }) (y.1, { y.2 with scoreDomain := some b }) := by
  have e2 := h.obj.eq
  refine ⟨h.heap, ⟨?_, h.obj.score, ⟨ha, hb, hQ, hab⟩⟩, h.left, h.right⟩
  show ({ y.2 with scoreDomain := some b } : Obj) = _
  rw [e2]
  rfl

lemma LikeS.levels {x y : St K α φ ε} (h : LikeS P Q n m x y) (k : Option Int) :
    LikeS P Q n m (x.1, { x.2 with nScoreLevels := k }) (y.1, { y.2 with nScoreLevels := k }) := by
  have e2 := h.obj.eq
  refine ⟨h.heap, ⟨?_, h.obj.score, h.obj.dom⟩, h.left, h.right⟩
  show ({ y.2 with nScoreLevels := k } : Obj) = _
  rw [e2]
  rfl

section
variable [LinearOrder α]

lemma setEventBase_like {x y : St K α φ ε} (h : LikeS P Q n m x y) (event : Arr2 α) (ef : Option (List ε)) :
    LikeM (LikeS P Q n m) (setEventBase x event ef) (setEventBase y event ef) := by
  have e := setEventBase_same event ef x
  have e2 : setEventBase y event ef = setEventBase (x.rebase y.1.nums y.2.score y.2.scoreDomain) event ef := by
    rw [← h.rebase]
  rw [e2, setEventBase_rebase]
  rcases hz : setEventBase x event ef with ⟨er, z⟩ | z <;> rw [hz] at e
  · refine ⟨rfl, h.same ?_⟩
    simpa [mapMut] using e
  · refine h.same ?_
    simpa [mapMut] using e

section
variable [Field K] [LinearOrder K] [IsStrictOrderedRing K] [FloorRing K]

lemma setEvent_like {x y : St K α φ ε} (h : LikeS P Q n m x y) (hP : ∀ a, n.length ≤ a → P a)
    (hQ : ∀ a, n.length ≤ a → Q a) (event : Arr2 α) (score : List K) (dom : Option (List K))
    (ef : Option (List ε)) :
    LikeM (LikeS P Q n m) (setEvent x event score dom ef) (setEvent y event score dom ef) := by
  have h1 := setEventBase_like h event ef
  unfold setEvent
  rcases hx : setEventBase x event ef with ⟨e, s⟩ | s <;>
    rcases hy : setEventBase y event ef with ⟨e', t⟩ | t <;> rw [hx, hy] at h1 <;> simp only [LikeM] at h1
  · exact h1
  have h2 := h1.bindScore hP score
  simp only
  rcases ScoreData.resolveDomain score dom with e | dm
  · exact ⟨rfl, h2⟩
  have h3 := h2.bindDomain hQ dm
  simp only
  rcases ScoreData.levelsOfDomain dm with e | k
  · exact ⟨rfl, h3⟩
  · exact h3.levels (some k)

/-- `set_event` with an array on the left, with its contents on the right. -/
lemma setEventWith_like {x y : St K α φ ε} (h : LikeS P Q n m x y) (hP : ∀ a, n.length ≤ a → P a)
    {a : Nat} (ha : a < n.length) (hQ : Q a) (event : Arr2 α) (score : List K) (ef : Option (List ε)) :
    LikeM (LikeS P Q n m) (setEventWith x event score a ef) (setEvent y event score (some (cell n a)) ef) := by
  have h1 := setEventBase_like h event ef
  unfold setEvent setEventWith
  rcases hx : setEventBase x event ef with ⟨e, s⟩ | s <;>
    rcases hy : setEventBase y event ef with ⟨e', t⟩ | t <;> rw [hx, hy] at h1 <;> simp only [LikeM] at h1
  · exact h1
  have h2 := h1.bindScore hP score
  have hc : cell (Heap.bindScore s.1 s.2 score).1.nums a = cell n a := by
    obtain ⟨l, hl⟩ := h2.left
    rw [← hl, cell_append_lt _ _ ha]
  have h3 := h2.shareDomain (ha.trans_le h2.left.length_le) hQ
  rw [hc] at h3
  simp only [ScoreData.resolveDomain, hc]
  rcases ScoreData.levelsOfDomain (cell n a) with e | k
  · exact ⟨rfl, h3⟩
  · exact h3.levels (some k)

/-- `set_event` with an array on both sides. -/
lemma setEventWith_like' {x y : St K α φ ε} (h : LikeS P Q n m x y) (hP : ∀ a, n.length ≤ a → P a)
    {a b : Nat} (ha : a < n.length) (hb : b < m.length) (hQ : Q a) (hab : cell n a = cell m b) (event : Arr2 α)
    (score : List K) (ef : Option (List ε)) :
    LikeM (LikeS P Q n m) (setEventWith x event score a ef) (setEventWith y event score b ef) := by
  have h1 := setEventBase_like h event ef
  unfold setEventWith
  rcases hx : setEventBase x event ef with ⟨e, s⟩ | s <;>
    rcases hy : setEventBase y event ef with ⟨e', t⟩ | t <;> rw [hx, hy] at h1 <;> simp only [LikeM] at h1
  · exact h1
  have h2 := h1.bindScore hP score
  have hc : cell (Heap.bindScore s.1 s.2 score).1.nums a = cell n a := by
    obtain ⟨l, hl⟩ := h2.left
    rw [← hl, cell_append_lt _ _ ha]
  have hd : cell (Heap.bindScore t.1 t.2 score).1.nums b = cell m b := by
    obtain ⟨l, hl⟩ := h2.right
    rw [← hl, cell_append_lt _ _ hb]
  have h3 := h2.shareDomain' (ha.trans_le h2.left.length_le) (hb.trans_le h2.right.length_le) hQ
    (by rw [hc, hd, hab])
  simp only [hc, hd, hab]
  rcases ScoreData.levelsOfDomain (cell m b) with e | k
  · exact ⟨rfl, h3⟩
  · exact h3.levels (some k)

lemma binarizeScore_like {x y : St K α φ ε} (h : LikeS P Q n m x y) (hP : ∀ a, n.length ≤ a → P a)
    (hQ : ∀ a, n.length ≤ a → Q a) (t : Option K) :
    LikeE (LikeS P Q n m) (binarizeScore x t) (binarizeScore y t) := by
  unfold binarizeScore
  rw [h.val]
  rcases (x.2.val x.1).binarizeScore t with e | d
  · exact rfl
  simp only [bind, Except.bind, pure, Except.pure]
  rcases d.score with _ | xs <;> rcases d.scoreDomain with _ | ys
  · exact h.levels _
  · exact (h.bindDomain hQ ys).levels _
  · exact (h.bindScore hP xs).levels _
  · exact ((h.bindScore hP xs).bindDomain hQ ys).levels _

end

lemma setFeature_like {x y : St K α φ ε} (h : LikeS P Q n m x y) (t : Nat) (eids : List α) (f : List φ) :
    LikeE (LikeS P Q n m) (setFeature x t eids f) (setFeature y t eids f) := by
  have e : setFeature x t eids f =
      mapRes (St.rebase x.1.nums x.2.score x.2.scoreDomain) (setFeature x t eids f) :=
    setFeature_rebase x.1.nums x.2.score x.2.scoreDomain t eids f x
  have e2 : setFeature y t eids f = setFeature (x.rebase y.1.nums y.2.score y.2.scoreDomain) t eids f := by
    rw [← h.rebase]
  rw [e2, setFeature_rebase]
  rcases hz : setFeature x t eids f with er | z <;> rw [hz] at e
  · exact rfl
  · refine h.same ?_
    simpa [mapRes] using e

lemma filterEvent_like {x y : St K α φ ε} (h : LikeS P Q n m x y) (hP : ∀ a, n.length ≤ a → P a) (cond : Sel) :
    LikeO (LikeS P Q n m) (filterEvent x.1 x.2 cond) (filterEvent y.1 y.2 cond) := by
  rw [filterEvent_parts, filterEvent_parts]
  have e0 : y.2.event = x.2.event := by rw [h.obj.eq]; rfl
  rw [e0]
  rcases x.2.event with _ | a
  · trivial
  simp only
  have e : filterBase x.1 x.2 cond a =
      mapRes (St.rebase x.1.nums x.2.score x.2.scoreDomain) (filterBase x.1 x.2 cond a) :=
    filterBase_rebase x.1.nums x.2.score x.2.scoreDomain x.1 x.2 cond a
  have e2 : filterBase y.1 y.2 cond a =
      mapRes (St.rebase y.1.nums y.2.score y.2.scoreDomain) (filterBase x.1 x.2 cond a) := by
    rw [← filterBase_rebase, ← h.heap, ← h.obj.eq]
  rw [e2]
  rcases hz : filterBase x.1 x.2 cond a with er | z <;> rw [hz] at e
  · exact rfl
  have ez : z = z.rebase x.1.nums x.2.score x.2.scoreDomain := by simpa [mapRes] using e
  have hz2 := h.same ez
  have en : z.1.nums = x.1.nums := by rw [ez]; rfl
  show LikeO _ (filterScore x.2 cond z) (filterScore y.2 cond (z.rebase y.1.nums y.2.score y.2.scoreDomain))
  generalize hw : z.rebase y.1.nums y.2.score y.2.scoreDomain = w at hz2
  have en2 : w.1.nums = y.1.nums := by rw [← hw]; rfl
  unfold filterScore
  have hs := h.obj.score
  rcases hxs : x.2.score with _ | b <;> rcases hys : y.2.score with _ | b' <;> rw [hxs, hys] at hs <;>
    simp only [Ref] at hs
  · exact hz2
  · simp only [en, en2, hs.2.2.2]
    rcases cond.apply (cell y.1.nums b') with er | xs
    · exact rfl
    · exact hz2.bindScore hP xs

end

/-! ### recommenders -/

lemma LikeT.setScoreInfo {x y : RSt K α φ ε γ θ V} {o o' : Obj} (h : LikeT P Q n m x y)
    (ho : Like P Q x.1.nums y.1.nums o o') : LikeT P Q n m (setScoreInfo x o) (setScoreInfo y o') := by
  have e1 := h.obj.eq
  have e2 := ho.eq
  refine ⟨h.heap, ⟨?_, ho.score, ho.dom⟩, h.left, h.right⟩
  show ({ y.2 with scoreDomain := o'.scoreDomain, score := o'.score, nScoreLevels := o'.nScoreLevels } :
    RObj γ θ V) = _
  rw [e1, e2]
  rfl

lemma LikeR.removeData {r r' : RObj γ θ V} (h : LikeR P Q n m r r') :
    LikeR P Q n m (removeData r) (removeData r') := by
  have e1 := h.eq
  refine ⟨?_, trivial, h.dom⟩
  show ({ r' with rng := none, event := none, eventFeature := none, score := none } : RObj γ θ V) = _
  rw [e1]
  rfl

lemma LikeR.results {r r' : RObj γ θ V} (h : LikeR P Q n m r r') (p : Option θ) (d : Dict String V) :
    LikeR P Q n m { r with params := p, fitResults := d } { r' with params := p, fitResults := d } := by
  have e1 := h.eq
  refine ⟨?_, h.score, h.dom⟩
  show ({ r' with params := p, fitResults := d } : RObj γ θ V) = _
  rw [e1]
  rfl

lemma eventFit_like {x y : RSt K α φ ε γ θ V} {o o' : Obj} (h : LikeT P Q n m x y)
    (ho : Like P Q n m o o') (mk : Int → γ) (env : γ) (idx : Option (List Int)) :
    LikeM (LikeT P Q n m) (eventFit mk env x o idx) (eventFit mk env y o' idx) := by
  have e : eventFit mk env x o idx =
      mapMut (RSt.rebase x.1.nums x.2.score x.2.scoreDomain) (eventFit mk env x o idx) :=
    eventFit_rebase x.1.nums x.2.score x.2.scoreDomain o.score o.scoreDomain mk env x o idx
  have e2 : eventFit mk env y o' idx =
      eventFit mk env (x.rebase y.1.nums y.2.score y.2.scoreDomain) (o.rebase o'.score o'.scoreDomain) idx := by
    rw [← h.rebase, ← ho.eq]
  rw [e2, eventFit_rebase]
  rcases hz : eventFit mk env x o idx with ⟨er, z⟩ | z <;> rw [hz] at e
  · refine ⟨rfl, h.same ?_⟩
    simpa [mapMut] using e
  · refine h.same ?_
    simpa [mapMut] using e

variable [LinearOrder α] [Field K] [LinearOrder K]

lemma superFit_like {x y : RSt K α φ ε γ θ V} {o o' : Obj} (h : LikeT P Q n m x y)
    (ho : Like P Q n m o o') (fam : Family) (mk : Int → γ) (env : γ) (idx : Option (List Int)) :
    LikeM (LikeT P Q n m) (superFit fam mk env x o idx) (superFit fam mk env y o' idx) := by
  have h1 := eventFit_like h ho mk env idx
  unfold superFit
  rcases hx : eventFit mk env x o idx with ⟨e, s⟩ | s <;>
    rcases hy : eventFit mk env y o' idx with ⟨e', t⟩ | t <;> rw [hx, hy] at h1 <;> simp only [LikeM] at h1
  · exact h1
  have h2 := ho.grow h1.left h1.right
  cases fam with
  | predictor => exact h1.setScoreInfo h2
  | explicit =>
    simp only
    have ev : o'.val t.1 = o.val s.1 := by
      rw [h1.heap]
      exact h2.val
    rw [ev]
    split
    · exact h1.setScoreInfo h2
    · exact ⟨rfl, h1⟩
  | implicit => exact h1

lemma fit_like {x y : RSt K α φ ε γ θ V} {o o' : Obj} (h : LikeT P Q n m x y)
    (ho : Like P Q n m o o') (fam : Family) (L : Learner K γ θ V) (mk : Int → γ) (env : γ)
    (idx : Option (List Int)) :
    LikeM (LikeT P Q n m) (fit fam L mk env x o idx) (fit fam L mk env y o' idx) := by
  have h1 := superFit_like h ho fam mk env idx
  unfold fit
  rcases hx : superFit fam mk env x o idx with ⟨e, s⟩ | s <;>
    rcases hy : superFit fam mk env y o' idx with ⟨e', t⟩ | t <;> rw [hx, hy] at h1 <;> simp only [LikeM] at h1
  · exact h1
  simp only
  unfold finish
  rw [h1.val]
  have e3 : t.2.fitResults = s.2.fitResults := by rw [h1.obj.eq]; rfl
  rcases L.train (s.2.val s.1).view with e | ⟨p, rs⟩
  · exact ⟨rfl, h1⟩
  · simp only [e3]
    exact ⟨h1.heap, (h1.obj.results _ _).removeData, h1.left, h1.right⟩

/-! ### worlds -/

/-- Two worlds that differ in the addresses of numbers only. -/
structure LikeW (P Q : Nat → Prop) (w v : World K α φ ε γ θ V) : Prop where
  heap : v.heap = w.heap.rebase v.heap.nums
  objs : List.Forall₂ (Like P Q w.heap.nums v.heap.nums) w.objs v.objs
  recs : List.Forall₂ (LikeR P Q w.heap.nums v.heap.nums) w.recs v.recs

/-- The attributes of the recommenders. -/
def World.rvals (w : World K α φ ε γ θ V) : List (Rec K α φ ε γ θ V) := w.recs.map (fun r => r.val w.heap)

lemma forall₂_map_eq {A B C : Type} {R : A → B → Prop} {f : A → C} {g : B → C} {l : List A} {k : List B}
    (h : List.Forall₂ R l k) (hfg : ∀ a b, R a b → g b = f a) : k.map g = l.map f := by
  induction h with
  | nil => rfl
  | cons hab _ ih => simp [hfg _ _ hab, ih]

lemma LikeW.vals {w v : World K α φ ε γ θ V} (h : LikeW P Q w v) : v.vals = w.vals := by
  refine forall₂_map_eq h.objs fun o o' ho => ?_
  rw [h.heap]
  exact ho.val

lemma LikeW.rvals {w v : World K α φ ε γ θ V} (h : LikeW P Q w v) : v.rvals = w.rvals := by
  refine forall₂_map_eq h.recs fun o o' ho => ?_
  rw [h.heap]
  exact ho.val

lemma forall₂_get {A B : Type} {R : A → B → Prop} {l : List A} {k : List B} (h : List.Forall₂ R l k) (i : Nat) :
    (l[i]? = none ∧ k[i]? = none) ∨ ∃ a b, l[i]? = some a ∧ k[i]? = some b ∧ R a b := by
  induction h generalizing i with
  | nil => exact .inl ⟨rfl, rfl⟩
  | cons hab _ ih =>
    cases i with
    | zero => exact .inr ⟨_, _, rfl, rfl, hab⟩
    | succ i => simpa using ih i

lemma forall₂_set {A B : Type} {R : A → B → Prop} {l : List A} {k : List B} (h : List.Forall₂ R l k) (i : Nat)
    {a : A} {b : B} (hab : R a b) : List.Forall₂ R (l.set i a) (k.set i b) := by
  induction h generalizing i with
  | nil => exact .nil
  | cons h1 h2 ih =>
    cases i with
    | zero => exact .cons hab h2
    | succ i => exact .cons h1 (ih i)

lemma LikeW.start {w v : World K α φ ε γ θ V} (h : LikeW P Q w v) {o o' : Obj}
    (ho : Like P Q w.heap.nums v.heap.nums o o') :
    LikeS P Q w.heap.nums v.heap.nums (w.heap, o) (v.heap, o') :=
  ⟨h.heap, ho, List.prefix_rfl, List.prefix_rfl⟩

lemma LikeW.startR {w v : World K α φ ε γ θ V} (h : LikeW P Q w v) {o o' : RObj γ θ V}
    (ho : LikeR P Q w.heap.nums v.heap.nums o o') :
    LikeT P Q w.heap.nums v.heap.nums (w.heap, o) (v.heap, o') :=
  ⟨h.heap, ho, List.prefix_rfl, List.prefix_rfl⟩

lemma LikeW.setObj {w v : World K α φ ε γ θ V} (h : LikeW P Q w v) {x y : St K α φ ε}
    (hs : LikeS P Q w.heap.nums v.heap.nums x y) (i : Nat) :
    LikeW P Q { w with heap := x.1, objs := w.objs.set i x.2 } { v with heap := y.1, objs := v.objs.set i y.2 } :=
  ⟨hs.heap, forall₂_set (h.objs.imp fun _ _ ho => ho.grow hs.left hs.right) i hs.obj,
    h.recs.imp fun _ _ ho => ho.grow hs.left hs.right⟩

lemma LikeW.addObj {w v : World K α φ ε γ θ V} (h : LikeW P Q w v) {x y : St K α φ ε}
    (hs : LikeS P Q w.heap.nums v.heap.nums x y) :
    LikeW P Q { w with heap := x.1, objs := w.objs ++ [x.2] } { v with heap := y.1, objs := v.objs ++ [y.2] } :=
  ⟨hs.heap, List.rel_append (h.objs.imp fun _ _ ho => ho.grow hs.left hs.right) (.cons hs.obj .nil),
    h.recs.imp fun _ _ ho => ho.grow hs.left hs.right⟩

lemma LikeW.setRec {w v : World K α φ ε γ θ V} (h : LikeW P Q w v) {x y : RSt K α φ ε γ θ V}
    (hs : LikeT P Q w.heap.nums v.heap.nums x y) (i : Nat) :
    LikeW P Q { w with heap := x.1, recs := w.recs.set i x.2 } { v with heap := y.1, recs := v.recs.set i y.2 } :=
  ⟨hs.heap, h.objs.imp fun _ _ ho => ho.grow hs.left hs.right,
    forall₂_set (h.recs.imp fun _ _ ho => ho.grow hs.left hs.right) i hs.obj⟩

variable [IsStrictOrderedRing K] [FloorRing K]

/-- Calls on alike worlds lead to alike worlds, and old arrays of numbers stay as they are. -/
lemma LikeW.step {w v : World K α φ ε γ θ V} (h : LikeW P Q w v) (hP : ∀ a, w.heap.nums.length ≤ a → P a)
    (hQ : ∀ a, w.heap.nums.length ≤ a → Q a) (mk : Int → γ) (op : Op K α φ ε γ θ V) :
    LikeW P Q (step mk w op) (step mk v op) ∧ w.heap.nums <+: (Heap.step mk w op).heap.nums := by
  cases op with
  | new k arg =>
    simp only [Heap.step, create]
    rcases (ScoreData.init k arg : Res (ScoreData K α φ ε)) with e | d
    · exact ⟨h, List.prefix_rfl⟩
    · refine ⟨?_, List.prefix_rfl⟩
      simp only [bind, Except.bind, pure, Except.pure]
      refine h.addObj (x := (_, _)) (y := (_, _)) ⟨?_, ⟨?_, trivial, trivial⟩, List.prefix_rfl, List.prefix_rfl⟩
      · rw [h.heap]; rfl
      · rw [h.heap]; rfl
  | setEvent i event score dom ef =>
    simp only [Heap.step]
    rcases forall₂_get h.objs i with ⟨e1, e2⟩ | ⟨o, o', e1, e2, ho⟩ <;> rw [e1, e2]
    · exact ⟨h, List.prefix_rfl⟩
    have h1 := setEvent_like (h.start ho) hP hQ event score dom ef
    simp only
    rcases hx : setEvent (w.heap, o) event score dom ef with ⟨e, s⟩ | s <;>
      rcases hy : setEvent (v.heap, o') event score dom ef with ⟨e', t⟩ | t <;> rw [hx, hy] at h1 <;>
      simp only [LikeM] at h1
    · exact ⟨h.setObj h1.2 i, h1.2.left⟩
    · exact ⟨h.setObj h1 i, h1.left⟩
  | setFeature i t eids f =>
    simp only [Heap.step]
    rcases forall₂_get h.objs i with ⟨e1, e2⟩ | ⟨o, o', e1, e2, ho⟩ <;> rw [e1, e2]
    · exact ⟨h, List.prefix_rfl⟩
    have h1 := setFeature_like (h.start ho) t eids f
    simp only
    rcases hx : setFeature (w.heap, o) t eids f with e | s <;>
      rcases hy : setFeature (v.heap, o') t eids f with e' | t <;> rw [hx, hy] at h1 <;>
      simp only [LikeE] at h1
    · exact ⟨h, List.prefix_rfl⟩
    · exact ⟨h.setObj h1 i, h1.left⟩
  | binarize i t =>
    simp only [Heap.step]
    rcases forall₂_get h.objs i with ⟨e1, e2⟩ | ⟨o, o', e1, e2, ho⟩ <;> rw [e1, e2]
    · exact ⟨h, List.prefix_rfl⟩
    have h1 := binarizeScore_like (h.start ho) hP hQ t
    simp only
    rcases hx : binarizeScore (w.heap, o) t with e | s <;>
      rcases hy : binarizeScore (v.heap, o') t with e' | t <;> rw [hx, hy] at h1 <;>
      simp only [LikeE] at h1
    · exact ⟨h, List.prefix_rfl⟩
    · exact ⟨h.setObj h1 i, h1.left⟩
  | filter i cond =>
    simp only [Heap.step]
    rcases forall₂_get h.objs i with ⟨e1, e2⟩ | ⟨o, o', e1, e2, ho⟩ <;> rw [e1, e2]
    · exact ⟨h, List.prefix_rfl⟩
    have h1 := filterEvent_like (h.start ho) hP cond
    simp only at h1 ⊢
    rcases hx : filterEvent w.heap o cond with e | _ | s <;>
      rcases hy : filterEvent v.heap o' cond with e' | _ | t <;> rw [hx, hy] at h1 <;>
      simp only [LikeO] at h1
    · exact ⟨h, List.prefix_rfl⟩
    · exact ⟨h, List.prefix_rfl⟩
    · exact ⟨h.addObj h1, h1.left⟩
  | newRec seed results =>
    exact ⟨⟨h.heap, h.objs, List.rel_append h.recs (.cons ⟨rfl, trivial, trivial⟩ .nil)⟩, List.prefix_rfl⟩
  | fit fam L env j i idx =>
    simp only [Heap.step]
    rcases forall₂_get h.recs j with ⟨e1, e2⟩ | ⟨r, r', e1, e2, hr⟩ <;> rw [e1, e2]
    · exact ⟨h, List.prefix_rfl⟩
    rcases forall₂_get h.objs i with ⟨e1, e2⟩ | ⟨o, o', e1, e2, ho⟩ <;> rw [e1, e2]
    · exact ⟨h, List.prefix_rfl⟩
    have h1 := fit_like (h.startR hr) ho fam L mk env idx
    simp only
    rcases hx : fit fam L mk env (w.heap, r) o idx with ⟨e, s⟩ | s <;>
      rcases hy : fit fam L mk env (v.heap, r') o' idx with ⟨e', t⟩ | t <;> rw [hx, hy] at h1 <;>
      simp only [LikeM] at h1
    · exact ⟨h.setRec h1.2 j, h1.2.left⟩
    · exact ⟨h.setRec h1 j, h1.left⟩
  | removeData j =>
    simp only [Heap.step]
    rcases forall₂_get h.recs j with ⟨e1, e2⟩ | ⟨r, r', e1, e2, hr⟩ <;> rw [e1, e2]
    · exact ⟨h, List.prefix_rfl⟩
    · exact ⟨⟨h.heap, h.objs, forall₂_set h.recs j hr.removeData⟩, List.prefix_rfl⟩

end Kam.Heap

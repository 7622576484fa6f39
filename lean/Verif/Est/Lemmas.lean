/-
The world of the estimators: which addresses exist, what a clone is made of.
-/
import Verif.Est.Model
import Verif.Opt.Props

set_option linter.unusedSectionVars false
set_option linter.unusedSimpArgs false

namespace Kam.Est
open Opt (Kw Store Consts cell)

variable {K : Type} [Field K] [LinearOrder K] [FloorRing K] {γ θ D : Type}

/-- An object whose address, if it has one, exists. -/
def ObjOk (w : World K γ θ) : Obj K → Prop
  | .val (.gen a) => a < w.gens.length
  | .dict a => a < w.store.length
  | _ => True

/-- A world in which all addresses exist. -/
structure WorldOk (w : World K γ θ) : Prop where
  cells : ∀ d ∈ w.store, ∀ p ∈ d, ObjOk w p.2
  attrs : ∀ r ∈ w.recs, ∀ p ∈ r.attrs, ObjOk w p.2
  kw : ∀ r ∈ w.recs, r.kw < w.store.length

/-- A world with more dictionaries and generators behind the old ones. -/
def Ext (w w' : World K γ θ) : Prop := (∃ s, w'.store = w.store ++ s) ∧ ∃ g, w'.gens = w.gens ++ g

lemma Ext.refl (w : World K γ θ) : Ext w w := ⟨⟨[], by simp⟩, ⟨[], by simp⟩⟩

lemma Ext.trans {a b c : World K γ θ} (h : Ext a b) (h' : Ext b c) : Ext a c := by
  obtain ⟨⟨s, hs⟩, ⟨g, hg⟩⟩ := h
  obtain ⟨⟨s', hs'⟩, ⟨g', hg'⟩⟩ := h'
  exact ⟨⟨s ++ s', by rw [hs', hs, List.append_assoc]⟩, ⟨g ++ g', by rw [hg', hg, List.append_assoc]⟩⟩

lemma Ext.cell {w w' : World K γ θ} (h : Ext w w') {a : Nat} (ha : a < w.store.length) :
    cell w'.store a = cell w.store a := by
  obtain ⟨⟨s, hs⟩, -⟩ := h
  unfold Opt.cell
  rw [hs, List.getElem?_append_left ha]

lemma Ext.see {w w' : World K γ θ} (h : Ext w w') {v : Obj K} (hv : ObjOk w v) : see w' v = see w v := by
  match v, hv with
  | .none, _ => rfl
  | .dict a, hv => simp only [Est.see]; rw [h.cell hv]
  | .val (.gen a), hv =>
    obtain ⟨-, ⟨g, hg⟩⟩ := h
    have hv : a < w.gens.length := hv
    simp only [Est.see]
    rw [hg, List.getElem?_append_left hv]
  | .val (.bool _), _ => rfl
  | .val (.int _), _ => rfl
  | .val (.float _), _ => rfl
  | .val (.str _), _ => rfl
  | .val (.other _), _ => rfl

lemma ObjOk.mono {w w' : World K γ θ} (hs : w.store.length ≤ w'.store.length) (hg : w.gens.length ≤ w'.gens.length)
    {v : Obj K} (hv : ObjOk w v) : ObjOk w' v := by
  match v, hv with
  | .none, _ => trivial
  | .dict a, hv => exact lt_of_lt_of_le hv hs
  | .val (.gen a), hv => exact lt_of_lt_of_le hv hg
  | .val (.bool _), _ => trivial
  | .val (.int _), _ => trivial
  | .val (.float _), _ => trivial
  | .val (.str _), _ => trivial
  | .val (.other _), _ => trivial

lemma Ext.le {w w' : World K γ θ} (h : Ext w w') : w.store.length ≤ w'.store.length ∧ w.gens.length ≤ w'.gens.length := by
  obtain ⟨⟨s, hs⟩, ⟨g, hg⟩⟩ := h
  rw [hs, hg]; simp

lemma cell_mem {h : Store (Value K)} {a : Nat} {p : String × Obj K} (hp : p ∈ cell h a) : ∃ d ∈ h, p ∈ d := by
  unfold Opt.cell at hp
  cases e : h[a]? with
  | none => rw [e] at hp; simp at hp
  | some d => rw [e] at hp; exact ⟨d, List.mem_of_getElem? e, hp⟩

lemma getD_ok {w : World K γ θ} {d : Dict String (Obj K)} (h : ∀ p ∈ d, ObjOk w p.2) (n : String) {v : Obj K} (hv : ObjOk w v) :
    ObjOk w (d.getD n v) := by
  unfold Dict.getD
  cases e : d.get? n with
  | none => exact hv
  | some x =>
    have : (n, x) ∈ d := by
      clear h
      induction d with
      | nil => simp [Dict.get?] at e
      | cons p d ih =>
        obtain ⟨k0, v0⟩ := p
        have e2 : Dict.get? ((k0, v0) :: d) n = if k0 = n then some v0 else Dict.get? d n := rfl
        rw [e2] at e
        split at e
        · next hk => cases e; subst hk; simp
        · exact List.mem_cons_of_mem _ (ih e)
    exact h _ this

lemma reads_ext {w w' : World K γ θ} (h : Ext w w') (hw : WorldOk w) {r : Rec K θ} (hr : r ∈ w.recs) :
    reads w' r = reads w r := by
  have h1 : ∀ p ∈ getParams r, ((p.1, see w' p.2) : String × Seen K γ) = (p.1, see w p.2) := by
    intro p hp
    simp only [getParams, List.mem_map] at hp
    obtain ⟨n, -, rfl⟩ := hp
    rw [h.see (getD_ok (hw.attrs r hr) n (show ObjOk w (.none : Obj K) from trivial))]
  have h2 : ∀ p ∈ cell w.store r.kw, ((p.1, see w' p.2) : String × Seen K γ) = (p.1, see w p.2) := by
    intro p hp
    obtain ⟨d, hd, hp⟩ := cell_mem hp
    rw [h.see (hw.cells d hd p hp)]
  simp only [reads, h.cell (hw.kw r hr)]
  rw [List.map_congr_left h1, List.map_congr_left h2]

/-! ### Construction -/

lemma construct_nil (c : Consts (Value K)) (h : Store (Value K)) :
    Opt.construct c h [] = .ok (h ++ [[("options", .dict (h.length + 1))], [("disp", .val c.false)]], h.length) := by
  have e1 : cell (h ++ [[]]) h.length = ([] : Dict String (Obj K)) := by simp [Opt.cell]
  have e2 : ∀ x y : Dict String (Obj K), cell (h ++ [x] ++ [y]) h.length = x := by
    intro x y; simp [Opt.cell]
  have e3 : ∀ x y : Dict String (Obj K), cell (h ++ [x] ++ [y]) (h.length + 1) = y := by
    intro x y; simp [Opt.cell]
  have s1 : ∀ x y z : Dict String (Obj K), (h ++ [x] ++ [y]).set h.length z = h ++ [z] ++ [y] := by
    intro x y z; simp [List.set_append]
  have s2 : ∀ x y z : Dict String (Obj K), (h ++ [x] ++ [y]).set (h.length + 1) z = h ++ [x] ++ [z] := by
    intro x y z; simp [List.set_append]
  unfold Opt.construct
  simp only [e1]
  simp only [Dict.get?, List.length_append, List.length_singleton, Opt.storeOptions, Opt.setKey, Opt.popKey, e2, e3, s1, s2,
    Dict.set, Dict.getD]
  simp [Opt.erase, Dict.get?]

lemma constructPLSA_nil (c : Consts (Value K)) (h : Store (Value K)) :
    Opt.constructPLSA c h [] = (h ++ [[("maxiter", .val c.maxiter), ("tol", .val c.tol)]], h.length) := by
  have e2 : ∀ x : Dict String (Obj K), cell (h ++ [x]) h.length = x := by
    intro x; simp [Opt.cell]
  have s1 : ∀ x z : Dict String (Obj K), (h ++ [x]).set h.length z = h ++ [z] := by
    intro x z; simp [List.set_append]
  simp only [Opt.constructPLSA, Opt.setKey, e2, s1, Dict.set, Dict.getD]
  simp [Dict.get?]

/-- The constructor of a matrix factorization recommender. -/
lemma make_mf (w : World K γ θ) (cls : Cls) (args : Dict String (Obj K)) (hc : cls ≠ .plsa) :
    make w cls args =
      (match pyFloat (args.getD "C" (.val (.float 1))) with
       | .error e => .error e
       | .ok x => match pyInt (args.getD "k" (.val (.int 1))) with
         | .error e => .error e
         | .ok k => match Opt.construct consts w.store (args.filter (fun p => p.1 ∉ paramNames cls)) with
           | .error e => .error e
           | .ok y => .ok ⟨y.1, w.gens, w.recs ++
              [⟨cls, [("C", x), ("k", k), ("random_state", args.getD "random_state" .none)], y.2, none⟩]⟩) := by
  have hs : signature (K := K) cls = [("C", .val (.float 1)), ("k", .val (.int 1)), ("random_state", .none)] := by
    cases cls <;> first | rfl | exact absurd rfl hc
  unfold make
  rw [hs]
  simp only [stored, if_neg hc, List.mapM_cons, List.mapM_nil]
  cases h1 : pyFloat (args.getD "C" (.val (.float 1))) with
  | error e => simp [h1, Except.map, bind, Except.bind]
  | ok x =>
    cases h2 : pyInt (args.getD "k" (.val (.int 1))) with
    | error e => simp [h1, h2, Except.map, bind, Except.bind]
    | ok k =>
      simp [h1, h2, Except.map, bind, Except.bind, pure, Except.pure]
      rfl

/-- The constructor of a topic model. -/
lemma make_plsa (w : World K γ θ) (args : Dict String (Obj K)) :
    make w .plsa args =
      .ok ⟨(Opt.constructPLSA consts w.store (args.filter (fun p => p.1 ∉ paramNames .plsa))).1, w.gens, w.recs ++
        [⟨.plsa, [("k", args.getD "k" (.val (.int 1))), ("alpha", args.getD "alpha" (.val (.float 1))),
          ("use_expectation", args.getD "use_expectation" (.val (.bool true))), ("random_state", args.getD "random_state" .none)],
          (Opt.constructPLSA consts w.store (args.filter (fun p => p.1 ∉ paramNames .plsa))).2, none⟩]⟩ := by
  unfold make
  simp [signature, stored, List.mapM_cons, Except.map, bind, Except.bind, pure, Except.pure]

/-! ### Copies -/

lemma deepcopy_recs (w : World K γ θ) (v : Obj K) : (deepcopy w v).1.recs = w.recs := by
  unfold deepcopy
  split
  · split <;> rfl
  · rfl
  · rfl

lemma deepcopy_ext (w : World K γ θ) (v : Obj K) : Ext w (deepcopy w v).1 := by
  unfold deepcopy
  split
  · split
    · exact ⟨⟨[], by simp⟩, ⟨_, rfl⟩⟩
    · exact Ext.refl w
  · exact ⟨⟨_, rfl⟩, ⟨[], by simp⟩⟩
  · exact Ext.refl w

/-- A copy is seen as the original is, and it is a new generator or dictionary if it is one. -/
lemma deepcopy_see (w : World K γ θ) (v : Obj K) (hv : ObjOk w v) :
    see (deepcopy w v).1 (deepcopy w v).2 = see w v ∧ ObjOk (deepcopy w v).1 (deepcopy w v).2 ∧
      (∀ a, (deepcopy w v).2 = .val (.gen a) → w.gens.length ≤ a) ∧ ∀ a, (deepcopy w v).2 = .dict a → w.store.length ≤ a := by
  match v, hv with
  | .none, _ => exact ⟨rfl, trivial, by simp [deepcopy], by simp [deepcopy]⟩
  | .dict a, hv =>
    refine ⟨?_, ?_, by simp [deepcopy], by simp [deepcopy]⟩
    · simp [deepcopy, Est.see, Opt.cell]
    · simp [deepcopy, ObjOk]
  | .val (.gen a), hv =>
    have hv : a < w.gens.length := hv
    have e : w.gens[a]? = some w.gens[a] := List.getElem?_eq_getElem hv
    refine ⟨?_, ?_, ?_, ?_⟩
    · simp [deepcopy, Est.see, e]
    · simp [deepcopy, ObjOk, e]
    · simp [deepcopy, e]
    · simp [deepcopy, e]
  | .val (.bool _), _ => exact ⟨rfl, trivial, by simp [deepcopy], by simp [deepcopy]⟩
  | .val (.int _), _ => exact ⟨rfl, trivial, by simp [deepcopy], by simp [deepcopy]⟩
  | .val (.float _), _ => exact ⟨rfl, trivial, by simp [deepcopy], by simp [deepcopy]⟩
  | .val (.str _), _ => exact ⟨rfl, trivial, by simp [deepcopy], by simp [deepcopy]⟩
  | .val (.other _), _ => exact ⟨rfl, trivial, by simp [deepcopy], by simp [deepcopy]⟩

lemma copyParams_recs (ps : Dict String (Obj K)) (w : World K γ θ) : (copyParams w ps).1.recs = w.recs := by
  induction ps generalizing w with
  | nil => rfl
  | cons p ps ih => simp only [copyParams]; rw [ih, deepcopy_recs]

lemma copyParams_ext (ps : Dict String (Obj K)) (w : World K γ θ) : Ext w (copyParams w ps).1 := by
  induction ps generalizing w with
  | nil => exact Ext.refl w
  | cons p ps ih => exact (deepcopy_ext w p.2).trans (ih _)

lemma copyParams_keys (ps : Dict String (Obj K)) (w : World K γ θ) :
    (copyParams w ps).2.map (·.1) = ps.map (·.1) := by
  induction ps generalizing w with
  | nil => rfl
  | cons p ps ih => simp only [copyParams, List.map_cons]; rw [ih]

lemma copyParams_see (ps : Dict String (Obj K)) (w : World K γ θ) (h : ∀ p ∈ ps, ObjOk w p.2) :
    ((copyParams w ps).2.map (fun p => (p.1, see (copyParams w ps).1 p.2)) = ps.map (fun p => (p.1, see w p.2))) ∧
      (∀ p ∈ (copyParams w ps).2, ObjOk (copyParams w ps).1 p.2 ∧ (∀ a, p.2 = .val (.gen a) → w.gens.length ≤ a) ∧
        ∀ a, p.2 = .dict a → w.store.length ≤ a) := by
  induction ps generalizing w with
  | nil => exact ⟨rfl, by simp [copyParams]⟩
  | cons p ps ih =>
    obtain ⟨s1, s2, s3, s4⟩ := deepcopy_see w p.2 (h p (by simp))
    have e1 := deepcopy_ext w p.2
    obtain ⟨i1, i2⟩ := ih (deepcopy w p.2).1 (fun q hq => (h q (by simp [hq])).mono e1.le.1 e1.le.2)
    have e2 := copyParams_ext ps (deepcopy w p.2).1
    refine ⟨?_, ?_⟩
    · simp only [copyParams, List.map_cons]
      rw [i1, e2.see s2, s1]
      congr 1
      exact List.map_congr_left (fun q hq => by rw [e1.see (h q (by simp [hq]))])
    · intro q hq
      simp only [copyParams, List.mem_cons] at hq
      rcases hq with rfl | hq
      · exact ⟨s2.mono e2.le.1 e2.le.2, s3, s4⟩
      · exact ⟨(i2 q hq).1, fun a ha => e1.le.2.trans ((i2 q hq).2.1 a ha), fun a ha => e1.le.1.trans ((i2 q hq).2.2 a ha)⟩


/-! ### All addresses exist -/

lemma mem_set {κ ν : Type} [DecidableEq κ] (d : Dict κ ν) (k : κ) (v : ν) (p : κ × ν) (h : p ∈ d.set k v) : p ∈ d ∨ p.2 = v := by
  induction d with
  | nil => simp [Dict.set] at h; simp [h]
  | cons q d ih =>
    obtain ⟨k0, v0⟩ := q
    unfold Dict.set at h
    split at h
    · simp only [List.mem_cons] at h
      rcases h with rfl | h
      · exact Or.inr rfl
      · exact Or.inl (by simp [h])
    · simp only [List.mem_cons] at h
      rcases h with rfl | h
      · exact Or.inl (by simp)
      · rcases ih h with h | h
        · exact Or.inl (by simp [h])
        · exact Or.inr h

/-- All values in a store satisfy a predicate. -/
def AllVals (P : Obj K → Prop) (h : Store (Value K)) : Prop := ∀ d ∈ h, ∀ p ∈ d, P p.2

lemma AllVals.cell {P : Obj K → Prop} {h : Store (Value K)} (hh : AllVals P h) (a : Nat) : ∀ p ∈ cell h a, P p.2 := by
  intro p hp
  obtain ⟨d, hd, hp⟩ := cell_mem hp
  exact hh d hd p hp

lemma AllVals.append {P : Obj K → Prop} {h : Store (Value K)} (hh : AllVals P h) {d : Dict String (Obj K)} (hd : ∀ p ∈ d, P p.2) :
    AllVals P (h ++ [d]) := by
  intro e he
  simp only [List.mem_append, List.mem_singleton] at he
  rcases he with he | rfl
  · exact hh e he
  · exact hd

lemma AllVals.set {P : Obj K → Prop} {h : Store (Value K)} (hh : AllVals P h) (a : Nat) {d : Dict String (Obj K)}
    (hd : ∀ p ∈ d, P p.2) : AllVals P (h.set a d) := by
  intro e he
  rcases List.mem_or_eq_of_mem_set he with he | rfl
  · exact hh e he
  · exact hd

lemma AllVals.setKey {P : Obj K → Prop} {h : Store (Value K)} (hh : AllVals P h) (a : Nat) (k : String) {v : Obj K} (hv : P v) :
    AllVals P (Opt.setKey h a k v) := by
  apply hh.set
  intro p hp
  rcases mem_set _ _ _ _ hp with hp | hp
  · exact hh.cell a p hp
  · rw [hp]; exact hv

lemma AllVals.popKey {P : Obj K → Prop} {h : Store (Value K)} (hh : AllVals P h) (a : Nat) (k : String) :
    AllVals P (Opt.popKey h a k) := by
  apply hh.set
  intro p hp
  exact hh.cell a p (List.mem_of_mem_filter hp)

lemma get?_mem {κ ν : Type} [DecidableEq κ] {d : Dict κ ν} {n : κ} {x : ν} (e : d.get? n = some x) : (n, x) ∈ d := by
  induction d with
  | nil => simp [Dict.get?] at e
  | cons p d ih =>
    obtain ⟨k0, v0⟩ := p
    have e2 : Dict.get? ((k0, v0) :: d) n = if k0 = n then some v0 else Dict.get? d n := rfl
    rw [e2] at e
    split at e
    · next hk => cases e; subst hk; simp
    · exact List.mem_cons_of_mem _ (ih e)

lemma allVals_getD {P : Obj K → Prop} {h : Store (Value K)} (hh : AllVals P h) (a : Nat) (k : String) {v : Obj K} (hv : P v) :
    P ((cell h a).getD k v) := by
  unfold Dict.getD
  cases e : (cell h a).get? k with
  | none => exact hv
  | some x => exact hh.cell a _ (get?_mem e)

lemma allVals_storeOptions {P : Obj K → Prop} {h : Store (Value K)} (hh : AllVals P h) (r a : Nat) (h1 : P (.dict a))
    (h2 : P (.val (.bool false))) (h3 : P .none) : AllVals P (Opt.storeOptions consts h r a) := by
  have b1 := hh.setKey r "options" h1
  have b2 := b1.setKey a "disp" (allVals_getD b1 a "disp" (v := .val consts.false) h2)
  have b3 := b2.popKey r "maxiter"
  have b4 := allVals_getD b2 r "maxiter" h3
  simp only [Opt.storeOptions]
  split
  · exact b3
  · exact b3.setKey a "maxiter" b4

lemma length_constructed {h h' : Store (Value K)} {kw : Dict String (Obj K)} {r : Nat}
    (e : Opt.construct consts h kw = .ok (h', r)) : r = h.length ∧ h.length < h'.length := by
  unfold Opt.construct at e
  simp only at e
  split at e
  · cases e
    refine ⟨rfl, ?_⟩
    rw [Opt.length_storeOptions]; simp
  · cases e
    refine ⟨rfl, ?_⟩
    rw [Opt.length_storeOptions]; simp
  · cases e

lemma allVals_construct {P : Obj K → Prop} {h h' : Store (Value K)} {kw : Dict String (Obj K)} {r : Nat}
    (e : Opt.construct consts h kw = .ok (h', r)) (hh : AllVals P h) (hkw : ∀ p ∈ kw, P p.2) (h1 : ∀ a < h'.length, P (.dict a))
    (h2 : P (.val (.bool false))) (h3 : P .none) : AllVals P h' := by
  have b := hh.append hkw
  unfold Opt.construct at e
  simp only at e
  split at e
  · cases e
    refine allVals_storeOptions (b.append (by simp)) _ _ (h1 _ ?_) h2 h3
    rw [Opt.length_storeOptions]; simp
  · next a ha =>
    cases e
    exact allVals_storeOptions b _ _ (b.cell _ _ (get?_mem ha)) h2 h3
  · cases e

lemma constructPLSA_length (h : Store (Value K)) (kw : Dict String (Obj K)) :
    (Opt.constructPLSA consts h kw).1.length = h.length + 1 ∧ (Opt.constructPLSA consts h kw).2 = h.length := by
  simp [Opt.constructPLSA, Opt.setKey]

lemma allVals_constructPLSA {P : Obj K → Prop} {h : Store (Value K)} {kw : Dict String (Obj K)} (hh : AllVals P h)
    (hkw : ∀ p ∈ kw, P p.2) (h1 : P (.val (.int 100))) (h2 : P (.val (.float (1 / 10 ^ 10)))) :
    AllVals P (Opt.constructPLSA consts h kw).1 := by
  have b := hh.append hkw
  have b1 := b.setKey h.length "maxiter" (allVals_getD b h.length "maxiter" (v := .val consts.maxiter) h1)
  exact b1.setKey h.length "tol" (allVals_getD b1 h.length "tol" (v := .val consts.tol) h2)

lemma pyFloat_ok {x y : Obj K} (h : pyFloat x = .ok y) (w : World K γ θ) : ObjOk w y := by
  unfold pyFloat at h
  split at h
  · cases h; trivial
  · cases h; trivial
  · cases h; trivial
  · split at h
    · cases h; trivial
    · cases h
  · cases h

lemma pyInt_ok {x y : Obj K} (h : pyInt x = .ok y) (w : World K γ θ) : ObjOk w y := by
  unfold pyInt at h
  split at h
  · cases h; trivial
  · cases h; trivial
  · cases h; trivial
  · split at h
    · cases h; trivial
    · cases h
  · cases h

/-- What a successful constructor leaves. -/
lemma make_spec {w w' : World K γ θ} {cls : Cls} {args : Dict String (Obj K)} (h : make w cls args = .ok w') :
    ∃ r, w'.recs = w.recs ++ [r] ∧ r.cls = cls ∧ r.learned = none ∧ r.kw = w.store.length ∧ w'.gens = w.gens ∧
      w.store.length < w'.store.length := by
  by_cases hc : cls = .plsa
  · subst hc
    rw [make_plsa] at h
    cases h
    refine ⟨_, rfl, rfl, rfl, rfl, rfl, ?_⟩
    rw [(constructPLSA_length _ _).1]; exact Nat.lt_succ_self _
  · rw [make_mf _ _ _ hc] at h
    split at h
    · cases h
    · split at h
      · cases h
      · split at h
        · cases h
        · next y hy =>
          cases h
          have := length_constructed (h' := y.1) (r := y.2) hy
          exact ⟨_, rfl, rfl, rfl, this.1, rfl, this.2⟩

lemma WorldOk.make {w w' : World K γ θ} {cls : Cls} {args : Dict String (Obj K)} (hw : WorldOk w)
    (ha : ∀ p ∈ args, ObjOk w p.2) (h : make w cls args = .ok w') : WorldOk w' := by
  obtain ⟨r, e1, e2, e3, e4, e5, e6⟩ := make_spec h
  have up : ∀ v, ObjOk w v → ObjOk w' v := fun v hv => hv.mono e6.le (by rw [e5])
  have hkw : ∀ p ∈ args.filter (fun p => p.1 ∉ paramNames cls), ObjOk w' p.2 := fun p hp => up _ (ha p (List.mem_of_mem_filter hp))
  have hst : AllVals (ObjOk w') w.store := fun d hd p hp => up _ (hw.cells d hd p hp)
  have key : AllVals (ObjOk w') w'.store ∧ ∀ p ∈ r.attrs, ObjOk w' p.2 := by
    by_cases hc : cls = .plsa
    · subst hc
      rw [make_plsa] at h
      have hw' := Except.ok.inj h
      have hr := congrArg World.recs hw'
      rw [e1] at hr
      have hr := (List.singleton_inj.mp (List.append_cancel_left hr)).symm
      have hs : (Opt.constructPLSA consts w.store (args.filter (fun p => p.1 ∉ paramNames .plsa))).1 = w'.store :=
        congrArg World.store hw'
      constructor
      · rw [← hs]
        exact allVals_constructPLSA (P := ObjOk w') hst hkw trivial trivial
      · rw [hr]
        intro p hp
        simp only [List.mem_cons, List.not_mem_nil, or_false] at hp
        rcases hp with rfl | rfl | rfl | rfl
        · exact getD_ok (fun p hp => up _ (ha p hp)) _ trivial
        · exact getD_ok (fun p hp => up _ (ha p hp)) _ trivial
        · exact getD_ok (fun p hp => up _ (ha p hp)) _ trivial
        · exact getD_ok (fun p hp => up _ (ha p hp)) _ trivial
    · rw [make_mf _ _ _ hc] at h
      split at h
      · cases h
      · next x hx =>
        split at h
        · cases h
        · next k hk =>
          split at h
          · cases h
          · next y hy =>
            have hw' := Except.ok.inj h
            have hr := congrArg World.recs hw'
            rw [e1] at hr
            have hr := (List.singleton_inj.mp (List.append_cancel_left hr)).symm
            have hs : y.1 = w'.store := congrArg World.store hw'
            constructor
            · rw [← hs]
              refine allVals_construct (P := ObjOk w') (h' := y.1) (r := y.2) hy hst hkw (fun a ha => ?_) trivial trivial
              rw [hs] at ha; exact ha
            · rw [hr]
              intro p hp
              simp only [List.mem_cons, List.not_mem_nil, or_false] at hp
              rcases hp with rfl | rfl | rfl
              · exact pyFloat_ok hx w'
              · exact pyInt_ok hk w'
              · exact getD_ok (fun p hp => up _ (ha p hp)) _ trivial
  refine ⟨key.1, ?_, ?_⟩
  · intro r' hr'
    rw [e1] at hr'
    simp only [List.mem_append, List.mem_singleton] at hr'
    rcases hr' with hr' | rfl
    · exact fun p hp => up _ (hw.attrs r' hr' p hp)
    · exact key.2
  · intro r' hr'
    rw [e1] at hr'
    simp only [List.mem_append, List.mem_singleton] at hr'
    rcases hr' with hr' | rfl
    · exact (hw.kw r' hr').trans e6
    · rw [e4]; exact e6

end Kam.Est

/-
Optimizer settings: C27.
-/
import Verif.Opt.Model
import Verif.Py.Lemmas

set_option linter.unusedSectionVars false

namespace Kam.Opt

variable {X : Type}

/-! ### Specification -/

/-- A setting as the optimizer reads it: dictionaries by their contents. -/
inductive Seen (X : Type) where
  | none
  | dict (d : Dict String (Kw X))
  | val (x : X)

/-- A keyword value as the optimizer reads it. -/
def Kw.seen (h : Store X) : Kw X → Seen X
  | .none => .none
  | .dict a => .dict (cell h a)
  | .val x => .val x

/-- Setting `k` of recommender `j` at this moment. -/
def World.setting (w : World X) (j : Nat) (k : String) : Option (Seen X) :=
  match w.recs[j]? with
  | none => none
  | some (_, r) => ((cell w.store r).get? k).map (Kw.seen w.store)

/-- The dictionary at `a` belongs to the settings of an existing recommender. -/
def Held (w : World X) (a : Nat) : Prop :=
  ∃ q ∈ w.recs, q.2 = a ∨ ∃ k, (cell w.store q.2).get? k = some (.dict a)

/-- Keyword arguments name existing dictionaries only. -/
def Closed (h : Store X) (d : Dict String (Kw X)) : Prop :=
  ∀ k a, d.get? k = some (.dict a) → a < h.length

/-- A call that names existing dictionaries only. -/
def OpOk (w : World X) : Op X → Prop
  | .newDict d => Closed w.store d
  | .construct kw => Closed w.store kw
  | .constructPLSA kw => Closed w.store kw
  | .fit _ => True

/-- A call that does not construct a recommender with both `maxiter` and an `options` dictionary that an
existing recommender uses; a used `options` dictionary passed without `maxiter` must have its `disp`
(every dictionary that has been `options` of a matrix factorization recommender has it, `C27_settings`). -/
def Quiet (w : World X) : Op X → Prop
  | .construct kw => ∀ a, kw.get? "options" = some (.dict a) → Held w a →
      (kw.get? "maxiter" = none ∨ kw.get? "maxiter" = some .none) ∧ ∃ v, (cell w.store a).get? "disp" = some v
  | _ => True

/-- Every call of a program names existing dictionaries. -/
def ProgOk (c : Consts X) : World X → List (Op X) → Prop
  | _, [] => True
  | w, op :: ops => OpOk w op ∧ ProgOk c (step c w op) ops

/-- Every call of a program is quiet when it is made. -/
def ProgQuiet (c : Consts X) : World X → List (Op X) → Prop
  | _, [] => True
  | w, op :: ops => Quiet w op ∧ ProgQuiet c (step c w op) ops

/-! ### Dictionaries and the store -/

lemma get?_erase {ν : Type} (d : Dict String ν) (k k' : String) :
    Dict.get? (erase d k) k' = if k' = k then none else d.get? k' := by
  induction d with
  | nil => simp [erase, Dict.get?]
  | cons p d ih =>
    obtain ⟨k0, v0⟩ := p
    have e2 : Dict.get? ((k0, v0) :: d) k' = if k0 = k' then some v0 else Dict.get? d k' := rfl
    by_cases hk : k0 = k
    · have : erase ((k0, v0) :: d) k = erase d k := by simp [erase, hk]
      rw [this, ih, e2]
      split
      · rfl
      · rw [if_neg (by intro h; subst h; subst hk; contradiction)]
    · have : erase ((k0, v0) :: d) k = (k0, v0) :: erase d k := by simp [erase, hk]
      have e3 : Dict.get? ((k0, v0) :: erase d k) k' = if k0 = k' then some v0 else Dict.get? (erase d k) k' := rfl
      rw [this, e3, ih, e2]
      by_cases h1 : k0 = k'
      · subst h1; simp [hk]
      · simp [h1]

lemma set_same {ν : Type} (d : Dict String ν) (k : String) (v : ν) (h : d.get? k = some v) : d.set k v = d := by
  induction d with
  | nil => simp [Dict.get?] at h
  | cons p d ih =>
    obtain ⟨k0, v0⟩ := p
    have e2 : Dict.get? ((k0, v0) :: d) k = if k0 = k then some v0 else Dict.get? d k := rfl
    rw [e2] at h
    unfold Dict.set
    by_cases hk : k0 = k
    · rw [if_pos hk] at h
      simp [hk, Option.some.inj h]
    · rw [if_neg hk] at h
      simp [hk, ih h]


lemma cell_set (h : Store X) (a b : Nat) (d : Dict String (Kw X)) (ha : a < h.length) :
    cell (h.set a d) b = if b = a then d else cell h b := by
  unfold cell
  by_cases e : b = a
  · subst e; simp [ha]
  · simp [e, Ne.symm e]

lemma cell_append_left (h : Store X) (d : Dict String (Kw X)) (b : Nat) (hb : b < h.length) :
    cell (h ++ [d]) b = cell h b := by
  unfold cell; rw [List.getElem?_append_left hb]

lemma cell_append_self (h : Store X) (d : Dict String (Kw X)) : cell (h ++ [d]) h.length = d := by
  unfold cell; simp

/-- The `options` dictionary after construction. -/
def newOptions (c : Consts X) (d kw : Dict String (Kw X)) : Dict String (Kw X) :=
  let d := d.set "disp" (d.getD "disp" (.val c.false))
  match kw.getD "maxiter" .none with
  | .none => d
  | m => d.set "maxiter" m

/-- `optimizer_kwargs` after construction. -/
def newKwargs (kw : Dict String (Kw X)) (a : Nat) : Dict String (Kw X) :=
  erase (kw.set "options" (.dict a)) "maxiter"

lemma length_storeOptions (c : Consts X) (h : Store X) (r a : Nat) :
    (storeOptions c h r a).length = h.length := by
  simp only [storeOptions]
  split <;> simp [setKey, popKey]

lemma cell_storeOptions (c : Consts X) (h : Store X) (r a : Nat) (hr : r < h.length) (ha : a < h.length)
    (hne : a ≠ r) (b : Nat) :
    cell (storeOptions c h r a) b =
      if b = r then newKwargs (cell h r) a else if b = a then newOptions c (cell h a) (cell h r) else cell h b := by
  have e0 : Dict.getD (Dict.set (cell h r) "options" (.dict a)) "maxiter" Kw.none
      = (cell h r).getD "maxiter" .none := by
    unfold Dict.getD; rw [Dict.get?_set]; simp
  have e1 : (cell (setKey (setKey h r "options" (.dict a)) a "disp"
      ((cell (setKey h r "options" (.dict a)) a).getD "disp" (.val c.false))) r) =
      (cell h r).set "options" (.dict a) := by
    unfold setKey
    rw [cell_set _ _ _ _ (by simpa using ha), if_neg (Ne.symm hne), cell_set _ _ _ _ hr, if_pos rfl]
  have e2 : (cell (setKey (setKey h r "options" (.dict a)) a "disp"
      ((cell (setKey h r "options" (.dict a)) a).getD "disp" (.val c.false))) a) =
      (cell h a).set "disp" ((cell h a).getD "disp" (.val c.false)) := by
    unfold setKey
    rw [cell_set _ _ _ _ (by simpa using ha), if_pos rfl, cell_set _ _ _ _ hr, if_neg hne]
  have e3 : ∀ b, b ≠ r → b ≠ a → (cell (setKey (setKey h r "options" (.dict a)) a "disp"
      ((cell (setKey h r "options" (.dict a)) a).getD "disp" (.val c.false))) b) = cell h b := by
    intro b h1 h2
    unfold setKey
    rw [cell_set _ _ _ _ (by simpa using ha), if_neg h2, cell_set _ _ _ _ hr, if_neg h1]
  have el : (setKey (setKey h r "options" (.dict a)) a "disp"
      ((cell (setKey h r "options" (.dict a)) a).getD "disp" (.val c.false))).length = h.length := by
    simp [setKey]
  unfold storeOptions newOptions newKwargs
  simp only []
  generalize (setKey (setKey h r "options" (.dict a)) a "disp"
      ((cell (setKey h r "options" (.dict a)) a).getD "disp" (.val c.false))) = h3 at *
  rw [e1, e0]
  have e4 : ∀ b, cell (popKey h3 r "maxiter") b =
      if b = r then erase ((cell h r).set "options" (.dict a)) "maxiter" else cell h3 b := by
    intro b
    unfold popKey
    rw [cell_set _ _ _ _ (by omega), e1]
  have el4 : (popKey h3 r "maxiter").length = h.length := by simp [popKey, el]
  cases hm : Dict.getD (cell h r) "maxiter" (Kw.none) with
  | none =>
    simp only []
    rw [e4]
    by_cases h1 : b = r
    · simp [h1]
    · by_cases h2 : b = a
      · simp [h2, e2, hne]
      · simp [h1, h2, e3 b h1 h2]
  | dict x =>
    simp only []
    unfold setKey
    rw [cell_set _ _ _ _ (by omega), e4, e4]
    by_cases h1 : b = r
    · subst h1; simp [Ne.symm hne]
    · by_cases h2 : b = a
      · simp [h2, e2, hne]
      · simp [h1, h2, e3 b h1 h2]
  | val x =>
    simp only []
    unfold setKey
    rw [cell_set _ _ _ _ (by omega), e4, e4]
    by_cases h1 : b = r
    · subst h1; simp [Ne.symm hne]
    · by_cases h2 : b = a
      · simp [h2, e2, hne]
      · simp [h1, h2, e3 b h1 h2]

/-- Construction with an existing `options` dictionary. -/
lemma construct_given (c : Consts X) (h : Store X) (kw : Dict String (Kw X)) (a : Nat) (ha : a < h.length)
    (hk : kw.get? "options" = some (.dict a)) :
    ∃ h', construct c h kw = .ok (h', h.length) ∧ h'.length = h.length + 1 ∧
      cell h' h.length = newKwargs kw a ∧ cell h' a = newOptions c (cell h a) kw ∧
      ∀ b, b < h.length → b ≠ a → cell h' b = cell h b := by
  have hc := cell_append_self h kw
  refine ⟨storeOptions c (h ++ [kw]) h.length a, ?_, ?_, ?_, ?_, ?_⟩
  · unfold construct; simp only [hc, hk]
  · simp [length_storeOptions]
  · rw [cell_storeOptions _ _ _ _ (by simp) (by simp; omega) (by omega), if_pos rfl, hc]
  · rw [cell_storeOptions _ _ _ _ (by simp) (by simp; omega) (by omega), if_neg (by omega), if_pos rfl, hc,
      cell_append_left _ _ _ ha]
  · intro b hb hne
    rw [cell_storeOptions _ _ _ _ (by simp) (by simp; omega) (by omega), if_neg (by omega), if_neg hne,
      cell_append_left _ _ _ hb]

/-- Construction without `options`. -/
lemma construct_new (c : Consts X) (h : Store X) (kw : Dict String (Kw X)) (hk : kw.get? "options" = none) :
    ∃ h', construct c h kw = .ok (h', h.length) ∧ h'.length = h.length + 2 ∧
      cell h' h.length = newKwargs kw (h.length + 1) ∧ cell h' (h.length + 1) = newOptions c [] kw ∧
      ∀ b, b < h.length → cell h' b = cell h b := by
  have hc := cell_append_self h kw
  have hc2 : cell (h ++ [kw] ++ [[]]) h.length = kw := by rw [cell_append_left _ _ _ (by simp), hc]
  have hc3 : cell (h ++ [kw] ++ [[]]) (h.length + 1) = ([] : Dict String (Kw X)) := by
    have := cell_append_self (h ++ [kw]) ([] : Dict String (Kw X))
    simpa using this
  have hl : (h ++ [kw]).length = h.length + 1 := by simp
  refine ⟨storeOptions c (h ++ [kw] ++ [[]]) h.length (h.length + 1), ?_, ?_, ?_, ?_, ?_⟩
  · unfold construct; simp only [hc, hk, hl]
  · simp [length_storeOptions]
  · rw [cell_storeOptions _ _ _ _ (by simp) (by simp) (by omega), if_pos rfl, hc2]
  · rw [cell_storeOptions _ _ _ _ (by simp) (by simp) (by omega), if_neg (by omega), if_pos rfl, hc2, hc3]
  · intro b hb
    rw [cell_storeOptions _ _ _ _ (by simp) (by simp) (by omega), if_neg (by omega), if_neg (by omega),
      cell_append_left _ _ _ (by simp; omega), cell_append_left _ _ _ hb]

lemma construct_error (c : Consts X) (h : Store X) (kw : Dict String (Kw X))
    (h1 : kw.get? "options" ≠ none) (h2 : ∀ a, kw.get? "options" ≠ some (.dict a)) :
    construct c h kw = .error .attributeError := by
  unfold construct
  simp only [cell_append_self]
  rcases e : kw.get? "options" with _ | v
  · exact absurd e h1
  · cases v with
    | none => rfl
    | dict a => exact absurd e (h2 a)
    | val x => rfl

lemma newOptions_quiet (c : Consts X) (d kw : Dict String (Kw X))
    (h1 : kw.get? "maxiter" = none ∨ kw.get? "maxiter" = some .none) (v : Kw X) (h2 : d.get? "disp" = some v) :
    newOptions c d kw = d := by
  have e : d.set "disp" (d.getD "disp" (.val c.false)) = d := by
    apply set_same; unfold Dict.getD; rw [h2]; rfl
  have e2 : kw.getD "maxiter" .none = (.none : Kw X) := by
    unfold Dict.getD; rcases h1 with h1 | h1 <;> rw [h1] <;> rfl
  unfold newOptions
  simp only [e, e2]

/-! ### Invariant -/

/-- Every address in the program exists. -/
structure WF (w : World X) : Prop where
  recs : ∀ q ∈ w.recs, q.2 < w.store.length
  closed : ∀ a, Closed w.store (cell w.store a)

lemma WF.empty : WF (World.empty (X := X)) :=
  ⟨by simp [World.empty], by intro a k b h; simp [World.empty, cell, Dict.get?] at h⟩

lemma WF.held {w : World X} (h : WF w) {a : Nat} (ha : Held w a) : a < w.store.length := by
  obtain ⟨q, hq, rfl | ⟨k, hk⟩⟩ := ha
  · exact h.recs q hq
  · exact h.closed q.2 k a hk

lemma closed_set {n : Nat} {d : Dict String (Kw X)} {k : String} {v : Kw X}
    (h : ∀ k a, d.get? k = some (.dict a) → a < n) (hv : ∀ a, v = .dict a → a < n) :
    ∀ k' a, (d.set k v).get? k' = some (.dict a) → a < n := by
  intro k' a e
  rw [Dict.get?_set] at e
  split at e
  · exact hv a (Option.some.inj e)
  · exact h k' a e

lemma closed_erase {n : Nat} {d : Dict String (Kw X)} {k : String}
    (h : ∀ k a, d.get? k = some (.dict a) → a < n) :
    ∀ k' a, (erase d k).get? k' = some (.dict a) → a < n := by
  intro k' a e
  rw [get?_erase] at e
  split at e
  · exact absurd e (by simp)
  · exact h k' a e

lemma closed_getD {n : Nat} {d : Dict String (Kw X)} {k : String} {v : Kw X}
    (h : ∀ k a, d.get? k = some (.dict a) → a < n) (hv : ∀ a, v = .dict a → a < n) :
    ∀ a, d.getD k v = .dict a → a < n := by
  intro a e
  unfold Dict.getD at e
  rcases e1 : d.get? k with _ | v'
  · rw [e1] at e; exact hv a e
  · rw [e1] at e; exact h k a (by rw [e1]; exact congrArg some e)

lemma closed_newOptions {n : Nat} {c : Consts X} {d kw : Dict String (Kw X)}
    (h : ∀ k a, d.get? k = some (.dict a) → a < n) (hk : ∀ k a, kw.get? k = some (.dict a) → a < n) :
    ∀ k' a, (newOptions c d kw).get? k' = some (.dict a) → a < n := by
  have h1 := closed_set (k := "disp") (v := d.getD "disp" (.val c.false)) h
    (closed_getD h (by intro a e; cases e))
  unfold newOptions
  simp only []
  have h2 : ∀ a, kw.getD "maxiter" .none = .dict a → a < n := closed_getD hk (by intro a e; cases e)
  split
  · exact h1
  · exact closed_set h1 h2

lemma closed_newKwargs {n a : Nat} {kw : Dict String (Kw X)} (ha : a < n)
    (hk : ∀ k a, kw.get? k = some (.dict a) → a < n) :
    ∀ k' b, (newKwargs kw a).get? k' = some (.dict b) → b < n := by
  unfold newKwargs
  apply closed_erase
  exact closed_set hk (by intro b e; cases e; exact ha)

/-- `optimizer_kwargs` of a topic model after construction. -/
def newPLSA (c : Consts X) (kw : Dict String (Kw X)) : Dict String (Kw X) :=
  (kw.set "maxiter" (kw.getD "maxiter" (.val c.maxiter))).set "tol"
    ((kw.set "maxiter" (kw.getD "maxiter" (.val c.maxiter))).getD "tol" (.val c.tol))

lemma constructPLSA_eq (c : Consts X) (h : Store X) (kw : Dict String (Kw X)) :
    constructPLSA c h kw = (h ++ [newPLSA c kw], h.length) := by
  unfold constructPLSA newPLSA setKey
  simp only [cell_append_self]
  have e : (h ++ [kw]).set h.length (kw.set "maxiter" (kw.getD "maxiter" (.val c.maxiter))) =
      h ++ [kw.set "maxiter" (kw.getD "maxiter" (.val c.maxiter))] := by simp
  rw [e]
  simp only [cell_append_self]
  simp

lemma fitSettings_eq (c : Consts X) (h : Store X) (r : Nat) :
    fitSettings c h r = (h ++ [erase (cell h r) "method"], (cell h r).getD "method" (.val c.cg), h.length) := by
  unfold fitSettings popKey
  simp only [cell_append_self]
  simp

/-- What one call does: recommenders are only added, held dictionaries are kept when it is quiet. -/
structure Effect (w w' : World X) (quiet : Prop) : Prop where
  wf : WF w'
  recs : ∃ l, w'.recs = w.recs ++ l
  len : w.store.length ≤ w'.store.length
  keep : quiet → ∀ a, Held w a → cell w'.store a = cell w.store a

lemma cell_ge (h : Store X) (a : Nat) (ha : h.length ≤ a) : cell h a = [] := by
  unfold cell; rw [List.getElem?_eq_none ha]; rfl

lemma cell_append_cases (h : Store X) (d : Dict String (Kw X)) (b : Nat) :
    cell (h ++ [d]) b = cell h b ∨ cell (h ++ [d]) b = d := by
  rcases Nat.lt_trichotomy b h.length with hb | hb | hb
  · exact .inl (cell_append_left _ _ _ hb)
  · subst hb; exact .inr (cell_append_self _ _)
  · left; rw [cell_ge _ _ (by simp; omega), cell_ge _ _ (by omega)]

lemma step_effect (c : Consts X) (w : World X) (op : Op X) (hw : WF w) (ho : OpOk w op) :
    Effect w (step c w op) (Quiet w op) := by
  cases op with
  | newDict d =>
    refine ⟨⟨?_, ?_⟩, ⟨[], by simp [step]⟩, by simp [step], ?_⟩
    · intro q hq; have := hw.recs q hq; simp [step]; omega
    · intro a k b e
      have e' : (cell (w.store ++ [d]) a).get? k = some (.dict b) := e
      show b < (w.store ++ [d]).length
      have hl : (w.store ++ [d]).length = w.store.length + 1 := by simp
      rcases cell_append_cases w.store d a with h | h
      · rw [h] at e'; have := hw.closed a k b e'; omega
      · rw [h] at e'; have := ho k b e'; omega
    · intro _ a ha
      exact cell_append_left _ _ _ (hw.held ha)
  | construct kw =>
    have hkw : ∀ k a, kw.get? k = some (.dict a) → a < w.store.length := ho
    rcases eo : kw.get? "options" with _ | v
    · obtain ⟨h', e, hl, e1, e2, e3⟩ := construct_new c w.store kw eo
      have es : step c w (.construct kw) = ⟨h', w.recs ++ [(.mf, w.store.length)]⟩ := by
        simp only [step, e]
      rw [es]
      refine ⟨⟨?_, ?_⟩, ⟨_, rfl⟩, by simp [hl], ?_⟩
      · intro q hq
        rw [List.mem_append] at hq
        show q.2 < h'.length
        rcases hq with hq | hq
        · have := hw.recs q hq; omega
        · simp at hq; subst hq; simp; omega
      · intro b
        show ∀ k a, (cell h' b).get? k = some (.dict a) → a < h'.length
        have hkw' : ∀ k a, kw.get? k = some (.dict a) → a < h'.length := by
          intro k a e; have := hkw k a e; omega
        rcases Nat.lt_or_ge b w.store.length with hb | hb
        · rw [e3 b hb]; intro k a e; have := hw.closed b k a e; omega
        · by_cases hb1 : b = w.store.length
          · subst hb1; rw [e1]; exact closed_newKwargs (by omega) hkw'
          · by_cases hb2 : b = w.store.length + 1
            · subst hb2; rw [e2]; exact closed_newOptions (by intro k a e; simp [Dict.get?] at e) hkw'
            · rw [cell_ge _ _ (by omega)]; intro k a e; simp [Dict.get?] at e
      · intro _ a ha; exact e3 a (hw.held ha)
    · cases v with
      | dict a =>
        have ha := hkw _ _ eo
        obtain ⟨h', e, hl, e1, e2, e3⟩ := construct_given c w.store kw a ha eo
        have es : step c w (.construct kw) = ⟨h', w.recs ++ [(.mf, w.store.length)]⟩ := by
          simp only [step, e]
        rw [es]
        refine ⟨⟨?_, ?_⟩, ⟨_, rfl⟩, by simp [hl], ?_⟩
        · intro q hq
          rw [List.mem_append] at hq
          show q.2 < h'.length
          rcases hq with hq | hq
          · have := hw.recs q hq; omega
          · simp at hq; subst hq; simp; omega
        · intro b
          show ∀ k a, (cell h' b).get? k = some (.dict a) → a < h'.length
          have hkw' : ∀ k a, kw.get? k = some (.dict a) → a < h'.length := by
            intro k a e; have := hkw k a e; omega
          by_cases hba : b = a
          · subst hba; rw [e2]
            exact closed_newOptions (by intro k a e; have := hw.closed b k a e; omega) hkw'
          rcases Nat.lt_or_ge b w.store.length with hb | hb
          · rw [e3 b hb hba]; intro k a e; have := hw.closed b k a e; omega
          · by_cases hb1 : b = w.store.length
            · subst hb1; rw [e1]; exact closed_newKwargs (by omega) hkw'
            · rw [cell_ge _ _ (by omega)]; intro k a e; simp [Dict.get?] at e
        · intro hq b hb
          show cell h' b = _
          by_cases hba : b = a
          · subst hba
            obtain ⟨h1, v, h2⟩ := hq b eo hb
            rw [e2, newOptions_quiet c _ kw h1 v h2]
          · exact e3 b (hw.held hb) hba
      | none =>
        have e := construct_error c w.store kw (by rw [eo]; simp) (by intro a; rw [eo]; simp)
        have es : step c w (.construct kw) = w := by simp only [step, e]
        rw [es]; exact ⟨hw, ⟨[], by simp⟩, le_refl _, fun _ _ _ => rfl⟩
      | val x =>
        have e := construct_error c w.store kw (by rw [eo]; simp) (by intro a; rw [eo]; simp)
        have es : step c w (.construct kw) = w := by simp only [step, e]
        rw [es]; exact ⟨hw, ⟨[], by simp⟩, le_refl _, fun _ _ _ => rfl⟩
  | constructPLSA kw =>
    have hkw : ∀ k a, kw.get? k = some (.dict a) → a < w.store.length := ho
    have es : step c w (.constructPLSA kw) =
        ⟨w.store ++ [newPLSA c kw], w.recs ++ [(.plsa, w.store.length)]⟩ := by
      simp only [step, constructPLSA_eq]
    have hl : (w.store ++ [newPLSA c kw]).length = w.store.length + 1 := by simp
    rw [es]
    refine ⟨⟨?_, ?_⟩, ⟨_, rfl⟩, by simp, ?_⟩
    · intro q hq
      rw [List.mem_append] at hq
      show q.2 < (w.store ++ [newPLSA c kw]).length
      rcases hq with hq | hq
      · have := hw.recs q hq; omega
      · simp at hq; subst hq; simp
    · intro b k a e
      show a < (w.store ++ [newPLSA c kw]).length
      have e' : (cell (w.store ++ [newPLSA c kw]) b).get? k = some (.dict a) := e
      rcases cell_append_cases w.store (newPLSA c kw) b with h | h
      · rw [h] at e'; have := hw.closed b k a e'; omega
      · rw [h] at e'
        have h1 := closed_set (k := "maxiter") (v := kw.getD "maxiter" (.val c.maxiter)) hkw
          (closed_getD hkw (by intro a e; cases e))
        have := closed_set (k := "tol") h1 (closed_getD (k := "tol") (v := .val c.tol) h1 (by intro a e; cases e)) k a e'
        omega
    · intro _ a ha; exact cell_append_left _ _ _ (hw.held ha)
  | fit j =>
    rcases er : w.recs[j]? with _ | ⟨kd, r⟩
    · have es : step c w (.fit j) = w := by simp only [step, er]
      rw [es]; exact ⟨hw, ⟨[], by simp⟩, le_refl _, fun _ _ _ => rfl⟩
    · cases kd with
      | plsa =>
        have es : step c w (.fit j) = w := by simp only [step, er]
        rw [es]; exact ⟨hw, ⟨[], by simp⟩, le_refl _, fun _ _ _ => rfl⟩
      | mf =>
        have es : step c w (.fit j) = ⟨w.store ++ [erase (cell w.store r) "method"], w.recs⟩ := by
          simp only [step, er, fitSettings_eq]
        have hl : (w.store ++ [erase (cell w.store r) "method"]).length = w.store.length + 1 := by simp
        rw [es]
        refine ⟨⟨?_, ?_⟩, ⟨[], by simp⟩, by simp, ?_⟩
        · intro q hq
          have := hw.recs q hq
          show q.2 < (w.store ++ [erase (cell w.store r) "method"]).length
          omega
        · intro b k a e
          show a < (w.store ++ [erase (cell w.store r) "method"]).length
          have e' : (cell (w.store ++ [erase (cell w.store r) "method"]) b).get? k = some (.dict a) := e
          rcases cell_append_cases w.store (erase (cell w.store r) "method") b with h | h
          · rw [h] at e'; have := hw.closed b k a e'; omega
          · rw [h] at e'; have := closed_erase (hw.closed r) k a e'; omega
        · intro _ a ha; exact cell_append_left _ _ _ (hw.held ha)

lemma Effect.held {w w' : World X} {q : Prop} (h : Effect w w' q) (hq : q) {a : Nat} (ha : Held w a) :
    Held w' a := by
  obtain ⟨l, hl⟩ := h.recs
  obtain ⟨p, hp, hp'⟩ := ha
  refine ⟨p, by rw [hl]; exact List.mem_append_left _ hp, ?_⟩
  rcases hp' with rfl | ⟨k, hk⟩
  · exact .inl rfl
  · right; refine ⟨k, ?_⟩
    rw [h.keep hq p.2 ⟨p, hp, .inl rfl⟩]; exact hk

lemma run_effect (c : Consts X) (ops : List (Op X)) (w : World X) (hw : WF w) (ho : ProgOk c w ops) :
    Effect w (run c w ops) (ProgQuiet c w ops) := by
  induction ops generalizing w with
  | nil => exact ⟨hw, ⟨[], by simp [run]⟩, le_refl _, fun _ _ _ => rfl⟩
  | cons op ops ih =>
    have h1 := step_effect c w op hw ho.1
    have h2 := ih (step c w op) h1.wf ho.2
    have e : run c w (op :: ops) = run c (step c w op) ops := rfl
    rw [e]
    obtain ⟨l1, e1⟩ := h1.recs
    obtain ⟨l2, e2⟩ := h2.recs
    refine ⟨h2.wf, ⟨l1 ++ l2, by rw [e2, e1, List.append_assoc]⟩, le_trans h1.len h2.len, ?_⟩
    intro hq a ha
    rw [h2.keep hq.2 a (h1.held hq.1 ha), h1.keep hq.1 a ha]

lemma Effect.setting {w w' : World X} {q : Prop} (h : Effect w w' q) (hq : q) (j : Nat)
    (hj : j < w.recs.length) (k : String) : w'.setting j k = w.setting j k := by
  obtain ⟨l, hl⟩ := h.recs
  have ej : w'.recs[j]? = w.recs[j]? := by rw [hl, List.getElem?_append_left hj]
  unfold World.setting
  rw [ej]
  rcases er : w.recs[j]? with _ | ⟨kd, r⟩
  · rfl
  · simp only []
    have hm : (kd, r) ∈ w.recs := List.mem_of_getElem? er
    rw [h.keep hq r ⟨_, hm, .inl rfl⟩]
    rcases ek : (cell w.store r).get? k with _ | v
    · rfl
    · cases v with
      | none => rfl
      | val x => rfl
      | dict a =>
        simp only [Option.map_some, Kw.seen]
        rw [h.keep hq a ⟨_, hm, .inr ⟨k, ek⟩⟩]

/-! ### Theorems -/

/-- C27, false as stated: one `options` dictionary for two recommenders; the second `maxiter` overwrites
the first.  In general: constructing any recommender with a `maxiter` and the `options` dictionary of an
existing one replaces the existing one's iteration limit. -/
theorem C27_refuted (c : Consts X) (m₁ m₂ : X) (hne : m₁ ≠ m₂) :
    ∃ (before after : World X), before = run c .empty [.newDict [], .construct [("options", .dict 0), ("maxiter", .val m₁)]] ∧
      after = step c before (.construct [("options", .dict 0), ("maxiter", .val m₂)]) ∧
      before.setting 0 "options" = some (.dict [("disp", .val c.false), ("maxiter", .val m₁)]) ∧
      after.setting 0 "options" = some (.dict [("disp", .val c.false), ("maxiter", .val m₂)]) ∧
      after.setting 0 "options" ≠ before.setting 0 "options" := by
  have e1 : run c .empty [.newDict [], .construct [("options", .dict 0), ("maxiter", .val m₁)]] =
      ⟨[[("disp", .val c.false), ("maxiter", .val m₁)], [("options", .dict 0)]], [(.mf, 1)]⟩ := by
    simp [run, step, construct, storeOptions, World.empty, cell, Dict.get?, setKey, popKey, erase, Dict.set, Dict.getD]
  have e2 : step c ⟨[[("disp", .val c.false), ("maxiter", .val m₁)], [("options", .dict 0)]], [(.mf, 1)]⟩
      (.construct [("options", .dict 0), ("maxiter", .val m₂)]) =
      ⟨[[("disp", .val c.false), ("maxiter", .val m₂)], [("options", .dict 0)], [("options", .dict 0)]],
        [(.mf, 1), (.mf, 2)]⟩ := by
    simp [step, construct, storeOptions, cell, Dict.get?, setKey, popKey, erase, Dict.set, Dict.getD]
  refine ⟨_, _, rfl, rfl, ?_⟩
  rw [e1, e2]
  refine ⟨rfl, rfl, ?_⟩
  show (some (Seen.dict [("disp", .val c.false), ("maxiter", .val m₂)]) : Option (Seen X)) ≠
    some (Seen.dict [("disp", .val c.false), ("maxiter", .val m₁)])
  intro h
  simp at h
  exact hne h.symm

/-- C27, the part that holds: after any program, any further program changes no setting of the existing
recommenders, if no construction in it gets a `maxiter` together with an `options` dictionary in use.
Missing: that case, where the claim is false (`C27_refuted`). -/
theorem C27_independent_partial (c : Consts X) (before after : List (Op X))
    (hok : ProgOk c .empty (before ++ after))
    (hq : ProgQuiet c (run c .empty before) after)
    (j : Nat) (hj : j < (run c .empty before).recs.length) (k : String) :
    (run c .empty (before ++ after)).setting j k = (run c .empty before).setting j k := by
  have split : ∀ (a b : List (Op X)) (w : World X), ProgOk c w (a ++ b) → ProgOk c w a ∧ ProgOk c (run c w a) b := by
    intro a
    induction a with
    | nil => intro b w h; exact ⟨trivial, h⟩
    | cons op a ih =>
      intro b w h
      obtain ⟨h1, h2⟩ := ih b _ h.2
      exact ⟨⟨h.1, h1⟩, h2⟩
  obtain ⟨h1, h2⟩ := split before after _ hok
  have e1 := run_effect c before .empty WF.empty h1
  have e2 := run_effect c after _ e1.wf h2
  have er : run c .empty (before ++ after) = run c (run c .empty before) after := by
    unfold run; rw [List.foldl_append]
  rw [er]
  exact e2.setting hq j hj k

/-- C27, `fit` does not consume settings: after any program, fitting any recommender any number of times
changes no setting of any recommender. -/
theorem C27_fit (c : Consts X) (before : List (Op X)) (hok : ProgOk c .empty before) (fits : List Nat)
    (j : Nat) (k : String) :
    (run c (run c .empty before) (fits.map .fit)).setting j k = (run c .empty before).setting j k := by
  have hw := (run_effect c before .empty WF.empty hok).wf
  generalize run c .empty before = w at *
  have hok' : ∀ (l : List Nat) (w : World X), ProgOk c w (l.map .fit) ∧ ProgQuiet c w (l.map .fit) := by
    intro l
    induction l with
    | nil => intro w; exact ⟨trivial, trivial⟩
    | cons a l ih => intro w; exact ⟨⟨trivial, (ih _).1⟩, ⟨trivial, (ih _).2⟩⟩
  have hr : ∀ (l : List Nat) (w : World X), (run c w (l.map .fit)).recs = w.recs := by
    intro l
    induction l with
    | nil => intro w; rfl
    | cons a l ih =>
      intro w
      show (run c (step c w (.fit a)) (l.map .fit)).recs = _
      rw [ih]
      simp only [step]
      split <;> rfl
  have e := run_effect c (fits.map .fit) w hw (hok' fits w).1
  by_cases hj : j < w.recs.length
  · exact e.setting (hok' fits w).2 j hj k
  · unfold World.setting
    rw [hr fits w, List.getElem?_eq_none (by omega)]

open scoped Classical in
/-- C27, what the optimizer gets: construct a matrix factorization recommender with keyword arguments `kw`
in any program, continue with any quiet program, then fit it.  The method is the one given, `'CG'` by
default; `maxiter` is moved into `options`, whose `disp` defaults to `False`; the other options and
keyword arguments are those given. -/
theorem C27_passed (c : Consts X) (before after : List (Op X)) (kw : Dict String (Kw X)) (given : Dict String (Kw X))
    (w : World X) (hwd : w = run c .empty before)
    (hok₁ : ProgOk c .empty before) (hkw : Closed w.store kw)
    (hopt : (kw.get? "options" = none ∧ given = []) ∨ ∃ a, kw.get? "options" = some (.dict a) ∧ given = cell w.store a)
    (hok₂ : ProgOk c (step c w (.construct kw)) after) (hq : ProgQuiet c (step c w (.construct kw)) after)
    (h' : Store X) (method : Kw X) (p r : Nat)
    (hr : (run c (step c w (.construct kw)) after).recs[w.recs.length]? = some (.mf, r))
    (hfit : fitSettings c (run c (step c w (.construct kw)) after).store r = (h', method, p)) :
    method = (kw.get? "method").getD (.val c.cg) ∧
    ∃ a, (cell h' p).get? "options" = some (.dict a) ∧
      (cell h' a).get? "disp" = some ((given.get? "disp").getD (.val c.false)) ∧
      (cell h' a).get? "maxiter" =
        (if kw.get? "maxiter" = none ∨ kw.get? "maxiter" = some .none then given.get? "maxiter" else kw.get? "maxiter") ∧
      (∀ k, k ≠ "disp" → k ≠ "maxiter" → (cell h' a).get? k = given.get? k) ∧
      (cell h' p).get? "maxiter" = none ∧ (cell h' p).get? "method" = none ∧
      ∀ k, k ≠ "options" → k ≠ "maxiter" → k ≠ "method" → (cell h' p).get? k = kw.get? k := by
  subst hwd
  have e1 := run_effect c before .empty WF.empty hok₁
  generalize run c .empty before = w at *
  -- construction
  have hc : ∃ hs a, construct c w.store kw = .ok (hs, w.store.length) ∧
      cell hs w.store.length = newKwargs kw a ∧ cell hs a = newOptions c given kw := by
    rcases hopt with ⟨ho, hg⟩ | ⟨a, ho, hg⟩
    · obtain ⟨hs, e, _, h1, h2, _⟩ := construct_new c w.store kw ho
      exact ⟨hs, _, e, h1, by rw [h2, hg]⟩
    · obtain ⟨hs, e, _, h1, h2, _⟩ := construct_given c w.store kw a (hkw _ _ ho) ho
      exact ⟨hs, a, e, h1, by rw [h2, hg]⟩
  obtain ⟨hs, a, e, c1, c2⟩ := hc
  have es : step c w (.construct kw) = ⟨hs, w.recs ++ [(.mf, w.store.length)]⟩ := by simp only [step, e]
  have e2 := step_effect c w (.construct kw) e1.wf hkw
  have e3 := run_effect c after _ e2.wf hok₂
  obtain ⟨l, hl⟩ := e3.recs
  have k3 := e3.keep hq
  have wf3 := e3.wf
  generalize run c (step c w (.construct kw)) after = w3 at *
  rw [es] at hl k3
  have hr' : r = w.store.length := by
    rw [hl] at hr
    simp at hr
    exact hr.symm
  subst hr'
  have hget : ∀ k, (newKwargs kw a).get? k = if k = "maxiter" then none else if k = "options" then some (.dict a) else kw.get? k := by
    intro k
    unfold newKwargs
    rw [get?_erase, Dict.get?_set]
    by_cases h1 : k = "maxiter"
    · simp [h1]
    · by_cases h2 : k = "options"
      · simp [h2]
      · simp [h1, h2, Ne.symm h2]
  have hself : (Kind.mf, w.store.length) ∈ w.recs ++ [(Kind.mf, w.store.length)] := by simp
  have c1' : cell w3.store w.store.length = newKwargs kw a := by
    rw [k3 _ ⟨_, hself, .inl rfl⟩]; exact c1
  have c2' : cell w3.store a = newOptions c given kw := by
    rw [k3 a ⟨_, hself, .inr ⟨"options", by show (cell hs w.store.length).get? _ = _; rw [c1, hget]; simp⟩⟩]; exact c2
  rw [fitSettings_eq, c1'] at hfit
  simp only [Prod.mk.injEq] at hfit
  obtain ⟨f1, f2, f3⟩ := hfit
  have ha3 : a < w3.store.length := by
    apply wf3.closed w.store.length "options" a
    rw [c1', hget]; simp
  have ca : cell h' a = newOptions c given kw := by rw [← f1, cell_append_left _ _ _ ha3, c2']
  have cp : cell h' p = erase (newKwargs kw a) "method" := by rw [← f1, ← f3, cell_append_self]
  have hdisp : ∀ k, (given.set "disp" (given.getD "disp" (.val c.false))).get? k =
      if k = "disp" then some ((given.get? "disp").getD (.val c.false)) else given.get? k := by
    intro k
    rw [Dict.get?_set]
    by_cases h : k = "disp"
    · simp [h, Dict.getD]
    · simp [h, Ne.symm h]
  have hno : ∀ k, (newOptions c given kw).get? k =
      if k = "maxiter" ∧ ¬ (kw.get? "maxiter" = none ∨ kw.get? "maxiter" = some .none) then kw.get? "maxiter"
      else if k = "disp" then some ((given.get? "disp").getD (.val c.false)) else given.get? k := by
    intro k
    unfold newOptions
    simp only []
    rcases em : kw.get? "maxiter" with _ | v
    · have : kw.getD "maxiter" .none = (.none : Kw X) := by unfold Dict.getD; rw [em]; rfl
      rw [this]; simp only []; rw [hdisp]; simp
    · have : kw.getD "maxiter" .none = v := by unfold Dict.getD; rw [em]; rfl
      rw [this]
      cases v with
      | none => simp only []; rw [hdisp]; simp
      | dict x =>
        simp only []; rw [Dict.get?_set, hdisp]
        by_cases h : k = "maxiter"
        · simp [h]
        · simp [h, Ne.symm h]
      | val x =>
        simp only []; rw [Dict.get?_set, hdisp]
        by_cases h : k = "maxiter"
        · simp [h]
        · simp [h, Ne.symm h]
  refine ⟨?_, a, ?_, ?_, ?_, ?_, ?_, ?_, ?_⟩
  · rw [← f2]; unfold Dict.getD; rw [hget]; simp
  · rw [cp, get?_erase, hget]; simp
  · rw [ca, hno]; simp
  · rw [ca, hno]
    by_cases h : kw.get? "maxiter" = none ∨ kw.get? "maxiter" = some .none
    · simp [h]
    · rw [if_pos ⟨rfl, h⟩, if_neg h]
  · intro k h1 h2; rw [ca, hno]; simp [h1, h2]
  · rw [cp, get?_erase, hget]; simp
  · rw [cp, get?_erase]; simp
  · intro k h1 h2 h3; rw [cp, get?_erase, hget]; simp [h1, h2, h3]

/-- C27, the topic model: constructed with keyword arguments `kw` and fitted after any quiet program, it
runs with the given `maxiter` and `tol`, 100 and 1e-10 by default. -/
theorem C27_plsa (c : Consts X) (before after : List (Op X)) (kw : Dict String (Kw X))
    (w : World X) (hwd : w = run c .empty before)
    (hok₁ : ProgOk c .empty before) (hkw : Closed w.store kw)
    (hok₂ : ProgOk c (step c w (.constructPLSA kw)) after) (hq : ProgQuiet c (step c w (.constructPLSA kw)) after)
    (r : Nat) (hr : (run c (step c w (.constructPLSA kw)) after).recs[w.recs.length]? = some (.plsa, r)) :
    fitPLSA (run c (step c w (.constructPLSA kw)) after).store r =
      .ok ((kw.get? "maxiter").getD (.val c.maxiter), (kw.get? "tol").getD (.val c.tol)) := by
  subst hwd
  have e1 := run_effect c before .empty WF.empty hok₁
  generalize run c .empty before = w at *
  have es : step c w (.constructPLSA kw) =
      ⟨w.store ++ [newPLSA c kw], w.recs ++ [(.plsa, w.store.length)]⟩ := by
    simp only [step, constructPLSA_eq]
  have e2 := step_effect c w (.constructPLSA kw) e1.wf hkw
  have e3 := run_effect c after _ e2.wf hok₂
  obtain ⟨l, hl⟩ := e3.recs
  have k3 := e3.keep hq
  generalize run c (step c w (.constructPLSA kw)) after = w3 at *
  rw [es] at hl k3
  have hr' : r = w.store.length := by
    rw [hl] at hr
    simp at hr
    exact hr.symm
  subst hr'
  have hself : (Kind.plsa, w.store.length) ∈ w.recs ++ [(Kind.plsa, w.store.length)] := by simp
  have c1 : cell w3.store w.store.length = newPLSA c kw := by
    rw [k3 _ ⟨_, hself, .inl rfl⟩]; exact cell_append_self _ _
  have g1 : (newPLSA c kw).get? "maxiter" = some ((kw.get? "maxiter").getD (.val c.maxiter)) := by
    unfold newPLSA Dict.getD
    rw [Dict.get?_set, Dict.get?_set, Dict.get?_set]; simp
  have g2 : (newPLSA c kw).get? "tol" = some ((kw.get? "tol").getD (.val c.tol)) := by
    unfold newPLSA Dict.getD
    rw [Dict.get?_set, Dict.get?_set]; simp
  unfold fitPLSA Dict.getItem
  rw [c1, g1, g2]

/-- C27, an `options` argument that is not a dictionary is rejected and nothing is constructed. -/
theorem C27_rejects (c : Consts X) (w : World X) (kw : Dict String (Kw X)) (v : Kw X)
    (h : kw.get? "options" = some v) (hv : ∀ a, v ≠ .dict a) :
    construct c w.store kw = .error .attributeError ∧ step c w (.construct kw) = w := by
  have e := construct_error c w.store kw (by rw [h]; simp) (by intro a; rw [h]; intro e; exact hv a (Option.some.inj e))
  exact ⟨e, by simp only [step, e]⟩

/-! ### The hypotheses are met -/

/-- The code's objects, as strings. -/
def exC : Consts String := ⟨"False", "CG", "100", "1e-10"⟩

/-- Two recommenders share an options dictionary, the second without `maxiter`; a topic model; fits. -/
def exBefore : List (Op String) :=
  [.newDict [("gtol", .val "1e-3")], .construct [("options", .dict 0), ("maxiter", .val "50"), ("method", .val "BFGS")]]

/-- The rest of the program. -/
def exAfter : List (Op String) :=
  [.construct [("options", .dict 0)], .constructPLSA [("tol", .val "0.1")], .fit 0, .construct [("maxiter", .val "7")], .fit 3]

example : ProgOk exC .empty (exBefore ++ exAfter) ∧ ProgQuiet exC (run exC .empty exBefore) exAfter := by
  refine ⟨⟨?_, ?_, ?_, ?_, trivial, ?_, trivial, trivial⟩, ⟨?_, trivial, trivial, ?_, trivial, trivial⟩⟩
  · intro k a h; simp [Dict.get?] at h
  · intro k a h
    have h' : (if "options" = k then some (Kw.dict 0) else if "maxiter" = k then some (Kw.val "50") else
      if "method" = k then some (Kw.val "BFGS") else none) = some (Kw.dict (X := String) a) := h
    split at h'
    · cases h'; decide
    · split at h'
      · cases h'
      · split at h' <;> cases h'
  · intro k a h
    have h' : (if "options" = k then some (Kw.dict 0) else none) = some (Kw.dict (X := String) a) := h
    split at h'
    · cases h'; decide
    · cases h'
  · intro k a h
    have h' : (if "tol" = k then some (Kw.val "0.1") else none) = some (Kw.dict (X := String) a) := h
    split at h' <;> cases h'
  · intro k a h
    have h' : (if "maxiter" = k then some (Kw.val "7") else none) = some (Kw.dict (X := String) a) := h
    split at h' <;> cases h'
  · intro a h _
    have : a = 0 := by cases h; rfl
    subst this
    exact ⟨.inl rfl, _, rfl⟩
  · intro a h
    cases h

/-- What the first recommender of the example passes when it is fitted. -/
example : (run exC .empty (exBefore ++ exAfter)).setting 0 "options" =
    some (.dict [("gtol", .val "1e-3"), ("disp", .val "False"), ("maxiter", .val "50")]) := rfl

end Kam.Opt

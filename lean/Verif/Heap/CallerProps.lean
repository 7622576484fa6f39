/-
Arrays that belong to the caller: C117.
-/
import Verif.Heap.CallerSim
import Verif.Heap.Props

set_option linter.unusedSectionVars false

namespace Kam.Heap

variable {K α φ ε γ θ V : Type} [LinearOrder α] [Field K] [LinearOrder K] [IsStrictOrderedRing K] [FloorRing K]

/-! ### specification -/

/-- The caller's arrays of numbers if nobody but the caller assigns into them. -/
def ownNums (ns : List (List K)) : List (COp K α φ ε γ θ V) → List (List K)
  | [] => ns
  | .numArray xs :: p => ownNums (ns ++ [xs]) p
  | .numAssign c xs :: p => ownNums (ns.set c xs) p
  | _ :: p => ownNums ns p

/-- The caller's arrays of indexes if nobody but the caller assigns into them. -/
def ownIndex (is : List (List Int)) : List (COp K α φ ε γ θ V) → List (List Int)
  | [] => is
  | .indexArray xs :: p => ownIndex (is ++ [xs]) p
  | .indexAssign c xs :: p => ownIndex (is.set c xs) p
  | _ :: p => ownIndex is p

/-- The numbers an argument stands for when it is passed. -/
def Arg.now {β : Type} (ns : List (List β)) : Arg β → Option (List β)
  | .list xs => some xs
  | .array c => ns[c]?

/-- The same program with every array replaced by the list of its values at the time of the call. -/
def asLists (ns : List (List K)) (is : List (List Int)) : List (COp K α φ ε γ θ V) → List (Op K α φ ε γ θ V)
  | [] => []
  | .call op :: p => op :: asLists ns is p
  | .numArray xs :: p => asLists (ns ++ [xs]) is p
  | .numAssign c xs :: p => asLists (ns.set c xs) is p
  | .setEvent i event score dom ef :: p =>
    match score.now ns, dom with
    | some xs, none => .setEvent i event xs none ef :: asLists ns is p
    | some xs, some d =>
      match d.now ns with
      | some ys => .setEvent i event xs (some ys) ef :: asLists ns is p
      | none => asLists ns is p
    | none, _ => asLists ns is p
  | .indexArray xs :: p => asLists ns (is ++ [xs]) p
  | .indexAssign c xs :: p => asLists ns (is.set c xs) p
  | .fit fam L env j i c :: p =>
    match is[c]? with
    | some xs => .fit fam L env j i (some xs) :: asLists ns is p
    | none => asLists ns is p

/-- The array of numbers passed as `score_domain`. -/
def COp.domain : COp K α φ ε γ θ V → Option Nat
  | .setEvent _ _ _ (some (.array c)) _ => some c
  | _ => none

/-- The array of indexes passed as `event_index`. -/
def COp.eventIndex : COp K α φ ε γ θ V → Option Nat
  | .fit _ _ _ _ _ c => some c
  | _ => none

/-- The array of numbers assigned into. -/
def COp.assigned : COp K α φ ε γ θ V → Option Nat
  | .numAssign c _ => some c
  | _ => none

/-- The array of indexes assigned into. -/
def COp.assignedIndex : COp K α φ ε γ θ V → Option Nat
  | .indexAssign c _ => some c
  | _ => none

/-- No array is assigned into after it has been passed as `score_domain` or as `event_index`. -/
def Careful (p : List (COp K α φ ε γ θ V)) : Prop :=
  p.Pairwise (fun a b => (∀ c, a.domain = some c → b.assigned ≠ some c) ∧
    ∀ c, a.eventIndex = some c → b.assignedIndex ≠ some c)

/-! ### what holds in every program -/

/-- The addresses a container may hold: never one of the caller's arrays as `score`, and as
`score_domain` only one that was passed (`D`). -/
structure CInv (D I : Nat → Prop) (w : CWorld K α φ ε γ θ V) (v : World K α φ ε γ θ V) : Prop where
  lib : LikeW (fun a => a ∉ w.nums) (fun a => ∀ k, w.nums[k]? = some a → D k) w.lib v
  valid : ∀ a ∈ w.nums, a < w.lib.heap.nums.length
  nodup : w.nums.Nodup
  held : ∀ j c, w.held j = some c → I c

/-- The contents of the caller's arrays of numbers. -/
def CWorld.arrays (w : CWorld K α φ ε γ θ V) : List (List K) := w.nums.map (cell w.lib.heap.nums)

lemma Ref.mono {P P' : Nat → Prop} {n m : List (List K)} {x y : Option Nat} (h : Ref P n m x y)
    (hP : ∀ a, a < n.length → P a → P' a) : Ref P' n m x y := by
  rcases x with _ | x <;> rcases y with _ | y <;> simp only [Ref] at h ⊢
  exact ⟨h.1, h.2.1, hP _ h.1 h.2.2.1, h.2.2.2⟩

lemma LikeW.mono {P P' Q Q' : Nat → Prop} {w v : World K α φ ε γ θ V} (h : LikeW P Q w v)
    (hP : ∀ a, a < w.heap.nums.length → P a → P' a) (hQ : ∀ a, a < w.heap.nums.length → Q a → Q' a) :
    LikeW P' Q' w v :=
  ⟨h.heap, h.objs.imp fun _ _ ho => ⟨ho.eq, ho.score.mono hP, ho.dom.mono hQ⟩,
    h.recs.imp fun _ _ ho => ⟨ho.eq, ho.score.mono hP, ho.dom.mono hQ⟩⟩

/-- New numbers on the left. -/
lemma LikeW.growLeft {P Q : Nat → Prop} {w v : World K α φ ε γ θ V} (h : LikeW P Q w v) (l : List (List K)) :
    LikeW P Q { w with heap := { w.heap with nums := w.heap.nums ++ l } } v :=
  ⟨h.heap, h.objs.imp fun _ _ ho => ho.grow (List.prefix_append _ _) List.prefix_rfl,
    h.recs.imp fun _ _ ho => ho.grow (List.prefix_append _ _) List.prefix_rfl⟩

lemma Ref.setLeft {P : Nat → Prop} {n m : List (List K)} {x y : Option Nat} (h : Ref P n m x y) {a : Nat}
    (ha : ¬ P a) (xs : List K) : Ref P (n.set a xs) m x y := by
  rcases x with _ | x <;> rcases y with _ | y <;> simp only [Ref] at h ⊢
  refine ⟨by simpa using h.1, h.2.1, h.2.2.1, ?_⟩
  have hax : a ≠ x := by
    rintro rfl
    exact ha h.2.2.1
  rw [cell_set_ne _ _ hax]
  exact h.2.2.2

/-- An assignment into an array nobody on the left holds. -/
lemma LikeW.setLeft {P Q : Nat → Prop} {w v : World K α φ ε γ θ V} (h : LikeW P Q w v) {a : Nat} (hP : ¬ P a)
    (hQ : ¬ Q a) (xs : List K) : LikeW P Q { w with heap := { w.heap with nums := w.heap.nums.set a xs } } v :=
  ⟨h.heap, h.objs.imp fun _ _ ho => ⟨ho.eq, ho.score.setLeft hP xs, ho.dom.setLeft hQ xs⟩,
    h.recs.imp fun _ _ ho => ⟨ho.eq, ho.score.setLeft hP xs, ho.dom.setLeft hQ xs⟩⟩

lemma arrays_prefix {l : List Nat} {n n' : List (List K)} (h : n <+: n') (hl : ∀ a ∈ l, a < n.length) :
    l.map (cell n') = l.map (cell n) := by
  obtain ⟨k, rfl⟩ := h
  exact List.map_congr_left fun a ha => cell_append_lt _ _ (hl a ha)

lemma map_set_cell {l : List Nat} (hn : l.Nodup) {n : List (List K)} (hl : ∀ a ∈ l, a < n.length) {c a : Nat}
    (hc : l[c]? = some a) (xs : List K) : l.map (cell (n.set a xs)) = (l.map (cell n)).set c xs := by
  apply List.ext_getElem?
  intro k
  rw [List.getElem?_map]
  obtain ⟨hc1, hc2⟩ := List.getElem?_eq_some_iff.mp hc
  by_cases hk : k = c
  · subst hk
    rw [hc, List.getElem?_set_self (by simpa using hc1)]
    simp [cell_set_eq _ _ (hl a (List.mem_of_getElem? hc))]
  · rw [List.getElem?_set_ne (fun h => hk h.symm), List.getElem?_map]
    rcases hx : l[k]? with _ | b
    · rfl
    · have hab : a ≠ b := by
        rintro rfl
        obtain ⟨hk1, hk2⟩ := List.getElem?_eq_some_iff.mp hx
        exact hk ((List.Nodup.getElem_inj_iff hn).mp (hk2.trans hc2.symm))
      simp [cell_set_ne _ _ hab]

variable {D I : Nat → Prop} {w : CWorld K α φ ε γ θ V} {v : World K α φ ε γ θ V}

lemma CInv.fresh (h : CInv D I w v) :
    (∀ a, w.lib.heap.nums.length ≤ a → a ∉ w.nums) ∧
      ∀ a, w.lib.heap.nums.length ≤ a → ∀ k, w.nums[k]? = some a → D k := by
  refine ⟨fun a ha hm => absurd (h.valid a hm) (by omega), fun a ha k hk => ?_⟩
  exact absurd (h.valid a (List.mem_of_getElem? hk)) (by omega)

/-- A call of the package. -/
lemma CInv.lib_step (h : CInv D I w v) (mk : Int → γ) (op : Op K α φ ε γ θ V) {H : Nat → Option Nat}
    (hH : ∀ j c, H j = some c → I c) :
    CInv D I { w with lib := step mk w.lib op, held := H } (step mk v op) ∧
      (CWorld.arrays { w with lib := step mk w.lib op, held := H }) = w.arrays := by
  have hs := h.lib.step h.fresh.1 h.fresh.2 mk op
  exact ⟨⟨hs.1, fun a ha => (h.valid a ha).trans_le hs.2.length_le, h.nodup, hH⟩,
    arrays_prefix hs.2 h.valid⟩

lemma CInv.weaken (h : CInv D I w v) {D' I' : Nat → Prop} (hD : ∀ c, D c → D' c) (hI : ∀ c, I c → I' c) :
    CInv D' I' w v :=
  ⟨h.lib.mono (fun _ _ h => h) (fun _ _ h k hk => hD k (h k hk)), h.valid, h.nodup, fun j c e => hI c (h.held j c e)⟩

lemma CInv.hold (h : CInv D I w v) (j i : Nat) (c : Option Nat) (hc : ∀ k, c = some k → I k) :
    ∀ j' k, w.hold j i c j' = some k → I k := by
  intro j' k
  unfold CWorld.hold
  rcases w.lib.recs[j]? with _ | r
  · exact h.held j' k
  rcases w.lib.objs[i]? with _ | o
  · exact h.held j' k
  show (if j' = j then c else w.held j') = some k → I k
  split
  · exact hc k
  · exact h.held j' k

lemma CInv.numArray (h : CInv D I w v) (mk : Int → γ) (xs : List K) :
    CInv D I (cstep mk w (.numArray xs)) v ∧ (cstep mk w (.numArray xs)).arrays = w.arrays ++ [xs] := by
  refine ⟨⟨?_, ?_, ?_, h.held⟩, ?_⟩
  · refine (h.lib.mono (P' := fun a => a ∉ w.nums ++ [w.lib.heap.nums.length])
      (Q' := fun a => ∀ k, (w.nums ++ [w.lib.heap.nums.length])[k]? = some a → D k) ?_ ?_).growLeft [xs]
    · intro a ha hn hm
      rcases List.mem_append.mp hm with hm | hm
      · exact hn hm
      · simp at hm; omega
    · intro a ha hq k hk
      rw [List.getElem?_append] at hk
      split at hk
      · exact hq k hk
      · have := List.mem_of_getElem? hk
        simp at this; omega
  · intro a ha
    show a < (w.lib.heap.nums ++ [xs]).length
    rcases List.mem_append.mp ha with ha | ha
    · have := h.valid a ha
      simp; omega
    · simp at ha; simp [ha]
  · show (w.nums ++ [w.lib.heap.nums.length]).Nodup
    refine List.Nodup.append h.nodup (by simp) ?_
    intro a ha hb
    simp at hb
    have := h.valid a ha
    omega
  · show (w.nums ++ [w.lib.heap.nums.length]).map (cell (w.lib.heap.nums ++ [xs])) = _
    rw [List.map_append, arrays_prefix (List.prefix_append _ _) h.valid]
    simp [CWorld.arrays]

/-- `set_event` with an array as `score_domain`. -/
lemma CInv.setEventWith (h : CInv D I w v) {i c a : Nat} (hc : w.nums[c]? = some a) (hD : D c) {o : Obj}
    (ho : w.lib.objs[i]? = some o) (mk : Int → γ) (event : Arr2 α) (xs : List K) (ef : Option (List ε)) :
    ∃ s, (setEventWith (w.lib.heap, o) event xs a ef = .ok s ∨
        ∃ e, setEventWith (w.lib.heap, o) event xs a ef = .error (e, s)) ∧
      CInv D I { w with lib := { w.lib with heap := s.1, objs := w.lib.objs.set i s.2 } }
        (step mk v (.setEvent i event xs (some (cell w.lib.heap.nums a)) ef)) ∧
      w.lib.heap.nums <+: s.1.nums := by
  have ha := h.valid a (List.mem_of_getElem? hc)
  have hQ : ∀ k, w.nums[k]? = some a → D k := by
    intro k hk
    obtain ⟨h1, h2⟩ := List.getElem?_eq_some_iff.mp hk
    obtain ⟨h3, h4⟩ := List.getElem?_eq_some_iff.mp hc
    have : k = c := (List.Nodup.getElem_inj_iff h.nodup).mp (h2.trans h4.symm)
    exact this ▸ hD
  rcases forall₂_get h.lib.objs i with ⟨e1, e2⟩ | ⟨x, o', e1, e2, hx⟩
  · rw [e1] at ho; cases ho
  rw [ho] at e1
  obtain rfl : o = x := by simpa using e1
  have h1 := setEventWith_like (h.lib.start hx) h.fresh.1 ha hQ event xs ef
  simp only [step, e2]
  rcases hr : Heap.setEventWith (w.lib.heap, o) event xs a ef with ⟨e, s⟩ | s <;>
    rcases hy : Heap.setEvent (v.heap, o') event xs (some (cell w.lib.heap.nums a)) ef with ⟨e', t⟩ | t <;>
    rw [hr, hy] at h1 <;> simp only [LikeM] at h1
  · exact ⟨s, .inr ⟨e, rfl⟩, ⟨h.lib.setObj h1.2 i, fun b hb => (h.valid b hb).trans_le h1.2.left.length_le, h.nodup,
      h.held⟩, h1.2.left⟩
  · exact ⟨s, .inl rfl, ⟨h.lib.setObj h1 i, fun b hb => (h.valid b hb).trans_le h1.left.length_le, h.nodup,
      h.held⟩, h1.left⟩

lemma CInv.start : CInv D I (CWorld.empty : CWorld K α φ ε γ θ V) World.empty :=
  ⟨⟨rfl, .nil, .nil⟩, by simp [CWorld.empty], by simp [CWorld.empty], by simp [CWorld.empty]⟩

lemma read_now (score : Arg K) : w.read score = score.now w.arrays := by
  cases score with
  | list xs => rfl
  | array c => simp [CWorld.read, Arg.now, CWorld.arrays]

/-- A step that is no assignment, next to the corresponding call with lists. -/
lemma CInv.step_other (h : CInv D I w v) (mk : Int → γ) (op : COp K α φ ε γ θ V)
    (hD : ∀ c, op.domain = some c → D c) (hI : ∀ c, op.eventIndex = some c → I c)
    (h1 : op.assigned = none) (h2 : op.assignedIndex = none) (rest : List (COp K α φ ε γ θ V)) :
    ∃ pre, asLists w.arrays w.index (op :: rest) =
        pre ++ asLists (cstep mk w op).arrays (cstep mk w op).index rest ∧
      CInv D I (cstep mk w op) (run mk v pre) ∧
      (cstep mk w op).arrays = ownNums w.arrays [op] ∧ (cstep mk w op).index = ownIndex w.index [op] := by
  cases op with
  | call op =>
    have key : ∀ H : Nat → Option Nat, (∀ j c, H j = some c → I c) →
        ∃ pre, asLists w.arrays w.index (.call op :: rest) =
          pre ++ asLists (CWorld.arrays { w with lib := step mk w.lib op, held := H }) w.index rest ∧
        CInv D I { w with lib := step mk w.lib op, held := H } (run mk v pre) ∧
        (CWorld.arrays { w with lib := step mk w.lib op, held := H }) = w.arrays ∧ w.index = w.index := by
      intro H hH
      have hs := h.lib_step mk op hH
      exact ⟨[op], by rw [hs.2]; rfl, hs.1, hs.2, rfl⟩
    cases op with
    | fit fam L env j i idx => exact key _ (h.hold j i none (by simp))
    | _ => exact key w.held h.held
  | numArray xs =>
    have hs := h.numArray mk xs
    exact ⟨[], by rw [hs.2]; rfl, hs.1, hs.2, rfl⟩
  | numAssign c xs => simp [COp.assigned] at h1
  | setEvent i event score dom ef =>
    have e0 := read_now (w := w) score
    simp only [asLists, cstep, ownNums, ownIndex]
    rw [e0]
    rcases score.now w.arrays with _ | xs
    · exact ⟨[], rfl, h, rfl, rfl⟩
    simp only
    rcases dom with _ | (ys | c)
    · have hs := h.lib_step mk (.setEvent i event xs none ef) h.held
      exact ⟨[.setEvent i event xs none ef], by simp only; rw [hs.2]; rfl, hs.1, hs.2, rfl⟩
    · have hs := h.lib_step mk (.setEvent i event xs (some ys) ef) h.held
      exact ⟨[.setEvent i event xs (some ys) ef], by simp only [Arg.now]; rw [hs.2]; rfl, hs.1, hs.2, rfl⟩
    · have hc := hD c rfl
      have e1 : (Arg.array c : Arg K).now w.arrays = (w.nums[c]?).map (cell w.lib.heap.nums) := by
        simp [Arg.now, CWorld.arrays]
      simp only [e1]
      rcases ha : w.nums[c]? with _ | a
      · exact ⟨[], rfl, h, rfl, rfl⟩
      rcases ho : w.lib.objs[i]? with _ | o
      · refine ⟨[.setEvent i event xs (some (cell w.lib.heap.nums a)) ef], rfl, ?_, rfl, rfl⟩
        rcases forall₂_get h.lib.objs i with ⟨e1, e2⟩ | ⟨x, o', e1, e2, hx⟩
        · have : step mk v (.setEvent i event xs (some (cell w.lib.heap.nums a)) ef) = v := by
            simp [step, e2]
          show CInv D I w (step mk v (.setEvent i event xs (some (cell w.lib.heap.nums a)) ef))
          rw [this]
          exact h
        · rw [e1] at ho; cases ho
      · obtain ⟨s, hs1, hs2, hs3⟩ := h.setEventWith ha hc ho mk event xs ef
        have ea : w.nums.map (cell s.1.nums) = w.nums.map (cell w.lib.heap.nums) :=
          arrays_prefix hs3 h.valid
        rcases hs1 with hs1 | ⟨e, hs1⟩ <;> simp only [hs1, Option.map_some]
        all_goals
          refine ⟨[.setEvent i event xs (some (cell w.lib.heap.nums a)) ef], ?_, hs2, ea, trivial⟩
          show _ = _ :: asLists (w.nums.map (cell s.1.nums)) _ _
          rw [ea]
          rfl
  | indexArray xs =>
    exact ⟨[], rfl, ⟨h.lib, h.valid, h.nodup, h.held⟩, rfl, rfl⟩
  | indexAssign c xs => simp [COp.assignedIndex] at h2
  | fit fam L env j i c =>
    simp only [asLists, cstep, ownNums, ownIndex]
    rcases w.index[c]? with _ | xs
    · exact ⟨[], rfl, h, rfl, rfl⟩
    have hs := h.lib_step mk (.fit fam L env j i (some xs)) (h.hold j i (some c) (by
      rintro k ⟨rfl⟩; exact hI c rfl))
    exact ⟨[.fit fam L env j i (some xs)], by simp only; rw [hs.2]; rfl, hs.1, hs.2, rfl⟩

lemma CInv.numAssign_arrays (h : CInv D I w v) (mk : Int → γ) (c : Nat) (xs : List K) :
    (cstep mk w (.numAssign c xs)).arrays = w.arrays.set c xs := by
  simp only [cstep]
  rcases hc : w.nums[c]? with _ | a
  · have : w.nums.length ≤ c := by simpa using hc
    simp [List.set_eq_of_length_le (show w.arrays.length ≤ c by simpa [CWorld.arrays] using this)]
  · exact map_set_cell h.nodup h.valid hc xs

lemma CInv.numAssign (h : CInv D I w v) (mk : Int → γ) (c : Nat) (xs : List K) (hc : ¬ D c) :
    CInv D I (cstep mk w (.numAssign c xs)) v := by
  simp only [cstep]
  rcases ha : w.nums[c]? with _ | a
  · exact h
  · refine ⟨h.lib.setLeft ?_ ?_ xs, ?_, h.nodup, h.held⟩
    · simp [List.mem_of_getElem? ha]
    · intro hh
      exact hc (hh c ha)
    · intro b hb
      simpa using h.valid b hb

lemma CInv.indexAssign (h : CInv D I w v) (mk : Int → γ) (c : Nat) (xs : List Int) (hc : ¬ I c) :
    CInv D I (cstep mk w (.indexAssign c xs)) v := by
  have : w.lib.recs.mapIdx (fun j r =>
      if c < w.index.length ∧ w.held j = some c then { r with eventIndex := some xs } else r) = w.lib.recs := by
    apply List.ext_getElem?
    intro j
    rw [List.getElem?_mapIdx]
    rcases w.lib.recs[j]? with _ | r
    · rfl
    · have : ¬ (c < w.index.length ∧ w.held j = some c) := fun hh => hc (h.held j c hh.2)
      simp [this]
  simp only [cstep, this]
  exact ⟨h.lib, h.valid, h.nodup, h.held⟩

/-- Every world is like itself. -/
lemma CInv.self (h : CInv D I w v) : CInv D I w w.lib := by
  have ref : ∀ {P : Nat → Prop} {n m : List (List K)} {x y : Option Nat}, Ref P n m x y → Ref P n n x x := by
    intro P n m x y h
    rcases x with _ | x <;> rcases y with _ | y <;> simp only [Ref] at h ⊢
    exact ⟨h.1, h.1, h.2.2.1, trivial⟩
  refine ⟨⟨rfl, ?_, ?_⟩, h.valid, h.nodup, h.held⟩
  · refine List.forall₂_same.mpr fun o ho => ?_
    obtain ⟨i, hi⟩ := List.mem_iff_getElem?.mp ho
    rcases forall₂_get h.lib.objs i with ⟨e1, _⟩ | ⟨x, o', e1, _, hx⟩ <;> rw [hi] at e1
    · cases e1
    · obtain rfl : o = x := by simpa using e1
      exact ⟨rfl, ref hx.score, ref hx.dom⟩
  · refine List.forall₂_same.mpr fun o ho => ?_
    obtain ⟨i, hi⟩ := List.mem_iff_getElem?.mp ho
    rcases forall₂_get h.lib.recs i with ⟨e1, _⟩ | ⟨x, o', e1, _, hx⟩ <;> rw [hi] at e1
    · cases e1
    · obtain rfl : o = x := by simpa using e1
      exact ⟨rfl, ref hx.score, ref hx.dom⟩

/-- Whatever the caller does, containers hold the caller's arrays only as `score_domain`, and only those
that were passed. -/
lemma CInv.step_self (h : CInv D I w w.lib) (mk : Int → γ) (op : COp K α φ ε γ θ V)
    (hD : ∀ c, op.domain = some c → D c) (hI : ∀ c, op.eventIndex = some c → I c) :
    CInv D I (cstep mk w op) (cstep mk w op).lib ∧ (cstep mk w op).arrays = ownNums w.arrays [op] ∧
      (cstep mk w op).index = ownIndex w.index [op] := by
  have ref : ∀ {P : Nat → Prop} {n : List (List K)} {x : Option Nat} (a : Nat) (xs : List K), Ref P n n x x →
      Ref P (n.set a xs) (n.set a xs) x x := by
    intro P n x a xs h
    rcases x with _ | x <;> simp only [Ref] at h ⊢
    exact ⟨by simpa using h.1, by simpa using h.1, h.2.2.1, trivial⟩
  cases op with
  | numAssign c xs =>
    refine ⟨?_, h.numAssign_arrays mk c xs, ?_⟩
    · simp only [cstep]
      rcases ha : w.nums[c]? with _ | a
      · exact h
      · refine ⟨⟨rfl, ?_, ?_⟩, fun b hb => by simpa using h.valid b hb, h.nodup, h.held⟩
        · exact List.forall₂_same.mpr fun o ho =>
            have hx := List.forall₂_same.mp h.lib.objs o ho
            ⟨rfl, ref a xs hx.score, ref a xs hx.dom⟩
        · exact List.forall₂_same.mpr fun o ho =>
            have hx := List.forall₂_same.mp h.lib.recs o ho
            ⟨rfl, ref a xs hx.score, ref a xs hx.dom⟩
    · simp only [cstep]
      rcases w.nums[c]? with _ | a <;> rfl
  | indexAssign c xs =>
    refine ⟨⟨⟨rfl, h.lib.objs, ?_⟩, h.valid, h.nodup, h.held⟩, rfl, rfl⟩
    refine List.forall₂_same.mpr fun r hr => ?_
    obtain ⟨j, hj⟩ := List.mem_iff_getElem?.mp hr
    simp only [cstep] at hj
    rw [List.getElem?_mapIdx] at hj
    rcases hx : w.lib.recs[j]? with _ | x <;> rw [hx] at hj
    · cases hj
    · have hh := List.forall₂_same.mp h.lib.recs x (List.mem_of_getElem? hx)
      simp only [Option.map_some, Option.some.injEq] at hj
      rw [← hj]
      split
      · exact ⟨rfl, hh.score, hh.dom⟩
      · exact hh
  | call op =>
    obtain ⟨pre, _, h1, h2, h3⟩ := h.step_other mk (.call op) hD hI rfl rfl []
    exact ⟨h1.self, h2, h3⟩
  | numArray xs =>
    obtain ⟨pre, _, h1, h2, h3⟩ := h.step_other mk (.numArray xs) hD hI rfl rfl []
    exact ⟨h1.self, h2, h3⟩
  | setEvent i event score dom ef =>
    obtain ⟨pre, _, h1, h2, h3⟩ := h.step_other mk (.setEvent i event score dom ef) hD hI rfl rfl []
    exact ⟨h1.self, h2, h3⟩
  | indexArray xs =>
    obtain ⟨pre, _, h1, h2, h3⟩ := h.step_other mk (.indexArray xs) hD hI rfl rfl []
    exact ⟨h1.self, h2, h3⟩
  | fit fam L env j i c =>
    obtain ⟨pre, _, h1, h2, h3⟩ := h.step_other mk (.fit fam L env j i c) hD hI rfl rfl []
    exact ⟨h1.self, h2, h3⟩

lemma ownNums_append (ns : List (List K)) (p q : List (COp K α φ ε γ θ V)) :
    ownNums ns (p ++ q) = ownNums (ownNums ns p) q := by
  induction p generalizing ns with
  | nil => rfl
  | cons op p ih => cases op <;> simp [ownNums, ih]

lemma ownIndex_append (is : List (List Int)) (p q : List (COp K α φ ε γ θ V)) :
    ownIndex is (p ++ q) = ownIndex (ownIndex is p) q := by
  induction p generalizing is with
  | nil => rfl
  | cons op p ih => cases op <;> simp [ownIndex, ih]

lemma CInv.run_self (mk : Int → γ) (p : List (COp K α φ ε γ θ V)) (h : CInv D I w w.lib)
    (hD : ∀ op ∈ p, ∀ c, op.domain = some c → D c) (hI : ∀ op ∈ p, ∀ c, op.eventIndex = some c → I c) :
    CInv D I (crun mk w p) (crun mk w p).lib ∧ (crun mk w p).arrays = ownNums w.arrays p ∧
      (crun mk w p).index = ownIndex w.index p := by
  induction p generalizing w with
  | nil => exact ⟨h, rfl, rfl⟩
  | cons op p ih =>
    obtain ⟨h1, h2, h3⟩ := h.step_self mk op (hD op List.mem_cons_self) (hI op List.mem_cons_self)
    obtain ⟨k1, k2, k3⟩ := ih h1 (fun o ho => hD o (List.mem_cons_of_mem _ ho))
      (fun o ho => hI o (List.mem_cons_of_mem _ ho))
    refine ⟨k1, ?_, ?_⟩
    · refine k2.trans ?_
      rw [h2, ← ownNums_append]
      rfl
    · refine k3.trans ?_
      rw [h3, ← ownIndex_append]
      rfl

/-- **C117**: the package never assigns into an array of the caller: after any program the arrays of the
caller contain what the caller put there. -/
theorem C117_not_written (mk : Int → γ) (p : List (COp K α φ ε γ θ V)) :
    (crun mk CWorld.empty p).arrays = ownNums [] p ∧ (crun mk CWorld.empty p).index = ownIndex [] p :=
  (CInv.run_self (D := fun _ => True) (I := fun _ => True) mk p CInv.start (fun _ _ _ _ => trivial)
    fun _ _ _ _ => trivial).2

/-- **C117**: after any program, an assignment into an array of numbers changes nothing but the
`score_domain` of containers and recommenders, and does not change what any recommender predicts. -/
theorem C117_scope (mk : Int → γ) (p : List (COp K α φ ε γ θ V)) (c : Nat) (xs : List K) :
    let w := (crun mk CWorld.empty p).lib
    let w' := (crun mk CWorld.empty (p ++ [.numAssign c xs])).lib
    w'.vals.map (fun d => { d with scoreDomain := none }) = w.vals.map (fun d => { d with scoreDomain := none }) ∧
    w'.rvals.map (fun r => { r with scoreDomain := none }) = w.rvals.map (fun r => { r with scoreDomain := none }) ∧
    ∀ L j eev, w'.predict L j eev = w.predict L j eev := by
  intro w w'
  have h := (CInv.run_self (D := fun _ => True) (I := fun _ => True) mk p CInv.start (fun _ _ _ _ => trivial)
    fun _ _ _ _ => trivial).1
  have hw' : w' = (cstep mk (crun mk CWorld.empty p) (.numAssign c xs)).lib := by
    simp [w', crun, List.foldl_append]
  have hobj : w'.objs = w.objs ∧ w'.recs = w.recs ∧
      ∃ n, w'.heap = { w.heap with nums := n } ∧ ∀ b, b ∉ (crun mk CWorld.empty p).nums → cell n b = cell w.heap.nums b := by
    rw [hw']
    simp only [cstep]
    rcases ha : (crun mk CWorld.empty p).nums[c]? with _ | a
    · exact ⟨rfl, rfl, _, rfl, fun _ _ => rfl⟩
    · refine ⟨rfl, rfl, _, rfl, fun b hb => cell_set_ne _ _ ?_⟩
      rintro rfl
      exact hb (List.mem_of_getElem? ha)
  obtain ⟨e1, e2, n, e3, e4⟩ := hobj
  have ref : ∀ {x : Option Nat}, Ref (fun a => a ∉ (crun mk CWorld.empty p).nums) w.heap.nums w.heap.nums x x →
      x.map (cell n) = x.map (cell w.heap.nums) := by
    intro x hx
    rcases x with _ | x
    · rfl
    · simp [e4 x hx.2.2.1]
  refine ⟨?_, ?_, ?_⟩
  · simp only [World.vals, e1, List.map_map]
    refine List.map_congr_left fun o ho => ?_
    have hx := List.forall₂_same.mp h.lib.objs o ho
    simp only [Function.comp, Obj.val, e3]
    rw [ref hx.score]
  · simp only [World.rvals, e2, List.map_map]
    refine List.map_congr_left fun o ho => ?_
    have hx := List.forall₂_same.mp h.lib.recs o ho
    simp only [Function.comp, RObj.val, e3]
    rw [ref hx.score]
  · intro L j eev
    simp only [World.predict, e2]
    rcases w.recs[j]? with _ | r
    · rfl
    · simp only [Option.map_some, e3]
      rfl

/-- **C117**: after any program, an assignment into an array of indexes changes no container, and of
recommenders only `event_index`. -/
theorem C117_scope_index (mk : Int → γ) (p : List (COp K α φ ε γ θ V)) (c : Nat) (xs : List Int) :
    let w := (crun mk CWorld.empty p).lib
    let w' := (crun mk CWorld.empty (p ++ [.indexAssign c xs])).lib
    w'.vals = w.vals ∧
    w'.rvals.map (fun r => { r with eventIndex := none }) = w.rvals.map (fun r => { r with eventIndex := none }) := by
  intro w w'
  have hw' : w' = (cstep mk (crun mk CWorld.empty p) (.indexAssign c xs)).lib := by
    simp [w', crun, List.foldl_append]
  refine ⟨by rw [hw']; rfl, ?_⟩
  rw [hw']
  apply List.ext_getElem?
  intro j
  simp only [World.rvals, cstep, List.getElem?_map, List.getElem?_mapIdx]
  rcases (crun mk CWorld.empty p).lib.recs[j]? with _ | r
  · simp [w]
  · simp only [Option.map_some, w]
    split <;> rfl

/-- **C117**: an array that was never passed as `score_domain` or as `event_index` can be assigned into
without any effect; in particular arrays passed as `score`. -/
theorem C117_copied (mk : Int → γ) (p : List (COp K α φ ε γ θ V)) (c : Nat) (xs : List K) (ys : List Int) :
    ((∀ op ∈ p, op.domain ≠ some c) →
      (crun mk CWorld.empty (p ++ [.numAssign c xs])).lib.vals = (crun mk CWorld.empty p).lib.vals ∧
      (crun mk CWorld.empty (p ++ [.numAssign c xs])).lib.rvals = (crun mk CWorld.empty p).lib.rvals) ∧
    ((∀ op ∈ p, op.eventIndex ≠ some c) →
      (crun mk CWorld.empty (p ++ [.indexAssign c ys])).lib.vals = (crun mk CWorld.empty p).lib.vals ∧
      (crun mk CWorld.empty (p ++ [.indexAssign c ys])).lib.rvals = (crun mk CWorld.empty p).lib.rvals) := by
  have h := (CInv.run_self (D := fun c => ∃ op ∈ p, op.domain = some c)
    (I := fun c => ∃ op ∈ p, op.eventIndex = some c) mk p CInv.start
    (fun op ho c hc => ⟨op, ho, hc⟩) fun op ho c hc => ⟨op, ho, hc⟩).1
  constructor
  · intro hp
    have h2 := h.numAssign mk c xs (fun ⟨op, ho, hc⟩ => hp op ho hc)
    simp only [crun, List.foldl_append, List.foldl_cons, List.foldl_nil]
    exact ⟨h2.lib.vals.symm, h2.lib.rvals.symm⟩
  · intro hp
    have h2 := h.indexAssign mk c ys (fun ⟨op, ho, hc⟩ => hp op ho hc)
    simp only [crun, List.foldl_append, List.foldl_cons, List.foldl_nil]
    exact ⟨h2.lib.vals.symm, h2.lib.rvals.symm⟩

lemma run_append (mk : Int → γ) (v : World K α φ ε γ θ V) (p q : List (Op K α φ ε γ θ V)) :
    run mk v (p ++ q) = run mk (run mk v p) q := by
  simp [run, List.foldl_append]

lemma CInv.careful (mk : Int → γ) (p : List (COp K α φ ε γ θ V)) (h : CInv D I w v) (hp : Careful p)
    (hD : ∀ op ∈ p, ∀ c, op.assigned = some c → ¬ D c) (hI : ∀ op ∈ p, ∀ c, op.assignedIndex = some c → ¬ I c) :
    ∃ D' I', CInv D' I' (crun mk w p) (run mk v (asLists w.arrays w.index p)) := by
  induction p generalizing w v D I with
  | nil => exact ⟨D, I, h⟩
  | cons op p ih =>
    rw [Careful, List.pairwise_cons] at hp
    have hD1 := hD op List.mem_cons_self
    have hI1 := hI op List.mem_cons_self
    have hD2 : ∀ o ∈ p, ∀ c, o.assigned = some c → ¬ D c := fun o ho => hD o (List.mem_cons_of_mem _ ho)
    have hI2 : ∀ o ∈ p, ∀ c, o.assignedIndex = some c → ¬ I c := fun o ho => hI o (List.mem_cons_of_mem _ ho)
    have other : op.assigned = none → op.assignedIndex = none →
        ∃ D' I', CInv D' I' (crun mk w (op :: p)) (run mk v (asLists w.arrays w.index (op :: p))) := by
      intro h1 h2
      have h' := h.weaken (D' := fun c => D c ∨ op.domain = some c) (I' := fun c => I c ∨ op.eventIndex = some c)
        (fun _ => .inl) (fun _ => .inl)
      obtain ⟨pre, e1, e2, _, _⟩ := h'.step_other mk op (fun c hc => .inr hc) (fun c hc => .inr hc) h1 h2 p
      rw [e1, run_append]
      refine ih e2 hp.2 ?_ ?_
      · intro o ho c hc
        rintro (hd | hd)
        · exact hD2 o ho c hc hd
        · exact (hp.1 o ho).1 c hd hc
      · intro o ho c hc
        rintro (hd | hd)
        · exact hI2 o ho c hc hd
        · exact (hp.1 o ho).2 c hd hc
    cases op with
    | numAssign c xs =>
      have e := h.numAssign_arrays mk c xs
      have hi := h.numAssign mk c xs (hD1 c rfl)
      have ex : (cstep mk w (.numAssign c xs)).index = w.index := by
        simp only [cstep]
        rcases w.nums[c]? with _ | a <;> rfl
      have := ih hi hp.2 hD2 hI2
      rw [e, ex] at this
      exact this
    | indexAssign c xs =>
      exact ih (h.indexAssign mk c xs (hI1 c rfl)) hp.2 hD2 hI2
    | _ => exact other rfl rfl

/-- What a user expects: passing an array is the same as passing the list of its values. -/
def C117_full : Prop :=
  ∀ {K α φ ε γ θ V : Type} [LinearOrder α] [Field K] [LinearOrder K] [IsStrictOrderedRing K] [FloorRing K]
    (mk : Int → γ) (p : List (COp K α φ ε γ θ V)),
    (crun mk CWorld.empty p).lib.vals = (run mk World.empty (asLists [] [] p)).vals ∧
    (crun mk CWorld.empty p).lib.rvals = (run mk World.empty (asLists [] [] p)).rvals

/-- **C117**, for programs that do not assign into an array after it was passed as `score_domain` or as
`event_index`: all containers and recommenders report what they would if lists had been passed. -/
theorem C117_partial (mk : Int → γ) (p : List (COp K α φ ε γ θ V)) (hp : Careful p) :
    (crun mk CWorld.empty p).lib.vals = (run mk World.empty (asLists [] [] p)).vals ∧
    (crun mk CWorld.empty p).lib.rvals = (run mk World.empty (asLists [] [] p)).rvals := by
  obtain ⟨D', I', h⟩ := CInv.careful mk p
    (CInv.start (K := K) (α := α) (φ := φ) (ε := ε) (γ := γ) (θ := θ) (V := V) (D := fun _ => False)
      (I := fun _ => False)) hp (fun _ _ _ _ h => h) (fun _ _ _ _ h => h)
  exact ⟨h.lib.vals.symm, h.lib.rvals.symm⟩

/-! ### concrete programs -/

/-- Ratings are loaded with arrays of scores and of the domain; both are reused for other data before
they are passed again. -/
def exCareful : List (COp ℚ Nat Unit Unit Unit Unit Unit) :=
  [.numArray [1, 2], .numArray [1, 2, 1], .call (.new 2 .none),
    .setEvent 0 ⟨2, [[1, 1], [2, 2]]⟩ (.array 0) (some (.array 1)) none, .numAssign 0 [7, 7],
    .call (.newRec none []), .indexArray [1, 0], .fit .implicit exFirst () 0 0 0]

/-- The hypothesis of `C117_partial` holds for a program that loads data, reuses the array of scores and
trains, and the training succeeds. -/
example : Careful exCareful ∧
    (crun (fun _ => ()) CWorld.empty exCareful).lib.vals.map (fun d => (d.score, d.scoreDomain)) =
      [(some [1, 2], some [1, 2, 1])] ∧
    (crun (fun _ => ()) CWorld.empty exCareful).lib.predict exFirst 0 (.vec [1, 2]) = some (.ok (.scalar 1)) := by
  refine ⟨?_, rfl, rfl⟩
  simp [Careful, exCareful, COp.domain, COp.assigned, COp.eventIndex, COp.assignedIndex]

/-- Then the array of the domain is reused. -/
def exDomain : List (COp ℚ Nat Unit Unit Unit Unit Unit) := exCareful ++ [.numAssign 1 [1, 5, 1]]

/-- Then the array of the indexes is reused. -/
def exIndex : List (COp ℚ Nat Unit Unit Unit Unit Unit) := exCareful ++ [.indexAssign 0 [0, 1]]

/-- **C117** is false: the container sees what the caller writes into the array passed as `score_domain`
while it keeps its number of levels, so that its two levels run from 1 to 5. -/
theorem C117_refuted_domain :
    (crun (fun _ => ()) CWorld.empty exDomain).lib.vals.map (fun d => (d.scoreDomain, d.nScoreLevels)) =
      [(some [1, 5, 1], some 2)] ∧
    (run (fun _ => ()) World.empty (asLists [] [] exDomain)).vals.map (fun d => (d.scoreDomain, d.nScoreLevels)) =
      [(some [1, 2, 1], some 2)] ∧ ¬ C117_full := by
  refine ⟨by decide +kernel, by decide +kernel, fun h => ?_⟩
  have h1 := congrArg (List.map (fun d => (d.scoreDomain, d.nScoreLevels)))
    (h (fun _ => ()) exDomain).1
  have h2 : (crun (fun _ => ()) CWorld.empty exDomain).lib.vals.map (fun d => (d.scoreDomain, d.nScoreLevels)) =
      [(some [1, 5, 1], some 2)] := by decide +kernel
  have h3 : (run (fun _ => ()) World.empty (asLists [] [] exDomain)).vals.map
      (fun d => (d.scoreDomain, d.nScoreLevels)) = [(some [1, 2, 1], some 2)] := by decide +kernel
  rw [h2, h3] at h1
  simp at h1

/-- **C117** is false: a fitted recommender predicts from other columns after the caller wrote into the
array passed as `event_index`. -/
theorem C117_refuted_index :
    (crun (fun _ => ()) CWorld.empty exCareful).lib.predict exFirst 0 (.vec [1, 2]) = some (.ok (.scalar 1)) ∧
    (crun (fun _ => ()) CWorld.empty exIndex).lib.predict exFirst 0 (.vec [1, 2]) = some (.ok (.scalar 0)) ∧
    (run (fun _ => ()) World.empty (asLists [] [] exIndex)).predict exFirst 0 (.vec [1, 2]) =
      some (.ok (.scalar 1)) :=
  ⟨rfl, rfl, rfl⟩

/-- The hypotheses of `C117_copied` for the array of scores. -/
example : (∀ op ∈ exCareful, op.domain ≠ some 0) ∧ exCareful.length = 8 := by
  simp [exCareful, COp.domain]

end Kam.Heap

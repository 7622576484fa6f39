/-
C38: which matrix an implicit item finder trains with, for every layout and every index of two columns.
-/
import Verif.Rec.Layout
import Verif.Rec.Props4

set_option linter.unusedSectionVars false

namespace Kam
open Spec
variable {K : Type} [Field K] [LinearOrder K] [IsStrictOrderedRing K] [FloorRing K]
variable {α φ ε γ θ V : Type} [LinearOrder α]

/-! ### Specification -/

namespace Spec

/-- The one of two things that an index selects. -/
inductive Picks {β : Type} (x y : β) : Int → β → Prop
  | first : Picks x y 0 x
  | second : Picks x y 1 y
  | last : Picks x y (-1) y
  | beforeLast : Picks x y (-2) x

/-- The objects in column `A` of the events have places among as many as there are objects of the type of column `C`. -/
def HasRoom (ot : List Nat) (rows : List (List α)) (A C : Nat) : Prop :=
  ∀ s u, ot[A]? = some s → ot[C]? = some u → ∀ row ∈ rows, ∀ x, row[A]? = some x → rank ot rows s x < count ot rows u

end Spec

/-! ### Lemmas -/

private lemma bind_ok {β δ : Type} {x : Res β} {f : β → Res δ} {y : δ} (h : (x >>= f) = .ok y) : ∃ a, x = .ok a ∧ f a = .ok y := by
  cases x with
  | error e => cases h
  | ok a => exact ⟨a, rfl, h⟩

lemma npGet_pair {β : Type} (x y z : β) (i : Int) : npGet [x, y] i = .ok z ↔ Picks x y i z := by
  constructor
  · intro h
    unfold npGet npIndex at h
    by_cases h0 : i = 0
    · subst h0; cases h; exact .first
    by_cases h1 : i = 1
    · subst h1; cases h; exact .second
    by_cases h2 : i = -1
    · subst h2; cases h; exact .last
    by_cases h3 : i = -2
    · subst h3; cases h; exact .beforeLast
    exfalso
    simp only [List.length_cons, List.length_nil] at h
    split at h
    · cases h
    · rename_i j hj
      split_ifs at hj
      · omega
      · omega
  · rintro (_ | _ | _ | _) <;> rfl

lemma Spec.Picks.map {β δ : Type} (g : β → δ) {x y z : β} {i : Int} (h : Picks x y i z) : Picks (g x) (g y) i (g z) := by
  cases h
  · exact .first
  · exact .second
  · exact .last
  · exact .beforeLast

lemma Spec.Picks.or {β : Type} {x y z : β} {i : Int} (h : Picks x y i z) : z = x ∨ z = y := by
  cases h <;> simp

lemma Spec.Picks.some {β : Type} {x y z : β} {i : Int} (h : Picks x y i z) {δ : Type} (x' y' : δ) : ∃ z', Picks x' y' i z' := by
  cases h
  · exact ⟨_, .first⟩
  · exact ⟨_, .second⟩
  · exact ⟨_, .last⟩
  · exact ⟨_, .beforeLast⟩

lemma Spec.Picks.unique {β : Type} {x y z z' : β} {i : Int} (h : Picks x y i z) (h' : Picks x y i z') : z = z' := by
  cases h <;> cases h' <;> rfl

/-- The internal id of the object in column `c` of an event. -/
def idAt (ot : List Nat) (rows : List (List α)) (row : List α) (c : Nat) : Int :=
  match ot[c]?, row[c]? with
  | some t, some x => ((ids ot rows t).idxOf x : Int)
  | _, _ => 0

/-- The number of objects of the type of column `c`. -/
noncomputable def sizeAt (ot : List Nat) (rows : List (List α)) (c : Nat) : Nat :=
  match ot[c]? with
  | some t => count ot rows t
  | none => 0

/-- What `get_event_array` computes from. -/
lemma fitted_view (mk : Int → γ) (env : γ) (r : Rec K α φ ε γ θ V) {d : EventData α φ ε} {rows : List (List α)} (hd : d.Holds rows)
    {a b : Int} {c0 c1 t0 t1 : Nat} (ht0 : d.eventOtypes[c0]? = some t0) (ht1 : d.eventOtypes[c1]? = some t1) :
    (fittedInfo mk env r d rows (some [a, b]) [c0, c1]).view.event =
      rows.map (fun row => [idAt d.eventOtypes rows row c0, idAt d.eventOtypes rows row c1]) ∧
    (fittedInfo mk env r d rows (some [a, b]) [c0, c1]).view.nObjects =
      [sizeAt d.eventOtypes rows c0, sizeAt d.eventOtypes rows c1] := by
  have l0 := (List.getElem?_eq_some_iff.1 ht0).1
  have l1 := (List.getElem?_eq_some_iff.1 ht1).1
  constructor
  · simp only [Rec.view, fittedInfo, Option.getD_some]
    refine List.map_congr_left fun row hr => ?_
    have hl := hd.reg row hr
    obtain ⟨x, hx⟩ : ∃ x, row[c0]? = some x := ⟨_, List.getElem?_eq_getElem (by omega)⟩
    obtain ⟨y, hy⟩ : ∃ y, row[c1]? = some y := ⟨_, List.getElem?_eq_getElem (by omega)⟩
    have e0 := EventData.encodeRow_getElem? d.eventOtypes rows row c0 t0 x ht0 hx
    have e1 := EventData.encodeRow_getElem? d.eventOtypes rows row c1 t1 y ht1 hy
    simp only [gather, List.filterMap_cons, List.filterMap_nil, e0, e1, idAt, ht0, ht1, hx, hy]
  · simp only [Rec.view, fittedInfo, sizeAt, ht0, ht1]
    rw [← length_ids, ← length_ids]
    have g0 : (d.eventOtypes.map (fun t => (ids d.eventOtypes rows t).length))[c0]? =
        some (ids d.eventOtypes rows t0).length := by simp [ht0]
    have g1 : (d.eventOtypes.map (fun t => (ids d.eventOtypes rows t).length))[c1]? =
        some (ids d.eventOtypes rows t1).length := by simp [ht1]
    simp only [gather, List.filterMap_cons, List.filterMap_nil, g0, g1]

lemma picked_column {rows : List (List α)} (g : List α → Nat → Int) {c0 c1 A : Nat} {a : Int} (h : Picks c0 c1 a A) :
    (rows.map (fun row => [g row c0, g row c1])).mapM (fun row => npGet row a) = .ok (rows.map (fun row => g row A)) := by
  rw [mapM_map]
  exact mapM_ok rows (fun row _ => (npGet_pair _ _ _ _).2 (h.map (g row)))

lemma picked_column_iff {rows : List (List α)} (hne : rows ≠ []) (g : List α → Nat → Int) {c0 c1 : Nat} {a : Int} {us : List Int}
    (h : (rows.map (fun row => [g row c0, g row c1])).mapM (fun row => npGet row a) = .ok us) : ∃ A, Picks c0 c1 a A := by
  obtain ⟨r, rest, rfl⟩ := List.exists_cons_of_ne_nil hne
  rw [List.map_cons, List.mapM_cons] at h
  cases hr : npGet [g r c0, g r c1] a with
  | error e => rw [hr] at h; cases h
  | ok z => exact ((npGet_pair _ _ _ _).1 hr).some c0 c1

lemma room_iff {d : EventData α φ ε} {rows : List (List α)} (hd : d.Holds rows) {A C s u : Nat} (hs : d.eventOtypes[A]? = some s)
    (hu : d.eventOtypes[C]? = some u) :
    HasRoom d.eventOtypes rows A C ↔
      ∀ row ∈ rows, 0 ≤ idAt d.eventOtypes rows row A ∧ idAt d.eventOtypes rows row A < (sizeAt d.eventOtypes rows C : Int) := by
  have la := (List.getElem?_eq_some_iff.1 hs).1
  constructor
  · intro h row hr
    have hl := hd.reg row hr
    obtain ⟨x, hx⟩ : ∃ x, row[A]? = some x := ⟨_, List.getElem?_eq_getElem (by omega)⟩
    have := h s u hs hu row hr x hx
    rw [← idxOf_ids _ _ _ _ ⟨row, hr, A, hs, hx⟩] at this
    simp only [idAt, sizeAt, hs, hu, hx]
    omega
  · intro h s' u' hs' hu' row hr x hx
    rw [hs] at hs'; cases hs'
    rw [hu] at hu'; cases hu'
    have := (h row hr).2
    simp only [idAt, sizeAt, hs, hu, hx] at this
    rw [← idxOf_ids _ _ _ _ ⟨row, hr, A, hs, hx⟩]
    omega

/-! ### Theorems -/

/-- C38: for every layout and every index `(a, b)` of two columns `c0` and `c1`, of types `t0` and `t1`.  The index is applied to the
selected columns a second time, so the matrix counts the pairs of the columns `A` and `B` that `a` and `b` pick out of `c0` and `c1`;
and the types are used as positions, so its shape is the numbers of objects of the columns that `t0` and `t1` pick.  It exists
exactly when these can be picked and the pairs have room. -/
theorem C38_exact (mk : Int → γ) (env : γ) (r : Rec K α φ ε γ θ V) {d : EventData α φ ε} {rows : List (List α)} (h : Built d rows)
    (hne : rows ≠ []) {a b : Int} {c0 c1 t0 t1 : Nat} (hix : columnsOf d (some [a, b]) = .ok [c0, c1])
    (ht0 : d.eventOtypes[c0]? = some t0) (ht1 : d.eventOtypes[c1]? = some t1) {r' : Rec K α φ ε γ θ V}
    (hfit : Rec.eventFit mk env r d (some [a, b]) = .ok r') :
    ((∃ m ns, getEventArray r'.view = .ok (m, ns)) ↔ ∃ A B C D, Picks c0 c1 a A ∧ Picks c0 c1 b B ∧ Picks c0 c1 (t0 : Int) C ∧
      Picks c0 c1 (t1 : Int) D ∧ HasRoom d.eventOtypes rows A C ∧ HasRoom d.eventOtypes rows B D) ∧
    ∀ m ns A B C D s t u v, getEventArray r'.view = .ok (m, ns) → Picks c0 c1 a A → Picks c0 c1 b B → Picks c0 c1 (t0 : Int) C →
      Picks c0 c1 (t1 : Int) D → d.eventOtypes[A]? = some s → d.eventOtypes[B]? = some t → d.eventOtypes[C]? = some u →
      d.eventOtypes[D]? = some v →
      ns = [count d.eventOtypes rows u, count d.eventOtypes rows v] ∧ m.length = count d.eventOtypes rows u ∧
      (∀ mr ∈ m, mr.length = count d.eventOtypes rows v) ∧
      ∀ x y, IsObject d.eventOtypes rows s x → IsObject d.eventOtypes rows t y → rank d.eventOtypes rows s x < count d.eventOtypes rows u →
        rank d.eventOtypes rows t y < count d.eventOtypes rows v →
        ∃ mr, m[rank d.eventOtypes rows s x]? = some mr ∧ mr[rank d.eventOtypes rows t y]? =
          some (rows.countP (fun row => decide (row[A]? = some x ∧ row[B]? = some y))) := by
  have hd := h.holds
  rw [eventFit_eq mk env r hd _ _ hix] at hfit
  simp only [Except.ok.injEq] at hfit
  subst hfit
  obtain ⟨hev, hn⟩ := fitted_view mk env r hd (a := a) (b := b) ht0 ht1
  have hts : npTake (fittedInfo mk env r d rows (some [a, b]) [c0, c1]).view.eventOtypes [a, b] = .ok [t0, t1] := by
    have hot : (fittedInfo mk env r d rows (some [a, b]) [c0, c1]).view.eventOtypes = d.eventOtypes := rfl
    rw [hot, npTake_positions d.eventOtypes [a, b] [c0, c1] (by rw [hd.wf.len_otypes]; exact hix)]
    simp [gather, ht0, ht1]
  have hei : (fittedInfo mk env r d rows (some [a, b]) [c0, c1]).view.eventIndex = [a, b] := rfl
  have g0 : npGet ([a, b] : List Int) 0 = .ok a := rfl
  have g1 : npGet ([a, b] : List Int) 1 = .ok b := rfl
  -- the value
  have value : ∀ A B C D, Picks c0 c1 a A → Picks c0 c1 b B → Picks c0 c1 (t0 : Int) C → Picks c0 c1 (t1 : Int) D →
      getEventArray (fittedInfo mk env r d rows (some [a, b]) [c0, c1]).view =
        if (rows.map (fun row => (idAt d.eventOtypes rows row A, idAt d.eventOtypes rows row B))).all (fun p =>
            decide (0 ≤ p.1 ∧ p.1 < (sizeAt d.eventOtypes rows C : Int) ∧ 0 ≤ p.2 ∧ p.2 < (sizeAt d.eventOtypes rows D : Int))) then
          .ok ((List.range (sizeAt d.eventOtypes rows C)).map (fun (u : Nat) => (List.range (sizeAt d.eventOtypes rows D)).map (fun (i : Nat) =>
            (rows.map (fun row => (idAt d.eventOtypes rows row A, idAt d.eventOtypes rows row B))).countP
              (fun p => decide (p.1 = (u : Int) ∧ p.2 = (i : Int))))), [sizeAt d.eventOtypes rows C, sizeAt d.eventOtypes rows D])
        else .error .valueError := by
    intro A B C D hA hB hC hD
    have hns : npTake [sizeAt d.eventOtypes rows c0, sizeAt d.eventOtypes rows c1] ([t0, t1].map Int.ofNat) =
        .ok [sizeAt d.eventOtypes rows C, sizeAt d.eventOtypes rows D] := by
      unfold npTake
      have e0 := (npGet_pair _ _ _ _).2 (hC.map (sizeAt d.eventOtypes rows))
      have e1 := (npGet_pair _ _ _ _).2 (hD.map (sizeAt d.eventOtypes rows))
      simp only [List.map_cons, List.map_nil, List.mapM_cons, List.mapM_nil, Int.ofNat_eq_natCast, e0, e1, bind, Except.bind, pure, Except.pure]
    have hu := picked_column (rows := rows) (idAt d.eventOtypes rows) hA
    have hi := picked_column (rows := rows) (idAt d.eventOtypes rows) hB
    have hzip : (rows.map (fun row => idAt d.eventOtypes rows row A)).zip (rows.map (fun row => idAt d.eventOtypes rows row B)) =
        rows.map (fun row => (idAt d.eventOtypes rows row A, idAt d.eventOtypes rows row B)) := by
      rw [List.zip_map']
    unfold getEventArray
    rw [hev, hn, hei, hts]
    simp only [bind, Except.bind, hns, g0, g1, hu, hi, hzip, pure, Except.pure]
  have lt : ∀ {A i}, Picks c0 c1 i A → ∃ s, d.eventOtypes[A]? = some s := by
    intro A i hA
    rcases hA.or with rfl | rfl
    · exact ⟨_, ht0⟩
    · exact ⟨_, ht1⟩
  have room : ∀ A B C D, Picks c0 c1 a A → Picks c0 c1 b B → Picks c0 c1 (t0 : Int) C → Picks c0 c1 (t1 : Int) D →
      ((rows.map (fun row => (idAt d.eventOtypes rows row A, idAt d.eventOtypes rows row B))).all (fun p =>
            decide (0 ≤ p.1 ∧ p.1 < (sizeAt d.eventOtypes rows C : Int) ∧ 0 ≤ p.2 ∧ p.2 < (sizeAt d.eventOtypes rows D : Int))) = true ↔
        HasRoom d.eventOtypes rows A C ∧ HasRoom d.eventOtypes rows B D) := by
    intro A B C D hA hB hC hD
    obtain ⟨_, eA⟩ := lt hA
    obtain ⟨_, eB⟩ := lt hB
    obtain ⟨_, eC⟩ := lt hC
    obtain ⟨_, eD⟩ := lt hD
    rw [room_iff hd eA eC, room_iff hd eB eD, List.all_eq_true]
    constructor
    · intro k
      refine ⟨fun row hr => ?_, fun row hr => ?_⟩
      · have := k _ (List.mem_map.2 ⟨row, hr, rfl⟩)
        simp only [decide_eq_true_eq] at this
        exact ⟨this.1, this.2.1⟩
      · have := k _ (List.mem_map.2 ⟨row, hr, rfl⟩)
        simp only [decide_eq_true_eq] at this
        exact this.2.2
    · rintro ⟨k1, k2⟩ p hp
      obtain ⟨row, hr, rfl⟩ := List.mem_map.1 hp
      simp only [decide_eq_true_eq]
      exact ⟨(k1 row hr).1, (k1 row hr).2, k2 row hr⟩
  refine ⟨⟨?_, ?_⟩, ?_⟩
  · rintro ⟨m, ns, hm⟩
    have hm0 := hm
    unfold getEventArray at hm
    rw [hev, hn, hei, hts] at hm
    obtain ⟨_, e0, hm⟩ := bind_ok hm
    cases e0
    obtain ⟨sizes, e1, hm⟩ := bind_ok hm
    rw [g0, g1] at hm
    obtain ⟨_, e2, hm⟩ := bind_ok hm
    cases e2
    obtain ⟨_, e3, hm⟩ := bind_ok hm
    cases e3
    obtain ⟨us, e4, hm⟩ := bind_ok hm
    obtain ⟨is, e5, hm⟩ := bind_ok hm
    obtain ⟨A, hA⟩ := picked_column_iff hne _ e4
    obtain ⟨B, hB⟩ := picked_column_iff hne _ e5
    unfold npTake at e1
    simp only [List.map_cons, List.map_nil, List.mapM_cons, List.mapM_nil, Int.ofNat_eq_natCast] at e1
    obtain ⟨z0, f0, e1⟩ := bind_ok e1
    obtain ⟨_, f1, e1⟩ := bind_ok e1
    obtain ⟨z1, f2, _⟩ := bind_ok f1
    obtain ⟨C, hC⟩ := ((npGet_pair _ _ _ _).1 f0).some c0 c1
    obtain ⟨D, hD⟩ := ((npGet_pair _ _ _ _).1 f2).some c0 c1
    rw [value A B C D hA hB hC hD] at hm0
    split at hm0
    · rename_i hall
      obtain ⟨k1, k2⟩ := (room A B C D hA hB hC hD).1 hall
      exact ⟨A, B, C, D, hA, hB, hC, hD, k1, k2⟩
    · cases hm0
  · rintro ⟨A, B, C, D, hA, hB, hC, hD, k1, k2⟩
    rw [value A B C D hA hB hC hD, if_pos ((room A B C D hA hB hC hD).2 ⟨k1, k2⟩)]
    exact ⟨_, _, rfl⟩
  · intro m ns A B C D s t u v hm hA hB hC hD hs ht hu hv
    rw [value A B C D hA hB hC hD] at hm
    have sC : sizeAt d.eventOtypes rows C = count d.eventOtypes rows u := by simp [sizeAt, hu]
    have sD : sizeAt d.eventOtypes rows D = count d.eventOtypes rows v := by simp [sizeAt, hv]
    split at hm
    · rw [sC, sD] at hm
      cases hm
      refine ⟨rfl, by simp, ?_, ?_⟩
      · intro mr hmr
        obtain ⟨w, _, rfl⟩ := List.mem_map.1 hmr
        simp
      · intro x y ox oy lx ly
        refine ⟨_, by rw [List.getElem?_map, List.getElem?_range lx]; rfl, ?_⟩
        rw [List.getElem?_map, List.getElem?_range ly]
        simp only [Option.map_some, Option.some.injEq]
        rw [List.countP_map]
        apply List.countP_congr
        intro row hr
        have hl := hd.reg row hr
        have la := (List.getElem?_eq_some_iff.1 hs).1
        have lb := (List.getElem?_eq_some_iff.1 ht).1
        obtain ⟨x', hx⟩ : ∃ x', row[A]? = some x' := ⟨_, List.getElem?_eq_getElem (by omega)⟩
        obtain ⟨y', hy⟩ : ∃ y', row[B]? = some y' := ⟨_, List.getElem?_eq_getElem (by omega)⟩
        have ox' : IsObject d.eventOtypes rows s x' := ⟨row, hr, A, hs, hx⟩
        have oy' : IsObject d.eventOtypes rows t y' := ⟨row, hr, B, ht, hy⟩
        rw [← idxOf_ids _ _ _ _ ox, ← idxOf_ids _ _ _ _ oy]
        simp only [Function.comp, decide_eq_true_eq, idAt, hs, ht, hx, hy, Option.some.injEq]
        constructor
        · rintro ⟨e1, e2⟩
          exact ⟨(List.idxOf_inj ((mem_ids _ _ _ _).2 ox')).1 (by exact_mod_cast e1),
            (List.idxOf_inj ((mem_ids _ _ _ _).2 oy')).1 (by exact_mod_cast e2)⟩
        · rintro ⟨rfl, rfl⟩
          exact ⟨rfl, rfl⟩
    · cases hm

/-- C38: for users in the first and items in the second column and the default index, the matrix is the claimed one exactly when no
pair is repeated. -/
theorem C38_binary_iff (mk : Int → γ) (env : γ) (r : Rec K α φ ε γ θ V) {d : EventData α φ ε}
    {rows : List (List α)} (h : Built d rows) (h0 : d.eventOtypes[0]? = some 0) (h1 : d.eventOtypes[1]? = some 1)
    {r' : Rec K α φ ε γ θ V} (hfit : Rec.eventFit mk env r d (some [0, 1]) = .ok r') :
    (∃ m ns, getEventArray r'.view = .ok (m, ns) ∧ BinaryMatrix d rows 0 1 m) ↔ (rows.map (fun row => row.take 2)).Nodup := by
  constructor
  · rintro ⟨m, ns, hm, hb⟩
    obtain ⟨m', hm', _, _, hc⟩ := C38_counts_partial mk env r h h0 h1 hfit
    rw [hm] at hm'
    cases hm'
    rw [List.nodup_iff_count_le_one]
    intro p
    by_contra hcon
    have hmem : p ∈ rows.map (fun row => row.take 2) := List.count_pos_iff.1 (by omega)
    obtain ⟨row, hr, rfl⟩ := List.mem_map.1 hmem
    have hl := h.holds.reg row hr
    have l1 := (List.getElem?_eq_some_iff.1 h1).1
    match row, hl with
    | [], hl => simp at hl; omega
    | [_], hl => simp at hl; omega
    | x :: y :: rest, _ =>
      obtain ⟨_, _, hb⟩ := hb 0 1 h0 h1
      have ox : IsObject d.eventOtypes rows 0 x := ⟨_, hr, 0, h0, rfl⟩
      have oy : IsObject d.eventOtypes rows 1 y := ⟨_, hr, 1, h1, rfl⟩
      obtain ⟨mr, e1, e2, _⟩ := hb x y ox oy
      obtain ⟨mr', e3, e4⟩ := hc x y ox oy
      rw [e1] at e3
      cases e3
      rw [e2 ⟨_, hr, rfl, rfl⟩] at e4
      have e : rows.countP (fun row => decide (row[0]? = some x ∧ row[1]? = some y)) =
          (rows.map (fun row => row.take 2)).count [x, y] := by
        rw [List.count, List.countP_map]
        apply List.countP_congr
        intro row' _
        simp only [decide_eq_true_eq, Function.comp, beq_iff_eq]
        match row' with
        | [] => simp
        | [a] => simp
        | a :: b :: rs => simp
      rw [e] at e4
      simp only [Option.some.injEq] at e4
      simp only [List.take_succ_cons, List.take_zero] at hcon
      omega
  · intro hnd
    exact C38_binary_partial mk env r h h0 h1 hnd hfit

/-- C38: with the columns exchanged, `event_index=(1, 0)`, the matrix has the users as rows all the same: the second application of
the index undoes the first. -/
theorem C38_exchanged (mk : Int → γ) (env : γ) (r : Rec K α φ ε γ θ V) {d : EventData α φ ε} {rows : List (List α)} (h : Built d rows)
    (hne : rows ≠ []) (hot : d.eventOtypes = [0, 1]) {r' : Rec K α φ ε γ θ V}
    (hfit : Rec.eventFit mk env r d (some [1, 0]) = .ok r') :
    ∃ m, getEventArray r'.view = .ok (m, [count [0, 1] rows 0, count [0, 1] rows 1]) ∧
      ∀ x y, IsObject [0, 1] rows 0 x → IsObject [0, 1] rows 1 y → ∃ mr, m[rank [0, 1] rows 0 x]? = some mr ∧
        mr[rank [0, 1] rows 1 y]? = some (rows.countP (fun row => decide (row[0]? = some x ∧ row[1]? = some y))) := by
  have hs : d.sEvent = 2 := by rw [← h.holds.wf.len_otypes, hot]; rfl
  have hix : columnsOf d (some [1, 0]) = .ok [1, 0] := by
    have := positions_nat [1, 0] d.sEvent (by simp [hs])
    exact this
  obtain ⟨e1, e2⟩ := C38_exact mk env r h hne hix (by rw [hot]; rfl) (by rw [hot]; rfl) hfit
  rw [hot] at e1 e2
  have room : ∀ A s, ([0, 1] : List Nat)[A]? = some s → HasRoom [0, 1] rows A A := by
    intro A s hA s' u' hs' hu' row hr x hx
    rw [hs'] at hu'
    cases hu'
    exact rank_lt_count ⟨row, hr, A, hs', hx⟩
  obtain ⟨m, ns, hm⟩ := e1.2 ⟨0, 1, 0, 1, .second, .first, .second, .first, room 0 0 rfl, room 1 1 rfl⟩
  obtain ⟨rfl, _, _, k⟩ := e2 m ns 0 1 0 1 0 1 0 1 hm .second .first .second .first rfl rfl rfl rfl
  exact ⟨m, hm, fun x y ox oy => k x y ox oy (rank_lt_count ox) (rank_lt_count oy)⟩

/-- C38: with the items in the first column and the users in the second, the matrix exists exactly when there are as many users as
items. -/
theorem C38_items_first (mk : Int → γ) (env : γ) (r : Rec K α φ ε γ θ V) {d : EventData α φ ε} {rows : List (List α)} (h : Built d rows)
    (hne : rows ≠ []) (hot : d.eventOtypes = [1, 0]) {r' : Rec K α φ ε γ θ V}
    (hfit : Rec.eventFit mk env r d (some [0, 1]) = .ok r') :
    (∃ m ns, getEventArray r'.view = .ok (m, ns)) ↔ count [1, 0] rows 0 = count [1, 0] rows 1 := by
  have hs : d.sEvent = 2 := by rw [← h.holds.wf.len_otypes, hot]; rfl
  have hix : columnsOf d (some [0, 1]) = .ok [0, 1] := positions_nat [0, 1] d.sEvent (by simp [hs])
  obtain ⟨e1, _⟩ := C38_exact mk env r h hne hix (by rw [hot]; rfl) (by rw [hot]; rfl) hfit
  rw [hot] at e1
  rw [e1]
  -- the last object of a type is in the column of that type
  have full : ∀ (A s : Nat), ([1, 0] : List Nat)[A]? = some s → ∀ u C, ([1, 0] : List Nat)[C]? = some u →
      HasRoom [1, 0] rows A C → count [1, 0] rows s ≤ count [1, 0] rows u := by
    intro A s hA u C hC k
    have hlast : ∃ x, IsObject [1, 0] rows s x ∧ rank [1, 0] rows s x + 1 = count [1, 0] rows s := by
      have hpos : 0 < (ids [1, 0] rows s).length := by
        obtain ⟨row, rest, e⟩ := List.exists_cons_of_ne_nil hne
        have hr : row ∈ rows := by rw [e]; simp
        have hl := h.holds.reg row hr
        rw [hot] at hl
        obtain ⟨lA, _⟩ := List.getElem?_eq_some_iff.1 hA
        have : (row[A]'(by rw [hl]; exact lA)) ∈ ids [1, 0] rows s :=
          (mem_ids _ _ _ _).2 ⟨row, hr, A, hA, List.getElem?_eq_getElem _⟩
        exact List.length_pos_of_mem this
      have hlt : (ids [1, 0] rows s).length - 1 < (ids [1, 0] rows s).length := by omega
      refine ⟨(ids [1, 0] rows s)[(ids [1, 0] rows s).length - 1], (mem_ids _ _ _ _).1 (List.getElem_mem hlt), ?_⟩
      rw [← idxOf_ids _ _ _ _ ((mem_ids _ _ _ _).1 (List.getElem_mem hlt)), (nodup_ids _ _ _).idxOf_getElem, ← length_ids]
      omega
    obtain ⟨x, ⟨row, hr, e, he, hx⟩, hrank⟩ := hlast
    have hAe : A = e := by
      match A, e, hA, he with
      | 0, 0, _, _ => rfl
      | 1, 1, _, _ => rfl
      | 0, 1, hA, he => cases hA; cases he
      | 1, 0, hA, he => cases hA; cases he
      | n + 2, _, hA, _ => simp at hA
      | _, n + 2, _, he => simp at he
    subst hAe
    have := k s u hA hC row hr x hx
    omega
  constructor
  · rintro ⟨A, B, C, D, hA, hB, hC, hD, k1, k2⟩
    cases hA
    cases hB
    cases hC
    cases hD
    have f1 := full 0 1 rfl 0 1 rfl k1
    have f2 := full 1 0 rfl 1 0 rfl k2
    omega
  · intro he
    refine ⟨0, 1, 1, 0, .first, .second, .second, .first, ?_, ?_⟩
    · intro s u hs hu row hr x hx
      cases hs
      cases hu
      rw [he]
      exact rank_lt_count ⟨row, hr, 0, rfl, hx⟩
    · intro s u hs hu row hr x hx
      cases hs
      cases hu
      rw [← he]
      exact rank_lt_count ⟨row, hr, 1, rfl, hx⟩

/-- The hypotheses of `C38_exchanged` and, with the index exchanged, of `C38_exact`. -/
example : Built exPair [[1, 10], [2, 10]] ∧ exPair.eventOtypes = [0, 1] ∧ columnsOf exPair (some [1, 0]) = .ok [1, 0] ∧
    ∃ r', Rec.eventFit (fun _ => ()) () exRec exPair (some [1, 0]) = .ok r' ∧ getEventArray r'.view = .ok ([[1], [1]], [2, 1]) :=
  ⟨exPair_built, rfl, rfl, _, rfl, rfl⟩

/-- Two items, 10 and 11, of user 1, the item in front. -/
def exItemsFirst : EventData Nat Nat Nat :=
  (⟨2, [0, 0], [none, none], [none, none], [none, none], 2, [1, 0], 0, none, none⟩ :
    EventData Nat Nat Nat).loaded [[10, 1], [11, 1]] none

theorem exItemsFirst_built : Built exItemsFirst [[10, 1], [11, 1]] :=
  .load (d0 := ⟨2, [0, 0], [none, none], [none, none], [none, none], 2, [1, 0], 0, none, none⟩)
    (event := ⟨2, [[10, 1], [11, 1]]⟩) (ef := none)
    (.init (n := 2) (arg := .arr 1 [1, 0]) rfl)
    (by intro r hr; simp only [List.mem_cons, List.not_mem_nil, or_false] at hr
        rcases hr with rfl | rfl <;> rfl)
    (by rintro f ⟨⟩)
    (EventData.setEvent_eq _ (Reachable.init (n := 2) (arg := .arr 1 [1, 0]) rfl).wf _
      (by intro r hr; simp only [List.mem_cons, List.not_mem_nil, or_false] at hr
          rcases hr with rfl | rfl <;> rfl) rfl _)

/-- The hypotheses of `C38_items_first`, for data on which the matrix does not exist. -/
example : Built exItemsFirst [[10, 1], [11, 1]] ∧ exItemsFirst.eventOtypes = [1, 0] ∧
    ∃ r', Rec.eventFit (fun _ => ()) () exRec exItemsFirst (some [0, 1]) = .ok r' ∧ getEventArray r'.view = .error .valueError :=
  ⟨exItemsFirst_built, rfl, _, rfl, rfl⟩

end Kam

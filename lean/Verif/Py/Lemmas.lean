/-
Lemmas about the Python / numpy primitives.
-/
import Verif.Py.Basic
import Mathlib.Data.List.Sort
import Mathlib.Data.List.Nodup
import Mathlib.Data.Set.Card
import Mathlib.Tactic.Ring

namespace Kam

/-! ### Except -/

theorem mapM_ok {ε α β : Type} {f : α → Except ε β} {g : α → β} (l : List α)
    (h : ∀ x ∈ l, f x = .ok (g x)) : l.mapM f = .ok (l.map g) := by
  induction l with
  | nil => rfl
  | cons x xs ih =>
    have hx := h x (by simp)
    have hxs := ih (fun y hy => h y (by simp [hy]))
    simp only [List.mapM_cons, hx, hxs, List.map_cons]
    rfl

theorem mapM_congr {ε α β : Type} {f g : α → Except ε β} (l : List α)
    (h : ∀ x ∈ l, f x = g x) : l.mapM f = l.mapM g := by
  induction l with
  | nil => rfl
  | cons x xs ih =>
    simp only [List.mapM_cons, h x (by simp), ih (fun y hy => h y (by simp [hy]))]

theorem mapM_map {ε α β γ : Type} (f : β → Except ε γ) (g : α → β) (l : List α) :
    (l.map g).mapM f = l.mapM (fun x => f (g x)) := by
  induction l with
  | nil => rfl
  | cons x xs ih => simp only [List.map_cons, List.mapM_cons, ih]

theorem mapM_ok_length {ε α β : Type} {f : α → Except ε β} {l : List α} {r : List β}
    (h : l.mapM f = .ok r) : r.length = l.length := by
  induction l generalizing r with
  | nil =>
    have : r = [] := by simpa [pure, Except.pure, eq_comm] using h
    simp [this]
  | cons x xs ih =>
    simp only [List.mapM_cons] at h
    cases hx : f x with
    | error e => simp [hx, bind, Except.bind] at h
    | ok y =>
      cases hxs : xs.mapM f with
      | error e => simp [hx, hxs, bind, Except.bind] at h
      | ok ys =>
        simp only [hx, hxs, bind, Except.bind, pure, Except.pure, Except.ok.injEq] at h
        subst h
        simp [ih hxs]

theorem mapM_ok_iff {ε α β : Type} {f : α → Except ε β} {l : List α} {r : List β} :
    l.mapM f = .ok r ↔ List.Forall₂ (fun x y => f x = .ok y) l r := by
  induction l generalizing r with
  | nil =>
    simp [pure, Except.pure, eq_comm]
  | cons x xs ih =>
    simp only [List.mapM_cons]
    cases hx : f x with
    | error e =>
      simp only [bind, Except.bind]
      constructor
      · intro h; cases h
      · intro h; cases h with | cons h1 _ => rw [hx] at h1; cases h1
    | ok y =>
      cases hxs : xs.mapM f with
      | error e =>
        simp only [bind, Except.bind]
        constructor
        · intro h; cases h
        · intro h
          cases h with
          | cons _ h2 => rw [← ih] at h2; rw [hxs] at h2; cases h2
      | ok ys =>
        simp only [bind, Except.bind, pure, Except.pure, Except.ok.injEq]
        constructor
        · intro h; subst h
          exact .cons hx (ih.1 hxs)
        · intro h
          cases h with
          | cons h1 h2 =>
            rw [hx] at h1
            rw [← ih, hxs] at h2
            simp only [Except.ok.injEq] at h1 h2
            rw [h1, h2]

/-! ### npUnique -/

section unique
variable {α : Type} [LinearOrder α]

theorem mem_insertUniq (x y : α) (l : List α) : y ∈ insertUniq x l ↔ y = x ∨ y ∈ l := by
  induction l with
  | nil => simp [insertUniq]
  | cons z zs ih =>
    unfold insertUniq
    split
    · simp
    · split
      · rename_i h; subst h; simp
      · simp only [List.mem_cons, ih]; tauto

theorem sorted_insertUniq (x : α) (l : List α) (h : l.Pairwise (· < ·)) :
    (insertUniq x l).Pairwise (· < ·) := by
  induction l with
  | nil => simp [insertUniq]
  | cons z zs ih =>
    rw [List.pairwise_cons] at h
    unfold insertUniq
    split
    · rename_i hxz
      rw [List.pairwise_cons, List.pairwise_cons]
      refine ⟨?_, h⟩
      intro a ha
      rcases List.mem_cons.1 ha with rfl | ha
      · exact hxz
      · exact lt_trans hxz (h.1 a ha)
    · split
      · exact List.pairwise_cons.2 h
      · rename_i h1 h2
        rw [List.pairwise_cons]
        refine ⟨?_, ih h.2⟩
        intro a ha
        rcases (mem_insertUniq x a zs).1 ha with rfl | ha
        · exact lt_of_le_of_ne (not_lt.1 h1) (fun e => h2 e.symm)
        · exact h.1 a ha

@[simp] theorem mem_npUnique (y : α) (l : List α) : y ∈ npUnique l ↔ y ∈ l := by
  induction l with
  | nil => simp [npUnique]
  | cons x xs ih =>
    change y ∈ insertUniq x (npUnique xs) ↔ _
    rw [mem_insertUniq, ih, List.mem_cons]

theorem sorted_npUnique (l : List α) : (npUnique l).Pairwise (· < ·) := by
  induction l with
  | nil => simp [npUnique]
  | cons x xs ih => exact sorted_insertUniq x _ ih

theorem nodup_npUnique (l : List α) : (npUnique l).Nodup :=
  (sorted_npUnique l).imp (fun h => ne_of_lt h)

/-- Strictly increasing lists are determined by their members. -/
theorem eq_of_sorted_of_mem {l l' : List α} (h : l.Pairwise (· < ·)) (h' : l'.Pairwise (· < ·))
    (hm : ∀ x, x ∈ l ↔ x ∈ l') : l = l' := by
  have hp : l.Perm l' := by
    rw [List.perm_ext_iff_of_nodup]
    · exact hm
    · exact h.imp (fun h => ne_of_lt h)
    · exact h'.imp (fun h => ne_of_lt h)
  exact List.Perm.eq_of_pairwise (le := fun a b => a < b)
    (fun a b _ _ hab hba => absurd hab (lt_asymm hba)) h h' hp

theorem npUnique_eq_of_mem {l l' : List α} (hm : ∀ x, x ∈ l ↔ x ∈ l') :
    npUnique l = npUnique l' :=
  eq_of_sorted_of_mem (sorted_npUnique _) (sorted_npUnique _) (by simpa using hm)

theorem npUnique_map {β : Type} [LinearOrder β] {f : α → β} {l : List α}
    (hf : ∀ x ∈ l, ∀ y ∈ l, x < y → f x < f y) : npUnique (l.map f) = (npUnique l).map f := by
  apply eq_of_sorted_of_mem (sorted_npUnique _)
  · rw [List.pairwise_map]
    refine (sorted_npUnique l).imp_of_mem ?_
    intro a b ha hb hab
    exact hf a (by simpa using ha) b (by simpa using hb) hab
  · intro x; simp

/-- In a strictly increasing list the position of an element is the number of smaller
elements. -/
theorem idxOf_eq_ncard {l : List α} (h : l.Pairwise (· < ·)) {x : α} (hx : x ∈ l) :
    l.idxOf x = {y | y ∈ l ∧ y < x}.ncard := by
  have hnd : l.Nodup := h.imp (fun h => ne_of_lt h)
  have hlt : l.idxOf x < l.length := List.idxOf_lt_length_iff.2 hx
  have hset : {y | y ∈ l ∧ y < x} = ((l.take (l.idxOf x)).toFinset : Set α) := by
    ext y
    simp only [Set.mem_ofPred_eq, List.coe_toFinset]
    constructor
    · rintro ⟨hy, hyx⟩
      rw [List.mem_take_iff_getElem]
      have hy' : l.idxOf y < l.length := List.idxOf_lt_length_iff.2 hy
      refine ⟨l.idxOf y, ?_, List.getElem_idxOf hy'⟩
      rw [Nat.lt_min]
      refine ⟨?_, hy'⟩
      by_contra hge
      have hge : l.idxOf x ≤ l.idxOf y := Nat.le_of_not_lt hge
      rcases Nat.lt_or_eq_of_le hge with hlt' | heq
      · have := List.pairwise_iff_getElem.1 h _ _ hlt hy' hlt'
        rw [List.getElem_idxOf, List.getElem_idxOf] at this
        exact absurd hyx (lt_asymm this)
      · have : x = y := (List.idxOf_inj hx).1 heq
        subst this
        exact lt_irrefl _ hyx
    · intro hy
      rw [List.mem_take_iff_getElem] at hy
      obtain ⟨i, hi, rfl⟩ := hy
      have hi' : i < l.idxOf x := (Nat.lt_min.1 hi).1
      refine ⟨List.getElem_mem _, ?_⟩
      have := List.pairwise_iff_getElem.1 h _ _ (lt_trans hi' hlt) hlt hi'
      rwa [List.getElem_idxOf] at this
  rw [hset, Set.ncard_coe_finset, List.toFinset_card_of_nodup (hnd.sublist (List.take_sublist _ _)),
    List.length_take]
  omega

theorem idxOf_lt_idxOf {l : List α} (h : l.Pairwise (· < ·)) {x y : α} (hx : x ∈ l) (hy : y ∈ l)
    (hxy : x < y) : l.idxOf x < l.idxOf y := by
  by_contra hge
  have hx' : l.idxOf x < l.length := List.idxOf_lt_length_iff.2 hx
  have hy' : l.idxOf y < l.length := List.idxOf_lt_length_iff.2 hy
  rcases Nat.lt_or_eq_of_le (Nat.le_of_not_lt hge) with hlt' | heq
  · have := List.pairwise_iff_getElem.1 h _ _ hy' hx' hlt'
    rw [List.getElem_idxOf, List.getElem_idxOf] at this
    exact absurd hxy (lt_asymm this)
  · have : y = x := (List.idxOf_inj hy).1 heq
    subst this
    exact lt_irrefl _ hxy

end unique

/-! ### dict -/

section dict
variable {κ ν : Type} [DecidableEq κ]

theorem Dict.get?_set (d : Dict κ ν) (k k' : κ) (v : ν) :
    (d.set k v).get? k' = if k = k' then some v else d.get? k' := by
  induction d with
  | nil => simp [Dict.set, Dict.get?]
  | cons p d ih =>
    obtain ⟨k0, v0⟩ := p
    unfold Dict.set
    by_cases h : k0 = k
    · subst h
      simp only [if_true]
      unfold Dict.get?
      by_cases h' : k0 = k' <;> simp [h']
    · simp only [h, if_false]
      unfold Dict.get?
      by_cases h' : k0 = k'
      · subst h'
        simp [Ne.symm h]
      · simp only [h', if_false]
        rw [ih]

theorem Dict.get?_foldl_set (ps : List (κ × ν)) (d : Dict κ ν) (k : κ) :
    (ps.foldl (fun d p => Dict.set d p.1 p.2) d).get? k =
      match (ps.reverse.find? (fun p => p.1 = k)) with
      | some p => some p.2
      | none => d.get? k := by
  induction ps generalizing d with
  | nil => simp
  | cons p ps ih =>
    simp only [List.foldl_cons, ih, List.reverse_cons, List.find?_append]
    cases h : ps.reverse.find? (fun p => decide (p.1 = k)) with
    | some q => simp
    | none =>
      simp only [Dict.get?_set, Option.none_or]
      by_cases hk : p.1 = k <;> simp [hk, List.find?]

theorem Dict.keys_set (d : Dict κ ν) (k : κ) (v : ν) :
    (d.set k v).keys = if k ∈ d.keys then d.keys else d.keys ++ [k] := by
  induction d with
  | nil => simp [Dict.set, Dict.keys]
  | cons p d ih =>
    obtain ⟨k0, v0⟩ := p
    unfold Dict.set
    by_cases h : k0 = k
    · subst h; simp [Dict.keys]
    · simp only [h, if_false]
      have e : Dict.keys ((k0, v0) :: Dict.set d k v) = k0 :: Dict.keys (Dict.set d k v) := rfl
      have e' : Dict.keys ((k0, v0) :: d) = k0 :: Dict.keys d := rfl
      rw [e, e', ih]
      have hk : ¬ k = k0 := fun e => h e.symm
      by_cases hm : k ∈ Dict.keys d <;> simp [hm, hk]

theorem Dict.mem_keys_iff (d : Dict κ ν) (k : κ) : k ∈ d.keys ↔ ∃ v, d.get? k = some v := by
  induction d with
  | nil => simp [Dict.keys, Dict.get?]
  | cons p d ih =>
    obtain ⟨k0, v0⟩ := p
    have e : Dict.keys ((k0, v0) :: d) = k0 :: Dict.keys d := rfl
    have e2 : Dict.get? ((k0, v0) :: d) k = if k0 = k then some v0 else Dict.get? d k := rfl
    rw [e, List.mem_cons, ih, e2]
    by_cases h : k0 = k
    · simp [h]
    · have hk : ¬ k = k0 := fun e => h e.symm
      simp [h, hk]

/-- Comprehension over pairs with distinct keys keeps the pairs as they are. -/
theorem Dict.ofPairs_eq_self (ps : List (κ × ν)) (h : (ps.map (·.1)).Nodup) :
    Dict.ofPairs ps = ps := by
  have key : ∀ (d ps : Dict κ ν), ((d ++ ps).map (·.1)).Nodup →
      ps.foldl (fun d p => Dict.set d p.1 p.2) d = d ++ ps := by
    intro d ps
    induction ps generalizing d with
    | nil => simp
    | cons p ps ih =>
      intro hnd
      simp only [List.foldl_cons]
      have hset : ∀ d : Dict κ ν, p.1 ∉ d.map (·.1) → Dict.set d p.1 p.2 = d ++ [p] := by
        intro d
        induction d with
        | nil => simp [Dict.set]
        | cons q d ihd =>
          intro hq
          simp only [List.map_cons, List.mem_cons, not_or] at hq
          unfold Dict.set
          have : ¬ q.1 = p.1 := fun e => hq.1 e.symm
          obtain ⟨q1, q2⟩ := q
          simp only at this
          simp [this, ihd hq.2]
      have hp : p.1 ∉ d.map (·.1) := by
        intro hmem
        rw [List.map_append, List.nodup_append] at hnd
        exact hnd.2.2 _ hmem _ (by simp) rfl
      rw [hset d hp, ih]
      · simp
      · simpa using hnd
  have := key [] ps (by simpa using h)
  simpa [Dict.ofPairs] using this

theorem Dict.ofPairs_zipIdx (l : List κ) (h : l.Nodup) : Dict.ofPairs l.zipIdx = l.zipIdx := by
  apply Dict.ofPairs_eq_self
  have : (l.zipIdx.map (·.1)) = l := by simp
  rw [this]; exact h

theorem Dict.get?_zipIdx (l : List κ) (k : κ) (n : Nat) :
    Dict.get? (l.zipIdx n) k = if k ∈ l then some (n + l.idxOf k) else none := by
  induction l generalizing n with
  | nil => simp [Dict.get?]
  | cons x xs ih =>
    simp only [List.zipIdx_cons]
    unfold Dict.get?
    by_cases h : x = k
    · subst h; simp
    · have hk : ¬ k = x := fun e => h e.symm
      simp only [h, if_false, ih, List.mem_cons, hk, false_or]
      have hidx : List.idxOf k (x :: xs) = List.idxOf k xs + 1 := by
        rw [List.idxOf_cons_ne _ h]
      by_cases hm : k ∈ xs
      · simp only [hm, if_true, hidx]; congr 1; omega
      · simp [hm]

theorem Dict.get?_ofPairs_zipIdx (l : List κ) (h : l.Nodup) (k : κ) :
    (Dict.ofPairs l.zipIdx).get? k = if k ∈ l then some (l.idxOf k) else none := by
  rw [Dict.ofPairs_zipIdx l h, Dict.get?_zipIdx]; simp

theorem Dict.length_ofPairs_zipIdx (l : List κ) (h : l.Nodup) :
    (Dict.ofPairs l.zipIdx).length = l.length := by
  rw [Dict.ofPairs_zipIdx l h]; simp

end dict

/-! ### indexing -/

theorem npIndex_ofNat {n i : Nat} (h : i < n) : npIndex n (i : Int) = some i := by
  unfold npIndex
  simp [h]

theorem npIndex_lt {n : Nat} {i : Int} {j : Nat} (h : npIndex n i = some j) : j < n := by
  unfold npIndex at h
  split at h
  · split at h
    · simp only [Option.some.injEq] at h; omega
    · cases h
  · split at h
    · simp only [Option.some.injEq] at h; omega
    · cases h

theorem npIndex_isSome_iff (n : Nat) (i : Int) :
    (npIndex n i).isSome ↔ -(n : Int) ≤ i ∧ i < n := by
  unfold npIndex
  split
  · split <;> simp <;> omega
  · split <;> simp <;> omega

theorem npGet_ofNat {β : Type} (a : List β) (i : Nat) (h : i < a.length) :
    npGet a (i : Int) = .ok a[i] := by
  unfold npGet
  rw [npIndex_ofNat h]
  simp [h]

theorem npGet_of_ge {β : Type} (a : List β) (i : Int) (h : (a.length : Int) ≤ i) :
    npGet a i = .error .indexError := by
  unfold npGet npIndex
  have h1 : 0 ≤ i := by omega
  have h2 : ¬ i < a.length := by omega
  simp [h1, h2]

theorem npSet_ofNat {β : Type} (a : List β) (i : Nat) (h : i < a.length) (v : β) :
    npSet a (i : Int) v = .ok (a.set i v) := by
  unfold npSet
  rw [npIndex_ofNat h]

/-! ### gather, masks -/

theorem gather_map {β γ : Type} (f : β → γ) (a : List β) (js : List Nat) :
    gather (a.map f) js = (gather a js).map f := by
  unfold gather
  rw [List.map_filterMap]
  congr 1
  funext j
  simp

theorem gather_eq_map {β : Type} [Inhabited β] (a : List β) (js : List Nat)
    (h : ∀ j ∈ js, j < a.length) : gather a js = js.map (fun j => a[j]!) := by
  unfold gather
  induction js with
  | nil => rfl
  | cons j js ih =>
    have hj := h j (by simp)
    rw [List.filterMap_cons]
    simp only [List.getElem?_eq_getElem hj, List.map_cons, getElem!_pos, hj]
    rw [ih (fun k hk => h k (by simp [hk]))]

theorem length_gather {β : Type} (a : List β) (js : List Nat) (h : ∀ j ∈ js, j < a.length) :
    (gather a js).length = js.length := by
  unfold gather
  induction js with
  | nil => rfl
  | cons j js ih =>
    have hj := h j (by simp)
    rw [List.filterMap_cons]
    simp only [List.getElem?_eq_getElem hj, List.length_cons]
    rw [ih (fun k hk => h k (by simp [hk]))]

theorem npTake_gather {β : Type} (a : List β) (js : List Nat) (h : ∀ j ∈ js, j < a.length) :
    npTake a (js.map Int.ofNat) = .ok (gather a js) := by
  unfold npTake
  rw [mapM_map]
  induction js with
  | nil => rfl
  | cons j js ih =>
    have hj := h j (by simp)
    rw [List.mapM_cons, ih (fun k hk => h k (by simp [hk]))]
    have := npGet_ofNat a j hj
    simp only [Int.ofNat_eq_natCast, this]
    simp [bind, Except.bind, pure, Except.pure, gather, List.getElem?_eq_getElem hj]

theorem mem_of_mem_gather {β : Type} {a : List β} {js : List Nat} {x : β} (h : x ∈ gather a js) :
    x ∈ a := by
  unfold gather at h
  rw [List.mem_filterMap] at h
  obtain ⟨j, _, hj⟩ := h
  exact List.mem_of_getElem? hj

theorem getElem?_gather {β : Type} (a : List β) (js : List Nat) (h : ∀ j ∈ js, j < a.length)
    (k : Nat) : (gather a js)[k]? = (js[k]?).bind (fun j => a[j]?) := by
  unfold gather
  induction js generalizing k with
  | nil => simp
  | cons j js ih =>
    have hj := h j (by simp)
    rw [List.filterMap_cons]
    simp only [List.getElem?_eq_getElem hj]
    cases k with
    | zero => simp [hj]
    | succ k => simpa using ih (fun k hk => h k (by simp [hk])) k

theorem gather_gather {β : Type} (a : List β) (js ks : List Nat) (h : ∀ j ∈ js, j < a.length) :
    gather (gather a js) ks = gather a (gather js ks) := by
  unfold gather
  rw [List.filterMap_filterMap]
  congr 1
  funext k
  exact getElem?_gather a js h k

theorem nonzeroFrom_lt (k : Nat) (m : List Bool) : ∀ j ∈ nonzeroFrom k m, j < k + m.length := by
  induction m generalizing k with
  | nil => simp [nonzeroFrom]
  | cons b m ih =>
    intro j hj
    cases b
    · have := ih (k + 1) j hj
      simp only [List.length_cons]; omega
    · simp only [nonzeroFrom, List.mem_cons] at hj
      rcases hj with rfl | hj
      · simp
      · have := ih (k + 1) j hj
        simp only [List.length_cons]; omega

theorem Sel.positions_lt {s : Sel} {n : Nat} {js : List Nat} (h : s.positions n = .ok js) :
    ∀ j ∈ js, j < n := by
  cases s with
  | mask m =>
    simp only [Sel.positions] at h
    split at h
    · rename_i hm
      simp only [Except.ok.injEq] at h
      subst h
      intro j hj
      have := nonzeroFrom_lt 0 m j hj
      omega
    · cases h
  | index ix =>
    simp only [Sel.positions] at h
    rw [mapM_ok_iff] at h
    intro j hj
    have : ∀ {ix : List Int} {js : List Nat}, List.Forall₂ (fun (i : Int) (j : Nat) =>
        (match npIndex n i with | some j => Except.ok j | none => Except.error Exc.indexError) =
          (.ok j : Res Nat)) ix js → ∀ j ∈ js, j < n := by
      intro ix js h
      induction h with
      | nil => simp
      | cons h1 _ ih =>
        intro j hj
        rcases List.mem_cons.1 hj with rfl | hj
        · split at h1
          · rename_i h2
            simp only [Except.ok.injEq] at h1
            subst h1
            exact npIndex_lt h2
          · cases h1
        · exact ih j hj
    exact this h j hj

theorem nonzeroFrom_all_true (k n : Nat) :
    nonzeroFrom k (List.replicate n true) = List.range' k n := by
  induction n generalizing k with
  | zero => rfl
  | succ n ih => simp [List.replicate_succ, nonzeroFrom, ih, List.range'_succ]

theorem gather_range {β : Type} (a : List β) : gather a (List.range a.length) = a := by
  apply List.ext_getElem?
  intro k
  rw [getElem?_gather _ _ (by simp)]
  by_cases hk : k < a.length
  · simp [hk]
  · simp [hk]

/-- A mask selects the members at its true positions. -/
theorem gather_nonzeroFrom {β : Type} (m : List Bool) (a : List β) (h : m.length = a.length) :
    gather a (nonzeroFrom 0 m) = selMask m a := by
  have key : ∀ (m : List Bool) (a b : List β), m.length = a.length →
      gather (b ++ a) (nonzeroFrom b.length m) = selMask m a := by
    intro m
    induction m with
    | nil => intro a b _; simp [nonzeroFrom, gather, selMask]
    | cons c m ih =>
      intro a b hlen
      cases a with
      | nil => simp at hlen
      | cons x xs =>
        have h' := ih xs (b ++ [x]) (by simpa using hlen)
        simp only [List.append_assoc, List.cons_append, List.nil_append, List.length_append,
          List.length_cons, List.length_nil, Nat.zero_add] at h'
        cases c
        · simpa [nonzeroFrom, selMask] using h'
        · simp only [nonzeroFrom, selMask]
          unfold gather
          rw [List.filterMap_cons]
          simp only [List.getElem?_append_right (le_refl b.length), Nat.sub_self,
            List.getElem?_cons_zero, List.cons.injEq, true_and]
          exact h'
  simpa using key m a [] h

theorem selMask_map {β γ : Type} (f : β → γ) (m : List Bool) (a : List β) :
    selMask m (a.map f) = (selMask m a).map f := by
  induction m generalizing a with
  | nil => cases a <;> rfl
  | cons b m ih => cases a <;> cases b <;> simp [selMask, ih]

theorem mem_selMask {β : Type} (m : List Bool) (a : List β) (x : β) :
    x ∈ selMask m a ↔ ∃ e : Nat, m[e]? = some true ∧ a[e]? = some x := by
  induction m generalizing a with
  | nil => cases a <;> simp [selMask]
  | cons b m ih =>
    cases a with
    | nil => cases b <;> simp [selMask]
    | cons y ys =>
      cases b
      · simp only [selMask, ih]
        constructor
        · rintro ⟨e, h1, h2⟩; exact ⟨e + 1, by simpa using h1, by simpa using h2⟩
        · rintro ⟨e, h1, h2⟩
          cases e with
          | zero => simp at h1
          | succ e => exact ⟨e, by simpa using h1, by simpa using h2⟩
      · simp only [selMask, List.mem_cons, ih]
        constructor
        · rintro (rfl | ⟨e, h1, h2⟩)
          · exact ⟨0, by simp, by simp⟩
          · exact ⟨e + 1, by simpa using h1, by simpa using h2⟩
        · rintro ⟨e, h1, h2⟩
          cases e with
          | zero => left; simpa [eq_comm] using h2
          | succ e => right; exact ⟨e, by simpa using h1, by simpa using h2⟩

theorem length_selMask_le {β : Type} (m : List Bool) (a : List β) :
    (selMask m a).length ≤ a.length := by
  induction m generalizing a with
  | nil => cases a <;> simp [selMask]
  | cons b m ih =>
    cases a with
    | nil => cases b <;> simp [selMask]
    | cons y ys =>
      cases b
      · simp only [selMask, List.length_cons]; have := ih ys; omega
      · simp only [selMask, List.length_cons]; have := ih ys; omega

/-- Writing back a pointwise image of the selected entries. -/
theorem putMask_selMask_map {β : Type} (f : β → β) (m : List Bool) (a : List β)
    (h : m.length = a.length) :
    putMask m a ((selMask m a).map f) = List.zipWith (fun b x => if b then f x else x) m a := by
  induction m generalizing a with
  | nil => cases a <;> simp_all [putMask]
  | cons b m ih =>
    cases a with
    | nil => simp at h
    | cons y ys =>
      have h' : m.length = ys.length := by simpa using h
      cases b <;> simp [selMask, putMask, ih ys h']

/-! ### loops that overwrite every entry -/

theorem getElem?_foldl_set {β : Type} (f : Nat → β) (a : List β) (k i : Nat) :
    ((List.range k).foldl (fun acc e => acc.set e (f e)) a)[i]? =
      if i < k ∧ i < a.length then some (f i) else a[i]? := by
  induction k with
  | zero => simp
  | succ k ih =>
    have hlen : ((List.range k).foldl (fun acc e => acc.set e (f e)) a).length = a.length := by
      clear ih
      induction k with
      | zero => rfl
      | succ k ih => rw [List.range_succ, List.foldl_append]; simpa using ih
    rw [List.range_succ, List.foldl_append]
    simp only [List.foldl_cons, List.foldl_nil]
    rw [List.getElem?_set, hlen, ih]
    by_cases h1 : k = i
    · subst h1
      by_cases h2 : k < a.length
      · simp [h2]
      · simp [h2]
    · by_cases h2 : i < k
      · have : i < k + 1 := by omega
        simp [h1, h2, this]
      · have : ¬ i < k + 1 := by omega
        simp [h1, h2, this]

theorem foldl_set_eq {β : Type} (f : Nat → β) (a : List β) (n : Nat) (h : a.length = n) :
    (List.range n).foldl (fun acc e => acc.set e (f e)) a = (List.range n).map f := by
  apply List.ext_getElem?
  intro i
  rw [getElem?_foldl_set, h]
  by_cases hi : i < n
  · simp [hi]
  · simp [hi, h]

end Kam

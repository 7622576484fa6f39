/-
C126: a result file that is not complete is refused.  The decoder reads a list or a dictionary without looking at what
follows it, so the text of a dictionary cannot begin with the complete text of another one.
-/
import Verif.Json.Props

namespace Kam.Json
open Scripts Kam.Convert

variable {R : Type} {fl : Floats R}

lemma constant_append {s r : Str} {a : Atom R} (h : constant s = some (a, r)) (t : Str) :
    constant (s ++ t) = some (a, r ++ t) := by
  unfold constant at h
  split at h <;> cases h <;> rfl

lemma scanAtom_append {s r : Str} {a : Atom R} (h : scanAtom fl s = some (a, r)) (hr : r ≠ [] ∧ Stop r) (t : Str) :
    scanAtom fl (s ++ t) = some (a, r ++ t) := by
  unfold scanAtom at h ⊢
  cases hc : constant (R := R) s with
  | some p =>
    rw [hc] at h
    cases h
    rw [constant_append hc t]
  | none =>
    rw [hc] at h
    obtain ⟨u, rfl, hu, hn⟩ := number_spec h
    rw [List.append_assoc, constant_none (hu.append _)]
    refine hn _ ?_
    obtain ⟨c, r, rfl⟩ := List.exists_cons_of_ne_nil hr.1
    intro c' t' e
    cases e
    exact hr.2 c r rfl

/-- What follows a value in a list or a dictionary ends it. -/
lemma stop_of_skip {s r : Str} {c : Char} (h : skip s = c :: r) (hc : c = ',' ∨ c = ']' ∨ c = '}') : s ≠ [] ∧ Stop s := by
  cases s with
  | nil => cases h
  | cons d s =>
    refine ⟨by simp, ?_⟩
    cases hd : isWs d with
    | true =>
      simp only [isWs, Bool.or_eq_true, decide_eq_true_eq] at hd
      apply stop_cons
      tauto
    | false =>
      rw [skip_cons hd] at h
      cases h
      apply stop_cons
      tauto

/-- A text that begins with a bracket, a brace or a quote. -/
def Opens (s : Str) : Prop := ∃ c t, s = c :: t ∧ (c = '"' ∨ c = '{' ∨ c = '[')

/-- Reading does not depend on what follows, except for a number at the end of the text. -/
lemma scan_append_aux (n : Nat) :
    (∀ s r (j : J (Atom R)), scan fl n s = some (j, r) → Opens s ∨ (r ≠ [] ∧ Stop r) →
      ∀ m, n ≤ m → ∀ t, scan fl m (s ++ t) = some (j, r ++ t)) ∧
    (∀ s r (d : List (String × J (Atom R))), members fl n s = some (d, r) →
      ∀ m, n ≤ m → ∀ t, members fl m (s ++ t) = some (d, r ++ t)) ∧
    (∀ s r (l : List (J (Atom R))), elements fl n s = some (l, r) →
      ∀ m, n ≤ m → ∀ t, elements fl m (s ++ t) = some (l, r ++ t)) := by
  induction n with
  | zero =>
    refine ⟨?_, ?_, ?_⟩
    · intro s r j h; rw [scan] at h; cases h
    · intro s r j h; rw [members] at h; cases h
    · intro s r j h; rw [elements] at h; cases h
  | succ n ih =>
    obtain ⟨ih1, ih2, ih3⟩ := ih
    refine ⟨?_, ?_, ?_⟩
    · intro s r j h hs m hm t
      obtain ⟨m, rfl⟩ : ∃ k, m = k + 1 := ⟨m - 1, by omega⟩
      cases s with
      | nil => rw [scan] at h; cases h
      | cons c s =>
        rw [scan] at h
        rw [List.cons_append, scan]
        by_cases h1 : c = '"'
        · rw [if_pos h1] at h ⊢
          obtain ⟨⟨k, r'⟩, e1, e2⟩ := Option.map_eq_some_iff.1 h
          cases e2
          rw [scanStr_append e1 t]
          rfl
        rw [if_neg h1] at h ⊢
        by_cases h2 : c = '{'
        · rw [if_pos h2] at h ⊢
          cases hk : skip s with
          | nil => rw [hk] at h; cases h
          | cons e s' =>
            rw [hk] at h
            rw [skip_append hk t]
            dsimp only at h ⊢
            split_ifs at h ⊢ with h3 h4
            · cases h; rfl
            · obtain ⟨⟨d, r'⟩, e1, e2⟩ := Option.map_eq_some_iff.1 h
              cases e2
              rw [ih2 _ _ _ e1 m (by omega) t]
              rfl
        rw [if_neg h2] at h ⊢
        by_cases h3 : c = '['
        · rw [if_pos h3] at h ⊢
          cases hk : skip s with
          | nil => rw [hk] at h; cases h
          | cons e s' =>
            rw [hk] at h
            rw [skip_append hk t]
            dsimp only at h ⊢
            split_ifs at h ⊢ with h4
            · cases h; rfl
            · obtain ⟨⟨d, r'⟩, e1, e2⟩ := Option.map_eq_some_iff.1 h
              cases e2
              have := ih3 _ _ _ e1 m (by omega) t
              rw [List.cons_append] at this
              rw [this]
              rfl
        rw [if_neg h3] at h ⊢
        obtain ⟨⟨a, r'⟩, e1, e2⟩ := Option.map_eq_some_iff.1 h
        cases e2
        have hr : r' ≠ [] ∧ Stop r' := by
          rcases hs with ⟨c', t', e, hc'⟩ | hs
          · cases e
            tauto
          · exact hs
        have := scanAtom_append e1 hr t
        rw [List.cons_append] at this
        rw [this]
        rfl
    · intro s r d h m hm t
      obtain ⟨m, rfl⟩ : ∃ k, m = k + 1 := ⟨m - 1, by omega⟩
      rw [members] at h ⊢
      cases hk : scanStr s with
      | none => rw [hk] at h; cases h
      | some p =>
        obtain ⟨k, s1⟩ := p
        rw [hk] at h
        rw [scanStr_append hk t]
        simp only [Option.bind_eq_bind, Option.bind_some] at h ⊢
        cases h1 : skip s1 with
        | nil => rw [h1] at h; cases h
        | cons e s2 =>
          rw [h1] at h
          rw [skip_append h1 t]
          dsimp only at h ⊢
          by_cases he : e = ':'
          swap
          · rw [if_neg he] at h; cases h
          rw [if_pos he] at h ⊢
          cases hs : scan fl n (skip s2) with
          | none => rw [hs] at h; cases h
          | some p =>
            obtain ⟨j, s3⟩ := p
            rw [hs] at h
            simp only [Option.bind_some] at h
            cases h3 : skip s3 with
            | nil => rw [h3] at h; cases h
            | cons e' s4 =>
              rw [h3] at h
              dsimp only at h
              have hend : e' = ',' ∨ e' = ']' ∨ e' = '}' := by
                by_contra hne
                push Not at hne
                rw [if_neg hne.2.2, if_neg hne.1] at h
                cases h
              have hstop := stop_of_skip h3 hend
              have hskip : skip (s2 ++ t) = skip s2 ++ t := by
                cases h2 : skip s2 with
                | nil =>
                  rw [h2] at hs
                  cases n with
                  | zero => rw [scan] at hs; cases hs
                  | succ n => rw [scan] at hs; cases hs
                | cons x y => exact skip_append h2 t
              rw [hskip, ih1 _ _ _ hs (Or.inr hstop) m (by omega) t]
              simp only [Option.bind_some]
              rw [skip_append h3 t]
              dsimp only
              split_ifs at h ⊢ with h4 h5
              · cases h; rfl
              · cases h6 : skip s4 with
                | nil => rw [h6] at h; cases h
                | cons x s5 =>
                  rw [h6] at h
                  rw [skip_append h6 t]
                  dsimp only at h ⊢
                  split_ifs at h ⊢ with h7
                  obtain ⟨⟨d', r'⟩, e1, e2⟩ := Option.map_eq_some_iff.1 h
                  cases e2
                  rw [ih2 _ _ _ e1 m (by omega) t]
                  rfl
    · intro s r l h m hm t
      obtain ⟨m, rfl⟩ : ∃ k, m = k + 1 := ⟨m - 1, by omega⟩
      rw [elements] at h ⊢
      cases hs : scan fl n s with
      | none => rw [hs] at h; cases h
      | some p =>
        obtain ⟨j, s3⟩ := p
        rw [hs] at h
        simp only [Option.bind_eq_bind, Option.bind_some] at h ⊢
        cases h3 : skip s3 with
        | nil => rw [h3] at h; cases h
        | cons e' s4 =>
          rw [h3] at h
          dsimp only at h
          have hend : e' = ',' ∨ e' = ']' ∨ e' = '}' := by
            by_contra hne
            push Not at hne
            rw [if_neg hne.2.1, if_neg hne.1] at h
            cases h
          have hstop := stop_of_skip h3 hend
          rw [ih1 _ _ _ hs (Or.inr hstop) m (by omega) t]
          simp only [Option.bind_some]
          rw [skip_append h3 t]
          dsimp only
          split_ifs at h ⊢ with h4 h5
          · cases h; rfl
          · obtain ⟨⟨d', r'⟩, e1, e2⟩ := Option.map_eq_some_iff.1 h
            cases e2
            have hskip : skip (s4 ++ t) = skip s4 ++ t := by
              cases h2 : skip s4 with
              | nil =>
                rw [h2] at e1
                cases n with
                | zero => rw [elements] at e1; cases e1
                | succ n =>
                  rw [elements] at e1
                  cases n with
                  | zero => rw [scan] at e1; cases e1
                  | succ n => rw [scan] at e1; cases e1
              | cons x y => exact skip_append h2 t
            rw [hskip, ih3 _ _ _ e1 m (by omega) t]
            rfl

/-- **C126**: the text of a dictionary that is cut off anywhere is refused with a `ValueError`. -/
theorem C126_cut_off (hf : fl.Faithful) {d : Dict String (J (Atom R))} (hd : J.Keys (.dict d)) {p t : Str}
    (ht : t ≠ []) (h : dumps fl (.dict d) = p ++ t) : loads fl p = .error .valueError := by
  unfold loads
  cases hs : scan fl (2 * p.length + 2) (skip p) with
  | none => rfl
  | some q =>
    obtain ⟨j, r⟩ := q
    exfalso
    have hopen : ∃ u, dumps fl (.dict d) = '{' :: u := by
      match d with
      | [] => exact ⟨_, by rw [dumps]⟩
      | (_, _) :: _ => exact ⟨_, by rw [dumps]⟩
    obtain ⟨u, hu⟩ := hopen
    cases p with
    | nil =>
      have : skip ([] : Str) = [] := rfl
      rw [this, scan] at hs
      cases hs
    | cons c p =>
      have hc : c = '{' := by
        rw [hu, List.cons_append] at h
        injection h with h _
        exact h.symm
      subst hc
      rw [skip_cons (by decide)] at hs
      have h1 := (scan_append_aux _).1 _ _ _ hs (Or.inl ⟨_, _, rfl, Or.inr (Or.inl rfl)⟩)
        (2 * (dumps fl (.dict d)).length + 2) (by rw [h]; simp) t
      have h2 := keys_back hf hd (2 * (dumps fl (.dict d)).length + 2) [] (by omega) Stop.nil
      rw [List.append_nil] at h2
      rw [← h, h2] at h1
      simp only [Option.some.injEq, Prod.mk.injEq, List.nil_eq, List.append_eq_nil_iff] at h1
      exact ht h1.2.2

/-- **C126**: after the text of a dictionary only white space is accepted: two results in one file are refused. -/
theorem C126_trailing (hf : fl.Faithful) {d : Dict String (J (Atom R))} (hd : J.Keys (.dict d)) (t : Str) :
    (White t → loads fl (dumps fl (.dict d) ++ t) = .ok (.dict d)) ∧
      (¬ White t → loads fl (dumps fl (.dict d) ++ t) = .error .valueError) := by
  have hopen : ∃ u, dumps fl (.dict d) = '{' :: u := by
    match d with
    | [] => exact ⟨_, by rw [dumps]⟩
    | (_, _) :: _ => exact ⟨_, by rw [dumps]⟩
  obtain ⟨u, hu⟩ := hopen
  have h2 := keys_back hf hd (2 * (dumps fl (.dict d)).length + 2) [] (by omega) Stop.nil
  rw [List.append_nil] at h2
  have h1 := (scan_append_aux _).1 _ _ _ h2 (Or.inl ⟨_, _, hu, Or.inr (Or.inl rfl)⟩)
    (2 * (dumps fl (.dict d) ++ t).length + 2) (by simp) t
  unfold loads
  rw [skip_dumps hf, h1]
  dsimp only
  rw [List.nil_append]
  have : ∀ t : Str, skip t = [] ↔ White t := by
    intro t
    unfold skip White
    induction t with
    | nil => simp
    | cons c t ih =>
      cases hc : isWs c with
      | true =>
        rw [List.dropWhile_cons_of_pos hc, ih]
        have hc' : c = ' ' ∨ c = '\t' ∨ c = '\n' ∨ c = '\r' := by
          simp only [isWs, Bool.or_eq_true, decide_eq_true_eq] at hc
          tauto
        exact ⟨fun h => List.forall_mem_cons.2 ⟨hc', h⟩, fun h => (List.forall_mem_cons.1 h).2⟩
      | false =>
        rw [List.dropWhile_cons_of_neg (by simp [hc])]
        refine ⟨fun h => (by cases h), fun h => ?_⟩
        have h := (List.forall_mem_cons.1 h).1
        simp only [isWs, Bool.or_eq_false_iff, decide_eq_false_iff_not] at hc
        tauto
  constructor
  · intro ht
    rw [if_pos ((this t).2 ht)]
  · intro ht
    rw [if_neg (fun h => ht ((this t).1 h))]

end Kam.Json

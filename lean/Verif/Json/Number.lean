/-
Lemmas about the numbers of result files.
-/
import Verif.Json.Text

namespace Kam.Json
open Scripts Kam.Convert

/-- Nothing that can continue a number comes first. -/
def Stop (r : Str) : Prop := ∀ c t, r = c :: t → c.isDigit = false ∧ c ≠ '.' ∧ c ≠ 'e' ∧ c ≠ 'E'

/-- No digit comes first. -/
def NoDigit (r : Str) : Prop := ∀ c t, r = c :: t → c.isDigit = false

lemma Stop.noDigit {r : Str} (h : Stop r) : NoDigit r := fun c t e => (h c t e).1

lemma Stop.nil : Stop [] := fun _ _ h => by cases h

lemma stop_cons {c : Char} {r : Str} (h : c = ' ' ∨ c = '\t' ∨ c = '\n' ∨ c = '\r' ∨ c = ',' ∨ c = ']' ∨ c = '}') : Stop (c :: r) := by
  intro d t e
  cases e
  rcases h with rfl | rfl | rfl | rfl | rfl | rfl | rfl <;> decide

lemma digits_append {ds r : Str} (h : ds.all Char.isDigit = true) (hr : NoDigit r) : digits (ds ++ r) = (ds, r) := by
  induction ds with
  | nil =>
    cases r with
    | nil => rfl
    | cons c t => simp [digits, hr c t rfl]
  | cons d ds ih =>
    simp only [List.all_cons, Bool.and_eq_true] at h
    have := ih h.2
    simp only [digits, Prod.mk.injEq] at this
    simp [digits, h.1, this.1, this.2]

lemma digits_spec (s : Str) : s = (digits s).1 ++ (digits s).2 ∧ (digits s).1.all Char.isDigit = true := by
  exact ⟨(List.takeWhile_append_dropWhile).symm, List.all_takeWhile⟩

lemma intPart_spec {s ip r : Str} (h : intPart s = some (ip, r)) :
    s = ip ++ r ∧ (∃ d t, ip = d :: t ∧ d.isDigit = true) ∧ ∀ r', NoDigit r' → intPart (ip ++ r') = some (ip, r') := by
  match s, h with
  | [], h => cases h
  | c :: s, h =>
    simp only [intPart] at h
    split_ifs at h with h1 h2
    · cases h
      subst h1
      exact ⟨rfl, ⟨_, _, rfl, by decide⟩, fun r' _ => by simp [intPart]⟩
    · simp only [Option.some.injEq] at h
      have e := digits_spec (c :: s)
      rw [h] at e
      have hd : ip = c :: (digits s).1 := by
        have := congrArg Prod.fst h
        simp only [digits, List.takeWhile_cons, h2, if_true] at this
        exact this.symm
      refine ⟨e.1, ⟨_, _, hd, h2⟩, ?_⟩
      intro r' hr'
      have := digits_append e.2 hr'
      rw [hd] at this ⊢
      simp only [List.cons_append, intPart, if_neg h1, if_pos h2] at this ⊢
      rw [this]

lemma fracPart_spec (s : Str) : s = (fracPart s).1 ++ (fracPart s).2 ∧
    ∀ r', NoDigit r' → (∀ c t, r' = c :: t → c ≠ '.') → fracPart ((fracPart s).1 ++ r') = ((fracPart s).1, r') := by
  have none : ∀ r', (∀ c t, r' = c :: t → c ≠ '.') → fracPart r' = ([], r') := by
    intro r' hr'
    cases r' with
    | nil => rfl
    | cons c t => simp [fracPart, hr' c t rfl]
  match s with
  | [] => exact ⟨rfl, fun r' _ h => none r' h⟩
  | c :: s =>
    by_cases h : c = '.' ∧ (digits s).1 ≠ []
    · simp only [fracPart, if_pos h]
      obtain ⟨rfl, hne⟩ := h
      refine ⟨by rw [List.cons_append, ← (digits_spec s).1], ?_⟩
      intro r' hr' _
      have := digits_append (digits_spec s).2 hr'
      simp only [List.cons_append, this]
      simp [hne]
    · simp only [fracPart, if_neg h]
      exact ⟨rfl, fun r' _ h => none r' h⟩

lemma expSign_spec (s : Str) : s = (expSign s).1 ++ (expSign s).2 ∧
    ∀ r', (∃ d t, r' = d :: t ∧ d.isDigit = true) → expSign ((expSign s).1 ++ r') = ((expSign s).1, r') := by
  have none : ∀ r', (∃ d t, r' = d :: t ∧ d.isDigit = true) → expSign r' = ([], r') := by
    rintro r' ⟨d, t, rfl, hd⟩
    simp only [expSign]
    rw [if_neg]
    rintro (rfl | rfl) <;> exact absurd hd (by decide)
  match s with
  | [] => exact ⟨rfl, fun r' h => none r' h⟩
  | c :: s =>
    by_cases h : c = '-' ∨ c = '+'
    · simp only [expSign, if_pos h]
      exact ⟨rfl, fun r' _ => by simp [h]⟩
    · simp only [expSign, if_neg h]
      exact ⟨rfl, fun r' h => none r' h⟩

lemma expPart_spec (s : Str) : s = (expPart s).1 ++ (expPart s).2 ∧
    ((expPart s).1 = [] ∨ ∃ c t, (expPart s).1 = c :: t ∧ (c = 'e' ∨ c = 'E')) ∧
    ∀ r', NoDigit r' → (∀ c t, r' = c :: t → c ≠ 'e' ∧ c ≠ 'E') → expPart ((expPart s).1 ++ r') = ((expPart s).1, r') := by
  have none : ∀ r', (∀ c t, r' = c :: t → c ≠ 'e' ∧ c ≠ 'E') → expPart r' = ([], r') := by
    intro r' hr'
    cases r' with
    | nil => rfl
    | cons c t => simp [expPart, hr' c t rfl]
  match s with
  | [] => exact ⟨rfl, Or.inl rfl, fun r' _ h => none r' h⟩
  | c :: s =>
    by_cases h : (c = 'e' ∨ c = 'E') ∧ (digits (expSign s).2).1 ≠ []
    · simp only [expPart, if_pos h]
      obtain ⟨hc, hne⟩ := h
      have hs := expSign_spec s
      have hd := digits_spec (expSign s).2
      refine ⟨?_, Or.inr ⟨_, _, rfl, hc⟩, ?_⟩
      · rw [List.cons_append, List.append_assoc, ← hd.1, ← hs.1]
      · intro r' hr' _
        have h1 := digits_append hd.2 hr'
        have h2 := hs.2 ((digits (expSign s).2).1 ++ r') (by
          obtain ⟨d, t, hdt⟩ := List.exists_cons_of_ne_nil hne
          refine ⟨d, t ++ r', by rw [hdt]; rfl, ?_⟩
          have := hd.2
          rw [hdt] at this
          simp only [List.all_cons, Bool.and_eq_true] at this
          exact this.1)
        simp only [List.cons_append, List.append_assoc, h2, h1]
        rw [if_pos ⟨hc, hne⟩]
    · have e : expPart (c :: s) = ([], c :: s) := by simp only [expPart, if_neg h]
      rw [e]
      exact ⟨rfl, Or.inl rfl, fun r' _ h => none r' h⟩

lemma signPart_spec (s : Str) : s = (signPart s).1 ++ (signPart s).2 ∧ ((signPart s).1 = [] ∨ (signPart s).1 = ['-']) ∧
    ∀ r', (∃ d t, r' = d :: t ∧ d.isDigit = true) → signPart ((signPart s).1 ++ r') = ((signPart s).1, r') := by
  have none : ∀ r', (∃ d t, r' = d :: t ∧ d.isDigit = true) → signPart r' = ([], r') := by
    rintro r' ⟨d, t, rfl, hd⟩
    unfold signPart
    split
    · rename_i h
      cases h
      exact absurd hd (by decide)
    · rfl
  by_cases h : ∃ t, s = '-' :: t
  · obtain ⟨t, rfl⟩ := h
    exact ⟨rfl, Or.inr rfl, fun r' _ => rfl⟩
  · have e : signPart s = ([], s) := by
      unfold signPart
      split
      · exact absurd ⟨_, rfl⟩ h
      · rfl
    rw [e]
    exact ⟨rfl, Or.inl rfl, fun r' h => none r' h⟩

variable {R : Type} {fl : Floats R}

/-- A text that a number can begin with. -/
def NumHead (u : Str) : Prop := ∃ d t, (u = d :: t ∨ u = '-' :: d :: t) ∧ d.isDigit = true

lemma NumHead.append {u : Str} (h : NumHead u) (r : Str) : NumHead (u ++ r) := by
  obtain ⟨d, t, rfl | rfl, hd⟩ := h
  · exact ⟨d, t ++ r, Or.inl rfl, hd⟩
  · exact ⟨d, t ++ r, Or.inr rfl, hd⟩

lemma constant_none {u : Str} (h : NumHead u) : constant (R := R) u = none := by
  obtain ⟨d, t, h, hd⟩ := h
  unfold constant
  split
  all_goals first
    | rfl
    | (rcases h with h | h <;> cases h <;> exact absurd hd (by decide))

lemma number_spec {s r : Str} {a : Atom R} (h : number fl s = some (a, r)) :
    ∃ u, s = u ++ r ∧ NumHead u ∧ ∀ r', Stop r' → number fl (u ++ r') = some (a, r') := by
  unfold number at h
  obtain ⟨g1, g2, g3⟩ := signPart_spec s
  cases hi : intPart (signPart s).2 with
  | none => rw [hi] at h; cases h
  | some p =>
    obtain ⟨ip, s2⟩ := p
    rw [hi] at h
    simp only [Option.bind_eq_bind, Option.bind_some] at h
    obtain ⟨i1, ⟨d, dt, i2, i3⟩, i4⟩ := intPart_spec hi
    obtain ⟨f1, f2⟩ := fracPart_spec s2
    obtain ⟨e1, e2, e3⟩ := expPart_spec (fracPart s2).2
    have hhead : NumHead ((signPart s).1 ++ ip) := by
      rcases g2 with g2 | g2 <;> rw [g2, i2]
      · exact ⟨d, dt, Or.inl rfl, i3⟩
      · exact ⟨d, dt, Or.inr rfl, i3⟩
    have hsign : ∀ r', signPart ((signPart s).1 ++ (ip ++ r')) = ((signPart s).1, ip ++ r') :=
      fun r' => g3 _ ⟨d, dt ++ r', by rw [i2]; rfl, i3⟩
    split_ifs at h with hc
    · obtain ⟨n, h1, h2⟩ := Option.map_eq_some_iff.1 h
      cases h2
      refine ⟨(signPart s).1 ++ ip, by rw [List.append_assoc, ← i1, ← g1], hhead, ?_⟩
      intro r' hr'
      have hf : fracPart r' = ([], r') := by
        have := f2 r' hr'.noDigit (fun c t e => (hr' c t e).2.1)
        rwa [hc.1] at this
      have he : expPart r' = ([], r') := by
        have := e3 r' hr'.noDigit (fun c t e => (hr' c t e).2.2)
        rwa [hc.2] at this
      unfold number
      rw [List.append_assoc, hsign r']
      simp only [i4 r' hr'.noDigit, Option.bind_eq_bind, Option.bind_some, hf, he, and_self, if_true]
      rw [h1]
      rfl
    · simp only [Option.some.injEq, Prod.mk.injEq] at h
      obtain ⟨rfl, rfl⟩ := h
      refine ⟨(signPart s).1 ++ (ip ++ ((fracPart s2).1 ++ (expPart (fracPart s2).2).1)), ?_, ?_, ?_⟩
      · simp only [List.append_assoc]
        rw [← e1, ← f1, ← i1, ← g1]
      · rw [← List.append_assoc]
        exact hhead.append _
      · intro r' hr'
        have he := e3 r' hr'.noDigit (fun c t e => (hr' c t e).2.2)
        have hne : NoDigit ((expPart (fracPart s2).2).1 ++ r') ∧
            ∀ c t, (expPart (fracPart s2).2).1 ++ r' = c :: t → c ≠ '.' := by
          rcases e2 with e2 | ⟨c, t, e2, hct⟩
          · rw [e2]
            exact ⟨hr'.noDigit, fun c t e => (hr' c t e).2.1⟩
          · rw [e2]
            constructor
            · intro c' t' e
              cases e
              rcases hct with rfl | rfl <;> decide
            · intro c' t' e
              cases e
              rcases hct with rfl | rfl <;> decide
        have hf := f2 _ hne.1 hne.2
        have hnd : NoDigit ((fracPart s2).1 ++ ((expPart (fracPart s2).2).1 ++ r')) := by
          cases hfp : (fracPart s2).1 with
          | nil => exact hne.1
          | cons c t =>
            intro c' t' e
            cases e
            have : c = '.' := by
              cases s2 with
              | nil => simp [fracPart] at hfp
              | cons x y =>
                simp only [fracPart] at hfp
                split_ifs at hfp
                cases hfp; rfl
            subst this; decide
        unfold number
        simp only [List.append_assoc]
        rw [hsign]
        simp only [i4 _ hnd, Option.bind_eq_bind, Option.bind_some, hf, he]
        rw [if_neg hc]

end Kam.Json

import Verif.Convert.Lemmas
import Verif.Score.Props

set_option linter.unusedSectionVars false

namespace Kam.Convert
open Convert.Spec

variable {K φ : Type} [Field K] [LinearOrder K] [IsStrictOrderedRing K] [FloorRing K]

/-- The digits of `|m|`, with zeros in front to have more than `k` of them. -/
def padded (m : Int) (k : Nat) : Str :=
  List.replicate (k + 1 - (Nat.toDigits 10 m.natAbs).length) '0' ++ Nat.toDigits 10 m.natAbs

/-- The numeral without its sign. -/
def body (m : Int) (k : Nat) : Str :=
  if k = 0 then padded m k
  else (padded m k).take ((padded m k).length - k) ++ '.' :: (padded m k).drop ((padded m k).length - k)

lemma showDec_eq (m : Int) (k : Nat) : showDec m k = if m < 0 then '-' :: body m k else body m k := rfl

lemma padded_digit {m : Int} {k : Nat} {c : Char} (h : c ∈ padded m k) : c.isDigit = true := by
  rcases List.mem_append.1 h with h | h
  · rw [List.eq_of_mem_replicate h]; decide
  · exact toDigits_digit h

lemma padded_length (m : Int) (k : Nat) : k < (padded m k).length := by
  unfold padded
  rw [List.length_append, List.length_replicate]
  omega

lemma padded_value (m : Int) (k : Nat) : Nat.ofDigitChars 10 (padded m k) 0 = m.natAbs := by
  unfold padded
  rw [Nat.ofDigitChars_append, Nat.ofDigitChars_replicate_zero, mul_zero, Nat.ofDigitChars_ten_toDigits]

lemma body_mem {m : Int} {k : Nat} {c : Char} (h : c ∈ body m k) : c = '.' ∨ c.isDigit = true := by
  unfold body at h
  split at h
  · exact .inr (padded_digit h)
  · rcases List.mem_append.1 h with h | h
    · exact .inr (padded_digit (List.mem_of_mem_take h))
    · rcases List.mem_cons.1 h with h | h
      · exact .inl h
      · exact .inr (padded_digit (List.mem_of_mem_drop h))

lemma body_ne_nil (m : Int) (k : Nat) : body m k ≠ [] := by
  unfold body
  split
  · intro h
    have := padded_length m k
    rw [h] at this
    simp at this
  · simp

lemma body_head {m : Int} {k : Nat} {c : Char} (h : (body m k).head? = some c) : c ≠ '-' ∧ c ≠ '+' := by
  rcases body_mem (List.mem_of_head? h) with rfl | h
  · decide
  · exact isDigit_not_sign h

lemma decimal_body (m : Int) (k : Nat) : (decimal (body m k) : Option K) = some ((m.natAbs : K) / 10 ^ k) := by
  unfold body
  split
  · rename_i hk
    subst hk
    have hne : padded m 0 ≠ [] := by
      intro h
      have := padded_length m 0
      rw [h] at this
      simp at this
    rw [(decimal_digits (fp := []) (fun c hc => padded_digit hc) (by simp) hne).2, padded_value]
    simp
  · have hl := padded_length m k
    have h1 : (padded m k).take ((padded m k).length - k) ≠ [] := by
      intro h
      have := congrArg List.length h
      simp at this
      omega
    rw [(decimal_digits (fun c hc => padded_digit (List.mem_of_mem_take hc)) (fun c hc => padded_digit (List.mem_of_mem_drop hc)) h1).1,
      List.take_append_drop, padded_value]
    congr 2
    simp
    omega

lemma showDec_mem {m : Int} {k : Nat} {c : Char} (h : c ∈ showDec m k) : c = '-' ∨ c = '.' ∨ c.isDigit = true := by
  rw [showDec_eq] at h
  split at h
  · rcases List.mem_cons.1 h with h | h
    · exact .inl h
    · exact .inr (body_mem h)
  · exact .inr (body_mem h)

lemma showDec_ne_nil (m : Int) (k : Nat) : showDec m k ≠ [] := by
  rw [showDec_eq]
  split
  · simp
  · exact body_ne_nil m k

/-- `float` reads the numeral of `m / 10 ^ k` exactly. -/
lemma floatOf_showDec (m : Int) (k : Nat) : (floatOf (showDec m k) : Option K) = some ((m : K) / 10 ^ k) := by
  unfold floatOf
  have hs : strip isSpace (showDec m k) = showDec m k := by
    have : ∀ c ∈ showDec m k, isSpace c = false := by
      intro c hc
      rcases showDec_mem hc with rfl | rfl | h
      · decide
      · decide
      · exact isDigit_not_space h
    exact strip_id (fun c hc => this c (List.mem_of_head? hc)) (fun c hc => this c (List.mem_of_getLast? hc))
  rw [hs, showDec_eq]
  split
  · rename_i h
    show (decimal (body m k) : Option K).map (fun x => -x) = _
    rw [decimal_body]
    show some (-((m.natAbs : K) / 10 ^ k)) = _
    have : (m : K) = -(m.natAbs : K) := by
      have e : m = -((m.natAbs : Nat) : Int) := by omega
      conv_lhs => rw [e]
      simp
    rw [this, neg_div]
  · rename_i h
    rw [signed_digits _ (fun c hc => body_head hc), decimal_body]
    have : (m : K) = (m.natAbs : K) := by
      have e : m = ((m.natAbs : Nat) : Int) := by omega
      conv_lhs => rw [e]
      simp
    rw [this]

lemma convert_shows (nan : K) {t : FType} {s : Str} {c : Cell K} (h : Shows t s c) : convert nan t s = c := by
  cases h with
  | int n => simp [convert, intOf_showInt]
  | num m k => simp [convert, floatOf_showDec]
  | str h => simp [convert, List.take_of_length_le h]

lemma Spec.Written.zipWith (nan : K) {ts : List FType} {ss : List Str} {cs : List (Cell K)} (h : Written ts ss cs) :
    List.zipWith (convert nan) ts ss = cs := by
  induction h with
  | nil => rfl
  | cons hs _ ih => rw [List.zipWith_cons_cons, convert_shows nan hs, ih]

lemma Spec.Written.length_le {ts : List FType} {ss : List Str} {cs : List (Cell K)} (h : Written ts ss cs) :
    ts.length ≤ ss.length := by
  induction h with
  | nil => simp
  | cons _ _ ih => simpa using ih

lemma Spec.Written.length_eq {ts : List FType} {ss : List Str} {cs : List (Cell K)} (h : Written ts ss cs) :
    cs.length = ts.length := by
  induction h with
  | nil => rfl
  | cons _ _ ih => simpa using ih

/-- The array of the records. -/
def recs (cs : List (List (Cell K))) : Recs K :=
  match cs with
  | [r] => .one r
  | rs => .many rs

/-- `genfromtxt` on a text whose rows stand for the values `cs`. -/
theorem genfromtxt_ok (nan : K) {types : List FType} {text : Str} {ls : List Str} {rows : List (List Str)} {w : Nat}
    {cs : List (List (Cell K))} (ht : Text ls text) (hp : ∀ l ∈ ls, Plain l) (hr : Rows ls rows)
    (hw : List.Forall₂ (fun r c => r.length = w ∧ Written types r c) rows cs) :
    genfromtxt nan types text = .ok (recs cs) := by
  have hrows := rows_fields (readlines_text ht hp) hr
  unfold genfromtxt
  simp only [hrows]
  have hmap : rows.map (List.zipWith (convert nan) types) = cs := by
    clear hr hrows ht
    induction hw with
    | nil => rfl
    | cons h _ ih => rw [List.map_cons, h.2.zipWith nan, ih]
  have hlen : ∀ r ∈ rows, r.length = w := by
    intro r hr'
    obtain ⟨i, hi, rfl⟩ := List.getElem_of_mem hr'
    exact (hw.get hi (by rw [← hw.length_eq]; exact hi)).1
  cases rows with
  | nil => cases hw; rfl
  | cons r rows =>
    cases hw with
    | cons h hrest =>
      simp only []
      have h1 : ((r :: rows).any (fun x => decide (x.length ≠ r.length))) = false := by
        rw [List.any_eq_false]
        intro x hx
        simp [hlen x hx, hlen r (by simp)]
      have h2 : ¬ r.length < types.length := by
        have := h.2.length_le
        omega
      rw [h1, if_neg (by simp), if_neg h2, hmap]
      rename_i c cs
      cases cs <;> rfl

end Kam.Convert

/-
What argparse takes a string for, said with the grammar.
-/
import Verif.Args.Spec
import Mathlib.Data.List.TakeWhile

namespace Kam.Args
open Kam.Convert (Str)

variable {A : Type}

lemma lookup_mem {table : List (Str × A)} {s : Str} {a : A} (h : lookup table s = some a) : (s, a) ∈ table := by
  unfold lookup at h
  cases hf : table.find? (fun p => p.1 == s) with
  | none => rw [hf] at h; cases h
  | some q =>
    rw [hf] at h
    cases h
    have h1 := List.mem_of_find?_eq_some hf
    have h2 := List.find?_some hf
    simp only [beq_iff_eq] at h2
    rw [← h2]
    exact h1

lemma lookup_none {table : List (Str × A)} {s : Str} : lookup table s = none ↔ ∀ a, (s, a) ∉ table := by
  unfold lookup
  rw [Option.map_eq_none_iff, List.find?_eq_none]
  constructor
  · intro h a ha
    exact h _ ha (by simp)
  · intro h q hq
    simp only [beq_iff_eq]
    intro hs
    exact h q.2 (by rw [← hs]; exact hq)

lemma lookup_of_mem {table : List (Str × A)} (hn : (table.map (·.1)).Nodup) {s : Str} {a : A} (h : (s, a) ∈ table) :
    lookup table s = some a := by
  induction table with
  | nil => cases h
  | cons q t ih =>
    simp only [List.map_cons, List.nodup_cons] at hn
    unfold lookup
    rw [List.find?_cons]
    rcases List.mem_cons.mp h with rfl | h
    · simp
    · have hne : ¬ q.1 = s := by
        intro hs
        exact hn.1 (List.mem_map.mpr ⟨(s, a), h, hs.symm⟩)
      rw [beq_eq_false_iff_ne.mpr hne]
      exact ih hn.2 h

lemma lookup_iff {p : Parser A} (hp : WellFormed p) {s : Str} {a : A} : lookup p.table s = some a ↔ (s, a) ∈ p.table :=
  ⟨lookup_mem, lookup_of_mem hp.nodup⟩

lemma splitEq_append {n v : Str} (h : '=' ∉ n) : splitEq (n ++ '=' :: v) = some (n, v) := by
  unfold splitEq
  have h1 : ∀ c ∈ n, (c != '=') = true := by
    intro c hc
    rw [bne_iff_ne]
    rintro rfl
    exact h hc
  rw [List.dropWhile_append_of_pos h1, List.takeWhile_append_of_pos h1]
  simp

lemma splitEq_none {s : Str} (h : '=' ∉ s) : splitEq s = none := by
  unfold splitEq
  rw [List.dropWhile_eq_nil_iff.mpr]
  intro c hc
  rw [bne_iff_ne]
  rintro rfl
  exact h hc

/-- A string with a `=` is what is before the first one, the `=`, and the rest. -/
lemma split_first {s : Str} (h : '=' ∈ s) : ∃ n v, '=' ∉ n ∧ s = n ++ '=' :: v := by
  obtain ⟨n, v, hs, hn⟩ := List.eq_append_cons_of_mem h
  exact ⟨n, v, hn, hs⟩

/-- What is attached to a short option. -/
def extra : Str → Option Str
  | [] => none
  | '=' :: v => some v
  | cs => some cs

lemma table_short {p : Parser A} (hp : WellFormed p) {c : Char} {cs : Str} (hc : c ≠ '-') {a : A} (hcs : cs ≠ []) :
    ('-' :: c :: cs, a) ∉ p.table := by
  intro h
  rcases hp.name _ h with ⟨d, _, _, _, hd⟩ | ⟨w, _, _, hw⟩
  · simp only [List.cons.injEq, true_and] at hd
    exact hcs hd.2
  · simp only [List.cons.injEq, true_and] at hw
    exact hc hw.1

lemma tuples_short (table : List (Str × A)) (hn : (table.map (·.1)).Nodup) (n s e : Str)
    (hs : ∀ q ∈ table, q.1 ≠ n → ¬ s <+: q.1) :
    table.filterMap (fun p => if p.1 == n then some (p.2, p.1, some e) else if s.isPrefixOf p.1 then some (p.2, p.1, none) else none)
      = match lookup table n with
        | some a => [(a, n, some e)]
        | none => [] := by
  induction table with
  | nil => rfl
  | cons q t ih =>
    simp only [List.map_cons, List.nodup_cons] at hn
    have ih := ih hn.2 (fun q hq => hs q (List.mem_cons_of_mem _ hq))
    rw [List.filterMap_cons]
    by_cases hq : q.1 = n
    · have hl : lookup t n = none := by
        rw [lookup_none]
        intro a ha
        exact hn.1 (List.mem_map.mpr ⟨_, ha, hq.symm⟩)
      rw [hl] at ih
      have hl2 : lookup (q :: t) n = some q.2 := by
        unfold lookup
        rw [List.find?_cons, beq_iff_eq.mpr hq]
        rfl
      rw [hl2, ih]
      simp [hq]
    · have hl2 : lookup (q :: t) n = lookup t n := by
        unfold lookup
        rw [List.find?_cons, beq_eq_false_iff_ne.mpr hq]
      have hpre : s.isPrefixOf q.1 = false := by
        rw [Bool.eq_false_iff]
        intro h
        exact hs q List.mem_cons_self hq (List.isPrefixOf_iff_prefix.mp h)
      rw [hl2, ← ih]
      simp [hq, hpre]

lemma classify_short {p : Parser A} (hp : WellFormed p) {c : Char} (hc : c ≠ '-') (cs : Str) :
    classify p.table ('-' :: c :: cs) = match lookup p.table ['-', c] with
      | some a => some (.opt a ['-', c] (extra cs))
      | none => if negative ('-' :: c :: cs) || ('-' :: c :: cs).contains ' ' then some .arg else some .unknown := by
  have htup : tuples p.table ('-' :: c :: cs) = match lookup p.table ['-', c] with
      | some a => [(a, ['-', c], some cs)]
      | none => [] := by
    have h : tuples p.table ('-' :: c :: cs) = p.table.filterMap (fun q =>
        if q.1 == ['-', c] then some (q.2, q.1, some cs)
        else if ('-' :: c :: cs).isPrefixOf q.1 then some (q.2, q.1, none) else none) := by
      unfold tuples
      split
      · rename_i heq
        simp only [List.cons.injEq, true_and] at heq
        exact absurd heq.1 hc
      · rfl
    rw [h, tuples_short _ hp.nodup]
    intro q hq hne hpre
    rcases hp.name q hq with ⟨d, _, _, _, hd⟩ | ⟨w, _, _, hw⟩
    · rw [hd] at hpre hne
      obtain ⟨z, hz⟩ := hpre
      simp only [List.cons_append, List.cons.injEq, true_and, List.append_eq_nil_iff] at hz
      exact hne (by rw [hz.1])
    · rw [hw] at hpre
      obtain ⟨z, hz⟩ := hpre
      simp only [List.cons_append, List.cons.injEq, true_and] at hz
      exact hc hz.1
  unfold classify
  simp only [List.isEmpty_cons, Bool.false_eq_true, if_false]
  cases cs with
  | nil =>
    cases hl : lookup p.table ['-', c] with
    | some a => rfl
    | none =>
      simp only []
      rw [htup, hl]
      have : withEq p.table ['-', c] = none := by
        unfold withEq
        by_cases h : c = '='
        · subst h
          have : splitEq ['-', '='] = some (['-'], []) := by rfl
          rw [this]
          simp only [Option.map_eq_none_iff]
          rw [lookup_none]
          intro a ha
          rcases hp.name _ ha with ⟨d, _, _, _, hd⟩ | ⟨w, _, _, hw⟩
          · cases hd
          · cases hw
        · rw [splitEq_none (by simp; exact fun h2 => h h2.symm)]
      rw [this]
  | cons d ds =>
    have hl0 : lookup p.table ('-' :: c :: d :: ds) = none := lookup_none.mpr (fun a => table_short hp hc (by simp))
    rw [hl0]
    simp only []
    by_cases hd : d = '='
    · subst hd
      by_cases hce : c = '='
      · subst hce
        have hnone : ∀ n : Str, n = ['-'] ∨ n = ['-', '='] → lookup p.table n = none := by
          rintro n (rfl | rfl) <;> rw [lookup_none] <;> intro a ha <;>
            rcases hp.name _ ha with ⟨d, _, hd2, _, hd⟩ | ⟨w, _, _, hw⟩
          · cases hd
          · cases hw
          · simp only [List.cons.injEq, true_and, and_true] at hd
            exact hd2 hd.symm
          · simp at hw
        have : splitEq ('-' :: '=' :: '=' :: ds) = some (['-'], '=' :: ds) := splitEq_append (n := ['-']) (by decide)
        unfold withEq
        rw [this]
        simp only []
        rw [hnone _ (Or.inl rfl), htup, hnone _ (Or.inr rfl)]
        rfl
      · have : splitEq ('-' :: c :: '=' :: ds) = some (['-', c], ds) :=
          splitEq_append (n := ['-', c]) (by simp; exact fun h => hce h.symm)
        unfold withEq
        rw [this]
        simp only []
        cases hl : lookup p.table ['-', c] with
        | some a => rfl
        | none =>
          simp only [Option.map_none]
          rw [htup, hl]
    · have : withEq p.table ('-' :: c :: d :: ds) = none := by
        unfold withEq
        by_cases h : '=' ∈ ('-' :: c :: d :: ds : Str)
        · obtain ⟨n, v, hn, hs⟩ := split_first h
          rw [hs, splitEq_append hn]
          simp only [Option.map_eq_none_iff]
          rw [lookup_none]
          intro a ha
          rcases n with _ | ⟨x, _ | ⟨y, _ | ⟨z, n⟩⟩⟩
          · simp at hs
          · rcases hp.name _ ha with ⟨d, _, _, _, hd⟩ | ⟨w, _, _, hw⟩
            · cases hd
            · cases hw
          · simp only [List.cons_append, List.nil_append, List.cons.injEq] at hs
            exact hd hs.2.2.1
          · simp only [List.cons_append, List.cons.injEq] at hs
            obtain ⟨rfl, rfl, _⟩ := hs
            exact table_short hp hc (by simp) ha
        · rw [splitEq_none h]
      rw [this, htup]
      cases hl : lookup p.table ['-', c] with
      | some a =>
        simp only [extra]
        split
        · rename_i h
          cases h
        · rename_i h
          simp only [List.cons.injEq] at h
          exact absurd h.1 hd
        · rfl
      | none => rfl

/-- What is attached to a long option, as it is given. -/
def Splits (w w0 : Str) (e : Option Str) : Prop :=
  '=' ∉ w0 ∧ ((w = w0 ∧ e = none) ∨ ∃ v, w = w0 ++ '=' :: v ∧ e = some v)

lemma exists_splits (w : Str) : ∃ w0 e, Splits w w0 e := by
  by_cases h : '=' ∈ w
  · obtain ⟨n, v, hn, hs⟩ := split_first h
    exact ⟨n, some v, hn, Or.inr ⟨v, hs, rfl⟩⟩
  · exact ⟨w, none, h, Or.inl ⟨rfl, rfl⟩⟩

lemma tuples_long (table : List (Str × A)) (pre : Str) (e : Option Str) :
    table.filterMap (fun p => if pre.isPrefixOf p.1 then some (p.2, p.1, e) else none)
      = (table.filter (fun q => pre.isPrefixOf q.1)).map (fun q => (q.2, q.1, e)) := by
  induction table with
  | nil => rfl
  | cons q t ih =>
    rw [List.filterMap_cons, List.filter_cons]
    cases h : pre.isPrefixOf q.1 with
    | true => simp only [if_true, List.map_cons, ih]
    | false => simp only [Bool.false_eq_true, if_false, ih]

lemma classify_long {p : Parser A} (hp : WellFormed p) {w w0 : Str} {e : Option Str} (hw : Splits w w0 e) :
    classify p.table ('-' :: '-' :: w) = match lookup p.table ('-' :: '-' :: w0) with
      | some a => some (.opt a ('-' :: '-' :: w0) e)
      | none => match p.table.filter (fun q => ('-' :: '-' :: w0).isPrefixOf q.1) with
        | [q] => some (.opt q.2 q.1 e)
        | [] => if negative ('-' :: '-' :: w) || ('-' :: '-' :: w).contains ' ' then some .arg else some .unknown
        | _ => none := by
  obtain ⟨h0, ⟨rfl, rfl⟩ | ⟨v, rfl, rfl⟩⟩ := hw
  · have hsp : splitEq ('-' :: '-' :: w) = none := splitEq_none (by simp [h0])
    have htup : tuples p.table ('-' :: '-' :: w) = (p.table.filter (fun q => ('-' :: '-' :: w).isPrefixOf q.1)).map
        (fun q => (q.2, q.1, none)) := by
      rw [← tuples_long]
      unfold tuples
      simp only [hsp]
    unfold classify withEq
    simp only [List.isEmpty_cons, Bool.false_eq_true, if_false, hsp, htup]
    cases lookup p.table ('-' :: '-' :: w) with
    | some a => rfl
    | none =>
      simp only []
      generalize p.table.filter (fun q => ('-' :: '-' :: w).isPrefixOf q.1) = fl
      rcases fl with _ | ⟨q, _ | ⟨q', l⟩⟩ <;> rfl
  · have hsp : splitEq ('-' :: '-' :: (w0 ++ '=' :: v)) = some ('-' :: '-' :: w0, v) :=
      splitEq_append (n := '-' :: '-' :: w0) (by simp [h0])
    have htup : tuples p.table ('-' :: '-' :: (w0 ++ '=' :: v))
        = (p.table.filter (fun q => ('-' :: '-' :: w0).isPrefixOf q.1)).map (fun q => (q.2, q.1, some v)) := by
      rw [← tuples_long]
      unfold tuples
      simp only [hsp]
    have hl0 : lookup p.table ('-' :: '-' :: (w0 ++ '=' :: v)) = none := by
      rw [lookup_none]
      intro a ha
      rcases hp.name _ ha with ⟨d, hd1, _, _, hd⟩ | ⟨w, _, hw1, hw⟩
      · simp at hd
      · simp only [List.cons.injEq, true_and] at hw
        exact hw1 (by rw [← hw]; simp)
    unfold classify withEq
    simp only [List.isEmpty_cons, Bool.false_eq_true, if_false, hsp, htup, hl0]
    cases lookup p.table ('-' :: '-' :: w0) with
    | some a => rfl
    | none =>
      simp only [Option.map_none]
      generalize p.table.filter (fun q => ('-' :: '-' :: w0).isPrefixOf q.1) = fl
      rcases fl with _ | ⟨q, _ | ⟨q', l⟩⟩ <;> rfl

lemma dropWhile_head {f : Char → Bool} {s : Str} {c : Char} {t : Str} (h : s.dropWhile f = c :: t) : f c = false := by
  induction s with
  | nil => cases h
  | cons x s ih =>
    rw [List.dropWhile_cons] at h
    split at h
    · exact ih h
    · cases h
      rename_i h2
      exact Bool.eq_false_iff.mpr h2

/-- The pattern of argparse is that of negative numbers. -/
lemma negative_iff (s : Str) : negative s = true ↔ Negative s := by
  constructor
  · intro h
    cases s with
    | nil => cases h
    | cons c r =>
      by_cases hc : c = '-'
      · subst hc
        have hr := List.takeWhile_append_dropWhile (p := Char.isDigit) (l := r)
        have hd : ∀ c ∈ r.takeWhile Char.isDigit, c.isDigit := fun c hc => (List.mem_takeWhile_imp hc)
        rw [negative] at h
        cases hw : r.dropWhile Char.isDigit with
        | nil =>
          rw [hw] at h hr
          simp only [List.append_nil] at hr
          refine ⟨_, hd, Or.inl ⟨?_, by rw [hr]⟩⟩
          rw [hr]
          simpa using h
        | cons x es =>
          rw [hw] at h hr
          split at h
          · rename_i h2; cases h2
          · rename_i es' h2
            cases h2
            simp only [Bool.and_eq_true, List.all_eq_true] at h
            exact ⟨_, hd, Or.inr ⟨es, by simpa using h.1, h.2, by rw [List.cons_append, hr]⟩⟩
          · cases h
      · unfold negative at h
        split at h
        · rename_i h2
          cases h2
          exact absurd rfl hc
        · cases h
  · rintro ⟨ds, hds, ⟨hne, rfl⟩ | ⟨es, hne, hes, rfl⟩⟩
    · rw [negative, List.dropWhile_eq_nil_iff.mpr hds]
      simpa using hne
    · rw [List.cons_append, negative, List.dropWhile_append_of_pos hds]
      have : List.dropWhile Char.isDigit ('.' :: es) = '.' :: es := by
        rw [List.dropWhile_cons]
        rfl
      rw [this]
      simp only [Bool.and_eq_true, List.all_eq_true]
      exact ⟨by simpa using hne, hes⟩

lemma optionLike_short {p : Parser A} (hp : WellFormed p) {c : Char} (hc : c ≠ '-') (cs : Str) :
    OptionLike p ('-' :: c :: cs) ↔ lookup p.table ['-', c] ≠ none := by
  have hnd : ¬ ['-', '-'] <+: '-' :: c :: cs := by
    rintro ⟨z, hz⟩
    simp only [List.cons_append, List.cons.injEq, true_and] at hz
    exact hc hz.1.symm
  constructor
  · rintro ⟨q, hq, ⟨h, _⟩ | ⟨_, h⟩⟩
    · exact absurd h hnd
    · rcases hp.name q hq with ⟨d, _, _, _, hd⟩ | ⟨w, _, _, hw⟩
      · rw [hd] at h
        obtain ⟨z, hz⟩ := h
        simp only [List.cons_append, List.cons.injEq, true_and] at hz
        intro hl
        rw [lookup_none] at hl
        exact hl q.2 (by rw [← hz.1, ← hd]; exact hq)
      · rw [hw] at h
        obtain ⟨z, hz⟩ := h
        simp only [List.cons_append, List.cons.injEq, true_and] at hz
        exact absurd hz.1.symm hc
  · intro h
    cases hl : lookup p.table ['-', c] with
    | none => exact absurd hl h
    | some a => exact ⟨_, lookup_mem hl, Or.inr ⟨hnd, ⟨cs, rfl⟩⟩⟩

lemma optionLike_long {p : Parser A} {w w0 : Str} {e : Option Str} (hw : Splits w w0 e) :
    OptionLike p ('-' :: '-' :: w) ↔ p.table.filter (fun q => ('-' :: '-' :: w0).isPrefixOf q.1) ≠ [] := by
  have h0 : ∀ c ∈ '-' :: '-' :: w0, (c != '=') = true := by
    intro c hc
    rw [bne_iff_ne]
    rintro rfl
    simp only [List.mem_cons] at hc
    rcases hc with h | h | h
    · cases h
    · cases h
    · exact hw.1 h
  have htw : ('-' :: '-' :: w).takeWhile (· != '=') = '-' :: '-' :: w0 := by
    obtain ⟨_, ⟨rfl, rfl⟩ | ⟨v, rfl, rfl⟩⟩ := hw
    · exact List.takeWhile_eq_self_iff.mpr h0
    · have := List.takeWhile_append_of_pos (l₂ := '=' :: v) h0
      simpa using this
  have hd : ['-', '-'] <+: '-' :: '-' :: w := ⟨w, rfl⟩
  rw [Ne, List.filter_eq_nil_iff]
  push Not
  constructor
  · rintro ⟨q, hq, ⟨_, h⟩ | ⟨h, _⟩⟩
    · rw [htw] at h
      exact ⟨q, hq, List.isPrefixOf_iff_prefix.mpr h⟩
    · exact absurd hd h
  · rintro ⟨q, hq, h⟩
    exact ⟨q, hq, Or.inl ⟨hd, by rw [htw]; exact List.isPrefixOf_iff_prefix.mp h⟩⟩

lemma lookup_filter {p : Parser A} {n : Str} (h : p.table.filter (fun q => n.isPrefixOf q.1) = []) : lookup p.table n = none := by
  rw [lookup_none]
  intro a ha
  rw [List.filter_eq_nil_iff] at h
  exact h _ ha (List.isPrefixOf_iff_prefix.mpr (List.prefix_refl _))

lemma contains_iff (s : Str) : s.contains ' ' = true ↔ ' ' ∈ s := List.contains_iff_mem

/-- The arguments are the plain strings. -/
lemma classify_arg {p : Parser A} (hp : WellFormed p) (s : Str) : classify p.table s = some .arg ↔ Plain p s := by
  rcases s with _ | ⟨c, r⟩
  · exact ⟨fun _ => Or.inl (by simp), fun _ => rfl⟩
  by_cases hc : c = '-'
  swap
  · refine ⟨fun _ => Or.inl (by simpa using hc), fun _ => ?_⟩
    unfold classify
    split
    · rename_i h
      cases h
      exact absurd rfl hc
    · rfl
  subst hc
  have hhead : ¬ (('-' :: r).head? ≠ some '-') := by simp
  rcases r with _ | ⟨c, cs⟩
  · refine ⟨fun _ => Or.inr (Or.inl rfl), fun _ => ?_⟩
    unfold classify
    have : lookup p.table ['-'] = none := by
      rw [lookup_none]
      intro a ha
      rcases hp.name _ ha with ⟨d, _, _, _, hd⟩ | ⟨w, _, _, hw⟩
      · cases hd
      · cases hw
    rw [this]
    rfl
  have hone : ¬ ('-' :: c :: cs = ['-']) := by simp
  unfold Plain
  rw [← negative_iff, ← contains_iff, ← Bool.or_eq_true]
  simp only [hhead, hone, false_or]
  by_cases hc : c = '-'
  · subst hc
    obtain ⟨w0, e, hw⟩ := exists_splits cs
    rw [classify_long hp hw, optionLike_long hw]
    cases hl : lookup p.table ('-' :: '-' :: w0) with
    | some a =>
      simp only [Option.some.injEq, reduceCtorEq, false_iff, not_and]
      intro h
      exfalso
      apply h
      intro h2
      rw [lookup_filter h2] at hl
      cases hl
    | none =>
      simp only []
      generalize p.table.filter (fun q => ('-' :: '-' :: w0).isPrefixOf q.1) = fl
      rcases fl with _ | ⟨q, _ | ⟨q', l⟩⟩
      · simp only [ne_eq, not_true_eq_false, not_false_eq_true, true_and]
        cases negative ('-' :: '-' :: cs) || ('-' :: '-' :: cs).contains ' ' <;> simp
      · simp
      · simp
  · rw [classify_short hp hc, optionLike_short hp hc]
    cases hl : lookup p.table ['-', c] with
    | some a => simp
    | none =>
      simp only [ne_eq, not_true_eq_false, not_false_eq_true, true_and]
      cases negative ('-' :: c :: cs) || ('-' :: c :: cs).contains ' ' <;> simp

end Kam.Args

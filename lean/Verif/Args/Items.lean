/-
The options of a command line: argparse takes what the grammar says.
-/
import Verif.Args.Classify
import Mathlib.Data.List.Nodup

namespace Kam.Args
open Kam.Convert (Str)

variable {A : Type}

/-- Arguments as they are scanned. -/
def marked (args : List Str) : List (Str × Tok A) := args.map (fun x => (x, .arg))

lemma takeArgs_marked (args : List Str) (ts : List (Str × Tok A)) : takeArgs args.length (marked args ++ ts) = some (args, ts) := by
  induction args with
  | nil => rfl
  | cons x xs ih =>
    show takeArgs (xs.length + 1) ((x, .arg) :: (marked xs ++ ts)) = _
    rw [takeArgs, ih]
    rfl

lemma takeArgs_some : ∀ {n : Nat} {ts ts' : List (Str × Tok A)} {args : List Str}, takeArgs n ts = some (args, ts') →
    args.length = n ∧ ts = marked args ++ ts'
  | 0, ts, ts', args, h => by cases h; exact ⟨rfl, rfl⟩
  | n + 1, [], ts', args, h => by cases h
  | n + 1, (s, t) :: ts, ts', args, h => by
    cases t with
    | arg =>
      rw [takeArgs] at h
      cases h2 : takeArgs n ts with
      | none => rw [h2] at h; cases h
      | some q =>
        rw [h2] at h
        cases h
        obtain ⟨h3, h4⟩ := takeArgs_some (ts' := q.2) (args := q.1) h2
        refine ⟨by simp [h3], ?_⟩
        rw [h4]
        rfl
    | dashes => cases h
    | opt a n e => cases h
    | unknown => cases h

lemma attached_bundle {p : Parser A} (hp : WellFormed p) {c : Char} {a : A} {cs : Str} {args : List Str} {acts : List (Act A)}
    (ha : (['-', c], a) ∈ p.table) (h0 : p.arity a = 0) (h : Bundle p cs args acts) (ts : List (Str × Tok A)) :
    attached p (marked args ++ ts) cs a ['-', c] = .ok (.opt a [] :: acts, ts) := by
  have hc : c ≠ '-' := by
    rcases hp.name _ ha with ⟨d, h1, _, _, hd⟩ | ⟨w, hw0, _, hw⟩
    · simp only [List.cons.injEq, true_and, and_true] at hd
      rw [hd]; exact h1
    · simp only [List.cons.injEq, true_and] at hw
      exact absurd hw.2.symm hw0
  have hcond : p.arity a = 0 ∧ (['-', c] : Str).tail.head? ≠ some '-' := ⟨h0, by simpa using hc⟩
  have h1 : ¬ p.arity a = 1 := by omega
  induction h generalizing c a with
  | last hb hlen hpl =>
    rw [attached, if_neg h1, if_pos hcond, lookup_of_mem hp.nodup hb]
    simp only [List.isEmpty_nil, if_true, ← hlen, takeArgs_marked]
    rfl
  | value hb hb1 hv =>
    rename_i d b v
    have hv' : v.isEmpty = false := by simpa using hv
    have : attached p (marked [] ++ ts) v b ['-', d] = .ok ([.opt b [v]], ts) := by
      cases v with
      | nil => exact absurd rfl hv
      | cons x v => rw [attached, if_pos hb1]; rfl
    rw [attached, if_neg h1, if_pos hcond, lookup_of_mem hp.nodup hb]
    simp only [hv', Bool.false_eq_true, if_false, this]
    rfl
  | flag hb hb0 hcs ih =>
    rename_i d b cs args acts
    have hcs' : cs.isEmpty = false := by cases hcs <;> rfl
    have hd : d ≠ '-' := by
      rcases hp.name _ hb with ⟨d, h1, _, _, hd⟩ | ⟨w, hw0, _, hw⟩
      · simp only [List.cons.injEq, true_and, and_true] at hd
        rw [hd]; exact h1
      · simp only [List.cons.injEq, true_and] at hw
        exact absurd hw.2.symm hw0
    have := ih hb hb0 hd ⟨hb0, by simpa using hd⟩ (by omega)
    rw [attached, if_neg h1, if_pos hcond, lookup_of_mem hp.nodup hb]
    simp only [hcs', Bool.false_eq_true, if_false, this]
    rfl

/-- An attached string is the argument of the option, or further options. -/
lemma bundle_attached {p : Parser A} (hp : WellFormed p) : ∀ (cs : Str) {c : Char} {a : A} {ts ts' : List (Str × Tok A)}
    {acts : List (Act A)}, attached p ts cs a ['-', c] = .ok (acts, ts') →
    (p.arity a = 1 ∧ acts = [.opt a [cs]] ∧ ts = ts') ∨
    (p.arity a = 0 ∧ ∃ args acts', ts = marked args ++ ts' ∧ acts = .opt a [] :: acts' ∧
      ((∀ x ∈ args, Plain p x) → Bundle p cs args acts'))
  | [], c, a, ts, ts', acts, h => by
    rw [attached] at h
    split at h
    · rename_i h1
      cases h
      exact Or.inl ⟨h1, rfl, rfl⟩
    · split at h <;> cases h
  | d :: cs, c, a, ts, ts', acts, h => by
    rw [attached] at h
    split at h
    · rename_i h1
      cases h
      exact Or.inl ⟨h1, rfl, rfl⟩
    · split at h
      · rename_i h0
        refine Or.inr ⟨h0.1, ?_⟩
        cases hl : lookup p.table ['-', d] with
        | none => rw [hl] at h; cases h
        | some b =>
          rw [hl] at h
          have hb := lookup_mem hl
          simp only [] at h
          cases cs with
          | nil =>
            simp only [List.isEmpty_nil, if_true] at h
            cases ht : takeArgs (p.arity b) ts with
            | none => rw [ht] at h; cases h
            | some r =>
              obtain ⟨args, ts2⟩ := r
              rw [ht] at h
              cases h
              obtain ⟨h3, h4⟩ := takeArgs_some ht
              exact ⟨args, [.opt b args], h4, rfl, fun hpl => .last hb h3 hpl⟩
          | cons x xs =>
            simp only [List.isEmpty_cons, Bool.false_eq_true, if_false] at h
            cases ha : attached p ts (x :: xs) b ['-', d] with
            | error e => rw [ha] at h; cases h
            | ok r =>
              obtain ⟨acts2, ts2⟩ := r
              rw [ha] at h
              cases h
              rcases bundle_attached hp (x :: xs) ha with ⟨h1, h2, h3⟩ | ⟨h1, args, acts', h2, h3, h4⟩
              · exact ⟨[], acts2, h3, rfl, fun _ => h2 ▸ .value hb h1 (by simp)⟩
              · exact ⟨args, acts2, h2, rfl, fun hpl => h3 ▸ .flag hb h1 (h4 hpl)⟩
      · cases h

lemma long_classify {p : Parser A} (hp : WellFormed p) {w0 : Str} {a : A} (hl : Long p w0 a) :
    '=' ∉ w0 ∧ ∃ n, (n, a) ∈ p.table ∧ '-' :: '-' :: w0 <+: n ∧ ∀ {w e}, Splits w w0 e →
      classify p.table ('-' :: '-' :: w) = some (.opt a n e) := by
  rcases hl with h | ⟨heq, hne, n, hn, hpre, huniq⟩
  · have hw0 : '=' ∉ w0 := by
      rcases hp.name _ h with ⟨d, hd1, _, _, hd⟩ | ⟨w, _, hw1, hw⟩
      · simp only [List.cons.injEq, true_and] at hd
        exact absurd hd.1.symm hd1
      · simp only [List.cons.injEq, true_and] at hw
        rw [hw]; exact hw1
    refine ⟨hw0, _, h, List.prefix_refl _, fun hs => ?_⟩
    rw [classify_long hp hs, lookup_of_mem hp.nodup h]
  · refine ⟨heq, n, hn, hpre, fun hs => ?_⟩
    have hf : p.table.filter (fun q => ('-' :: '-' :: w0).isPrefixOf q.1) = [(n, a)] := by
      have hall : ∀ q ∈ p.table.filter (fun q => ('-' :: '-' :: w0).isPrefixOf q.1), q = (n, a) := by
        intro q hq
        rw [List.mem_filter] at hq
        exact huniq q hq.1 (List.isPrefixOf_iff_prefix.mp hq.2)
      have hmem : (n, a) ∈ p.table.filter (fun q => ('-' :: '-' :: w0).isPrefixOf q.1) :=
        List.mem_filter.mpr ⟨hn, List.isPrefixOf_iff_prefix.mpr hpre⟩
      have hnd : (p.table.filter (fun q => ('-' :: '-' :: w0).isPrefixOf q.1)).Nodup :=
        List.Nodup.filter _ (List.Nodup.of_map (·.1) hp.nodup)
      generalize p.table.filter (fun q => ('-' :: '-' :: w0).isPrefixOf q.1) = fl at hall hmem hnd
      rcases fl with _ | ⟨x, _ | ⟨y, l⟩⟩
      · cases hmem
      · rw [hall x (by simp)]
      · have h1 := hall x (by simp)
        have h2 := hall y (by simp)
        rw [h1, h2] at hnd
        simp at hnd
    rw [classify_long hp hs, lookup_none.mpr hne, hf]

lemma long_of_classify {p : Parser A} (hp : WellFormed p) {w w0 : Str} {a : A} {n : Str} {e e' : Option Str} (hs : Splits w w0 e)
    (h : classify p.table ('-' :: '-' :: w) = some (.opt a n e')) :
    Long p w0 a ∧ e' = e ∧ (n, a) ∈ p.table ∧ '-' :: '-' :: w0 <+: n := by
  rw [classify_long hp hs] at h
  cases hl : lookup p.table ('-' :: '-' :: w0) with
  | some b =>
    rw [hl] at h
    cases h
    exact ⟨Or.inl (lookup_mem hl), rfl, lookup_mem hl, List.prefix_refl _⟩
  | none =>
    rw [hl] at h
    simp only [] at h
    have hmem : ∀ q, q ∈ p.table.filter (fun q => ('-' :: '-' :: w0).isPrefixOf q.1) ↔ q ∈ p.table ∧ '-' :: '-' :: w0 <+: q.1 := by
      intro q
      rw [List.mem_filter, List.isPrefixOf_iff_prefix]
    generalize p.table.filter (fun q => ('-' :: '-' :: w0).isPrefixOf q.1) = fl at h hmem
    rcases fl with _ | ⟨q, _ | ⟨q', l⟩⟩
    · simp only [] at h
      split at h <;> cases h
    · cases h
      have hq := (hmem q).mp (by simp)
      refine ⟨Or.inr ⟨hs.1, lookup_none.mp hl, q.1, hq.1, hq.2, ?_⟩, rfl, hq.1, hq.2⟩
      intro q' hq' hpre
      simpa using (hmem q').mpr ⟨hq', hpre⟩
    · cases h

lemma prefix_second {n : Str} {w0 : Str} (h : '-' :: '-' :: w0 <+: n) : n.tail.head? = some '-' := by
  obtain ⟨z, hz⟩ := h
  rw [← hz]
  rfl

lemma attached_long {p : Parser A} {n : Str} (hn : n.tail.head? = some '-') (v : Str) (a : A) (ts : List (Str × Tok A)) :
    attached p ts v a n = if p.arity a = 1 then .ok ([.opt a [v]], ts) else .error .usage := by
  have hc : ¬ (p.arity a = 0 ∧ n.tail.head? ≠ some '-') := fun h => h.2 hn
  cases v with
  | nil => rw [attached, if_neg hc]
  | cons x v => rw [attached, if_neg hc]

lemma extra_some {cs : Str} (h0 : cs ≠ []) (h1 : cs.head? ≠ some '=') : extra cs = some cs := by
  unfold extra
  split
  · exact absurd rfl h0
  · simp at h1
  · rfl

lemma bundle_ne {p : Parser A} {cs : Str} {args : List Str} {acts : List (Act A)} (h : Bundle p cs args acts) : cs ≠ [] := by
  cases h <;> simp

/-- What argparse does with an item. -/
lemma item_parse {p : Parser A} (hp : WellFormed p) {xs : List Str} {acts : List (Act A)} (h : Item p xs acts) :
    ∃ s args a n e, xs = s :: args ∧ s ≠ ['-', '-'] ∧ (∀ x ∈ args, Plain p x) ∧ classify p.table s = some (.opt a n e) ∧
      ∀ ts, optional p a n e (marked args ++ ts) = .ok (acts, ts) := by
  cases h with
  | short hc hcs hb =>
    rename_i c cs args
    cases hb with
    | last ha hlen hpl =>
      rename_i a
      refine ⟨_, args, a, ['-', c], none, rfl, by simpa using hc, hpl, ?_, fun ts => ?_⟩
      · rw [classify_short hp hc, lookup_of_mem hp.nodup ha]
        rfl
      · unfold optional
        simp only [← hlen, takeArgs_marked]
    | value ha h1 hv =>
      rename_i a
      refine ⟨_, [], a, ['-', c], some cs, rfl, by simp [hc], by simp, ?_, fun ts => ?_⟩
      · rw [classify_short hp hc, lookup_of_mem hp.nodup ha]
        simp only [extra_some hv hcs]
      · unfold optional
        cases cs with
        | nil => exact absurd rfl hv
        | cons x v => simp only [attached, if_pos h1]; rfl
    | flag ha h0 hb =>
      rename_i a acts
      refine ⟨_, args, a, ['-', c], some cs, rfl, by simp [hc], ?_, ?_, fun ts => ?_⟩
      · clear hcs
        induction hb with
        | last _ _ h => exact h
        | value => simp
        | flag _ _ _ ih => exact ih
      · rw [classify_short hp hc, lookup_of_mem hp.nodup ha]
        simp only [extra_some (bundle_ne hb) hcs]
      · exact attached_bundle hp ha h0 hb ts
  | equals ha h1 =>
    rename_i c a v
    have hc : c ≠ '-' := by
      rcases hp.name _ ha with ⟨d, h1, _, _, hd⟩ | ⟨w, hw0, _, hw⟩
      · simp only [List.cons.injEq, true_and, and_true] at hd
        rw [hd]; exact h1
      · simp only [List.cons.injEq, true_and] at hw
        exact absurd hw.2.symm hw0
    refine ⟨_, [], a, ['-', c], some v, rfl, by simp [hc], by simp, ?_, fun ts => ?_⟩
    · rw [classify_short hp hc, lookup_of_mem hp.nodup ha]
      rfl
    · unfold optional
      cases v with
      | nil => simp only [attached, if_pos h1]; rfl
      | cons x v => simp only [attached, if_pos h1]; rfl
  | flagEquals ha h0 hb =>
    rename_i c a cs args acts
    have hc : c ≠ '-' := by
      rcases hp.name _ ha with ⟨d, h1, _, _, hd⟩ | ⟨w, hw0, _, hw⟩
      · simp only [List.cons.injEq, true_and, and_true] at hd
        rw [hd]; exact h1
      · simp only [List.cons.injEq, true_and] at hw
        exact absurd hw.2.symm hw0
    refine ⟨_, args, a, ['-', c], some cs, rfl, by simp [hc], ?_, ?_, fun ts => ?_⟩
    · induction hb with
      | last _ _ h => exact h
      | value => simp
      | flag _ _ _ ih => exact ih
    · rw [classify_short hp hc, lookup_of_mem hp.nodup ha]
      rfl
    · exact attached_bundle hp ha h0 hb ts
  | long hw hl hlen hpl =>
    rename_i w a args
    obtain ⟨heq, n, hn, hpre, hcl⟩ := long_classify hp hl
    refine ⟨_, args, a, n, none, rfl, by simpa using hw, hpl, hcl ⟨heq, Or.inl ⟨rfl, rfl⟩⟩, fun ts => ?_⟩
    unfold optional
    simp only [← hlen, takeArgs_marked]
  | longEquals hl h1 =>
    rename_i w a v
    obtain ⟨heq, n, hn, hpre, hcl⟩ := long_classify hp hl
    refine ⟨_, [], a, n, some v, rfl, by simp, by simp, hcl ⟨heq, Or.inr ⟨v, rfl, rfl⟩⟩, fun ts => ?_⟩
    unfold optional
    simp only [attached_long (prefix_second hpre), if_pos h1]
    rfl

/-- What argparse takes for options are items. -/
lemma item_of {p : Parser A} (hp : WellFormed p) {s n : Str} {a : A} {e : Option Str} {ts ts' : List (Str × Tok A)}
    {acts : List (Act A)} (hs : s ≠ ['-', '-']) (hc : classify p.table s = some (.opt a n e))
    (ho : optional p a n e ts = .ok (acts, ts')) :
    ∃ args, ts = marked args ++ ts' ∧ ((∀ x ∈ args, Plain p x) → Item p (s :: args) acts) := by
  have hdash : ∃ r, s = '-' :: r := by
    rcases s with _ | ⟨c, r⟩
    · cases hc
    · by_cases h : c = '-'
      · exact ⟨r, by rw [h]⟩
      · rw [(classify_arg hp _).mpr (Or.inl (by simpa using h))] at hc
        cases hc
  obtain ⟨r, rfl⟩ := hdash
  rcases r with _ | ⟨c, cs⟩
  · rw [(classify_arg hp _).mpr (Or.inr (Or.inl rfl))] at hc
    cases hc
  by_cases h : c = '-'
  · subst h
    obtain ⟨w0, e0, hsp⟩ := exists_splits cs
    obtain ⟨hl, rfl, hn, hpre⟩ := long_of_classify hp hsp hc
    obtain ⟨h0, ⟨rfl, rfl⟩ | ⟨v, rfl, rfl⟩⟩ := hsp
    · unfold optional at ho
      simp only [] at ho
      cases ht : takeArgs (p.arity a) ts with
      | none => rw [ht] at ho; cases ho
      | some q =>
        obtain ⟨args, ts2⟩ := q
        rw [ht] at ho
        cases ho
        obtain ⟨h3, h4⟩ := takeArgs_some ht
        exact ⟨args, h4, fun hpl => .long (by simpa using hs) hl h3 hpl⟩
    · unfold optional at ho
      simp only [attached_long (prefix_second hpre)] at ho
      split at ho
      · rename_i h1
        cases ho
        exact ⟨[], rfl, fun _ => .longEquals hl h1⟩
      · cases ho
  · rw [classify_short hp h] at hc
    cases hl : lookup p.table ['-', c] with
    | none =>
      rw [hl] at hc
      simp only [] at hc
      split at hc <;> cases hc
    | some b =>
      rw [hl] at hc
      cases hc
      have hb := lookup_mem hl
      unfold optional at ho
      rcases cs with _ | ⟨d, cs⟩
      · simp only [extra] at ho
        cases ht : takeArgs (p.arity a) ts with
        | none => rw [ht] at ho; cases ho
        | some q =>
          obtain ⟨args, ts2⟩ := q
          rw [ht] at ho
          cases ho
          obtain ⟨h3, h4⟩ := takeArgs_some ht
          exact ⟨args, h4, fun hpl => .short h (by simp) (.last hb h3 hpl)⟩
      · by_cases hd : d = '='
        · subst hd
          simp only [extra] at ho
          rcases bundle_attached hp cs ho with ⟨h1, rfl, rfl⟩ | ⟨h1, args, acts', h2, rfl, h4⟩
          · exact ⟨[], rfl, fun _ => .equals hb h1⟩
          · exact ⟨args, h2, fun hpl => .flagEquals hb h1 (h4 hpl)⟩
        · have : extra (d :: cs) = some (d :: cs) := by
            unfold extra
            split
            · rename_i h2; cases h2
            · rename_i h2; cases h2; exact absurd rfl hd
            · rfl
          rw [this] at ho
          simp only [] at ho
          rcases bundle_attached hp (d :: cs) ho with ⟨h1, rfl, rfl⟩ | ⟨h1, args, acts', h2, rfl, h4⟩
          · exact ⟨[], rfl, fun _ => .short h (by simpa using hd) (.value hb h1 (by simp))⟩
          · exact ⟨args, h2, fun hpl => .short h (by simpa using hd) (.flag hb h1 (h4 hpl))⟩

end Kam.Args

/-
Lemmas on the way from an original file over a conversion script to the loaded data.
-/
import Verif.Convert.Spec2
import Verif.Convert.Props2

set_option linter.unusedSectionVars false

namespace Kam.Convert
open Convert.Spec Kam.Spec

variable {K φ ε : Type} [Field K] [LinearOrder K] [IsStrictOrderedRing K] [FloorRing K]

/-! ### Conversion -/

lemma conv_rows {X : Type} {raw : X → Str} {row : X → List Str} {f : Str → Res Str} {xs : List X} {text : Str}
    (ht : Text (xs.map raw) text) (hp : ∀ x ∈ xs, Plain (raw x))
    (hf : ∀ x ∈ xs, ∀ line, chomp line = raw x → f line = .ok (printTab (row x))) :
    (readlines text).mapM f = .ok ((xs.map row).map printTab) := by
  have hp' : ∀ l ∈ xs.map raw, Plain l := by
    intro l hl
    obtain ⟨x, hx, rfl⟩ := List.mem_map.1 hl
    exact hp x hx
  have hc := (readlines_text ht hp').chomp hp'
  generalize readlines text = rs at hc
  rw [mapM_ok_iff]
  clear ht hp hp'
  induction xs generalizing rs with
  | nil =>
    obtain rfl : rs = [] := by simpa using hc
    exact .nil
  | cons x xs ih =>
    obtain ⟨l, rs', rfl, h1, h2⟩ := List.map_eq_cons_iff.1 hc
    exact .cons (hf x List.mem_cons_self l h1) (ih (fun x hx => hf x (List.mem_cons_of_mem _ hx)) rs' h2)

lemma conv_flat {X : Type} {raw : X → Str} {row : X → List Str} {f : Str → Str} {xs : List X} {text : Str}
    (ht : Text (xs.map raw) text) (hp : ∀ x ∈ xs, Plain (raw x))
    (hf : ∀ x ∈ xs, ∀ line, chomp line = raw x → f line = printTab (row x)) :
    (readlines text).flatMap f = (xs.map row).flatMap printTab := by
  have := conv_rows (f := fun l => .ok (f l)) ht hp (fun x hx l hl => by rw [hf x hx l hl])
  have h2 : (readlines text).mapM (fun l => (.ok (f l) : Res Str)) = .ok ((readlines text).map f) := mapM_ok _ (fun _ _ => rfl)
  rw [h2] at this
  have := Except.ok.inj this
  rw [List.flatMap_def, this, List.flatMap_def]

/-- A script that converts the lines. -/
lemma conv_file {X : Type} {raw : X → Str} {row : X → List Str} {f : Str → Res Str} {xs : List X} {text : Str}
    {hd : List String} (hh : Headed hd)
    (ht : Text (xs.map raw) text) (hp : ∀ x ∈ xs, Plain (raw x)) (hrow : ∀ x ∈ xs, Tidy (row x))
    (hf : ∀ x ∈ xs, ∀ line, chomp line = raw x → f line = .ok (printTab (row x))) :
    ∃ out, (do return head hd ++ (← (readlines text).mapM f).flatten : Res Str) = .ok out ∧ File out (xs.map row) := by
  refine ⟨head hd ++ (xs.map row).flatMap printTab, ?_, file_head hh (file_printTab ?_)⟩
  · simp only [conv_rows ht hp hf, ok_bind, ← List.flatMap_def]
    rfl
  · intro r hr
    obtain ⟨x, hx, rfl⟩ := List.mem_map.1 hr
    exact hrow x hx

lemma conv_file_flat {X : Type} {raw : X → Str} {row : X → List Str} {f : Str → Str} {xs : List X} {text : Str}
    {hd : List String} (hh : Headed hd)
    (ht : Text (xs.map raw) text) (hp : ∀ x ∈ xs, Plain (raw x)) (hrow : ∀ x ∈ xs, Tidy (row x))
    (hf : ∀ x ∈ xs, ∀ line, chomp line = raw x → f line = printTab (row x)) :
    File (head hd ++ (readlines text).flatMap f) (xs.map row) := by
  rw [conv_flat ht hp hf]
  refine file_head hh (file_printTab ?_)
  intro r hr
  obtain ⟨x, hx, rfl⟩ := List.mem_map.1 hr
  exact hrow x hx

lemma join_join {c : Char} (as gs bs : List Str) (hg : gs ≠ []) :
    join c (as ++ join c gs :: bs) = join c (as ++ gs ++ bs) := by
  have h0 : join c (join c gs :: bs) = join c (gs ++ bs) := by
    cases bs with
    | nil => simp [join]
    | cons b bs =>
      have e : join c (join c gs :: b :: bs) = join c gs ++ c :: join c (b :: bs) := rfl
      rw [e]
      clear e
      induction gs with
      | nil => exact absurd rfl hg
      | cons g gs ih =>
        cases gs with
        | nil => rfl
        | cons k gs =>
          have e : join c (g :: k :: gs) = g ++ c :: join c (k :: gs) := rfl
          have e' : join c (g :: k :: gs ++ b :: bs) = g ++ c :: join c (k :: gs ++ b :: bs) := rfl
          rw [e, e', ← ih (by simp)]; simp
  induction as with
  | nil => simpa using h0
  | cons a as ih =>
    have e : ∀ l : List Str, l ≠ [] → join c (a :: l) = a ++ c :: join c l := by
      intro l hl
      obtain ⟨x, l, rfl⟩ := List.exists_cons_of_ne_nil hl
      rfl
    rw [List.cons_append, List.cons_append, List.cons_append, e _ (by simp), e _ (by simp [hg]), ih]

/-- Rows of at least two fields whose last one may be empty. -/
lemma tidy_open {f g : Str} {fs gs : List Str} {rows : List Str} (h1 : rows = f :: fs) (h2 : rows = gs ++ [g])
    (hgs : gs ≠ []) (hc : ∀ r ∈ rows, Clean r) (hf : f ≠ []) (hf' : f.head? ≠ some ' ') (hg' : g.getLast? ≠ some ' ') :
    Tidy rows := by
  refine ⟨hc, ?_, ?_, ?_⟩
  · rw [h1]; exact join_ne_nil hf
  · rw [h1, head_join hf]; exact hf'
  · rw [h2]
    by_cases hg : g = []
    · subst hg
      rw [join_snoc hgs]; simp
    · rw [last_join hg]; exact hg'

lemma plain_join {c : Char} {fs : List Str} (hc : c ≠ '\n' ∧ c ≠ '\r') (h : ∀ f ∈ fs, Plain f) : Plain (join c fs) := by
  constructor <;> intro hm <;> rcases mem_join hm with h' | ⟨f, hf, hx⟩
  · exact hc.1 h'.symm
  · exact (h f hf).1 hx
  · exact hc.2 h'.symm
  · exact (h f hf).2 hx

lemma Spec.Clean.plain {f : Str} (h : Clean f) : Plain f := ⟨h.2.1, h.2.2.1⟩

/-! ### Rejected files -/

lemma file_rows {text : Str} {rows : List (List Str)} (h : File text rows) :
    ((readlines text).map fieldsOf).filter (fun r => r ≠ []) = rows := by
  obtain ⟨ls, h1, h2, h3⟩ := h
  exact rows_fields (readlines_text h1 h2) h3

lemma genfromtxt_ragged (nan : K) (types : List FType) {text : Str} {rows : List (List Str)} (h : File text rows)
    {r r' : List Str} (hr : r ∈ rows) (hr' : r' ∈ rows) (hne : r.length ≠ r'.length) :
    genfromtxt nan types text = .error .valueError := by
  unfold genfromtxt
  simp only [file_rows h]
  cases rows with
  | nil => cases hr
  | cons first rest =>
    simp only []
    rw [if_pos]
    rw [List.any_eq_true]
    by_cases h1 : r.length = first.length
    · exact ⟨r', hr', by simpa using fun e => hne (h1.trans e.symm)⟩
    · exact ⟨r, hr, by simpa using h1⟩

lemma genfromtxt_narrow (nan : K) (types : List FType) {text : Str} {rows : List (List Str)} (h : File text rows)
    {r : List Str} (hr : r ∈ rows) (hlt : r.length < types.length) :
    genfromtxt nan types text = .error .valueError := by
  by_cases hall : ∀ r' ∈ rows, r'.length = r.length
  · unfold genfromtxt
    simp only [file_rows h]
    cases rows with
    | nil => cases hr
    | cons first rest =>
      simp only []
      have h1 := hall first List.mem_cons_self
      split
      · rfl
      · rw [if_pos (by omega)]
  · push Not at hall
    obtain ⟨r', hr', hne⟩ := hall
    exact genfromtxt_ragged nan types h hr' hr hne

/-! ### Loading -/

/-- A feature file. -/
lemma loadFeature_ok (nan : K) {text : Str} {types : List FType} {frows : List (List Str)}
    {recs : List (Int × List (Cell K))} {w : Nat} {d : ScoreData K Int (List (Cell K)) ε} {rows : List (List Int)}
    {sc : List K} (hd : ScoreBuilt d rows sc) {t : Nat} (ht : t < d.nOtypes) (hfile : File text frows)
    (hw : List.Forall₂ (fun r (p : Int × List (Cell K)) => r.length = w ∧ Written (.int :: types) r (.int p.1 :: p.2)) frows recs)
    (hne : recs.length ≠ 1) (hnd : (recs.map Prod.fst).Nodup) :
    ((∀ x, IsObject d.eventOtypes rows t x → x ∈ recs.map Prod.fst) → ∃ d' g, loadFeature nan text types d t = .ok d' ∧
      ScoreBuilt d' rows sc ∧ d' = { d with feature := d.feature.set t (some g) } ∧
      ∀ p ∈ recs, IsObject d.eventOtypes rows t p.1 → HasFeature d' t p.1 p.2) ∧
    (¬ (∀ x, IsObject d.eventOtypes rows t x → x ∈ recs.map Prod.fst) → loadFeature nan text types d t = .error .indexError) := by
  obtain ⟨ls, h1, h2, h3⟩ := hfile
  have hx := genfromtxt_ok nan (types := .int :: types) (w := w)
    (cs := recs.map (fun p => .int p.1 :: p.2)) h1 h2 h3 (by
      rw [List.forall₂_map_right_iff]; exact hw)
  rw [recs_many (by simpa using hne)] at hx
  have hload : loadFeature nan text types d t = d.setFeature t (recs.map Prod.fst) (recs.map Prod.snd) := by
    unfold loadFeature
    simp only [hx, ok_bind, List.map_map]
    rfl
  obtain ⟨k1, k2, k3⟩ := C11_set_feature hd.inv.1 t ht (recs.map Prod.fst) (recs.map Prod.snd) (by simp)
  rw [hload]
  unfold ScoreData.setFeature
  constructor
  · intro hall
    obtain ⟨b, hb⟩ := k1.2 hall
    obtain ⟨⟨g, e1, e2, e3⟩, k4⟩ := k3 b hb
    refine ⟨{ d with toEventData := b }, g, by rw [hb]; rfl, ?_, ?_, ?_⟩
    · refine .setFeature hd (t := t) (eids := recs.map Prod.fst) (f := recs.map Prod.snd) ?_
      unfold ScoreData.setFeature
      rw [hb]; rfl
    · rw [e1]
    · intro p hp hobj
      obtain ⟨i, i1, i2, i3, i4⟩ := k4 p.1 hobj
      have hpi : recs[i]? = some p := by
        obtain ⟨j, hj, hpj⟩ := List.getElem_of_mem hp
        have hi : i < (recs.map Prod.fst).length := (List.getElem?_eq_some_iff.1 i1).1
        have : i = j := by
          apply hnd.getElem_inj_iff (hi := hi) (hj := by simpa using hj) |>.1
          rw [(List.getElem?_eq_some_iff.1 i1).2]
          simp [hpj]
        subst this
        rw [List.getElem?_eq_getElem hj, hpj]
      rw [List.getElem?_map, hpi] at i3
      have i3' : featureOf b t p.1 = some p.2 := i3
      unfold featureOf at i3'
      rw [e2] at i3'
      cases hiid : b.toIid t p.1 with
      | error e => rw [hiid] at i3'; cases i3'
      | ok j =>
        rw [hiid] at i3'
        exact ⟨g, j, e2, hiid, i3'⟩
  · intro hall
    cases hb : d.toEventData.setFeature t (recs.map Prod.fst) (recs.map Prod.snd) with
    | ok b => exact absurd (k1.1 ⟨b, hb⟩) hall
    | error e => rw [k2 e hb]; rfl

lemma hasFeature_set {d : ScoreData K Int (List (Cell K)) ε} {t t' : Nat} {x : Int} {f : List (Cell K)}
    {g : Option (List (List (Cell K)))} (h : HasFeature d t x f) (hne : t' ≠ t) :
    HasFeature { d with feature := d.feature.set t' g } t x f := by
  obtain ⟨g', i, h1, h2, h3⟩ := h
  refine ⟨g', i, ?_, h2, h3⟩
  show (d.feature.set t' g)[t]? = _
  rw [List.getElem?_set_ne hne, h1]

/-- The three files of a data set. -/
lemma load_three (nan : K) {event user item : Str} {dm : List K} {lv : Int} {feats : Bool} {fty uty ity : List FType}
    {erows urows irows : List (List Str)} {es : List (Entry K)} {users items : List (Int × List (Cell K))} {we wu wi : Nat}
    (hlv : ScoreData.levelsOfDomain dm = .ok lv)
    (he : File event erows) (hu : File user urows) (hi : File item irows)
    (he' : List.Forall₂ (fun r e => r.length = we ∧ e.ids.length = 2 ∧
      Written ([.int, .int, .float] ++ if feats then fty else []) r e.cells) erows es)
    (hu' : List.Forall₂ (fun r (p : Int × List (Cell K)) => r.length = wu ∧ Written (.int :: uty) r (.int p.1 :: p.2)) urows users)
    (hi' : List.Forall₂ (fun r (p : Int × List (Cell K)) => r.length = wi ∧ Written (.int :: ity) r (.int p.1 :: p.2)) irows items)
    (h1 : es.length ≠ 1) (h2 : users.length ≠ 1) (h3 : items.length ≠ 1)
    (hn1 : (users.map Prod.fst).Nodup) (hn2 : (items.map Prod.fst).Nodup) :
    let r : Res (ScoreData K Int (List (Cell K)) (List (Cell K))) := (do
      let data ← loadEventWithScore nan event 2 (.arr 1 [0, 1]) (some dm) (if feats then some fty else none)
      let data ← loadFeature nan user uty data 0
      loadFeature nan item ity data 1)
    (Covered es 0 users ∧ Covered es 1 items → ∃ d, r = .ok d ∧ DataSet d dm feats es users items) ∧
    (¬ (Covered es 0 users ∧ Covered es 1 items) → r = .error .indexError) := by
  obtain ⟨ls, e1, e2, e3⟩ := he
  have hft : (if feats then some fty else none : Option (List FType)).getD [] = if feats then fty else [] := by
    cases feats <;> rfl
  have hx := genfromtxt_ok nan (types := List.replicate 2 .int ++ .float :: (if feats then some fty else none : Option (List FType)).getD [])
    (w := we) (cs := es.map Entry.cells) e1 e2 e3 (by
      rw [List.forall₂_map_right_iff, hft]
      exact he'.imp (fun _ _ h => ⟨h.1, h.2.2⟩))
  have hids : ∀ e ∈ es, e.ids.length = 2 := by
    intro e he
    obtain ⟨i, hi, rfl⟩ := List.getElem_of_mem he
    exact (he'.get (by rw [he'.length_eq]; exact hi) hi).2.1
  obtain ⟨d0, k1, k2, k3, k4, k5, k6, k7, k8⟩ := loadScore_ok (φ := List (Cell K)) nan (n := 2) (arg := .arr 1 [0, 1]) (dom := some dm)
    (ft := if feats then some fty else none)
    rfl (show (2 : Nat) ≠ 1 by decide) hx hids h1 rfl hlv
  have hobj : ∀ t, t < 2 → ∀ x, IsObject [0, 1] (es.map Entry.ids) t x ↔ InColumn es t x := by
    intro t ht x
    unfold IsObject InColumn
    constructor
    · rintro ⟨r, hr, e, he1, he2⟩
      obtain ⟨e', hm, rfl⟩ := List.mem_map.1 hr
      have : e = t := by
        match e, he1 with
        | 0, h => simpa using h
        | 1, h => simpa using h
      exact ⟨e', hm, this ▸ he2⟩
    · rintro ⟨e, hm, hx⟩
      refine ⟨_, List.mem_map_of_mem hm, t, ?_, hx⟩
      match t, ht with
      | 0, _ => rfl
      | 1, _ => rfl
  have o0 : d0.eventOtypes = [0, 1] := k6
  have n0 : d0.nOtypes = 2 := k7
  obtain ⟨u1, u2⟩ := loadFeature_ok nan (t := 0) k2 (by rw [n0]; decide) hu hu' h2 hn1
  simp only [k1, ok_bind]
  rw [o0] at u1 u2
  by_cases hc0 : Covered es 0 users
  · obtain ⟨d1, g1, v1, v2, v3, v4⟩ := u1 (fun x hx => hc0 x ((hobj 0 (by decide) x).1 hx))
    have o1 : d1.eventOtypes = [0, 1] := by rw [v3]
    have n1 : d1.nOtypes = 2 := by rw [v3]; exact n0
    obtain ⟨w1, w2⟩ := loadFeature_ok nan (t := 1) v2 (by rw [n1]; decide) hi hi' h3 hn2
    rw [o1] at w1 w2
    simp only [v1, ok_bind]
    constructor
    · rintro ⟨_, hc1⟩
      obtain ⟨d2, g2, x1, x2, x3, x4⟩ := w1 (fun x hx => hc1 x ((hobj 1 (by decide) x).1 hx))
      refine ⟨d2, x1, reads_built x2.inv.1, x2.inv.2.1, ?_, ?_, ?_, ?_, x2⟩
      · rw [x3, v3]; exact k3
      · rw [x3, v3]
        show d0.eventFeature = _
        rw [k4]; cases feats <;> rfl
      · intro p hp hin
        have := v4 p hp ((hobj 0 (by decide) p.1).2 hin)
        rw [x3]
        exact hasFeature_set this (by decide)
      · intro p hp hin
        exact x4 p hp ((hobj 1 (by decide) p.1).2 hin)
    · intro hn
      exact w2 (fun h => hn ⟨hc0, fun x hx => h x ((hobj 1 (by decide) x).2 hx)⟩)
  · refine ⟨fun h => absurd h.1 hc0, fun _ => ?_⟩
    rw [u2 (fun h => hc0 (fun x hx => h x ((hobj 0 (by decide) x).2 hx)))]
    rfl

/-! ### Values -/

lemma shows_bit (b : Bool) : Shows (K := K) .int (showInt (bit b)) (.int (bit b)) := .int _

lemma showDec_int (n : Int) : showDec n 0 = showInt n := by
  unfold showDec showInt
  simp [Nat.sub_eq_zero_of_le (List.length_pos_of_ne_nil (Nat.toDigits_ne_nil (b := 10) (n := n.natAbs)))]

lemma shows_num_int (n : Int) : Shows (K := K) .float (showInt n) (.num (n : K)) :=
  shows_num (m := n) (k := 0) (showDec_int n) (by simp)

lemma written_append {ts ts' : List FType} {ss ss' : List Str} {cs cs' : List (Cell K)}
    (h : List.Forall₂ (fun p c => Shows p.1 p.2 c) (ts.zip ss) cs) (hl : ts.length = ss.length) (h' : Written ts' ss' cs') :
    Written (ts ++ ts') (ss ++ ss') (cs ++ cs') := by
  induction ts generalizing ss cs with
  | nil =>
    cases ss with
    | nil => cases h; exact h'
    | cons s ss => cases hl
  | cons t ts ih =>
    cases ss with
    | nil => cases hl
    | cons s ss =>
      cases h with
      | cons a b => exact .cons a (ih b (by simpa using hl))

/-- Columns of flags. -/
lemma written_ints {ts' : List FType} {ss' : List Str} {cs' : List (Cell K)} (ns : List Int) (h' : Written ts' ss' cs') :
    Written (List.replicate ns.length .int ++ ts') (ns.map showInt ++ ss') (ns.map Cell.int ++ cs') := by
  induction ns with
  | nil => exact h'
  | cons n ns ih => exact .cons (.int n) ih

end Kam.Convert

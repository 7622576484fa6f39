/-
Lemmas about the conversion scripts as programs on files.
-/
import Verif.Convert.ScriptSpec
import Verif.Scripts.Lemmas
import Mathlib.Data.List.TakeWhile

set_option linter.unusedSectionVars false

namespace Kam.Convert
open Shell (Prog Files Exit steps)
open Convert.Spec

/-! ### Statements that print -/

lemma out_bind_ok {α β : Type} {m : Out α} {x : α} (h : m.res = .ok x) (f : α → Out β) :
    m >>= f = ⟨m.text ++ (f x).text, (f x).res⟩ := by
  show (match m.res with | .ok x => (⟨m.text ++ (f x).text, (f x).res⟩ : Out β) | .error e => ⟨m.text, .error e⟩) = _
  rw [h]

lemma out_bind_error {α β : Type} {m : Out α} {e : Exc} (h : m.res = .error e) (f : α → Out β) :
    m >>= f = ⟨m.text, .error e⟩ := by
  show (match m.res with | .ok x => (⟨m.text ++ (f x).text, (f x).res⟩ : Out β) | .error e => ⟨m.text, .error e⟩) = _
  rw [h]

@[simp] lemma eval_bind_ok {α β : Type} (x : α) (f : α → Out β) : eval (.ok x) >>= f = f x := by
  rw [out_bind_ok rfl]
  rfl

@[simp] lemma eval_bind_error {α β : Type} (e : Exc) (f : α → Out β) : eval (.error e) >>= f = ⟨[], .error e⟩ := by
  rw [out_bind_error rfl]
  rfl

@[simp] lemma print_bind {β : Type} (c : Char) (l : List Str) (f : Unit → Out β) :
    printEnd c l >>= f = ⟨join '\t' l ++ [c] ++ (f ()).text, (f ()).res⟩ := out_bind_ok rfl f

@[simp] lemma mk_bind_ok {α β : Type} (t : Str) (x : α) (f : α → Out β) :
    (⟨t, .ok x⟩ : Out α) >>= f = ⟨t ++ (f x).text, (f x).res⟩ := out_bind_ok rfl f

@[simp] lemma mk_bind_error {α β : Type} (t : Str) (e : Exc) (f : α → Out β) : (⟨t, .error e⟩ : Out α) >>= f = ⟨t, .error e⟩ :=
  out_bind_error rfl f

/-- `g` does what `c` computes, and raises when `c` does. -/
def Does {β : Type} (g : β → Out Unit) (c : β → Res Str) : Prop :=
  ∀ x, (∀ t, c x = .ok t → g x = ⟨t, .ok ()⟩) ∧ ∀ e, c x = .error e → (g x).res = .error e

lemma forEach_ok {β : Type} {g : β → Out Unit} {c : β → Res Str} (h : Does g c) : ∀ {ls : List β} {ts : List Str},
    ls.mapM c = .ok ts → forEach g ls = ⟨ts.flatten, .ok ()⟩
  | [], ts, e => by cases e; rfl
  | x :: xs, ts, e => by
    rw [List.mapM_cons] at e
    cases hx : c x with
    | error y => rw [hx] at e; cases e
    | ok t =>
      rw [hx] at e
      cases hxs : xs.mapM c with
      | error y => rw [hxs] at e; cases e
      | ok us =>
        rw [hxs] at e
        cases e
        rw [forEach, (h x).1 t hx, out_bind_ok rfl, forEach_ok h hxs]
        simp

lemma forEach_error {β : Type} {g : β → Out Unit} {c : β → Res Str} (h : Does g c) : ∀ {ls : List β} {e : Exc},
    ls.mapM c = .error e → ∃ pre bad post ts, ls = pre ++ bad :: post ∧ pre.mapM c = .ok ts ∧ c bad = .error e ∧
      forEach g ls = ⟨ts.flatten ++ (g bad).text, .error e⟩
  | [], e, he => by cases he
  | x :: xs, e, he => by
    rw [List.mapM_cons] at he
    cases hx : c x with
    | error y =>
      rw [hx] at he
      cases he
      exact ⟨[], x, xs, [], rfl, rfl, hx, by rw [forEach, out_bind_error ((h x).2 _ hx)]; rfl⟩
    | ok t =>
      rw [hx] at he
      cases hxs : xs.mapM c with
      | ok us => rw [hxs] at he; cases he
      | error y =>
        rw [hxs] at he
        cases he
        obtain ⟨pre, bad, post, ts, h1, h2, h3, h4⟩ := forEach_error h hxs
        refine ⟨x :: pre, bad, post, t :: ts, by rw [h1]; rfl, ?_, h3, ?_⟩
        · rw [List.mapM_cons, hx, h2]; rfl
        · rw [forEach, (h x).1 t hx, out_bind_ok rfl, h4]
          simp

/-! ### Lines -/

lemma splitLines_flatten : ∀ s : Str, (splitLines s).flatten = s
  | [] => rfl
  | c :: s => by
    have ih := splitLines_flatten s
    rw [splitLines]
    split
    · rename_i h; subst h; simp [ih]
    · cases h : splitLines s with
      | nil => rw [h] at ih; simp at ih; simp [← ih]
      | cons l ls => rw [h] at ih; simp at ih; simp [ih]

lemma splitLines_part : ∀ (s : Str) (pre post : List Str), splitLines s = pre ++ post → splitLines pre.flatten = pre
  | [], pre, post, h => by
    have : pre = [] := by
      have h' : ([] : List Str) = pre ++ post := h
      exact (List.append_eq_nil_iff.1 h'.symm).1
    subst this; rfl
  | c :: s, pre, post, h => by
    cases pre with
    | nil => rfl
    | cons p ps =>
      rw [splitLines] at h
      split at h
      · rename_i hc
        simp only [List.cons_append, List.cons.injEq] at h
        obtain ⟨rfl, h⟩ := h
        have ih := splitLines_part s ps post h
        simp [splitLines, ih]
      · rename_i hc
        cases hs : splitLines s with
        | nil =>
          rw [hs] at h
          simp only [List.cons_append, List.cons.injEq] at h
          obtain ⟨rfl, h⟩ := h
          have := (List.append_eq_nil_iff.1 h.symm).1
          subst this
          simp [splitLines, hc]
        | cons l ls =>
          rw [hs] at h
          simp only [List.cons_append, List.cons.injEq] at h
          obtain ⟨rfl, h⟩ := h
          have ih := splitLines_part s (l :: ps) post (by rw [hs, h]; rfl)
          simp only [List.flatten_cons, List.cons_append] at ih ⊢
          rw [splitLines, if_neg hc, ih]

lemma universal_noCR : ∀ s : Str, '\r' ∉ universal s
  | [] => by simp [universal]
  | c :: s => by
    have ih := universal_noCR s
    rw [universal.eq_def]
    split
    · rename_i t ht
      cases ht
      have := universal_noCR t
      simp [this]
    · rename_i t _ ht
      cases ht
      simp [ih]
    · rename_i d t h1 h2 ht
      cases ht
      simp only [List.mem_cons, not_or]
      refine ⟨?_, ih⟩
      intro h
      exact h2 h.symm
    · simp

lemma universal_id : ∀ {s : Str}, '\r' ∉ s → universal s = s
  | [], _ => rfl
  | c :: s, h => by
    have hc : c ≠ '\r' := fun e => h (by simp [e])
    have ih := universal_id (s := s) (fun hm => h (by simp [hm]))
    rw [universal.eq_def]
    split
    · rename_i t ht; cases ht; exact absurd rfl hc
    · rename_i t _ ht; cases ht; exact absurd rfl hc
    · rename_i d t _ _ ht
      cases ht
      rw [ih]
    · rename_i ht
      cases ht

/-- The first lines of a file are the lines of the file that has only these. -/
lemma readlines_part {text : Str} {pre post : List Str} (h : readlines text = pre ++ post) : readlines pre.flatten = pre := by
  have hf := splitLines_flatten (universal text)
  unfold readlines at h ⊢
  rw [h] at hf
  have hr : '\r' ∉ pre.flatten := by
    intro hm
    refine universal_noCR text ?_
    rw [← hf]
    simp only [List.flatten_append, List.mem_append]
    exact .inl hm
  rw [universal_id hr]
  exact splitLines_part _ _ _ h

/-! ### Paths -/

/-- The last part of a path. -/
def base (f : Str) : Str := (f.reverse.takeWhile (fun c => c ≠ '/')).reverse

lemma base_join {d b : Str} (h : '/' ∉ b) : base (pathJoin d b) = b := by
  have hb : b.reverse.takeWhile (fun c => c ≠ '/') = b.reverse := by
    rw [List.takeWhile_eq_self_iff]
    intro c hc
    have : c ≠ '/' := by rintro rfl; exact h (List.mem_reverse.1 hc)
    simpa using this
  have hap : ∀ d' : Str, (d' = [] ∨ d'.getLast? = some '/') → base (d' ++ b) = b := by
    intro d' hd
    unfold base
    rw [List.reverse_append, List.takeWhile_append, hb, if_pos rfl]
    have : d'.reverse.takeWhile (fun c => c ≠ '/') = [] := by
      rcases hd with rfl | hd
      · rfl
      · rw [← List.head?_reverse] at hd
        cases hr : d'.reverse with
        | nil => rfl
        | cons x l => rw [hr] at hd; cases hd; simp
    rw [this]
    simp
  unfold pathJoin
  split
  · rename_i hh
    cases b with
    | nil => cases hh
    | cons x l => cases hh; exact absurd (by simp) h
  · split
    · rename_i hd
      exact hap d hd
    · have := hap (d ++ ['/']) (.inr (by simp))
      simpa using this

lemma join_ne {d d' : Str} {a b : String} (ha : '/' ∉ a.toList) (hb : '/' ∉ b.toList) (h : a.toList ≠ b.toList) :
    pathJoin d a.toList ≠ pathJoin d' b.toList := by
  intro he
  exact h (by rw [← base_join (d := d) ha, he, base_join hb])

/-! ### Programs made of parts -/

/-- How a list of parts ends and what it writes, when all the inputs are looked at before anything is written. -/
def effect : List Part → Files Str Str → Exit × List (Str × Str)
  | [], _ => (.success, [])
  | p :: ps, w =>
    match w p.input with
    | none => (.raised .ioError, [])
    | some text =>
      match (p.out text).res with
      | .ok _ => ((effect ps w).1, (p.output, (p.out text).text) :: (effect ps w).2)
      | .error e => (.raised e, [(p.output, (p.out text).text)])

/-- Files after some have been written. -/
def overlay (w : Files Str Str) (l : List (Str × Str)) : Files Str Str := l.foldl (fun w q => Function.update w q.1 (some q.2)) w

/-- The parts do not read what they write, and write different files. -/
def Apart : List Part → Prop
  | [] => True
  | p :: ps => (∀ q ∈ ps, p.output ≠ q.output ∧ p.output ≠ q.input ∧ q.output ≠ p.input) ∧ p.output ≠ p.input ∧ Apart ps

lemma effect_congr : ∀ {ps : List Part} {w w' : Files Str Str}, (∀ p ∈ ps, w p.input = w' p.input) → effect ps w = effect ps w'
  | [], _, _, _ => rfl
  | p :: ps, w, w', h => by
    rw [effect, effect, h p (by simp), effect_congr (fun q hq => h q (by simp [hq]))]

lemma effect_outputs : ∀ {ps : List Part} {w : Files Str Str} {q : Str × Str}, q ∈ (effect ps w).2 → ∃ p ∈ ps, q.1 = p.output
  | [], _, _, h => by cases h
  | p :: ps, w, q, h => by
    rw [effect] at h
    cases hc : w p.input with
    | none => simp only [hc] at h; cases h
    | some text =>
      simp only [hc] at h
      cases hr : (p.out text).res with
      | error e =>
        simp only [hr] at h
        rw [List.mem_singleton.1 h]
        exact ⟨p, by simp, rfl⟩
      | ok u =>
        simp only [hr] at h
        rcases List.mem_cons.1 h with rfl | h
        · exact ⟨p, by simp, rfl⟩
        · obtain ⟨p', h1, h2⟩ := effect_outputs h
          exact ⟨p', by simp [h1], h2⟩

lemma putAll_run (f : Str) : ∀ (cs : List Str) (c : Str) (k : Prog Str Str) (w : Files Str Str),
    (putAll f cs (.put f c k)).run w = k.run (Function.update w f (some c))
  | [], c, k, w => rfl
  | d :: cs, c, k, w => by
    show (putAll f cs (.put f c k)).run (Function.update w f (some d)) = _
    rw [putAll_run, Function.update_idem]

/-- The program of the parts. -/
def partsProg (flush : Str → List Str) (ps : List Part) : Prog Str Str := ps.foldr (fun p k => p.prog flush k) (.done .success)

lemma run_effect (flush : Str → List Str) : ∀ {ps : List Part} (w : Files Str Str), Apart ps →
    (partsProg flush ps).run w = ((effect ps w).1, overlay w (effect ps w).2)
  | [], w, _ => rfl
  | p :: ps, w, h => by
    show (p.prog flush (partsProg flush ps)).run w = _
    unfold Part.prog
    rw [Prog.run, effect]
    cases hc : w p.input with
    | none => rfl
    | some text =>
      simp only
      rw [Prog.run, putAll_run, Function.update_idem]
      cases hr : (p.out text).res with
      | error e => rfl
      | ok u =>
        simp only
        have he : effect ps (Function.update w p.output (some (p.out text).text)) = effect ps w :=
          effect_congr (fun q hq => by rw [Function.update_of_ne ((h.1 q hq).2.1).symm])
        rw [run_effect flush _ h.2.2, he]
        rfl

lemma overlay_other {w : Files Str Str} {l : List (Str × Str)} {f : Str} (h : ∀ q ∈ l, q.1 ≠ f) : overlay w l f = w f := by
  induction l generalizing w with
  | nil => rfl
  | cons q l ih =>
    show overlay (Function.update w q.1 (some q.2)) l f = _
    rw [ih (fun r hr => h r (by simp [hr])), Function.update_of_ne (h q (by simp)).symm]

lemma overlay_mem {w : Files Str Str} {l : List (Str × Str)} (hn : (l.map Prod.fst).Nodup) {q : Str × Str} (h : q ∈ l) :
    overlay w l q.1 = some q.2 := by
  induction l generalizing w with
  | nil => cases h
  | cons r l ih =>
    rw [List.map_cons, List.nodup_cons] at hn
    show overlay (Function.update w r.1 (some r.2)) l q.1 = _
    rcases List.mem_cons.1 h with rfl | h
    · rw [overlay_other, Function.update_self]
      intro s hs e
      exact hn.1 (e ▸ List.mem_map_of_mem hs)
    · exact ih hn.2 h

lemma effect_nodup : ∀ {ps : List Part} {w : Files Str Str}, Apart ps → ((effect ps w).2.map Prod.fst).Nodup
  | [], _, _ => by simp [effect]
  | p :: ps, w, h => by
    rw [effect]
    cases hc : w p.input with
    | none => simp
    | some text =>
      simp only
      cases hr : (p.out text).res with
      | error e => simp
      | ok u =>
        simp only [List.map_cons, List.nodup_cons]
        refine ⟨?_, effect_nodup h.2.2⟩
        intro hm
        obtain ⟨q, hq, e⟩ := List.mem_map.1 hm
        obtain ⟨p', hp', e'⟩ := effect_outputs hq
        exact (h.1 p' hp').1 (by rw [← e, e'])

lemma steps_done (x : Exit) (w : Files Str Str) (n : Nat) : steps (.done x : Prog Str Str) w n = (.done x, w) := by
  induction n with
  | zero => rfl
  | succ n ih => exact ih

/-- While the pieces are written, the file has one of them; afterwards the program goes on. -/
lemma steps_putAll (f : Str) : ∀ (cs : List Str) (k : Prog Str Str) (w : Files Str Str) (n : Nat),
    (∃ c, (c = w f ∨ ∃ d ∈ cs, c = some d) ∧ (steps (putAll f cs k) w n).2 = Function.update w f c) ∨
      ∃ m c, (c = w f ∨ ∃ d ∈ cs, c = some d) ∧ steps (putAll f cs k) w n = steps k (Function.update w f c) m
  | [], k, w, n => .inr ⟨n, w f, .inl rfl, by rw [Function.update_eq_self]; rfl⟩
  | d :: cs, k, w, 0 => .inl ⟨w f, .inl rfl, by rw [Function.update_eq_self]; rfl⟩
  | d :: cs, k, w, n + 1 => by
    show (∃ c, _ ∧ (steps (putAll f cs k) (Function.update w f (some d)) n).2 = _) ∨
      ∃ m c, _ ∧ steps (putAll f cs k) (Function.update w f (some d)) n = _
    rcases steps_putAll f cs k (Function.update w f (some d)) n with ⟨c, hc, h⟩ | ⟨m, c, hc, h⟩
    · refine .inl ⟨c, ?_, by rw [h, Function.update_idem]⟩
      rcases hc with hc | ⟨x, hx, hc⟩
      · exact .inr ⟨d, by simp, by rw [hc, Function.update_self]⟩
      · exact .inr ⟨x, by simp [hx], hc⟩
    · refine .inr ⟨m, c, ?_, by rw [h, Function.update_idem]⟩
      rcases hc with hc | ⟨x, hx, hc⟩
      · exact .inr ⟨d, by simp, by rw [hc, Function.update_self]⟩
      · exact .inr ⟨x, by simp [hx], hc⟩

/-- Whenever the program is stopped, a file is as before, or has the beginning of what the program would write into it. -/
lemma steps_effect {flush : Str → List Str} (hfl : ∀ t, ∀ c ∈ flush t, c <+: t) : ∀ {ps : List Part} (w : Files Str Str) (n : Nat),
    Apart ps → ∀ f, (steps (partsProg flush ps) w n).2 f = w f ∨
      ∃ q ∈ (effect ps w).2, f = q.1 ∧ ∃ u, u <+: q.2 ∧ (steps (partsProg flush ps) w n).2 f = some u
  | [], w, n, _, f => .inl (by show (steps (.done .success) w n).2 f = _; rw [steps_done])
  | p :: ps, w, 0, _, f => .inl rfl
  | p :: ps, w, n + 1, h, f => by
    have hstep : steps (partsProg flush (p :: ps)) w (n + 1) = steps ((match w p.input with
      | none => .done (.raised .ioError)
      | some text => .put p.output [] (putAll p.output (flush (p.out text).text) (.put p.output (p.out text).text
        (match (p.out text).res with
          | .ok _ => partsProg flush ps
          | .error e => .done (.raised e))))) : Prog Str Str) w n := rfl
    rw [hstep, effect]
    cases hc : w p.input with
    | none => exact .inl (by simp only [steps_done])
    | some text =>
      simp only
      cases n with
      | zero => exact .inl rfl
      | succ n =>
        have hst2 : ∀ k, steps (.put p.output [] k : Prog Str Str) w (n + 1) = steps k (Function.update w p.output (some [])) n :=
          fun _ => rfl
        rw [hst2]
        have hin : (p.output, (p.out text).text) ∈ ((match (p.out text).res with
          | .ok _ => ((effect ps w).1, (p.output, (p.out text).text) :: (effect ps w).2)
          | .error e => (.raised e, [(p.output, (p.out text).text)])) : Exit × List (Str × Str)).2 := by
          cases (p.out text).res <;> simp
        -- a state in which only this file has changed
        have one : ∀ c : Option Str, (c = some [] ∨ ∃ d ∈ flush (p.out text).text, c = some d) →
            Function.update w p.output c f = w f ∨ ∃ q ∈ ((match (p.out text).res with
              | .ok _ => ((effect ps w).1, (p.output, (p.out text).text) :: (effect ps w).2)
              | .error e => (.raised e, [(p.output, (p.out text).text)])) : Exit × List (Str × Str)).2,
              f = q.1 ∧ ∃ u, u <+: q.2 ∧ Function.update w p.output c f = some u := by
          intro c hc'
          by_cases hf : f = p.output
          · subst hf
            refine .inr ⟨_, hin, rfl, ?_⟩
            rcases hc' with rfl | ⟨d, hd, rfl⟩
            · exact ⟨[], List.nil_prefix, by simp⟩
            · exact ⟨d, hfl _ d hd, by simp⟩
          · exact .inl (by rw [Function.update_of_ne hf])
        rcases steps_putAll p.output (flush (p.out text).text) (.put p.output (p.out text).text
            (match (p.out text).res with
              | .ok _ => partsProg flush ps
              | .error e => .done (.raised e))) (Function.update w p.output (some [])) n with ⟨c, hc', hs⟩ | ⟨m, c, hc', hs⟩
        · rw [hs, Function.update_idem]
          refine one c ?_
          simpa using hc'
        · rw [hs, Function.update_idem]
          cases m with
          | zero => exact one c (by simpa using hc')
          | succ m =>
            have hst3 : ∀ k, steps (.put p.output (p.out text).text k : Prog Str Str) (Function.update w p.output c) (m + 1)
                = steps k (Function.update w p.output (some (p.out text).text)) m := by
              intro k
              show steps k (Function.update (Function.update w p.output c) p.output (some (p.out text).text)) m = _
              rw [Function.update_idem]
            rw [hst3]
            cases hr : (p.out text).res with
            | error e =>
              simp only [steps_done]
              by_cases hf : f = p.output
              · subst hf
                exact .inr ⟨_, List.mem_singleton.2 rfl, rfl, _, List.prefix_rfl, by simp⟩
              · exact .inl (by rw [Function.update_of_ne hf])
            | ok u =>
              simp only
              have he : effect ps (Function.update w p.output (some (p.out text).text)) = effect ps w :=
                effect_congr (fun q hq => by rw [Function.update_of_ne ((h.1 q hq).2.1).symm])
              rcases steps_effect hfl (Function.update w p.output (some (p.out text).text)) m h.2.2 f with h' | ⟨q, hq, hf, u, hu, h'⟩
              · rw [h']
                by_cases hf : f = p.output
                · subst hf
                  exact .inr ⟨_, List.mem_cons_self, rfl, _, List.prefix_rfl, by simp⟩
                · exact .inl (by rw [Function.update_of_ne hf])
              · rw [he] at hq
                exact .inr ⟨q, List.mem_cons_of_mem _ hq, hf, u, hu, h'⟩

end Kam.Convert

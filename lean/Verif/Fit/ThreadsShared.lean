/-
C161, continued: recommenders that are fitted in threads and share a generator.
-/
import Verif.Fit.ThreadsProps

set_option linter.unusedSectionVars false

namespace Kam
namespace MF
namespace Steps

/-! ### Specification -/

/-- A generator that is at the given states in turn, one for each draw. -/
def replay {γ : Type} (R : Rng γ) : Rng (List γ) :=
  ⟨fun gs m sd a b => match gs with
    | [] => (fun _ _ => 0, [])
    | g :: gs => ((R.normal g m sd a b).1, gs)⟩

/-- The generator of thread `i` when turn number `m` of the schedule begins. -/
def stateAt {γ : Type} {nu ni k : Nat → Nat} (handle : Nat → Nat) (prog : ∀ i, List (Stmt γ (nu i) (ni i) (k i))) (w : World γ nu ni k)
    (threads : List Nat) (i m : Nat) : γ := (interleave handle prog w (threads.take m)).streams (handle i)

/-! ### Lemmas -/

section
variable {γ : Type} {nu ni k : Nat}

/-- A recommender without its generator. -/
def erase {γ : Type} (o : Obj γ nu ni k) : Obj Unit nu ni k := ⟨o.coef, o.mu, o.bu, o.bi, o.p, o.q, (), o.res, o.results⟩

/-- Statements that do the same and do not use the generator. -/
def Agree (s : Stmt γ nu ni k) (s' : Stmt (List γ) nu ni k) : Prop :=
  ∀ o o', erase o = erase o' → ∀ b, s' o' = .ok b → ∃ a, s o = .ok a ∧ erase a = erase b ∧ b.rng = o'.rng

/-- Statements that draw: one from its generator, the other from the first of the given states. -/
def Draws (s : Stmt γ nu ni k) (s' : Stmt (List γ) nu ni k) : Prop :=
  ∀ o o' gs, erase o = erase o' → o'.rng = o.rng :: gs → ∀ b, s' o' = .ok b → ∃ a, s o = .ok a ∧ erase a = erase b ∧ b.rng = gs

/-- Programs that do the same; the number counts their draws. -/
inductive Twins : Nat → List (Stmt γ nu ni k) → List (Stmt (List γ) nu ni k) → Prop
  | nil : Twins 0 [] []
  | still {n s s' l l'} : Agree s s' → Twins n l l' → Twins n (s :: l) (s' :: l')
  | draw {n s s' l l'} : Draws s s' → Twins n l l' → Twins (n + 1) (s :: l) (s' :: l')

lemma Twins.append {n m : Nat} {a b : List (Stmt γ nu ni k)} {a' b' : List (Stmt (List γ) nu ni k)} (h : Twins n a a') (h' : Twins m b b') :
    Twins (m + n) (a ++ b) (a' ++ b') := by
  induction h with
  | nil => exact h'
  | still hs _ ih => exact .still hs ih
  | draw hs _ ih => exact .draw hs ih

lemma Twins.length {n : Nat} {a : List (Stmt γ nu ni k)} {a' : List (Stmt (List γ) nu ni k)} (h : Twins n a a') : a.length = a'.length := by
  induction h with
  | nil => rfl
  | still _ _ ih => simp [ih]
  | draw _ _ ih => simp [ih]

lemma twins_map {β : Type} {f : β → Stmt γ nu ni k} {f' : β → Stmt (List γ) nu ni k} (h : ∀ x, Agree (f x) (f' x)) (l : List β) :
    Twins 0 (l.map f) (l.map f') := by
  induction l with
  | nil => exact .nil
  | cons x l ih => exact .still (h x) ih

lemma agree_of {s : Stmt γ nu ni k} {s' : Stmt (List γ) nu ni k}
    (h : ∀ coef mu bu bi p q (g : γ) (g' : List γ) res results b, s' ⟨coef, mu, bu, bi, p, q, g', res, results⟩ = .ok b →
      ∃ a, s ⟨coef, mu, bu, bi, p, q, g, res, results⟩ = .ok a ∧ erase a = erase b ∧ b.rng = g') : Agree s s' := by
  rintro ⟨coef, mu, bu, bi, p, q, g, res, results⟩ ⟨coef', mu', bu', bi', p', q', g', res', results'⟩ he b hb
  simp only [erase, Obj.mk.injEq, true_and] at he
  obtain ⟨rfl, rfl, rfl, rfl, rfl, rfl, rfl, rfl⟩ := he
  exact h _ _ _ _ _ _ _ _ _ _ _ hb

lemma draws_of {s : Stmt γ nu ni k} {s' : Stmt (List γ) nu ni k}
    (h : ∀ coef mu bu bi p q (g : γ) (gs : List γ) res results b, s' ⟨coef, mu, bu, bi, p, q, g :: gs, res, results⟩ = .ok b →
      ∃ a, s ⟨coef, mu, bu, bi, p, q, g, res, results⟩ = .ok a ∧ erase a = erase b ∧ b.rng = gs) : Draws s s' := by
  rintro ⟨coef, mu, bu, bi, p, q, g, res, results⟩ ⟨coef', mu', bu', bi', p', q', g', res', results'⟩ gs he hg b hb
  simp only [erase, Obj.mk.injEq, true_and] at he
  obtain ⟨rfl, rfl, rfl, rfl, rfl, rfl, rfl, rfl⟩ := he
  simp only at hg
  subst hg
  exact h _ _ _ _ _ _ _ _ _ _ _ hb

lemma agree_total {s : Stmt γ nu ni k} {s' : Stmt (List γ) nu ni k}
    (h : ∀ coef mu bu bi p q (g : γ) (g' : List γ) res results, ∃ a b, s' ⟨coef, mu, bu, bi, p, q, g', res, results⟩ = .ok b ∧
      s ⟨coef, mu, bu, bi, p, q, g, res, results⟩ = .ok a ∧ erase a = erase b ∧ b.rng = g') : Agree s s' :=
  agree_of fun coef mu bu bi p q g g' res results b hb => by
    obtain ⟨a, b', h1, h2, h3, h4⟩ := h coef mu bu bi p q g g' res results
    rw [h1] at hb
    cases hb
    exact ⟨a, h2, h3, h4⟩

lemma twins_allocation : Twins 0 (allocation (γ := γ) (nu := nu) (ni := ni) (k := k)) allocation :=
  .still (agree_total fun _ _ _ _ _ _ _ _ _ _ => ⟨_, _, rfl, rfl, rfl, rfl⟩)
  (.still (agree_total fun _ _ _ _ _ _ _ _ _ _ => ⟨_, _, rfl, rfl, rfl, rfl⟩)
  (.still (agree_total fun _ _ _ _ _ _ _ _ _ _ => ⟨_, _, rfl, rfl, rfl, rfl⟩)
  (.still (agree_total fun _ _ _ _ _ _ _ _ _ _ => ⟨_, _, rfl, rfl, rfl, rfl⟩)
  (.still (agree_total fun _ _ _ _ _ _ _ _ _ _ => ⟨_, _, rfl, rfl, rfl, rfl⟩)
  (.still (agree_total fun _ _ _ _ _ _ _ _ _ _ => ⟨_, _, rfl, rfl, rfl, rfl⟩) .nil)))))

lemma agree_user (evs : List (Event nu ni)) (u : Fin nu) : Agree (setUser (γ := γ) (k := k) evs u) (setUser evs u) := by
  refine agree_of ?_
  intro coef mu bu bi p q g g' res results b hb
  unfold setUser at hb ⊢
  simp only at hb ⊢
  split at hb
  · rename_i hj
    rw [if_pos hj]
    cases bu <;> cases hb <;> exact ⟨_, rfl, rfl, rfl⟩
  · rename_i hj
    rw [if_neg hj]
    cases hb
    exact ⟨_, rfl, rfl, rfl⟩

lemma agree_item (evs : List (Event nu ni)) (i : Fin ni) : Agree (setItem (γ := γ) (k := k) evs i) (setItem evs i) := by
  refine agree_of ?_
  intro coef mu bu bi p q g g' res results b hb
  unfold setItem at hb ⊢
  simp only at hb ⊢
  split at hb
  · rename_i hj
    rw [if_pos hj]
    cases bi <;> cases hb <;> exact ⟨_, rfl, rfl, rfl⟩
  · rename_i hj
    rw [if_neg hj]
    cases hb
    exact ⟨_, rfl, rfl, rfl⟩

lemma twins_explicit (R : Rng γ) (sd : Views nu ni k → ℝ) (evs : List (Event nu ni)) :
    Twins 2 (initExplicit R sd evs) (initExplicit (replay R) sd evs) := by
  refine .still (agree_total fun _ _ _ _ _ _ _ _ _ _ => ⟨_, _, rfl, rfl, rfl, rfl⟩) ?_
  refine Twins.append (n := 0) (m := 2) (twins_map (agree_user evs) _) ?_
  refine Twins.append (n := 0) (m := 2) (twins_map (agree_item evs) _) ?_
  refine .draw (draws_of ?_) (.draw (draws_of ?_) .nil)
  · intro coef mu bu bi p q g gs res results b hb
    cases hb
    exact ⟨_, rfl, rfl, rfl⟩
  · intro coef mu bu bi p q g gs res results b hb
    cases hb
    exact ⟨_, rfl, rfl, rfl⟩

lemma twins_implicit (R : Rng γ) (m : Implicit.Mat nu ni) : Twins 2 (initImplicit (k := k) R m) (initImplicit (replay R) m) := by
  refine .still (agree_total fun _ _ _ _ _ _ _ _ _ _ => ⟨_, _, rfl, rfl, rfl, rfl⟩) (.still (agree_of ?_) (.still (agree_of ?_)
    (.draw (draws_of ?_) (.draw (draws_of ?_) .nil))))
  · intro coef mu bu bi p q g gs res results b hb
    cases bu <;> cases hb <;> exact ⟨_, rfl, rfl, rfl⟩
  · intro coef mu bu bi p q g gs res results b hb
    cases bi <;> cases hb <;> exact ⟨_, rfl, rfl, rfl⟩
  · intro coef mu bu bi p q g gs res results b hb
    cases hb
    exact ⟨_, rfl, rfl, rfl⟩
  · intro coef mu bu bi p q g gs res results b hb
    cases hb
    exact ⟨_, rfl, rfl, rfl⟩

lemma agree_copyBack : Agree (copyBack (γ := γ) (nu := nu) (ni := ni) (k := k)) copyBack := by
  refine agree_of ?_
  intro coef mu bu bi p q g gs res results b hb
  cases res <;> cases hb
  exact ⟨_, rfl, rfl, rfl⟩

lemma agree_record (key : String) (f : OptResult (size nu ni k) → Val) : Agree (record (γ := γ) key f) (record key f) := by
  refine agree_of ?_
  intro coef mu bu bi p q g gs res results b hb
  cases res <;> cases hb
  exact ⟨_, rfl, rfl, rfl⟩

lemma twins_program (cf : Config γ) (nEvents : Nat) {init : List (Stmt γ nu ni cf.k)} {init' : List (Stmt (List γ) nu ni cf.k)} (loss grad)
    (h : Twins 2 init init') :
    Twins 2 (program cf nEvents init loss grad) (program ⟨cf.C, cf.k, cf.method, cf.kwargs, cf.opt, replay cf.rng⟩ nEvents init' loss grad) := by
  refine Twins.append (n := 0) (m := 2) twins_allocation (Twins.append (n := 2) (m := 0) h ?_)
  refine .still (agree_total fun _ _ _ _ _ _ _ _ _ _ => ⟨_, _, rfl, rfl, rfl, rfl⟩)
    (.still (agree_total fun _ _ _ _ _ _ _ _ _ _ => ⟨_, _, rfl, rfl, rfl, rfl⟩) (.still agree_copyBack
    (.still (agree_total fun _ _ _ _ _ _ _ _ _ _ => ⟨_, _, rfl, rfl, rfl, rfl⟩)
    (.still (agree_total fun _ _ _ _ _ _ _ _ _ _ => ⟨_, _, rfl, rfl, rfl, rfl⟩)
    (.still (agree_total fun _ _ _ _ _ _ _ _ _ _ => ⟨_, _, rfl, rfl, rfl, rfl⟩)
    (.still (agree_total fun _ _ _ _ _ _ _ _ _ _ => ⟨_, _, rfl, rfl, rfl, rfl⟩)
    (.still (agree_total fun _ _ _ _ _ _ _ _ _ _ => ⟨_, _, rfl, rfl, rfl, rfl⟩) ?_)))))))
  unfold recording
  exact .still (agree_record _ _) (.still (agree_record _ _) (.still (agree_record _ _) (.still (agree_record _ _) (.still (agree_record _ _)
    (.still (agree_record _ _) (.still (agree_record _ _) (.still (agree_record _ _) (.still (agree_record _ _) (.still (agree_record _ _)
    (.still (agree_record _ _) (.still (agree_record _ _) (.still (agree_record _ _) .nil))))))))))))

lemma completes_unique' {l : List (Stmt γ nu ni k)} {o a b : Obj γ nu ni k} (ha : Completes l o a) (hb : Completes l o b) : a = b := by
  induction ha with
  | nil => cases hb; rfl
  | step e _ ih =>
    cases hb with
    | step e' h' =>
      rw [e] at e'
      cases e'
      exact ih h'

end

variable {γ : Type} {nu ni k : Nat → Nat}

lemma tstep_other (handle : Nat → Nat) (prog : ∀ i, List (Stmt γ (nu i) (ni i) (k i))) (w : World γ nu ni k) {i j : Nat} (hij : i ≠ j) :
    (tstep handle prog w j).objs i = w.objs i ∧ (tstep handle prog w j).done i = w.done i ∧
      (tstep handle prog w j).raised i = w.raised i := by
  unfold tstep
  split
  · split
    · exact ⟨Function.update_of_ne hij _ _, Function.update_of_ne hij _ _, rfl⟩
    · exact ⟨rfl, rfl, Function.update_of_ne hij _ _⟩
  · exact ⟨rfl, rfl, rfl⟩

lemma stateAt_append (handle : Nat → Nat) (prog : ∀ i, List (Stmt γ (nu i) (ni i) (k i))) (w : World γ nu ni k) (a b : List Nat) (i m : Nat)
    (hm : m ≤ a.length) : stateAt handle prog w (a ++ b) i m = stateAt handle prog w a i m := by
  unfold stateAt
  rw [List.take_append_of_le_length hm]

/-- What a thread does is what its twin does alone, with the states of the generator at the draws. -/
lemma follow {handle : Nat → Nat} (prog : ∀ i, List (Stmt γ (nu i) (ni i) (k i))) (w : World γ nu ni k) (i : Nat)
    {prog' : List (Stmt (List γ) (nu i) (ni i) (k i))} {total : Nat} (htw : Twins total (prog i) prog')
    (hrun : ∀ o', ∃ o'', Completes prog' o' o'') (h0 : w.done i = 0) (hr : w.raised i = none) {start : Obj (List γ) (nu i) (ni i) (k i)}
    (hst : erase start = erase (w.objs i)) (threads : List Nat) :
    (interleave handle prog w threads).raised i = none ∧
    (interleave handle prog w threads).done i = min (threads.count i) (prog i).length ∧
    ∃ ms : List Nat, ms.Pairwise (· < ·) ∧ (∀ m ∈ ms, m < threads.length ∧ threads[m]? = some i) ∧ ∃ r,
      Twins r ((prog i).drop ((interleave handle prog w threads).done i)) (prog'.drop ((interleave handle prog w threads).done i)) ∧
      ms.length + r = total ∧
      ∀ extra, ∃ o', Completes (prog'.take ((interleave handle prog w threads).done i))
          { start with rng := ms.map (stateAt handle prog w threads i) ++ extra } o' ∧
        erase o' = erase ((interleave handle prog w threads).objs i) ∧ o'.rng = extra := by
  induction threads using List.reverseRecOn with
  | nil =>
    have e : interleave handle prog w [] = w := rfl
    rw [e, h0]
    refine ⟨hr, by simp, [], .nil, by simp, total, htw, by simp, fun extra => ⟨{ start with rng := extra }, ?_, ?_, rfl⟩⟩
    · rw [List.take_zero]
      exact .nil
    · exact hst
  | append_singleton T j ih =>
    obtain ⟨i1, i2, ms, i3, i4, r, i5, i6, i7⟩ := ih
    have e : interleave handle prog w (T ++ [j]) = tstep handle prog (interleave handle prog w T) j := by
      rw [interleave_append]
      rfl
    have hmap : ms.map (stateAt handle prog w (T ++ [j]) i) = ms.map (stateAt handle prog w T i) :=
      List.map_congr_left fun m hm => stateAt_append _ _ _ _ _ _ _ (i4 m hm).1.le
    have i4' : ∀ m ∈ ms, m < (T ++ [j]).length ∧ (T ++ [j])[m]? = some i := by
      intro m hm
      obtain ⟨l1, l2⟩ := i4 m hm
      refine ⟨by simp; omega, ?_⟩
      rw [List.getElem?_append_left l1]
      exact l2
    rw [e]
    have hlen := htw.length
    generalize hW : interleave handle prog w T = W at *
    by_cases hj : j = i
    · subst hj
      rcases Nat.lt_or_ge (W.done j) (prog j).length with hlt | hge
      · -- a turn
        have hcount : W.done j = T.count j := by omega
        obtain ⟨s, hs⟩ : ∃ s, (prog j)[W.done j]? = some s := ⟨_, List.getElem?_eq_getElem hlt⟩
        obtain ⟨s', hs'⟩ : ∃ s', prog'[W.done j]? = some s' := ⟨_, List.getElem?_eq_getElem (hlen ▸ hlt)⟩
        have d1 : (prog j).drop (W.done j) = s :: (prog j).drop (W.done j + 1) := by
          rw [List.drop_eq_getElem_cons hlt]
          rw [List.getElem?_eq_getElem hlt] at hs
          cases hs
          rfl
        have d2 : prog'.drop (W.done j) = s' :: prog'.drop (W.done j + 1) := by
          rw [List.drop_eq_getElem_cons (hlen ▸ hlt)]
          rw [List.getElem?_eq_getElem (hlen ▸ hlt)] at hs'
          cases hs'
          rfl
        have t2 : prog'.take (W.done j + 1) = prog'.take (W.done j) ++ [s'] := by
          rw [List.take_add_one, hs']
          rfl
        have next : ∀ {o1 o'}, Completes (prog'.take (W.done j)) o1 o' → ∃ b, s' o' = .ok b := by
          intro o1 o' hc
          obtain ⟨o'', hcc⟩ := hrun o1
          rw [← List.take_append_drop (W.done j) prog', d2] at hcc
          obtain ⟨m, hm1, hm2⟩ := completes_append.1 hcc
          rw [completes_unique' hm1 hc] at hm2
          cases hm2 with
          | step e _ => exact ⟨_, e⟩
        have turn : ∀ {a}, s { W.objs j with rng := W.streams (handle j) } = .ok a → tstep handle prog W j =
            ⟨Function.update W.streams (handle j) a.rng, Function.update W.objs j a, Function.update W.done j (W.done j + 1), W.raised⟩ := by
          intro a ha
          unfold tstep
          simp only [i1, hs, ha]
        have snoc : ∀ {o1 o' b}, Completes (prog'.take (W.done j)) o1 o' → s' o' = .ok b → Completes (prog'.take (W.done j + 1)) o1 b := by
          intro o1 o' b hc hb
          rw [t2]
          exact completes_append.2 ⟨o', hc, .step hb .nil⟩
        rw [d1, d2] at i5
        cases i5 with
        | still hag htl =>
          obtain ⟨o', c1, c2, c3⟩ := i7 []
          obtain ⟨b, hb⟩ := next c1
          obtain ⟨a, ha, _⟩ := hag { W.objs j with rng := W.streams (handle j) } o' c2.symm b hb
          rw [turn ha]
          simp only [Function.update_self]
          refine ⟨i1, by rw [List.count_append, List.count_singleton_self]; omega, ms, i3, i4', r, htl, i6, ?_⟩
          intro extra
          obtain ⟨o', c1, c2, c3⟩ := i7 extra
          obtain ⟨b, hb⟩ := next c1
          obtain ⟨a', ha', e1, e2⟩ := hag { W.objs j with rng := W.streams (handle j) } o' c2.symm b hb
          rw [ha] at ha'
          cases ha'
          rw [hmap]
          exact ⟨b, snoc c1 hb, e1.symm, e2.trans c3⟩
        | draw hdr htl =>
          rename_i r
          obtain ⟨o', c1, c2, c3⟩ := i7 [W.streams (handle j)]
          obtain ⟨b, hb⟩ := next c1
          obtain ⟨a, ha, _⟩ := hdr { W.objs j with rng := W.streams (handle j) } o' [] c2.symm c3 b hb
          rw [turn ha]
          simp only [Function.update_self]
          refine ⟨i1, by rw [List.count_append, List.count_singleton_self]; omega, ms ++ [T.length], ?_, ?_, r, htl, by simp; omega, ?_⟩
          · rw [List.pairwise_append]
            refine ⟨i3, List.pairwise_singleton _ _, ?_⟩
            intro m hm m' hm'
            rw [List.mem_singleton.1 hm']
            exact (i4 m hm).1
          · intro m hm
            rcases List.mem_append.1 hm with hm | hm
            · exact i4' m hm
            · rw [List.mem_singleton.1 hm]
              simp
          · intro extra
            obtain ⟨o', c1, c2, c3⟩ := i7 (W.streams (handle j) :: extra)
            obtain ⟨b, hb⟩ := next c1
            obtain ⟨a', ha', e1, e2⟩ := hdr { W.objs j with rng := W.streams (handle j) } o' extra c2.symm c3 b hb
            rw [ha] at ha'
            cases ha'
            have hlast : stateAt handle prog w (T ++ [j]) j T.length = W.streams (handle j) := by
              unfold stateAt
              rw [List.take_append_of_le_length le_rfl, List.take_length, hW]
            rw [List.map_append, hmap, List.map_singleton, hlast, List.append_assoc, List.singleton_append]
            exact ⟨b, snoc c1 hb, e1.symm, e2⟩
      · have hn : tstep handle prog W j = W := by
          unfold tstep
          simp only [i1, List.getElem?_eq_none hge]
        rw [hn]
        refine ⟨i1, by rw [List.count_append, List.count_singleton_self]; omega, ms, i3, i4', r, i5, i6, ?_⟩
        rw [hmap]
        exact i7
    · obtain ⟨o1, o2, o3⟩ := tstep_other handle prog W (fun h => hj h.symm : i ≠ j)
      rw [o1, o2, o3]
      refine ⟨i1, ?_, ms, i3, i4', r, i5, i6, by rw [hmap]; exact i7⟩
      rw [i2, List.count_append, List.count_singleton, if_neg (by simpa using hj), Nat.add_zero]

/-! ### C161 with shared generators -/

/-- The recommender has the parameters and results of a fit that starts the optimizer at `c0`. -/
def Learned {nu ni : Nat} (cf : Config γ) (nEvents : Nat) (loss : Coef nu ni cf.k → ℝ) (grad : Coef nu ni cf.k → Coef nu ni cf.k)
    (c0 : Coef nu ni cf.k) (o0 o : Obj γ nu ni cf.k) : Prop :=
  o.mu = .own (store (cf.opt _ loss grad c0 cf.method cf.kwargs).x).mu ∧
  o.bu = .own (store (cf.opt _ loss grad c0 cf.method cf.kwargs).x).bu ∧
  o.bi = .own (store (cf.opt _ loss grad c0 cf.method cf.kwargs).x).bi ∧
  o.p = .own (store (cf.opt _ loss grad c0 cf.method cf.kwargs).x).p ∧
  o.q = .own (store (cf.opt _ loss grad c0 cf.method cf.kwargs).x).q ∧
  o.results = (results cf nu ni nEvents (loss c0) (cf.opt _ loss grad c0 cf.method cf.kwargs)).foldl (fun d kv => d.set kv.1 kv.2) o0.results

lemma learned {handle : Nat → Nat} {cf : Nat → Config γ} {prog : ∀ i, List (Stmt γ (nu i) (ni i) (cf i).k)}
    (w : World γ nu ni (fun i => (cf i).k)) (threads : List Nat) (i : Nat) {nEvents : Nat} {init : List (Stmt γ (nu i) (ni i) (cf i).k)}
    {init' : List (Stmt (List γ) (nu i) (ni i) (cf i).k)} {loss : Coef (nu i) (ni i) (cf i).k → ℝ} {grad link}
    (hp : prog i = program (cf i) nEvents init loss grad) (htw : Twins 2 init init') {c0 : List γ → Coef (nu i) (ni i) (cf i).k}
    (hv : ∀ gs, Variant ⟨(cf i).C, (cf i).k, (cf i).method, (cf i).kwargs, (cf i).opt, replay (cf i).rng⟩ gs init' loss grad link (c0 gs))
    (hu : nu i ≠ 1) (hi : ni i ≠ 1) (h0 : w.done i = 0) (hr : w.raised i = none) (hturns : (prog i).length ≤ threads.count i) :
    (interleave handle prog w threads).raised i = none ∧ ∃ m1 m2, m1 < m2 ∧ threads[m1]? = some i ∧ threads[m2]? = some i ∧
      Learned (cf i) nEvents loss grad (c0 [stateAt handle prog w threads i m1, stateAt handle prog w threads i m2]) (w.objs i)
        ((interleave handle prog w threads).objs i) := by
  have htp := twins_program (cf i) nEvents loss grad htw
  rw [← hp] at htp
  obtain ⟨f1, f2, ms, f3, f4, r, f5, f6, f7⟩ := follow (handle := handle) prog w i htp (fun o' => C155_runs (hv []) nEvents o' hu hi) h0 hr
    (start := ⟨(w.objs i).coef, (w.objs i).mu, (w.objs i).bu, (w.objs i).bi, (w.objs i).p, (w.objs i).q, [], (w.objs i).res,
      (w.objs i).results⟩) rfl threads
  refine ⟨f1, ?_⟩
  have hlen := htp.length
  rw [f2, Nat.min_eq_right hturns, List.drop_length, List.drop_eq_nil_of_le hlen.ge] at f5
  obtain ⟨o', g1, g2, -⟩ := f7 []
  rw [f2, Nat.min_eq_right hturns, List.take_of_length_le hlen.ge, List.append_nil] at g1
  have hr0 : r = 0 := by
    cases f5
    rfl
  obtain ⟨m1, m2, rfl⟩ := List.length_eq_two.1 (show ms.length = 2 by omega)
  have hlt : m1 < m2 := by
    rw [List.pairwise_cons] at f3
    exact f3.1 m2 (by simp)
  refine ⟨m1, m2, hlt, (f4 m1 (by simp)).2, (f4 m2 (by simp)).2, ?_⟩
  have hc := C155_completed (hv [stateAt handle prog w threads i m1, stateAt handle prog w threads i m2]) rfl g1
  simp only [erase, Obj.mk.injEq] at g2
  obtain ⟨-, e1, e2, e3, e4, e5, -, -, e6⟩ := g2
  rw [e1, e2, e3, e4, e5, e6] at hc
  exact hc

/-- C161: PMF in one of several threads, whatever the others do and whoever uses its generator.  The fit does not raise, and what is learned
is what a fit alone learns from a generator whose states at the two draws are those that the shared one had at two turns of the thread.
All that other threads can change is thus the second of these states relative to the first. -/
theorem C161_pmf {handle : Nat → Nat} {cf : Nat → Config γ} (prog : ∀ i, List (Stmt γ (nu i) (ni i) (cf i).k))
    (w : World γ nu ni (fun i => (cf i).k)) (threads : List Nat) (i : Nat) (nEvents : Nat) (evs : List (Event (nu i) (ni i)))
    (hcov : Covered evs) (hp : prog i = program (cf i) nEvents (initExplicit (cf i).rng (residual evs) evs) (PMF.loss (cf i).C evs)
      (PMF.gradLoss (cf i).C evs))
    (hu : nu i ≠ 1) (hi : ni i ≠ 1) (h0 : w.done i = 0) (hr : w.raised i = none) (hturns : (prog i).length ≤ threads.count i) :
    (interleave handle prog w threads).raised i = none ∧ ∃ m1 m2, m1 < m2 ∧ threads[m1]? = some i ∧ threads[m2]? = some i ∧
      Learned (cf i) nEvents (PMF.loss (cf i).C evs) (PMF.gradLoss (cf i).C evs)
        (PMF.initCoef (replay (cf i).rng) [stateAt handle prog w threads i m1, stateAt handle prog w threads i m2] (cf i).k evs).1 (w.objs i)
        ((interleave handle prog w threads).objs i) :=
  learned w threads i hp (twins_explicit _ _ _) (c0 := fun gs => (PMF.initCoef (replay (cf i).rng) gs (cf i).k evs).1)
    (fun _ => .pmf evs hcov) hu hi h0 hr hturns

/-- C161: the same for LogisticPMF. -/
theorem C161_logistic {handle : Nat → Nat} {cf : Nat → Config γ} (prog : ∀ i, List (Stmt γ (nu i) (ni i) (cf i).k))
    (w : World γ nu ni (fun i => (cf i).k)) (threads : List Nat) (i : Nat) (nEvents : Nat) (evs : List (Event (nu i) (ni i)))
    (hcov : Covered evs) (hp : prog i = program (cf i) nEvents (initExplicit (cf i).rng (fun _ => 1) evs) (Logistic.loss (cf i).C evs)
      (Logistic.gradLoss (cf i).C evs))
    (hu : nu i ≠ 1) (hi : ni i ≠ 1) (h0 : w.done i = 0) (hr : w.raised i = none) (hturns : (prog i).length ≤ threads.count i) :
    (interleave handle prog w threads).raised i = none ∧ ∃ m1 m2, m1 < m2 ∧ threads[m1]? = some i ∧ threads[m2]? = some i ∧
      Learned (cf i) nEvents (Logistic.loss (cf i).C evs) (Logistic.gradLoss (cf i).C evs)
        (Logistic.initCoef (replay (cf i).rng) [stateAt handle prog w threads i m1, stateAt handle prog w threads i m2] (cf i).k evs).1
        (w.objs i) ((interleave handle prog w threads).objs i) :=
  learned w threads i hp (twins_explicit _ _ _) (c0 := fun gs => (Logistic.initCoef (replay (cf i).rng) gs (cf i).k evs).1)
    (fun _ => .logistic evs hcov) hu hi h0 hr hturns

/-- C161: the same for ImplicitLogisticPMF. -/
theorem C161_implicit {handle : Nat → Nat} {cf : Nat → Config γ} (prog : ∀ i, List (Stmt γ (nu i) (ni i) (cf i).k))
    (w : World γ nu ni (fun i => (cf i).k)) (threads : List Nat) (i : Nat) (nEvents : Nat) (m : Implicit.Mat (nu i) (ni i))
    (hp : prog i = program (cf i) nEvents (initImplicit (cf i).rng m) (Implicit.loss (cf i).C m) (Implicit.gradLoss (cf i).C m))
    (hu : nu i ≠ 1) (hi : ni i ≠ 1) (h0 : w.done i = 0) (hr : w.raised i = none) (hturns : (prog i).length ≤ threads.count i) :
    (interleave handle prog w threads).raised i = none ∧ ∃ m1 m2, m1 < m2 ∧ threads[m1]? = some i ∧ threads[m2]? = some i ∧
      Learned (cf i) nEvents (Implicit.loss (cf i).C m) (Implicit.gradLoss (cf i).C m)
        (Implicit.initCoef (replay (cf i).rng) [stateAt handle prog w threads i m1, stateAt handle prog w threads i m2] (cf i).k m).1
        (w.objs i) ((interleave handle prog w threads).objs i) :=
  learned w threads i hp (twins_implicit _ _) (c0 := fun gs => (Implicit.initCoef (replay (cf i).rng) gs (cf i).k m).1)
    (fun _ => .implicit m) hu hi h0 hr hturns

/-- C161: if the generator has not been used between the two draws, the initial parameters are those of a fit alone that begins with the
state of the first draw. -/
theorem C161_undisturbed {nu ni : Nat} (R : Rng γ) (g g' : γ) (k : Nat) (evs : List (Event nu ni)) (m : Implicit.Mat nu ni) :
    (g' = (R.normal g 0 1 nu k).2 → (Implicit.initCoef (replay R) [g, g'] k m).1 = (Implicit.initCoef R g k m).1) ∧
    (g' = (R.normal g 0 1 (mask evs (·.user)).length k).2 →
      (Logistic.initCoef (replay R) [g, g'] k evs).1 = (Logistic.initCoef R g k evs).1) ∧
    (g' = (R.normal g 0 (residual evs (⟨(initBias evs).1, (initBias evs).2.1, (initBias evs).2.2, fun _ _ => 0, fun _ _ => 0⟩ : Views nu ni k))
        (mask evs (·.user)).length k).2 →
      (PMF.initCoef (replay R) [g, g'] k evs).1 = (PMF.initCoef R g k evs).1) := by
  refine ⟨?_, ?_, ?_⟩
  · rintro rfl
    rfl
  · rintro rfl
    rfl
  · rintro rfl
    rfl

/-- C161: fits that share a generator but do not overlap.  If the other threads that use the generator of a recommender have no turn between
its first and its last one, it learns what a fit alone learns that begins with the state in which they have left the generator, whatever
comes before and after. -/
theorem C161_serial {handle : Nat → Nat} {cf : Nat → Config γ} {prog : ∀ i, List (Stmt γ (nu i) (ni i) (cf i).k)}
    (w : World γ nu ni (fun i => (cf i).k)) (before during after : List Nat) (i : Nat) (hb : i ∉ before)
    (hh : ∀ j ∈ during, j ≠ i → handle i ≠ handle j) {nEvents : Nat} {init : List (Stmt γ (nu i) (ni i) (cf i).k)}
    {loss : Coef (nu i) (ni i) (cf i).k → ℝ} {grad link} (hp : prog i = program (cf i) nEvents init loss grad)
    {c0 : Coef (nu i) (ni i) (cf i).k} {g : γ} (hg : g = (interleave handle prog w before).streams (handle i))
    (hv : Variant (cf i) g init loss grad link c0) (hu : nu i ≠ 1) (hi : ni i ≠ 1) (h0 : w.done i = 0) (hr : w.raised i = none)
    (hturns : (prog i).length ≤ during.count i) :
    (interleave handle prog w (before ++ (during ++ after))).raised i = none ∧
    Learned (cf i) nEvents loss grad c0 (w.objs i) ((interleave handle prog w (before ++ (during ++ after))).objs i) := by
  have hpre : ∀ l : List Nat, i ∉ l → (interleave handle prog w l).objs i = w.objs i ∧ (interleave handle prog w l).done i = w.done i ∧
      (interleave handle prog w l).raised i = w.raised i := by
    intro l
    induction l using List.reverseRecOn with
    | nil => intro _; exact ⟨rfl, rfl, rfl⟩
    | append_singleton l j ih =>
      intro hn
      simp only [List.mem_append, List.mem_singleton, not_or] at hn
      obtain ⟨a1, a2, a3⟩ := ih hn.1
      obtain ⟨b1, b2, b3⟩ := tstep_other handle prog (interleave handle prog w l) hn.2
      rw [interleave_append]
      exact ⟨b1.trans a1, b2.trans a2, b3.trans a3⟩
  obtain ⟨p1, p2, p3⟩ := hpre before hb
  rw [interleave_append, interleave_append]
  generalize interleave handle prog w before = w1 at *
  subst hg
  obtain ⟨o', hc⟩ := C155_runs hv nEvents { w1.objs i with rng := w1.streams (handle i) } hu hi
  have hs := seen_interleave prog w1 during i hh
  have ha := advance_completes prog i (pre := []) (l := program (cf i) nEvents init loss grad) hp hc (.inl (program_ne _ _ _ _ _))
    (m := during.count i) (by rw [← hp]; exact hturns)
  have hw : seen handle w1 i = (([] : List (Stmt γ (nu i) (ni i) (cf i).k)).length, none, w1.objs i, w1.streams (handle i)) := by
    unfold seen
    rw [p2, h0, p3, hr]
    rfl
  rw [hw, ha] at hs
  unfold seen at hs
  simp only [Prod.mk.injEq] at hs
  obtain ⟨s1, s2, s3, -⟩ := hs
  generalize interleave handle prog w1 during = w2 at s1 s2 s3 ⊢
  have hpost : ∀ l : List Nat, (interleave handle prog w2 l).objs i = w2.objs i ∧ (interleave handle prog w2 l).done i = w2.done i ∧
      (interleave handle prog w2 l).raised i = w2.raised i := by
    intro l
    induction l using List.reverseRecOn with
    | nil => exact ⟨rfl, rfl, rfl⟩
    | append_singleton l j ih =>
      obtain ⟨a1, a2, a3⟩ := ih
      rw [interleave_append]
      by_cases hj : i = j
      · subst hj
        have : tstep handle prog (interleave handle prog w2 l) i = interleave handle prog w2 l := by
          unfold tstep
          have e : (prog i)[(interleave handle prog w2 l).done i]? = none := by
            rw [a2, s1]
            exact List.getElem?_eq_none le_rfl
          simp only [a3, s2, e]
        have e2 : interleave handle prog (interleave handle prog w2 l) [i] = interleave handle prog w2 l := this
        rw [e2]
        exact ⟨a1, a2, a3⟩
      · obtain ⟨b1, b2, b3⟩ := tstep_other handle prog (interleave handle prog w2 l) hj
        exact ⟨b1.trans a1, b2.trans a2, b3.trans a3⟩
  obtain ⟨q1, q2, q3⟩ := hpost after
  refine ⟨q3.trans s2, ?_⟩
  have hcc := C155_completed (o0 := { w1.objs i with rng := w1.streams (handle i) }) hv rfl hc
  unfold Learned
  rw [q1, s3, ← p1]
  exact hcc

/-- Recommender 1 is fitted after recommender 0, with the same generator: what `C161_serial` asks for. -/
example : 1 ∉ List.replicate 32 0 ∧ (∀ j ∈ List.replicate 32 1, j ≠ 1 → (fun _ : Nat => 0) 1 ≠ (fun _ : Nat => 0) j) ∧
    exProgram 1 = program exCounter 1 (initImplicit exCounter.rng fun _ _ => 1) (Implicit.loss exCounter.C fun _ _ => 1)
      (Implicit.gradLoss exCounter.C fun _ _ => 1) ∧ exWorld.done 1 = 0 ∧ exWorld.raised 1 = none ∧
    (exProgram 1).length ≤ (List.replicate 32 1).count 1 :=
  ⟨by decide, by decide, rfl, rfl, rfl, by rw [exProgram_length]; decide⟩

/-- Two threads with the same generator: what `C161_implicit` asks for. -/
example : exProgram 0 = program exCounter 1 (initImplicit exCounter.rng fun _ _ => 1) (Implicit.loss exCounter.C fun _ _ => 1)
      (Implicit.gradLoss exCounter.C fun _ _ => 1) ∧ exWorld.done 0 = 0 ∧ exWorld.raised 0 = none ∧
    (exProgram 0).length ≤ (List.replicate 10 0 ++ (List.replicate 10 1 ++ (List.replicate 22 0 ++ List.replicate 22 1))).count 0 :=
  ⟨rfl, rfl, rfl, by rw [exProgram_length]; decide⟩

end Steps
end MF
end Kam

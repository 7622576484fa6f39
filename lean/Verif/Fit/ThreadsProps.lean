/-
C161: recommenders that are fitted in several threads.
-/
import Verif.Fit.Threads
import Verif.Fit.Interrupt

set_option linter.unusedSectionVars false

namespace Kam
namespace MF
namespace Steps
variable {γ : Type} {nu ni k : Nat → Nat}

/-! ### Lemmas -/

/-- What a thread can see: its place, its exception, its recommender and its generator. -/
def seen (handle : Nat → Nat) (w : World γ nu ni k) (i : Nat) : Nat × Option Exc × Obj γ (nu i) (ni i) (k i) × γ :=
  (w.done i, w.raised i, w.objs i, w.streams (handle i))

/-- One turn, as the thread sees it. -/
def advance (prog : ∀ i, List (Stmt γ (nu i) (ni i) (k i))) (i : Nat) (x : Nat × Option Exc × Obj γ (nu i) (ni i) (k i) × γ) :
    Nat × Option Exc × Obj γ (nu i) (ni i) (k i) × γ :=
  match x.2.1, (prog i)[x.1]? with
  | none, some s =>
    match s { x.2.2.1 with rng := x.2.2.2 } with
    | .ok o => (x.1 + 1, none, o, o.rng)
    | .error e => (x.1, some e, x.2.2.1, x.2.2.2)
  | _, _ => x

lemma seen_self (handle : Nat → Nat) (prog : ∀ i, List (Stmt γ (nu i) (ni i) (k i))) (w : World γ nu ni k) (i : Nat) :
    seen handle (tstep handle prog w i) i = advance prog i (seen handle w i) := by
  unfold tstep advance seen
  cases hr : w.raised i with
  | some e => simp only [hr]
  | none =>
    cases hp : (prog i)[w.done i]? with
    | none => simp only [hr]
    | some s =>
      simp only
      cases hs : s { w.objs i with rng := w.streams (handle i) } with
      | ok o => simp only [Function.update_self, hr]
      | error e => simp only [Function.update_self]

lemma seen_other {handle : Nat → Nat} (prog : ∀ i, List (Stmt γ (nu i) (ni i) (k i))) (w : World γ nu ni k) {i j : Nat} (hij : i ≠ j)
    (hh : handle i ≠ handle j) : seen handle (tstep handle prog w j) i = seen handle w i := by
  unfold tstep seen
  cases hr : w.raised j with
  | some e => simp only
  | none =>
    cases hp : (prog j)[w.done j]? with
    | none => simp only
    | some s =>
      simp only
      cases hs : s { w.objs j with rng := w.streams (handle j) } with
      | ok o => simp only [Function.update_of_ne hij, Function.update_of_ne hh]
      | error e => simp only [Function.update_of_ne hij]

lemma seen_interleave {handle : Nat → Nat} (prog : ∀ i, List (Stmt γ (nu i) (ni i) (k i))) (w : World γ nu ni k) (threads : List Nat) (i : Nat)
    (hh : ∀ j ∈ threads, j ≠ i → handle i ≠ handle j) :
    seen handle (interleave handle prog w threads) i = (advance prog i)^[threads.count i] (seen handle w i) := by
  unfold interleave
  induction threads generalizing w with
  | nil => rfl
  | cons j l ih =>
    rw [List.foldl_cons, ih _ (fun j' hj' => hh j' (List.mem_cons_of_mem _ hj'))]
    by_cases hj : j = i
    · subst hj
      rw [List.count_cons_self, Function.iterate_succ_apply, seen_self]
    · rw [List.count_cons_of_ne hj, seen_other prog w (fun h => hj h.symm) (hh j (by simp) hj)]

lemma advance_completes (prog : ∀ i, List (Stmt γ (nu i) (ni i) (k i))) (i : Nat) {l pre : List (Stmt γ (nu i) (ni i) (k i))}
    (hp : prog i = pre ++ l) {o o' : Obj γ (nu i) (ni i) (k i)} {g : γ} (hc : Completes l { o with rng := g } o') (hl : l ≠ [] ∨ o.rng = g)
    {m : Nat} (hm : l.length ≤ m) : (advance prog i)^[m] (pre.length, none, o, g) = ((prog i).length, none, o', o'.rng) := by
  induction m generalizing l pre o g with
  | zero =>
    have : l = [] := List.length_eq_zero_iff.1 (by omega)
    subst this
    have hg : o.rng = g := by rcases hl with h | h <;> [exact absurd rfl h; exact h]
    subst hg
    cases hc
    rw [hp]
    simp
  | succ m ih =>
    rw [Function.iterate_succ_apply]
    cases l with
    | nil =>
      have hg : o.rng = g := by rcases hl with h | h <;> [exact absurd rfl h; exact h]
      have hn : (prog i)[pre.length]? = none := by rw [hp]; simp
      have : advance prog i (pre.length, none, o, g) = (pre.length, none, o, g) := by
        unfold advance
        simp only [hn]
      rw [this]
      exact ih hp hc hl (by simp)
    | cons s l =>
      cases hc with
      | step he hc =>
        rename_i o1
        have hn : (prog i)[pre.length]? = some s := by rw [hp]; simp
        have : advance prog i (pre.length, none, o, g) = ((pre ++ [s]).length, none, o1, o1.rng) := by
          unfold advance
          simp only [hn, he, List.length_append, List.length_singleton]
        rw [this]
        exact ih (l := l) (pre := pre ++ [s]) (by rw [hp]; simp) hc (.inr rfl) (by simpa using hm)

lemma program_ne {nu ni : Nat} (cf : Config γ) (n : Nat) (init : List (Stmt γ nu ni cf.k)) (loss grad) : program cf n init loss grad ≠ [] := by
  unfold program allocation
  simp

/-- Several turns of one thread. -/
lemma turns (handle : Nat → Nat) (prog : ∀ i, List (Stmt γ (nu i) (ni i) (k i))) (i : Nat) {l : List (Stmt γ (nu i) (ni i) (k i))}
    {pre post : List (Stmt γ (nu i) (ni i) (k i))} (hp : prog i = pre ++ (l ++ post)) (hl : l ≠ []) (w : World γ nu ni k)
    (hd : w.done i = pre.length) (hr : w.raised i = none) {o : Obj γ (nu i) (ni i) (k i)}
    (hc : Completes l { w.objs i with rng := w.streams (handle i) } o) :
    interleave handle prog w (List.replicate l.length i) =
      ⟨Function.update w.streams (handle i) o.rng, Function.update w.objs i o, Function.update w.done i (pre ++ l).length, w.raised⟩ := by
  unfold interleave
  induction l generalizing pre w with
  | nil => exact absurd rfl hl
  | cons s l ih =>
    cases hc with
    | step he hc =>
      rename_i o1
      have hn : (prog i)[w.done i]? = some s := by rw [hp, hd]; simp
      have hs : tstep handle prog w i =
          ⟨Function.update w.streams (handle i) o1.rng, Function.update w.objs i o1, Function.update w.done i (w.done i + 1), w.raised⟩ := by
        unfold tstep
        simp only [hn, hr, he]
      rw [List.length_cons, List.replicate_succ, List.foldl_cons, hs]
      by_cases hl' : l = []
      · subst hl'
        cases hc
        simp only [List.length_nil, List.replicate_zero, List.foldl_nil, hd, List.length_append, List.length_singleton]
      · rw [ih (pre := pre ++ [s]) (by rw [hp]; simp) hl'
          ⟨Function.update w.streams (handle i) o1.rng, Function.update w.objs i o1, Function.update w.done i (w.done i + 1), w.raised⟩
          (by simp [hd]) hr (by
          simp only [Function.update_self]
          exact hc)]
        simp only [Function.update_idem, List.append_assoc, List.singleton_append]

/-! ### C161 -/

/-- C161: recommenders fitted in threads, whatever the schedule.  A recommender whose generator no other thread uses, as is so for every integer
`random_state`, is at every moment where it would be if it were fitted alone. -/
theorem C161_alone {handle : Nat → Nat} (prog : ∀ i, List (Stmt γ (nu i) (ni i) (k i))) (w : World γ nu ni k) (threads : List Nat) (i : Nat)
    (hh : ∀ j ∈ threads, j ≠ i → handle i ≠ handle j) :
    (interleave handle prog w threads).objs i = (interleave handle prog w (List.replicate (threads.count i) i)).objs i ∧
    (interleave handle prog w threads).raised i = (interleave handle prog w (List.replicate (threads.count i) i)).raised i ∧
    (interleave handle prog w threads).done i = (interleave handle prog w (List.replicate (threads.count i) i)).done i ∧
    (interleave handle prog w threads).streams (handle i) =
      (interleave handle prog w (List.replicate (threads.count i) i)).streams (handle i) := by
  have h1 := seen_interleave prog w threads i hh
  have h2 := seen_interleave (handle := handle) prog w (List.replicate (threads.count i) i) i (fun j hj hne => absurd (List.eq_of_mem_replicate hj) hne)
  rw [List.count_replicate_self, ← h1] at h2
  unfold seen at h2
  simp only [Prod.mk.injEq] at h2
  obtain ⟨a, b, c, e⟩ := h2
  exact ⟨c.symm, b.symm, a.symm, e.symm⟩

/-- C161: when it has had enough turns, it has the parameters and results of `Verif/MF/Model`, computed with its own generator. -/
theorem C161_fitted {handle : Nat → Nat} {cf : Nat → Config γ} {nEvents : Nat → Nat} {init : ∀ i, List (Stmt γ (nu i) (ni i) (cf i).k)}
    {loss : ∀ i, Coef (nu i) (ni i) (cf i).k → ℝ} {grad : ∀ i, Coef (nu i) (ni i) (cf i).k → Coef (nu i) (ni i) (cf i).k} {link : ℝ → ℝ}
    (w : World γ nu ni (fun i => (cf i).k)) (threads : List Nat) (i : Nat) (hh : ∀ j ∈ threads, j ≠ i → handle i ≠ handle j)
    {c0 : Coef (nu i) (ni i) (cf i).k} (hv : Variant (cf i) (w.streams (handle i)) (init i) (loss i) (grad i) link c0)
    (hu : nu i ≠ 1) (hi : ni i ≠ 1) (h0 : w.done i = 0) (hr : w.raised i = none)
    (hturns : (program (cf i) (nEvents i) (init i) (loss i) (grad i)).length ≤ threads.count i) (o : Obj γ (nu i) (ni i) (cf i).k)
    (ho : o = (interleave handle (fun i => program (cf i) (nEvents i) (init i) (loss i) (grad i)) w threads).objs i) :
    (interleave handle (fun i => program (cf i) (nEvents i) (init i) (loss i) (grad i)) w threads).raised i = none ∧
    o.mu = .own (store ((cf i).opt _ (loss i) (grad i) c0 (cf i).method (cf i).kwargs).x).mu ∧
    o.bu = .own (store ((cf i).opt _ (loss i) (grad i) c0 (cf i).method (cf i).kwargs).x).bu ∧
    o.bi = .own (store ((cf i).opt _ (loss i) (grad i) c0 (cf i).method (cf i).kwargs).x).bi ∧
    o.p = .own (store ((cf i).opt _ (loss i) (grad i) c0 (cf i).method (cf i).kwargs).x).p ∧
    o.q = .own (store ((cf i).opt _ (loss i) (grad i) c0 (cf i).method (cf i).kwargs).x).q ∧
    o.results = (results (cf i) (nu i) (ni i) (nEvents i) (loss i c0) ((cf i).opt _ (loss i) (grad i) c0 (cf i).method (cf i).kwargs)).foldl
      (fun d kv => d.set kv.1 kv.2) (w.objs i).results := by
  obtain ⟨o', hc⟩ := C155_runs hv (nEvents i) { w.objs i with rng := w.streams (handle i) } hu hi
  have hs := seen_interleave (fun i => program (cf i) (nEvents i) (init i) (loss i) (grad i)) w threads i hh
  have ha := advance_completes (fun i => program (cf i) (nEvents i) (init i) (loss i) (grad i)) i (pre := []) (l := _) rfl hc
    (.inl (program_ne _ _ _ _ _)) hturns
  have hw : seen handle w i = (([] : List (Stmt γ (nu i) (ni i) (cf i).k)).length, none, w.objs i, w.streams (handle i)) := by
    unfold seen
    rw [h0, hr]
    rfl
  rw [hw, ha] at hs
  unfold seen at hs
  simp only [Prod.mk.injEq] at hs
  obtain ⟨-, h2, h3, -⟩ := hs
  rw [← ho] at h3
  subst h3
  exact ⟨h2, C155_completed (o0 := { w.objs i with rng := w.streams (handle i) }) hv rfl hc⟩

/-- C161: a generator that no thread uses stays as it is. -/
theorem C161_generators (handle : Nat → Nat) (prog : ∀ i, List (Stmt γ (nu i) (ni i) (k i))) (w : World γ nu ni k) (threads : List Nat) (h : Nat)
    (hh : ∀ j ∈ threads, handle j ≠ h) : (interleave handle prog w threads).streams h = w.streams h := by
  unfold interleave
  induction threads generalizing w with
  | nil => rfl
  | cons j l ih =>
    rw [List.foldl_cons, ih _ (fun j' hj' => hh j' (List.mem_cons_of_mem _ hj'))]
    unfold tstep
    split
    · split
      · simp only [Function.update_of_ne (hh j (by simp)).symm]
      · rfl
    · rfl

/-! ### Threads with the same generator -/

/-- A generator that gives 0, 1, 2, ..., and an optimizer that stays where it starts. -/
noncomputable def exCounter : Config Nat where
  C := 1
  k := 1
  method := "CG"
  kwargs := []
  opt := fun _ f _ x0 _ _ => ⟨x0, true, 0, "", f x0, 1, 1, 1⟩
  rng := ⟨fun g _ _ _ _ => (fun _ _ => (g : ℝ), g + 1)⟩

/-- ImplicitLogisticPMF with two users and two items. -/
noncomputable def exProgram (_ : Nat) : List (Stmt Nat 2 2 exCounter.k) :=
  program exCounter 1 (initImplicit exCounter.rng fun _ _ => 1) (Implicit.loss exCounter.C fun _ _ => 1)
    (Implicit.gradLoss exCounter.C fun _ _ => 1)

/-- Two recommenders before their first fit. -/
noncomputable def exWorld : World Nat (fun _ => 2) (fun _ => 2) (fun _ => exCounter.k) where
  streams := fun _ => 0
  objs := fun _ => ⟨⟨0, fun _ => 0, fun _ => 0, fun _ _ => 0, fun _ _ => 0⟩, .none, .none, .none, .none, .none, 0, none, initialResults⟩
  done := fun _ => 0
  raised := fun _ => none

lemma exProgram_length (i : Nat) : (exProgram i).length = 32 := rfl

lemma exFirst (o : Obj Nat 2 2 exCounter.k) : ∃ o', Completes ((exProgram 0).take 10) o o' ∧ o'.rng = o.rng + 1 :=
  ⟨_, .step rfl (.step rfl (.step rfl (.step rfl (.step rfl (.step rfl (.step rfl (.step rfl (.step rfl (.step rfl .nil))))))))), rfl⟩

lemma exSecond (o : Obj Nat 2 2 exCounter.k) : ∃ o', Completes ((exProgram 0).drop 10) o o' ∧
    o'.q = .own [[(o.rng : ℝ)], [(o.rng : ℝ)], [0]] ∧ o'.rng = o.rng + 1 := by
  refine ⟨_, .step rfl (.step rfl (.step rfl (.step rfl (.step rfl (.step rfl (.step rfl (.step rfl (.step rfl (.step rfl (.step rfl
    (.step rfl (.step rfl (.step rfl (.step rfl (.step rfl (.step rfl (.step rfl (.step rfl (.step rfl (.step rfl (.step rfl
      .nil))))))))))))))))))))), ?_, rfl⟩
  show Attr.own (List.ofFn (fun i => List.ofFn ((unpack (pack _)).q i)) ++ _) = _
  rw [unpack_pack]
  rfl

lemma exTen (w : World Nat (fun _ => 2) (fun _ => 2) (fun _ => exCounter.k)) (i : Nat) (hd : w.done i = 0) (hr : w.raised i = none) :
    ∃ o, interleave (fun _ => 0) exProgram w (List.replicate 10 i) =
      ⟨Function.update w.streams 0 (w.streams 0 + 1), Function.update w.objs i o, Function.update w.done i 10, w.raised⟩ := by
  obtain ⟨o, hc, hg⟩ := exFirst { w.objs i with rng := w.streams 0 }
  refine ⟨o, ?_⟩
  have h := turns (fun _ => 0) exProgram i (pre := []) (post := (exProgram 0).drop 10)
    (by rw [List.nil_append, List.take_append_drop]; rfl) (List.ne_nil_of_length_pos (by rw [List.length_take, exProgram_length]; omega))
    w hd hr hc
  rw [hg, List.nil_append, List.length_take, exProgram_length] at h
  exact h

lemma exRest (w : World Nat (fun _ => 2) (fun _ => 2) (fun _ => exCounter.k)) (i : Nat) (hd : w.done i = 10) (hr : w.raised i = none) :
    ∃ o, o.q = .own [[(w.streams 0 : ℝ)], [(w.streams 0 : ℝ)], [0]] ∧ interleave (fun _ => 0) exProgram w (List.replicate 22 i) =
      ⟨Function.update w.streams 0 (w.streams 0 + 1), Function.update w.objs i o, Function.update w.done i 32, w.raised⟩ := by
  obtain ⟨o, hc, hq, hg⟩ := exSecond { w.objs i with rng := w.streams 0 }
  refine ⟨o, hq, ?_⟩
  have h := turns (fun _ => 0) exProgram i (pre := (exProgram 0).take 10) (post := [])
    (by rw [List.append_nil, List.take_append_drop]; rfl) (List.ne_nil_of_length_pos (by rw [List.length_drop, exProgram_length]; omega))
    w (by rw [hd, List.length_take, exProgram_length]; rfl) hr hc
  rw [hg, List.take_append_drop, List.length_drop, exProgram_length] at h
  exact h

lemma interleave_append (handle : Nat → Nat) (prog : ∀ i, List (Stmt γ (nu i) (ni i) (k i))) (w : World γ nu ni k) (a b : List Nat) :
    interleave handle prog w (a ++ b) = interleave handle prog (interleave handle prog w a) b := List.foldl_append

/-- The item factors of recommender 0 when thread 1 draws between its two draws. -/
lemma exMixed : ((interleave (fun _ => 0) exProgram exWorld
    (List.replicate 10 0 ++ (List.replicate 10 1 ++ (List.replicate 22 0 ++ List.replicate 22 1)))).objs 0).q = .own [[2], [2], [0]] := by
  obtain ⟨o1, h1⟩ := exTen exWorld 0 rfl rfl
  rw [interleave_append, h1]
  obtain ⟨o2, h2⟩ := exTen ⟨Function.update exWorld.streams 0 (exWorld.streams 0 + 1), Function.update exWorld.objs 0 o1,
    Function.update exWorld.done 0 10, exWorld.raised⟩ 1 rfl rfl
  rw [interleave_append, h2]
  obtain ⟨o3, hq, h3⟩ := exRest ⟨Function.update (Function.update exWorld.streams 0 (exWorld.streams 0 + 1)) 0
    (Function.update exWorld.streams 0 (exWorld.streams 0 + 1) 0 + 1), Function.update (Function.update exWorld.objs 0 o1) 1 o2,
    Function.update (Function.update exWorld.done 0 10) 1 10, exWorld.raised⟩ 0 rfl rfl
  rw [interleave_append, h3]
  obtain ⟨o4, _, h4⟩ := exRest ⟨_, Function.update (Function.update (Function.update exWorld.objs 0 o1) 1 o2) 0 o3,
    Function.update (Function.update (Function.update exWorld.done 0 10) 1 10) 0 32, exWorld.raised⟩ 1 rfl rfl
  rw [h4]
  show (Function.update (Function.update (Function.update (Function.update exWorld.objs 0 o1) 1 o2) 0 o3) 1 o4 0).q = _
  rw [Function.update_of_ne (by decide), Function.update_self, hq]
  norm_num [exWorld]

/-- The same when one fit comes after the other. -/
lemma exOrder (i j : Nat) (hij : i ≠ j) :
    ((interleave (fun _ => 0) exProgram exWorld (List.replicate 32 i ++ List.replicate 32 j)).objs i).q = .own [[1], [1], [0]] ∧
    ((interleave (fun _ => 0) exProgram exWorld (List.replicate 32 i ++ List.replicate 32 j)).objs j).q = .own [[3], [3], [0]] := by
  obtain ⟨o1, h1⟩ := exTen exWorld i rfl rfl
  rw [show (32 : Nat) = 10 + 22 from rfl, List.replicate_add, List.replicate_add, List.append_assoc, interleave_append, h1]
  obtain ⟨o2, hq2, h2⟩ := exRest ⟨Function.update exWorld.streams 0 (exWorld.streams 0 + 1), Function.update exWorld.objs i o1,
    Function.update exWorld.done i 10, exWorld.raised⟩ i (by simp) rfl
  rw [interleave_append, h2]
  obtain ⟨o3, h3⟩ := exTen ⟨Function.update (Function.update exWorld.streams 0 (exWorld.streams 0 + 1)) 0
    (Function.update exWorld.streams 0 (exWorld.streams 0 + 1) 0 + 1), Function.update (Function.update exWorld.objs i o1) i o2,
    Function.update (Function.update exWorld.done i 10) i 32, exWorld.raised⟩ j (by simp [hij.symm, exWorld]) rfl
  rw [interleave_append, h3]
  obtain ⟨o4, hq4, h4⟩ := exRest ⟨Function.update (Function.update (Function.update exWorld.streams 0 (exWorld.streams 0 + 1)) 0
    (Function.update exWorld.streams 0 (exWorld.streams 0 + 1) 0 + 1)) 0
    (Function.update (Function.update exWorld.streams 0 (exWorld.streams 0 + 1)) 0
    (Function.update exWorld.streams 0 (exWorld.streams 0 + 1) 0 + 1) 0 + 1),
    Function.update (Function.update (Function.update exWorld.objs i o1) i o2) j o3,
    Function.update (Function.update (Function.update exWorld.done i 10) i 32) j 10, exWorld.raised⟩ j (by simp) rfl
  rw [h4]
  simp only [Function.update_self, Function.update_of_ne hij, hq2, hq4]
  norm_num [exWorld]

/-- The claim for threads that share a generator, be it that of numpy or one that the caller has passed: each recommender learns what it
would learn if the fits came one after the other, in one of the two orders. -/
def C161_full : Prop :=
  ∀ (cf : Config Nat) (m : Implicit.Mat 2 2) (w : World Nat (fun _ => 2) (fun _ => 2) (fun _ => cf.k)) (prog : List (Stmt Nat 2 2 cf.k)),
    prog = program cf 1 (initImplicit cf.rng m) (Implicit.loss cf.C m) (Implicit.gradLoss cf.C m) →
    (∀ i, w.done i = 0 ∧ w.raised i = none) → ∀ threads : List Nat, (∀ i ∈ threads, i < 2) →
    prog.length = threads.count 0 → prog.length = threads.count 1 →
    ((interleave (fun _ => 0) (fun _ => prog) w threads).objs 0).q =
        ((interleave (fun _ => 0) (fun _ => prog) w (List.replicate prog.length 0 ++ List.replicate prog.length 1)).objs 0).q ∨
      ((interleave (fun _ => 0) (fun _ => prog) w threads).objs 0).q =
        ((interleave (fun _ => 0) (fun _ => prog) w (List.replicate prog.length 1 ++ List.replicate prog.length 0)).objs 0).q

/-- C161 is not true of threads that share a generator: the draws of the other thread come between those of one. -/
theorem C161_refuted : ¬ C161_full := by
  intro hfull
  have h := hfull exCounter (fun _ _ => 1) exWorld (exProgram 0) rfl (fun _ => ⟨rfl, rfl⟩)
    (List.replicate 10 0 ++ (List.replicate 10 1 ++ (List.replicate 22 0 ++ List.replicate 22 1))) (by
      intro i hi
      simp only [List.mem_append, List.mem_replicate] at hi
      omega) (by rw [exProgram_length]; decide) (by rw [exProgram_length]; decide)
  rw [exProgram_length] at h
  have e1 := exMixed
  have e2 := (exOrder 0 1 (by decide)).1
  have e3 := (exOrder 1 0 (by decide)).2
  have hp : exProgram = fun _ => exProgram 0 := rfl
  rw [hp] at e1 e2 e3
  rcases h with h | h
  · rw [e1, e2] at h
    simp at h
  · rw [e1, e3] at h
    simp at h

/-- Two threads with a generator of their own each: what `C161_alone` and `C161_fitted` ask for. -/
example (threads : List Nat) : (∀ j ∈ threads, j ≠ 0 → (id : Nat → Nat) 0 ≠ id j) ∧
    Variant exCounter (exWorld.streams (id 0)) (initImplicit exCounter.rng (fun _ _ => 1) : List (Stmt Nat 2 2 exCounter.k))
      (Implicit.loss exCounter.C fun _ _ => 1) (Implicit.gradLoss exCounter.C fun _ _ => 1) safeSigmoid
      (Implicit.initCoef exCounter.rng (exWorld.streams (id 0)) exCounter.k fun _ _ => 1).1 ∧ exWorld.done 0 = 0 ∧ exWorld.raised 0 = none ∧
    (exProgram 0).length ≤ (List.replicate 40 0).count 0 :=
  ⟨fun _ _ h e => h e.symm, .implicit _, rfl, rfl, by rw [exProgram_length]; decide⟩

end Steps
end MF
end Kam

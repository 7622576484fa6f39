/-
C164: topic models that are fitted in threads.
-/
import Verif.PLSA.Threads
import Verif.PLSA.Interrupt
import Verif.Fit.Start

set_option linter.unusedSectionVars false

namespace Kam
open Spec
namespace PLSA
namespace Steps
open scoped BigOperators

variable {γ : Type} {n nu ni nl : Nat → Nat}

/-- The requests `reqs` (thread, event) are served one after the other by one generator in state `g`: `st p` is its state before request `p`,
`q` has the weights drawn. -/
structure Served {k : Nat → Nat} (R : Nat → Rng γ) (level : ∀ i, Fin (n i) → Nat) (nl : Nat → Nat) (g : γ) (reqs : List (Nat × Nat))
    (st : Nat → γ) (q : ∀ i, Resp (n i) (k i)) : Prop where
  start : st 0 = g
  each : ∀ p i e (he : e < n i), reqs[p]? = some (i, e) →
    (R i).dirichlet (st p) (preferred (nl i) (k i) (level i ⟨e, he⟩)) = (q i ⟨e, he⟩, st (p + 1))

lemma initAlpha_preferred {nl k : Nat} (l : Fin nl) : initAlpha nl k l = preferred nl k l := by
  funext z
  unfold initAlpha preferred
  split <;> norm_num

/-- What is known of the threads with the generator `h` after some turns. -/
structure Inv {cf : Nat → Config γ} (handle : Nat → Nat) (evs : ∀ i, Fin (n i) → Ev (nu i) (ni i) (nl i))
    (w0 : World γ n nu ni nl fun i => (cf i).k) (h : Nat) (w : World γ n nu ni nl fun i => (cf i).k) (reqs : List (Nat × Nat)) (st : Nat → γ)
    (q : ∀ i, Resp (n i) (cf i).k) : Prop where
  served : Served (fun i => (cf i).rng) (fun i e => (evs i e).level) nl (w0.streams h) reqs st q
  here : ∀ x ∈ reqs, handle x.1 = h ∧ w0.done x.1 = 0 ∧ x.2 < n x.1
  now : w.streams h = st reqs.length
  own : ∀ i, handle i = h → w0.done i = 0 → (reqs.filter (fun x => x.1 == i)).map Prod.snd = List.range (min (w.done i) (n i))
  obj : ∀ i, handle i = h → w0.done i = 0 →
    w.objs i = run ((program (cf i) (evs i)).take (w.done i - n i)) { w0.objs i with q := q i }

lemma tprogram_draw {n nu ni nl : Nat} {cf : Config γ} {evs : Fin n → Ev nu ni nl} {d : Nat} (hd : d < n) :
    (tprogram cf evs)[d]? = some (draw cf.rng evs ⟨d, hd⟩) := by
  unfold tprogram
  rw [List.getElem?_append_left (by simpa using hd), List.getElem?_map, List.getElem?_eq_getElem (by simpa using hd)]
  simp

lemma tprogram_rest {n nu ni nl : Nat} {cf : Config γ} {evs : Fin n → Ev nu ni nl} {d : Nat} (hd : n ≤ d) :
    (tprogram cf evs)[d]? = ((program cf evs)[d - n]?).map fun s x => (x.1, s x.2) := by
  unfold tprogram
  rw [List.getElem?_append_right (by simpa using hd), List.getElem?_map]
  simp

lemma tprogram_length {n nu ni nl : Nat} (cf : Config γ) (evs : Fin n → Ev nu ni nl) :
    (tprogram cf evs).length = n + (program cf evs).length := by
  unfold tprogram
  simp

lemma run_take_succ {n nu ni nl k : Nat} {l : List (Stmt n nu ni nl k)} {m : Nat} {s : Stmt n nu ni nl k} (h : l[m]? = some s)
    (o : Obj n nu ni nl k) : run (l.take (m + 1)) o = s (run (l.take m) o) := by
  rw [List.take_add_one, h, run_append]
  rfl

lemma Inv.step {cf : Nat → Config γ} {handle : Nat → Nat} {evs : ∀ i, Fin (n i) → Ev (nu i) (ni i) (nl i)}
    {w0 w : World γ n nu ni nl fun i => (cf i).k} {h : Nat} {reqs : List (Nat × Nat)} {st : Nat → γ} {q : ∀ i, Resp (n i) (cf i).k}
    (I : Inv handle evs w0 h w reqs st q) {j : Nat} (hj : handle j = h → w0.done j = 0) :
    ∃ reqs' st' q', Inv handle evs w0 h (tstep handle (fun i => tprogram (cf i) (evs i)) w j) reqs' st' q' ∧
      ∀ x ∈ reqs', x ∈ reqs ∨ x.1 = j := by
  by_cases hh : handle j = h
  · have h0 := hj hh
    by_cases hd : w.done j < n j
    · -- a draw
      have hs : tstep handle (fun i => tprogram (cf i) (evs i)) w j =
          { streams := Function.update w.streams (handle j) (draw (cf j).rng (evs j) ⟨w.done j, hd⟩ (w.streams (handle j), w.objs j)).1
            objs := Function.update w.objs j (draw (cf j).rng (evs j) ⟨w.done j, hd⟩ (w.streams (handle j), w.objs j)).2
            done := Function.update w.done j (w.done j + 1) } := by
        unfold tstep
        simp only [tprogram_draw hd]
      rw [hs, hh]
      generalize hx : (cf j).rng.dirichlet (w.streams h) (initAlpha (nl j) (cf j).k (evs j ⟨w.done j, hd⟩).level) = x
      have fresh : ∀ (p e : Nat), reqs[p]? = some (j, e) → e < w.done j := by
        intro p e hp
        have : e ∈ (reqs.filter (fun x => x.1 == j)).map Prod.snd :=
          List.mem_map.2 ⟨(j, e), List.mem_filter.2 ⟨List.mem_of_getElem? hp, by simp⟩, rfl⟩
        rw [I.own j hh h0, List.mem_range] at this
        omega
      refine ⟨reqs ++ [(j, w.done j)], Function.update st (reqs.length + 1) x.2,
        Function.update q j (Function.update (q j) ⟨w.done j, hd⟩ x.1), ⟨⟨?_, ?_⟩, ?_, ?_, ?_, ?_⟩, ?_⟩
      · rw [Function.update_of_ne (by omega)]
        exact I.served.start
      · intro p i e he hp
        rcases Nat.lt_trichotomy p reqs.length with hlt | heq | hgt
        · rw [List.getElem?_append_left hlt] at hp
          have a1 : Function.update st (reqs.length + 1) x.2 p = st p := Function.update_of_ne (by omega) _ _
          have a2 : Function.update st (reqs.length + 1) x.2 (p + 1) = st (p + 1) := Function.update_of_ne (by omega) _ _
          have a3 : (Function.update q j (Function.update (q j) ⟨w.done j, hd⟩ x.1)) i ⟨e, he⟩ = q i ⟨e, he⟩ := by
            by_cases hi : i = j
            · subst hi
              have := fresh p e hp
              rw [Function.update_self, Function.update_of_ne (by intro hc; have := congrArg Fin.val hc; simp at this; omega)]
            · rw [Function.update_of_ne hi]
          rw [a1, a2, a3]
          exact I.served.each p i e he hp
        · subst heq
          rw [List.getElem?_concat_length] at hp
          cases hp
          have a1 : Function.update st (reqs.length + 1) x.2 reqs.length = st reqs.length := Function.update_of_ne (by omega) _ _
          rw [a1, Function.update_self, Function.update_self, Function.update_self, ← I.now, ← initAlpha_preferred]
          exact hx
        · rw [List.getElem?_eq_none (by simp; omega)] at hp
          cases hp
      · intro y hy
        rcases List.mem_append.1 hy with hy | hy
        · exact I.here y hy
        · rw [List.mem_singleton.1 hy]
          exact ⟨hh, h0, hd⟩
      · rw [List.length_append, List.length_singleton, Function.update_self]
        simp only [Function.update_self, draw, hx]
      · intro i hi hi0
        by_cases hij : i = j
        · subst hij
          simp only [List.filter_append, List.map_append, I.own i hi hi0, Function.update_self]
          rw [show min (w.done i) (n i) = w.done i by omega, show min (w.done i + 1) (n i) = w.done i + 1 by omega, List.range_succ]
          simp
        · simp only [List.filter_append, List.map_append, I.own i hi hi0, Function.update_of_ne hij]
          have : (j == i) = false := by simp; exact fun hc => hij hc.symm
          simp [this]
      · intro i hi hi0
        by_cases hij : i = j
        · subst hij
          simp only [Function.update_self]
          have := I.obj i hi hi0
          rw [show w.done i - n i = 0 by omega] at this
          rw [show w.done i + 1 - n i = 0 by omega]
          unfold draw
          simp only [hx, this]
          rfl
        · simp only [Function.update_of_ne hij]
          exact I.obj i hi hi0
      · intro y hy
        rcases List.mem_append.1 hy with hy | hy
        · exact .inl hy
        · rw [List.mem_singleton.1 hy]
          exact .inr rfl
    · refine ⟨reqs, st, q, ?_, fun x hx => .inl hx⟩
      have hd' : n j ≤ w.done j := by omega
      cases hp : (program (cf j) (evs j))[w.done j - n j]? with
      | none =>
        have hs : tstep handle (fun i => tprogram (cf i) (evs i)) w j = w := by
          unfold tstep
          simp only [tprogram_rest hd', hp, Option.map_none]
        rw [hs]
        exact I
      | some s =>
        have hs : tstep handle (fun i => tprogram (cf i) (evs i)) w j =
            { streams := Function.update w.streams (handle j) (w.streams (handle j))
              objs := Function.update w.objs j (s (w.objs j))
              done := Function.update w.done j (w.done j + 1) } := by
          unfold tstep
          simp only [tprogram_rest hd', hp, Option.map_some]
        rw [hs, Function.update_eq_self]
        refine ⟨I.served, I.here, I.now, ?_, ?_⟩
        · intro i hi hi0
          by_cases hij : i = j
          · subst hij
            rw [I.own i hi hi0]
            simp only [Function.update_self]
            congr 1
            omega
          · simp only [Function.update_of_ne hij]
            exact I.own i hi hi0
        · intro i hi hi0
          by_cases hij : i = j
          · subst hij
            simp only [Function.update_self]
            rw [show w.done i + 1 - n i = w.done i - n i + 1 by omega, run_take_succ hp, ← I.obj i hi hi0]
          · simp only [Function.update_of_ne hij]
            exact I.obj i hi hi0
  · refine ⟨reqs, st, q, ?_, fun x hx => .inl hx⟩
    have key : (tstep handle (fun i => tprogram (cf i) (evs i)) w j).streams h = w.streams h ∧
        ∀ i, handle i = h → (tstep handle (fun i => tprogram (cf i) (evs i)) w j).objs i = w.objs i ∧
          (tstep handle (fun i => tprogram (cf i) (evs i)) w j).done i = w.done i := by
      unfold tstep
      split
      · refine ⟨Function.update_of_ne (fun hc => hh hc.symm) _ _, fun i hi => ?_⟩
        have : i ≠ j := fun hc => hh (hc ▸ hi)
        exact ⟨Function.update_of_ne this _ _, Function.update_of_ne this _ _⟩
      · exact ⟨rfl, fun _ _ => ⟨rfl, rfl⟩⟩
    refine ⟨I.served, I.here, key.1.trans I.now, ?_, ?_⟩
    · intro i hi hi0
      rw [(key.2 i hi).2]
      exact I.own i hi hi0
    · intro i hi hi0
      rw [(key.2 i hi).1, (key.2 i hi).2]
      exact I.obj i hi hi0

lemma inv_interleave {cf : Nat → Config γ} {handle : Nat → Nat} {evs : ∀ i, Fin (n i) → Ev (nu i) (ni i) (nl i)}
    {w0 : World γ n nu ni nl fun i => (cf i).k} {h : Nat} (threads : List Nat) (hj : ∀ j ∈ threads, handle j = h → w0.done j = 0) :
    ∃ reqs st q, Inv handle evs w0 h (interleave handle (fun i => tprogram (cf i) (evs i)) w0 threads) reqs st q ∧ ∀ x ∈ reqs, x.1 ∈ threads := by
  have gen : ∀ (l : List Nat) (w : World γ n nu ni nl fun i => (cf i).k) (reqs : List (Nat × Nat)) (st : Nat → γ) (q : ∀ i, Resp (n i) (cf i).k),
      (∀ j ∈ l, handle j = h → w0.done j = 0) → Inv handle evs w0 h w reqs st q →
      ∃ reqs' st' q', Inv handle evs w0 h (l.foldl (tstep handle (fun i => tprogram (cf i) (evs i))) w) reqs' st' q' ∧
        ∀ x ∈ reqs', x ∈ reqs ∨ x.1 ∈ l := by
    intro l
    induction l with
    | nil => exact fun w reqs st q _ I => ⟨reqs, st, q, I, fun x hx => .inl hx⟩
    | cons j l ih =>
      intro w reqs st q hl I
      obtain ⟨r1, s1, q1, I1, m1⟩ := I.step (hl j (by simp))
      obtain ⟨r2, s2, q2, I2, m2⟩ := ih _ r1 s1 q1 (fun j' hj' => hl j' (by simp [hj'])) I1
      refine ⟨r2, s2, q2, I2, fun x hx => ?_⟩
      rcases m2 x hx with hx | hx
      · rcases m1 x hx with hx | hx
        · exact .inl hx
        · exact .inr (by simp [hx])
      · exact .inr (by simp [hx])
  obtain ⟨r, s, q, I, m⟩ := gen threads w0 [] (fun _ => w0.streams h) (fun i => (w0.objs i).q) hj
    ⟨⟨rfl, by intro p i e he hp; simp at hp⟩, by simp, rfl, by intro i _ h0; simp [h0], by intro i _ h0; simp [h0, run]⟩
  exact ⟨r, s, q, I, fun x hx => (m x hx).resolve_left (by simp)⟩

lemma done_interleave {k : Nat → Nat} (handle : Nat → Nat) (prog : ∀ i, List (TStmt γ (n i) (nu i) (ni i) (nl i) (k i)))
    (w : World γ n nu ni nl k) (threads : List Nat) (i : Nat) (hi : w.done i ≤ (prog i).length) :
    (interleave handle prog w threads).done i = min (w.done i + threads.count i) (prog i).length := by
  unfold interleave
  induction threads generalizing w with
  | nil => simp; omega
  | cons j l ih =>
    rw [List.foldl_cons]
    have hs : (tstep handle prog w j).done i = if j = i then min (w.done i + 1) (prog i).length else w.done i := by
      unfold tstep
      by_cases hj : j = i
      · subst hj
        rw [if_pos rfl]
        split
        · rename_i s hs
          have := (List.getElem?_eq_some_iff.1 hs).1
          simp only [Function.update_self]
          omega
        · rename_i hs
          have := List.getElem?_eq_none_iff.1 hs
          omega
      · rw [if_neg hj]
        split
        · exact Function.update_of_ne (fun h => hj h.symm) _ _
        · rfl
    rw [ih _ (by rw [hs]; split <;> omega), hs, List.count_cons]
    by_cases hj : j = i
    · simp [hj]; omega
    · simp [hj]

lemma objs_later {cf : Nat → Config γ} {handle : Nat → Nat} {evs : ∀ i, Fin (n i) → Ev (nu i) (ni i) (nl i)}
    (w : World γ n nu ni nl fun i => (cf i).k) (threads : List Nat) (i : Nat) {o : Obj (n i) (nu i) (ni i) (nl i) (cf i).k} (hn : n i ≤ w.done i)
    (ho : w.objs i = run ((program (cf i) (evs i)).take (w.done i - n i)) o) :
    (interleave handle (fun i => tprogram (cf i) (evs i)) w threads).objs i = run ((program (cf i) (evs i)).take
      ((interleave handle (fun i => tprogram (cf i) (evs i)) w threads).done i - n i)) o := by
  unfold interleave
  induction threads generalizing w with
  | nil => exact ho
  | cons j l ih =>
    rw [List.foldl_cons]
    by_cases hj : j = i
    · subst hj
      cases hp : (program (cf j) (evs j))[w.done j - n j]? with
      | none =>
        have hs : tstep handle (fun i => tprogram (cf i) (evs i)) w j = w := by
          unfold tstep
          simp only [tprogram_rest hn, hp, Option.map_none]
        rw [hs]
        exact ih w hn ho
      | some s =>
        have hs : tstep handle (fun i => tprogram (cf i) (evs i)) w j =
            { streams := Function.update w.streams (handle j) (w.streams (handle j))
              objs := Function.update w.objs j (s (w.objs j))
              done := Function.update w.done j (w.done j + 1) } := by
          unfold tstep
          simp only [tprogram_rest hn, hp, Option.map_some]
        rw [hs]
        apply ih
        · simp only [Function.update_self]
          omega
        · simp only [Function.update_self]
          rw [show w.done j + 1 - n j = w.done j - n j + 1 by omega, run_take_succ hp, ← ho]
    · have key : (tstep handle (fun i => tprogram (cf i) (evs i)) w j).objs i = w.objs i ∧
          (tstep handle (fun i => tprogram (cf i) (evs i)) w j).done i = w.done i := by
        unfold tstep
        split
        · exact ⟨Function.update_of_ne (fun h => hj h.symm) _ _, Function.update_of_ne (fun h => hj h.symm) _ _⟩
        · exact ⟨rfl, rfl⟩
      exact ih _ (by rw [key.2]; exact hn) (by rw [key.1, key.2]; exact ho)

/-- What a call of `fit` learns from the initial weights `q`: it stores the parameters of the EM iterations of `Verif/PLSA/Model`, predicts
with them and reports on them. -/
def LearnedFrom {n nu ni nl : Nat} (cf : Config γ) (evs : Fin n → Ev nu ni nl) (q : Resp n cf.k) (before o : Obj n nu ni nl cf.k) : Prop :=
  ∃ θ iterNo cur, loop (emStep cf.alpha evs) (loss evs) cf.tol cf.maxiter cf.maxiter 0 none (mStep cf.alpha evs q)
      (loss evs (mStep cf.alpha evs q)) = (θ, iterNo, cur) ∧ theta o = some θ ∧
    (∀ b levels rows, rawPredict b levels o rows = rows.mapM (predictRow b (store θ levels))) ∧
    o.results = (results cf nu ni nl n (loss evs (mStep cf.alpha evs q)) iterNo cur).foldl (fun d kv => d.set kv.1 kv.2) before.results

lemma learnedFrom_run {n nu ni nl : Nat} (cf : Config γ) (evs : Fin n → Ev nu ni nl) (q : Resp n cf.k) (before : Obj n nu ni nl cf.k) :
    LearnedFrom cf evs q before (run (program cf evs) { before with q := q }) := by
  refine ⟨_, _, _, rfl, (C156_completed evs { before with q := q } [] true [] rfl).1, ?_,
    (C156_completed evs { before with q := q } [] true [] rfl).2.2⟩
  intro b levels rows
  exact (C156_completed evs { before with q := q } levels b rows rfl).2.1

/-- C164: whatever the schedule, the calls that share the generator `h` draw their initial weights from one sequence of draws, each call for
its events in order, and every call that has come to its end has learned what it learns from the weights it has drawn. -/
theorem C164_drawn {cf : Nat → Config γ} (handle : Nat → Nat) (evs : ∀ i, Fin (n i) → Ev (nu i) (ni i) (nl i))
    (w : World γ n nu ni nl fun i => (cf i).k) (threads : List Nat) (h : Nat) (hstart : ∀ i ∈ threads, handle i = h → w.done i = 0) :
    ∃ reqs st q, Served (fun i => (cf i).rng) (fun i e => (evs i e).level) nl (w.streams h) reqs st q ∧
      (interleave handle (fun i => tprogram (cf i) (evs i)) w threads).streams h = st reqs.length ∧
      (∀ x ∈ reqs, x.1 ∈ threads ∧ handle x.1 = h ∧ x.2 < n x.1) ∧
      ∀ i ∈ threads, handle i = h → (tprogram (cf i) (evs i)).length ≤ threads.count i →
        (reqs.filter (fun x => x.1 == i)).map Prod.snd = List.range (n i) ∧
        LearnedFrom (cf i) (evs i) (q i) (w.objs i) ((interleave handle (fun i => tprogram (cf i) (evs i)) w threads).objs i) := by
  obtain ⟨reqs, st, q, I, hm⟩ := inv_interleave (evs := evs) threads hstart
  refine ⟨reqs, st, q, I.served, I.now, fun x hx => ⟨hm x hx, (I.here x hx).1, (I.here x hx).2.2⟩, ?_⟩
  intro i hi hh hc
  have h0 := hstart i hi hh
  have hd := done_interleave handle (fun i => tprogram (cf i) (evs i)) w threads i (by omega)
  rw [h0, Nat.zero_add, Nat.min_eq_right hc, tprogram_length] at hd
  have h1 := I.own i hh h0
  have h2 := I.obj i hh h0
  rw [hd] at h1 h2
  rw [Nat.min_eq_right (by omega)] at h1
  rw [Nat.add_sub_cancel_left, List.take_length] at h2
  exact ⟨h1, h2 ▸ learnedFrom_run _ _ _ _⟩

/-- C164: a call whose draws no other call interrupts learns what it learns alone: the schedule begins with turns `l₁` in which it draws the
weights of all events and no other thread with the same generator has a turn. -/
theorem C164_undisturbed {cf : Nat → Config γ} (handle : Nat → Nat) (evs : ∀ i, Fin (n i) → Ev (nu i) (ni i) (nl i))
    (w : World γ n nu ni nl fun i => (cf i).k) (l₁ l₂ : List Nat) (i : Nat) (h0 : w.done i = 0) (hh : ∀ j ∈ l₁, j ≠ i → handle j ≠ handle i)
    (hn : n i ≤ l₁.count i) (hc : (tprogram (cf i) (evs i)).length ≤ (l₁ ++ l₂).count i) :
    ∃ (st : Nat → γ) (q : Resp (n i) (cf i).k), st 0 = w.streams (handle i) ∧
      (∀ e : Fin (n i), (cf i).rng.dirichlet (st e) (preferred (nl i) (cf i).k (evs i e).level) = (q e, st (e + 1))) ∧
      (interleave handle (fun i => tprogram (cf i) (evs i)) w l₁).streams (handle i) = st (n i) ∧
      LearnedFrom (cf i) (evs i) q (w.objs i) ((interleave handle (fun i => tprogram (cf i) (evs i)) w (l₁ ++ l₂)).objs i) := by
  obtain ⟨reqs, st, q, I, hm⟩ := inv_interleave (evs := evs) (w0 := w) (handle := handle) (h := handle i) l₁ (by
    intro j hj hji
    by_cases e : j = i
    · rw [e, h0]
    · exact absurd hji (hh j hj e))
  have only : ∀ x ∈ reqs, x.1 = i := by
    intro x hx
    by_contra e
    exact hh x.1 (hm x hx) e (I.here x hx).1
  have hd := done_interleave handle (fun i => tprogram (cf i) (evs i)) w l₁ i (by omega)
  rw [h0, Nat.zero_add] at hd
  have hlen := tprogram_length (cf i) (evs i)
  have hge : n i ≤ (interleave handle (fun i => tprogram (cf i) (evs i)) w l₁).done i := by rw [hd]; omega
  have h1 := I.own i rfl h0
  rw [Nat.min_eq_right hge, List.filter_eq_self.2 (fun x hx => by simp [only x hx])] at h1
  have hl : reqs.length = n i := by
    have := congrArg List.length h1
    simpa using this
  have hreq : ∀ e : Fin (n i), reqs[e.1]? = some (i, e.1) := by
    intro e
    have he : e.1 < reqs.length := by rw [hl]; exact e.2
    rw [List.getElem?_eq_getElem he]
    have a1 := only _ (List.getElem_mem he)
    have a2 : (reqs[e.1]).2 = e.1 := by
      have := congrArg (fun l => l[e.1]?) h1
      simp only [List.getElem?_map, List.getElem?_eq_getElem he, Option.map_some] at this
      rw [List.getElem?_range e.2] at this
      exact Option.some.inj this
    exact congrArg some (Prod.ext a1 a2)
  refine ⟨st, q i, I.served.start, fun e => I.served.each e.1 i e.1 e.2 (hreq e), hl ▸ I.now, ?_⟩
  have h2 := objs_later (handle := handle) _ l₂ i hge (I.obj i rfl h0)
  have happ : interleave handle (fun i => tprogram (cf i) (evs i)) (interleave handle (fun i => tprogram (cf i) (evs i)) w l₁) l₂ =
      interleave handle (fun i => tprogram (cf i) (evs i)) w (l₁ ++ l₂) := by
    unfold interleave
    rw [List.foldl_append]
  have hd2 := done_interleave handle (fun i => tprogram (cf i) (evs i)) w (l₁ ++ l₂) i (by omega)
  rw [h0, Nat.zero_add, Nat.min_eq_right hc, hlen] at hd2
  rw [happ, hd2, Nat.add_sub_cancel_left, List.take_length] at h2
  rw [h2]
  exact learnedFrom_run _ _ _ _

/-- C164: generators that no thread of the schedule uses are not moved. -/
theorem C164_generators {k : Nat → Nat} (handle : Nat → Nat) (prog : ∀ i, List (TStmt γ (n i) (nu i) (ni i) (nl i) (k i)))
    (w : World γ n nu ni nl k) (threads : List Nat) (h : Nat) (hh : ∀ j ∈ threads, handle j ≠ h) :
    (interleave handle prog w threads).streams h = w.streams h := by
  unfold interleave
  induction threads generalizing w with
  | nil => rfl
  | cons j l ih =>
    rw [List.foldl_cons, ih _ (fun j' hj' => hh j' (List.mem_cons_of_mem _ hj'))]
    unfold tstep
    split
    · exact Function.update_of_ne (hh j (by simp)).symm _ _
    · rfl

/-- What one would like to have: two calls in threads learn what they learn one after the other, in one of the two orders. -/
def C164_full : Prop :=
  ∀ (cf : Nat → Config Nat) (n nu ni nl : Nat → Nat) (evs : ∀ i, Fin (n i) → Ev (nu i) (ni i) (nl i)) (handle : Nat → Nat)
    (w : World Nat n nu ni nl fun i => (cf i).k) (threads : List Nat), (∀ i, w.done i = 0) → (∀ i ∈ threads, i = 0 ∨ i = 1) →
    (∀ i, i = 0 ∨ i = 1 → (tprogram (cf i) (evs i)).length ≤ threads.count i) →
    ∃ a b, (a = 0 ∧ b = 1 ∨ a = 1 ∧ b = 0) ∧ ∀ i, i = 0 ∨ i = 1 →
      theta ((interleave handle (fun i => tprogram (cf i) (evs i)) w threads).objs i) =
        theta ((interleave handle (fun i => tprogram (cf i) (evs i)) w
          (List.replicate (tprogram (cf a) (evs a)).length a ++ List.replicate (tprogram (cf b) (evs b)).length b)).objs i)

/-! ### examples -/

/-- Two classes, no iterations, and a generator that draws `1 / (g + 1)` for the first class in its state `g`. -/
noncomputable def exShared : Config Nat :=
  ⟨2, 1, true, 0, 0, ⟨fun g _ => (fun z => if z.1 = 0 then 1 / ((g : ℝ) + 1) else 1 - 1 / ((g : ℝ) + 1), g + 1)⟩⟩

/-- Two events of different users and items with the same level. -/
def exTwo : Fin 2 → Ev 2 2 1 := fun e => ⟨e, e, 0⟩

/-- New recommenders and a generator in state 0. -/
noncomputable def exWorld : World Nat (fun _ => 2) (fun _ => 2) (fun _ => 2) (fun _ => 1) (fun _ => exShared.k) :=
  ⟨fun _ => 0, fun _ => ⟨fun _ _ => 0, none, none, none, none, false, false, initialResults, 0, none, 0, false⟩, fun _ => 0⟩

lemma exShared_length : (tprogram exShared exTwo).length = 25 := by
  rw [tprogram_length, program, List.length_append, List.length_append, passes_length, List.length_range]
  rfl

/-- The share of user 0 in class 0, learned from the given weights of class 0. -/
lemma exShare {q : Resp 2 exShared.k} {before o : Obj 2 2 2 1 exShared.k} (h : LearnedFrom exShared exTwo q before o) {a b : ℝ}
    (ha : q 0 (0 : Fin 2) = a) (hb : q 1 (0 : Fin 2) = b) :
    ∃ θ, theta o = some θ ∧ θ.pX 0 (0 : Fin 2) = (a + 1) / (a + b + 2) := by
  obtain ⟨θ, iterNo, cur, h1, h2, _⟩ := h
  refine ⟨θ, h2, ?_⟩
  have e : θ = mStep exShared.alpha exTwo q := (congrArg Prod.fst h1).symm
  rw [e]
  show normalize (weights 1 (fun e => (exTwo e).user) q) 0 (0 : Fin 2) = _
  unfold normalize weights
  simp only [Fin.sum_univ_two, exTwo]
  rw [ha, hb]
  simp
  congr 1
  ring

/-- The two draws of thread 0 are the first and the third. -/
lemma exMixed : LearnedFrom exShared exTwo (fun e z => if e = 0 then (exShared.rng.dirichlet (k := 2) 0 (fun _ => 0)).1 z
      else (exShared.rng.dirichlet (k := 2) 2 (fun _ => 0)).1 z) (exWorld.objs 0)
    ((interleave (fun _ => 0) (fun _ => tprogram exShared exTwo) exWorld
      ([0, 1, 0] ++ (1 :: (List.replicate 23 0 ++ List.replicate 23 1)))).objs 0) := by
  have happ : ∀ w : World Nat (fun _ => 2) (fun _ => 2) (fun _ => 2) (fun _ => 1) (fun _ => exShared.k), ∀ l₁ l₂ : List Nat,
      interleave (fun _ => 0) (fun _ => tprogram exShared exTwo) w (l₁ ++ l₂) =
      interleave (fun _ => 0) (fun _ => tprogram exShared exTwo) (interleave (fun _ => 0) (fun _ => tprogram exShared exTwo) w l₁) l₂ := by
    intro w l₁ l₂
    unfold interleave
    rw [List.foldl_append]
  have hd : (interleave (fun _ => 0) (fun _ => tprogram exShared exTwo) exWorld [0, 1, 0]).done 0 = 2 := by
    rw [done_interleave _ _ _ _ _ (Nat.zero_le _), exShared_length]
    rfl
  have ho : (interleave (fun _ => 0) (fun _ => tprogram exShared exTwo) exWorld [0, 1, 0]).objs 0 =
      { exWorld.objs 0 with q := fun e z => if e = 0 then (exShared.rng.dirichlet (k := 2) 0 (fun _ => 0)).1 z
          else (exShared.rng.dirichlet (k := 2) 2 (fun _ => 0)).1 z } := by
    have : (interleave (fun _ => 0) (fun _ => tprogram exShared exTwo) exWorld [0, 1, 0]).objs 0 =
        { exWorld.objs 0 with
          q := Function.update (Function.update (exWorld.objs 0).q 0 (exShared.rng.dirichlet 0 (initAlpha 1 exShared.k 0)).1) 1 (exShared.rng.dirichlet 2 (initAlpha 1 exShared.k 0)).1 } := rfl
    rw [this]
    refine congrArg (fun q => { exWorld.objs 0 with q := q }) ?_
    funext e z
    fin_cases e <;> rfl
  have hl := objs_later (cf := fun _ => exShared) (handle := fun _ => 0) (evs := fun _ => exTwo)
    (interleave (fun _ => 0) (fun _ => tprogram exShared exTwo) exWorld [0, 1, 0]) (1 :: (List.replicate 23 0 ++ List.replicate 23 1)) 0
    (o := (interleave (fun _ => 0) (fun _ => tprogram exShared exTwo) exWorld [0, 1, 0]).objs 0) hd.ge (by rw [hd]; rfl)
  have hd2 := done_interleave (fun _ => 0) (fun _ => tprogram exShared exTwo) exWorld
    ([0, 1, 0] ++ (1 :: (List.replicate 23 0 ++ List.replicate 23 1))) 0 (Nat.zero_le _)
  rw [exShared_length] at hd2
  rw [← happ, hd2, ho] at hl
  rw [hl]
  have hlen : (program exShared exTwo).length = 23 := by
    have := exShared_length
    rw [tprogram_length] at this
    omega
  have : (program exShared exTwo).take (min (exWorld.done 0 + List.count 0 ([0, 1, 0] ++ (1 :: (List.replicate 23 0 ++ List.replicate 23 1)))) 25 - 2) =
      program exShared exTwo := List.take_of_length_le (by rw [hlen]; decide)
  rw [this]
  exact learnedFrom_run exShared exTwo _ (exWorld.objs 0)

/-- What thread 0 learns if it is the first or the second of two calls. -/
lemma exAlone (w : World Nat (fun _ => 2) (fun _ => 2) (fun _ => 2) (fun _ => 1) (fun _ => exShared.k)) (l : List Nat) (i : Nat)
    (h0 : w.done i = 0) : (interleave (fun _ => 0) (fun _ => tprogram exShared exTwo) w (List.replicate 25 i)).streams 0 = w.streams 0 + 2 ∧
    ∃ θ, theta ((interleave (fun _ => 0) (fun _ => tprogram exShared exTwo) w (List.replicate 25 i ++ l)).objs i) = some θ ∧
      θ.pX 0 (0 : Fin 2) = (1 / ((w.streams 0 : ℝ) + 1) + 1) / (1 / ((w.streams 0 : ℝ) + 1) + 1 / ((w.streams 0 : ℝ) + 2) + 2) := by
  obtain ⟨st, q, a1, a2, a3, a4⟩ := C164_undisturbed (cf := fun _ => exShared) (fun _ => 0) (fun _ => exTwo) w (List.replicate 25 i) l i h0
    (fun j hj hne => absurd (List.eq_of_mem_replicate hj) hne) (by rw [List.count_replicate_self]; decide)
    (by rw [exShared_length, List.count_append, List.count_replicate_self]; omega)
  have b0 := a2 (0 : Fin 2)
  have b1 := a2 (1 : Fin 2)
  have drawn : ∀ (g : Nat) (y : Fin 2 → ℝ) (g' : Nat) (x : Fin 2 → ℝ), exShared.rng.dirichlet (k := 2) g x = (y, g') →
      g + 1 = g' ∧ y 0 = 1 / ((g : ℝ) + 1) := by
    intro g y g' x hy
    cases hy
    exact ⟨rfl, if_pos rfl⟩
  obtain ⟨s1, q0⟩ := drawn _ _ _ _ b0
  obtain ⟨s2, q1⟩ := drawn _ _ _ _ b1
  change st 0 + 1 = st 1 at s1
  change st 1 + 1 = st 2 at s2
  change q 0 (0 : Fin 2) = 1 / ((st 0 : ℝ) + 1) at q0
  change q 1 (0 : Fin 2) = 1 / ((st 1 : ℝ) + 1) at q1
  change st 0 = w.streams 0 at a1
  rw [a1] at s1 q0
  rw [← s1] at q1 s2
  have q1' : q 1 (0 : Fin 2) = 1 / ((w.streams 0 : ℝ) + 2) := by
    rw [q1, Nat.cast_add, Nat.cast_one, add_assoc, one_add_one_eq_two]
  refine ⟨by rw [a3]; show st 2 = _; omega, ?_⟩
  exact exShare a4 q0 q1'

/-- C164: with a shared generator the draws of one call can come between those of another, and what a recommender learns is what it learns in
no order of the calls. -/
theorem C164_refuted : ¬ C164_full := by
  intro hfull
  obtain ⟨a, b, hab, h⟩ := hfull (fun _ => exShared) (fun _ => 2) (fun _ => 2) (fun _ => 2) (fun _ => 1) (fun _ => exTwo) (fun _ => 0) exWorld
    ([0, 1, 0] ++ (1 :: (List.replicate 23 0 ++ List.replicate 23 1))) (fun _ => rfl) (by
      intro i hi
      simp at hi
      omega) (by
      rintro i (rfl | rfl)
      · rw [exShared_length]; decide
      · rw [exShared_length]; decide)
  have h := h 0 (.inl rfl)
  rw [exShared_length] at h
  obtain ⟨θ, m1, m2⟩ := exShare exMixed (a := 1) (b := 1 / 3) (by simp [exShared]) (by simp [exShared]; norm_num)
  rw [m1] at h
  have hne : ∀ θ', some θ = some θ' → θ'.pX 0 (0 : Fin 2) = 3 / 5 := by
    intro θ' e
    cases e
    rw [m2]
    norm_num
  rcases hab with ⟨rfl, rfl⟩ | ⟨rfl, rfl⟩
  · obtain ⟨_, θ', e1, e2⟩ := exAlone exWorld (List.replicate 25 1) 0 rfl
    rw [e1] at h
    have := hne _ h
    rw [e2] at this
    simp only [exWorld] at this
    norm_num at this
  · have s1 := (exAlone exWorld [] 1 rfl).1
    have d0 : (interleave (fun _ => 0) (fun _ => tprogram exShared exTwo) exWorld (List.replicate 25 1)).done 0 = 0 := by
      rw [done_interleave _ _ _ _ _ (Nat.zero_le _), exShared_length]
      rfl
    obtain ⟨_, θ', e1, e2⟩ := exAlone (interleave (fun _ => 0) (fun _ => tprogram exShared exTwo) exWorld (List.replicate 25 1)) [] 0 d0
    rw [s1] at e2
    have happ : interleave (fun _ => 0) (fun _ => tprogram exShared exTwo)
        (interleave (fun _ => 0) (fun _ => tprogram exShared exTwo) exWorld (List.replicate 25 1)) (List.replicate 25 0 ++ []) =
        interleave (fun _ => 0) (fun _ => tprogram exShared exTwo) exWorld (List.replicate 25 1 ++ List.replicate 25 0) := by
      rw [List.append_nil]
      unfold interleave
      rw [List.foldl_append]
    rw [happ] at e1
    rw [e1] at h
    have := hne _ h
    rw [e2] at this
    simp only [exWorld] at this
    norm_num at this

/-- `exMixed` is a case of `C164_drawn`: all four requests go to one generator. -/
example : ∃ reqs st q, Served (fun _ => exShared.rng) (fun _ e => (exTwo e).level) (fun _ => 1) 0 reqs st q ∧
    ∀ i, i = 0 ∨ i = 1 → (reqs.filter (fun x => x.1 == i)).map Prod.snd = [0, 1] ∧
      LearnedFrom exShared exTwo (q i) (exWorld.objs i) ((interleave (fun _ => 0) (fun _ => tprogram exShared exTwo) exWorld
        ([0, 1, 0] ++ (1 :: (List.replicate 23 0 ++ List.replicate 23 1)))).objs i) := by
  obtain ⟨reqs, st, q, h1, _, _, h4⟩ := C164_drawn (cf := fun _ => exShared) (fun _ => 0) (fun _ => exTwo) exWorld
    ([0, 1, 0] ++ (1 :: (List.replicate 23 0 ++ List.replicate 23 1))) 0 (fun _ _ _ => rfl)
  refine ⟨reqs, st, q, h1, ?_⟩
  rintro i (rfl | rfl)
  · exact h4 0 (by simp) rfl (by rw [exShared_length]; decide)
  · exact h4 1 (by simp) rfl (by rw [exShared_length]; decide)

end Steps
end PLSA
end Kam

/-
C118, C119: the folds a splitter yields, however its generators are used.
-/
import Verif.Split.LazyLemmas

set_option linter.unusedSectionVars false

namespace Kam.Split

variable {α : Type} [LinearOrder α] {γ : Type}
variable {K : Type} [Field K] [LinearOrder K] [IsStrictOrderedRing K] [FloorRing K]

/-- What the calls of `next` of generator `j` returned, in their order. -/
def asked (j : Nat) : List (LOp α K) → List Out → List Out
  | .next j' :: ops, o :: os => if j' = j then o :: asked j ops os else asked j ops os
  | _ :: ops, _ :: os => asked j ops os
  | _, _ => []

/-! ### One generator inside a history -/

theorem step_gens (rng : Rng γ) (seed : Int → γ) (w : LWorld α γ K) (o : LOp α K) {j : Nat}
    {g : Gen α γ K} (hj : w.gens[j]? = some g) (ho : o ≠ .next j) :
    (lstep rng seed w o).2.gens[j]? = some g := by
  have hlt : j < w.gens.length := (List.getElem?_eq_some_iff.1 hj).1
  cases o with
  | split sp n groups =>
    rw [lstep]
    cases sp.make n (groups.map (fun a => (a, w.arr a))) with
    | error e => exact hj
    | ok g =>
      rw [LWorld.add]
      dsimp only
      rw [List.getElem?_append_left hlt]
      exact hj
  | next j' =>
    have hne : j' ≠ j := fun h => ho (by rw [h])
    rw [lstep]
    split
    · exact hj
    · dsimp only; rw [List.getElem?_set_ne hne]; exact hj
    · dsimp only; rw [List.getElem?_set_ne hne]; exact hj
    · exact hj
    · dsimp only; rw [List.getElem?_set_ne hne]; exact hj
  | draw r m => exact hj
  | write a i v => exact hj

theorem step_arr (rng : Rng γ) (seed : Int → γ) (w : LWorld α γ K) (o : LOp α K) {a : Nat}
    (ho : ∀ i v, o ≠ .write a i v) : (lstep rng seed w o).2.arr a = w.arr a := by
  cases o with
  | split sp n groups =>
    rw [lstep]
    cases sp.make n (groups.map (fun a => (a, w.arr a))) <;> rfl
  | next j' =>
    rw [lstep]
    split <;> rfl
  | draw r m => rfl
  | write a' i v =>
    rw [lstep]
    dsimp only
    rw [if_neg]
    rintro rfl
    exact ho i v rfl

theorem asked_next (j : Nat) (ops : List (LOp α K)) (o : Out) (os : List Out) :
    asked j (.next j :: ops) (o :: os) = o :: asked j ops os := by
  simp [asked]

theorem asked_other {j : Nat} {op : LOp α K} (h : op ≠ .next j) (ops : List (LOp α K)) (o : Out)
    (os : List Out) : asked j (op :: ops) (o :: os) = asked j ops os := by
  cases op with
  | next j' =>
    rw [asked, if_neg]
    rintro rfl
    exact h rfl
  | _ => rfl

/-- The two kinds of generators that have a `RandomState`: `mk` makes the generator object out
of the `RandomState` and the position in its code, `labels` are the labels it reads. -/
structure Kind (rng : Rng γ) (seed : Int → γ) {β : Type} [LinearOrder β] (j : Nat)
    (mk : Source γ → Body β K → Gen α γ K) (labels : LWorld α γ K → List β)
    (ok : LOp α K → Prop) : Prop where
  next : ∀ w src b, w.gens[j]? = some (mk src b) → lstep rng seed w (.next j) =
    ((b.next rng (labels w) (src.state seed w.rs)).1,
      { w with
        rs := src.update w.rs (b.next rng (labels w) (src.state seed w.rs)).2.1
        gens := w.gens.set j (mk (src.after (b.next rng (labels w) (src.state seed w.rs)).2.1)
          (b.next rng (labels w) (src.state seed w.rs)).2.2) })
  labels : ∀ w o, ok o → labels (lstep rng seed w o).2 = labels w

theorem kind_grouped (rng : Rng γ) (seed : Int → γ) (j a : Nat) :
    Kind (α := α) (K := K) rng seed j (Gen.grouped a) (fun w => w.arr a)
      (fun o => ∀ i v, o ≠ .write a i v) where
  next w src b h := by
    rw [lstep, h]
  labels w o ho := step_arr rng seed w o ho

theorem kind_whole (rng : Rng γ) (seed : Int → γ) (j n : Nat) :
    Kind (α := α) (K := K) rng seed j (Gen.whole n) (fun _ => List.replicate n (0 : Int))
      (fun _ => True) where
  next w src b h := by
    rw [lstep, h]
  labels w o ho := rfl

/-- Every generator answers as it would on its own, from the states it finds the `RandomState`
in. -/
theorem run_kind {rng : Rng γ} {seed : Int → γ} {β : Type} [LinearOrder β] {j : Nat}
    {mk : Source γ → Body β K → Gen α γ K} {labels : LWorld α γ K → List β}
    {ok : LOp α K → Prop} (hk : Kind rng seed j mk labels ok) (ops : List (LOp α K))
    (hok : ∀ o ∈ ops, ok o) (w : LWorld α γ K) (src : Source γ) (b : Body β K)
    (hj : w.gens[j]? = some (mk src b)) :
    ∃ ss, asked j ops (lrun rng seed w ops).1 = b.serve rng (labels w) ss ∧
      ∀ mid rest, ops = mid ++ .next j :: rest → (.next j : LOp α K) ∉ mid →
        ss.head? = some (src.state seed (lrun rng seed w mid).2.rs) := by
  induction ops generalizing w src b with
  | nil =>
    refine ⟨[], rfl, ?_⟩
    intro mid rest h
    simp at h
  | cons o ops ih =>
    have ho := hok o (by simp)
    have hlt : j < w.gens.length := (List.getElem?_eq_some_iff.1 hj).1
    by_cases hn : o = .next j
    · subst hn
      rw [lrun]
      dsimp only
      rw [asked_next]
      have hl := hk.labels w _ ho
      have hstep := hk.next w src b hj
      obtain ⟨ss, he, -⟩ := ih (fun o h => hok o (by simp [h])) (lstep rng seed w (.next j)).2
        _ _ (by rw [hstep]; exact List.getElem?_set_self hlt)
      rw [hl] at he
      refine ⟨src.state seed w.rs :: ss, ?_, ?_⟩
      · rw [Body.serve, he, hstep]
      · intro mid rest h hmid
        cases mid with
        | nil => rfl
        | cons o' mid =>
          simp only [List.cons_append, List.cons.injEq] at h
          exact absurd (by rw [← h.1]; simp) hmid
    · rw [lrun]
      dsimp only
      rw [asked_other hn]
      have hl := hk.labels w _ ho
      obtain ⟨ss, he, hh⟩ := ih (fun o h => hok o (by simp [h])) (lstep rng seed w o).2 src b
        (step_gens rng seed w o hj hn)
      rw [hl] at he
      refine ⟨ss, he, ?_⟩
      intro mid rest h hmid
      cases mid with
      | nil =>
        simp only [List.nil_append, List.cons.injEq] at h
        exact absurd h.1 hn
      | cons o' mid =>
        simp only [List.cons_append, List.cons.injEq] at h
        obtain ⟨rfl, h⟩ := h
        rw [lrun]
        exact hh mid rest h (fun hm => hmid (by simp [hm]))

/-- A `RandomState` that belongs to the generator alone. -/
def Source.private : Source γ → Prop
  | .object _ => False
  | _ => True

theorem run_kind_own {rng : Rng γ} {seed : Int → γ} {β : Type} [LinearOrder β] {j : Nat}
    {mk : Source γ → Body β K → Gen α γ K} {labels : LWorld α γ K → List β}
    {ok : LOp α K → Prop} (hk : Kind rng seed j mk labels ok) (ops : List (LOp α K))
    (hok : ∀ o ∈ ops, ok o) (w : LWorld α γ K) (src : Source γ) (hs : src.private)
    (b : Body β K) (hj : w.gens[j]? = some (mk src b)) :
    ∃ m, asked j ops (lrun rng seed w ops).1 =
      b.serveOwn rng (labels w) (src.state seed w.rs) m := by
  induction ops generalizing w src b with
  | nil => exact ⟨0, rfl⟩
  | cons o ops ih =>
    have ho := hok o (by simp)
    have hlt : j < w.gens.length := (List.getElem?_eq_some_iff.1 hj).1
    by_cases hn : o = .next j
    · subst hn
      rw [lrun]
      dsimp only
      rw [asked_next]
      have hl := hk.labels w _ ho
      have hstep := hk.next w src b hj
      have hs' : ∀ s : γ, (src.after s).private := by
        intro s; cases src <;> trivial
      obtain ⟨m, he⟩ := ih (fun o h => hok o (by simp [h])) (lstep rng seed w (.next j)).2
        _ (hs' _) _ (by rw [hstep]; exact List.getElem?_set_self hlt)
      rw [hl] at he
      refine ⟨m + 1, ?_⟩
      rw [Body.serveOwn, he]
      have hst : ∀ (s : γ) rs, (src.after s).state seed rs = s := by
        intro s rs
        cases src with
        | object r => exact absurd hs id
        | _ => rfl
      rw [hst, hstep]
    · rw [lrun]
      dsimp only
      rw [asked_other hn]
      have hl := hk.labels w _ ho
      obtain ⟨m, he⟩ := ih (fun o h => hok o (by simp [h])) (lstep rng seed w o).2 src hs b
        (step_gens rng seed w o hj hn)
      rw [hl] at he
      refine ⟨m, ?_⟩
      rw [he]
      congr 1
      cases src with
      | object r => exact absurd hs id
      | _ => rfl

theorem run_predefined (rng : Rng γ) (seed : Int → γ) {j : Nat} (ops : List (LOp α K))
    (w : LWorld α γ K) (folds : List Fold) (hj : w.gens[j]? = some (.predefined folds)) :
    ∃ m, asked j ops (lrun rng seed w ops).1 = (List.range m).map (served (.ok folds)) := by
  induction ops generalizing w folds with
  | nil => exact ⟨0, rfl⟩
  | cons o ops ih =>
    have hlt : j < w.gens.length := (List.getElem?_eq_some_iff.1 hj).1
    by_cases hn : o = .next j
    · subst hn
      rw [lrun]
      dsimp only
      rw [asked_next]
      cases folds with
      | nil =>
        have hstep : lstep rng seed w (.next j) = (.stopped, w) := by rw [lstep, hj]
        rw [hstep]
        obtain ⟨m, he⟩ := ih w [] hj
        refine ⟨m + 1, ?_⟩
        rw [he, List.range_succ_eq_map, List.map_cons, List.map_map]
        rfl
      | cons f fs =>
        have hstep : lstep rng seed w (.next j) =
            (.yielded f, { w with gens := w.gens.set j (.predefined fs) }) := by
          rw [lstep, hj]
        rw [hstep]
        obtain ⟨m, he⟩ := ih { w with gens := w.gens.set j (.predefined fs) } fs
          (List.getElem?_set_self hlt)
        refine ⟨m + 1, ?_⟩
        rw [he, List.range_succ_eq_map, List.map_cons, List.map_map]
        rfl
    · rw [lrun]
      dsimp only
      rw [asked_other hn]
      exact ih _ folds (step_gens rng seed w o hj hn)

theorem served_all {r : Res (List Fold)} {outs : List Out} {m : Nat}
    (h : outs = (List.range m).map (served r)) :
    outs = (List.range outs.length).map (served r) := by
  have : outs.length = m := by rw [h]; simp
  rw [this]
  exact h

/-! ### C118 -/

/-- The state of the `RandomState` of a generator at its first `next`. -/
theorem kfold_run {rng : Rng γ} {seed : Int → γ} {β : Type} [LinearOrder β] {j : Nat}
    {mk : Source γ → Body β K → Gen α γ K} {labels : LWorld α γ K → List β}
    {ok : LOp α K → Prop} (hkind : Kind rng seed j mk labels ok) (ops : List (LOp α K))
    (hok : ∀ o ∈ ops, ok o) (w : LWorld α γ K) (k : Int) (hk : 2 ≤ k) (shuffle : Bool)
    (rs : RState) (n : Nat)
    (hj : w.gens[j]? = some (mk rs.source (.kfold k.toNat shuffle n))) :
    ∃ s, (∀ z, rs = .seed z → s = seed z) ∧
      (∀ r mid rest, rs = .object r → ops = mid ++ .next j :: rest →
        (.next j : LOp α K) ∉ mid → s = (lrun rng seed w mid).2.rs r) ∧
      ∀ outs, outs = asked j ops (lrun rng seed w ops).1 →
        outs = (List.range outs.length).map
          (served (kfoldWithinGroups rng k shuffle s n (some (labels w)))) := by
  obtain ⟨ss, he, hh⟩ := run_kind hkind ops hok w _ _ hj
  cases rs with
  | object r =>
    cases ss with
    | nil =>
      refine ⟨w.rs r, (by intro z h; cases h), ?_, ?_⟩
      · intro r mid rest _ h hm
        have := hh mid rest h hm
        simp at this
      · intro outs ho
        rw [he] at ho
        subst ho
        rfl
    | cons s ss =>
      refine ⟨s, (by intro z h; cases h), ?_, ?_⟩
      · intro r' mid rest hr h hm
        cases hr
        have := hh mid rest h hm
        simpa [RState.source, Source.state] using this
      · intro outs ho
        rw [he, serve_kfold rng _ k (by omega)] at ho
        exact served_all ho
  | seed z =>
    refine ⟨seed z, (by intro z' h; cases h; rfl), (by intro r mid rest h; cases h), ?_⟩
    intro outs ho
    obtain ⟨m, he'⟩ := run_kind_own hkind ops hok w (.pending z) trivial _ hj
    obtain ⟨ss', -, hhead, he''⟩ := Body.serveOwn_serve (K := K) rng (labels w)
      (.kfold k.toNat shuffle n) (seed z) m
    rw [he'] at ho
    have hst : (Source.pending z).state seed w.rs = seed z := rfl
    rw [hst, he''] at ho
    cases ss' with
    | nil => subst ho; rfl
    | cons x ss' =>
      rw [hhead x rfl, serve_kfold rng _ k (by omega)] at ho
      exact served_all ho

/-- **C118**, `KFoldWithinGroups`.  However the folds of a call of `split` are asked for -
whatever other generators are made and run in between, and whoever else draws from the
`RandomState` -, as long as nobody overwrites the group labels they are the folds of one
undisturbed call: one whose `RandomState` is in the state it had at the first `next`, or in
the state the seed gives. -/
theorem C118_kfold (rng : Rng γ) (seed : Int → γ) (w : LWorld α γ K) (k : Int) (hk : 2 ≤ k)
    (shuffle : Bool) (rs : RState) (n : Nat) (groups : Option Nat) (ops : List (LOp α K))
    (hw : ∀ a i v, groups = some a → (.write a i v : LOp α K) ∉ ops) :
    ∃ w', lstep rng seed w (.split (.kfold k shuffle rs) n groups) = (.opened w.gens.length, w') ∧
    ∃ s, (∀ z, rs = .seed z → s = seed z) ∧
      (∀ r mid rest, rs = .object r → ops = mid ++ .next w.gens.length :: rest →
        (.next w.gens.length : LOp α K) ∉ mid → s = (lrun rng seed w' mid).2.rs r) ∧
      ∀ outs, outs = asked w.gens.length ops (lrun rng seed w' ops).1 →
        outs = (List.range outs.length).map
          (served (kfoldWithinGroups rng k shuffle s n (groups.map w.arr))) := by
  have hcons : (Splitter.kfold k shuffle rs : Splitter K).construct = .ok () := by
    rw [Splitter.construct, if_neg (by omega)]
  cases groups with
  | some a =>
    refine ⟨{ w with gens := w.gens ++ [Gen.grouped a rs.source (.kfold k.toNat shuffle n)] },
      by rw [lstep, Splitter.make, hcons]; rfl, ?_⟩
    exact kfold_run (kind_grouped rng seed w.gens.length a) ops
      (by rintro o ho i v rfl; exact hw a i v rfl ho) _ k hk shuffle rs n (by simp)
  | none =>
    refine ⟨{ w with gens := w.gens ++ [Gen.whole n rs.source (.kfold k.toNat shuffle n)] },
      by rw [lstep, Splitter.make, hcons]; rfl, ?_⟩
    simp only [Option.map_none, kfoldWithinGroups_none]
    exact kfold_run (kind_whole rng seed w.gens.length n) ops (by simp) _ k hk shuffle rs n
      (by simp)

/-- **C118**, what that means for the user: if every group has at least `n_splits` members,
the first `n_splits` calls of `next` yield folds, every later one ends the generator; every
sample is tested in exactly one of these folds, and every group is spread evenly over them -
although each fold is computed at its own time, with anything happening in between. -/
theorem C118_kfold_partition (rng : Rng γ) (seed : Int → γ) (w : LWorld α γ K) (k : Int)
    (hk : 2 ≤ k) (shuffle : Bool) (rs : RState) (a : Nat) (ops : List (LOp α K))
    (hne : w.arr a ≠ []) (hg : ∀ g ∈ w.arr a, k ≤ (w.arr a).count g)
    (hw : ∀ i v, (.write a i v : LOp α K) ∉ ops) :
    ∃ w', lstep rng seed w (.split (.kfold k shuffle rs) (w.arr a).length (some a)) =
        (.opened w.gens.length, w') ∧
    ∃ folds : List Fold, (folds.length : Int) = k ∧
      (∀ (i : Nat) o, (asked w.gens.length ops (lrun rng seed w' ops).1)[i]? = some o →
        (∀ f, folds[i]? = some f → o = .yielded f) ∧ (folds[i]? = none → o = .stopped)) ∧
      (∀ fold ∈ folds, Spec.IsFold (w.arr a).length fold.1 fold.2) ∧
      (∀ i, i < (w.arr a).length → ∃! f : Nat, ∃ fold, folds[f]? = some fold ∧ i ∈ fold.2) ∧
      (∀ g, ∀ fold ∈ folds, ∀ fold' ∈ folds,
        Spec.inGroup (w.arr a) g fold.2 ≤ Spec.inGroup (w.arr a) g fold'.2 + 1) := by
  obtain ⟨w', hop, s, -, -, hs⟩ := C118_kfold rng seed w k hk shuffle rs (w.arr a).length (some a)
    ops (by intro a' i v h; cases h; exact hw i v)
  refine ⟨w', hop, ?_⟩
  obtain ⟨folds, he, hl, h1, h2, h3⟩ := C47_kfold_within_groups rng k shuffle s (w.arr a) hk hne hg
  refine ⟨folds, hl, ?_, h1, h2, h3⟩
  intro i o ho
  have hall := hs _ rfl
  rw [Option.map_some, he] at hall
  rw [hall, List.getElem?_map] at ho
  obtain ⟨i', hi', rfl⟩ := Option.map_eq_some_iff.1 ho
  have : i' = i := by
    obtain ⟨h, h'⟩ := List.getElem?_eq_some_iff.1 hi'
    rw [List.getElem_range] at h'
    exact h'.symm
  subst this
  constructor
  · intro f hf
    simp [served, hf]
  · intro hf
    simp [served, hf]

/-- **C118**, `InterlacedKFold`: its folds are fixed by the call. -/
theorem C118_interlaced (rng : Rng γ) (seed : Int → γ) (w w' : LWorld α γ K) (k : Int)
    (n id : Nat) (groups : Option Nat) (ops : List (LOp α K))
    (h : lstep rng seed w (.split (.interlaced k) n groups) = (.opened id, w')) :
    ∀ outs, outs = asked id ops (lrun rng seed w' ops).1 →
      outs = (List.range outs.length).map (served (interlacedKFold k n)) := by
  have key : ∃ folds, interlacedKFold k n = .ok folds ∧ id = w.gens.length ∧
      w' = { w with gens := w.gens ++ [.predefined folds] } := by
    rw [lstep, Splitter.make, Splitter.construct] at h
    by_cases hk : k ≤ 1
    · rw [if_pos hk] at h; cases h
    rw [if_neg hk] at h
    dsimp only at h
    cases he : interlacedKFold k n with
    | error e =>
      cases groups with
      | none => rw [Option.map_none, Splitter.open, he] at h; cases h
      | some a =>
        rw [Option.map_some, Splitter.open, he] at h
        split at h <;> cases h
    | ok folds =>
      cases groups with
      | none => rw [Option.map_none, Splitter.open, he] at h; cases h; exact ⟨folds, rfl, rfl, rfl⟩
      | some a =>
        rw [Option.map_some, Splitter.open, he] at h
        split at h
        · cases h
        · cases h; exact ⟨folds, rfl, rfl, rfl⟩
  obtain ⟨folds, he, rfl, rfl⟩ := key
  intro outs ho
  rw [he]
  obtain ⟨m, hm⟩ := run_predefined rng seed ops
    { w with gens := w.gens ++ [.predefined folds] } folds
    (j := w.gens.length) (by simp)
  exact served_all (ho.trans hm)

theorem shuffle_run {rng : Rng γ} {seed : Int → γ} {β : Type} [LinearOrder β] {j : Nat}
    {mk : Source γ → Body β K → Gen α γ K} {labels : LWorld α γ K → List β}
    {ok : LOp α K → Prop} (hkind : Kind rng seed j mk labels ok) (ops : List (LOp α K))
    (hok : ∀ o ∈ ops, ok o) (w : LWorld α γ K) (c : ShuffleConfig K) (src : Source γ)
    (hj : w.gens[j]? = some (mk src (.shuffle c (labels w).length))) (i : Nat) (o : Out)
    (ho : (asked j ops (lrun rng seed w ops).1)[i]? = some o) :
    ((∀ g ∈ labels w, Spec.Fits ((labels w).count g) c.testSize.spec c.trainSize.spec) →
      ((i : Int) < c.nSplits → ∃ fold, o = .yielded fold ∧
        Spec.IsFold (labels w).length fold.1 fold.2 ∧
        ∀ g ∈ labels w, Spec.TestCount ((labels w).count g) c.testSize.spec c.trainSize.spec
          (Spec.inGroup (labels w) g fold.2)) ∧
      (c.nSplits ≤ i → o = .stopped)) ∧
    ((∃ g ∈ labels w, ¬ Spec.Fits ((labels w).count g) c.testSize.spec c.trainSize.spec) →
      o = if i = 0 ∧ 0 < c.nSplits then .raised .valueError else .stopped) := by
  obtain ⟨ss, he, -⟩ := run_kind hkind ops hok w _ _ hj
  rw [he] at ho
  have hfirst : (Body.shuffle c (labels w).length : Body β K).serve rng (labels w) ss =
      (Body.shuffleAt c (labels w).length (npUnique (labels w)) c.nSplits.toNat).serve rng
        (labels w) ss := by
    cases ss with
    | nil => rfl
    | cons s ss => rw [Body.serve, Body.serve, next_shuffle]
  rw [hfirst] at ho
  constructor
  · intro hfit
    obtain ⟨h1, h2⟩ := serve_shuffleAt_ok rng (labels w) c hfit ss c.nSplits.toNat i o ho
    refine ⟨fun hi => ?_, fun hi => h2 (by omega)⟩
    obtain ⟨m, hm, rfl⟩ := h1 (by omega)
    exact ⟨_, rfl, isFold_of_mask _ _, fun g hg => testCount_mask hm hg⟩
  · intro hfit
    cases ss with
    | nil => simp [Body.serve] at ho
    | cons s ss =>
      rw [Body.serve] at ho
      by_cases h0 : 0 < c.nSplits
      · obtain ⟨left, hleft⟩ : ∃ left, c.nSplits.toNat = left + 1 := ⟨c.nSplits.toNat - 1, by omega⟩
        obtain ⟨s', hn⟩ := next_shuffleAt_error rng (labels w) c hfit s left
        rw [hleft, hn] at ho
        cases i with
        | zero => simpa [h0, eq_comm] using ho
        | succ i =>
          rw [List.getElem?_cons_succ, Body.serve_finished, List.getElem?_replicate] at ho
          rw [if_neg (by omega)]
          split at ho
          · exact (Option.some.inj ho).symm
          · cases ho
      · have hz : c.nSplits.toNat = 0 := by omega
        rw [hz, next_shuffleAt] at ho
        unfold shuffleRound at ho
        dsimp only at ho
        rw [Body.serve_finished, ← List.replicate_succ, List.getElem?_replicate] at ho
        rw [if_neg (by omega)]
        split at ho
        · exact (Option.some.inj ho).symm
        · cases ho

/-- **C118**, `ShuffleSplitWithinGroups`.  However the folds of a call of `split` are asked
for - whatever other generators are made and run in between, and whoever else draws from the
`RandomState` -, as long as nobody overwrites the group labels, the first `n_splits` calls of
`next` yield proper folds with the prescribed number of test samples from every group, and
every later one ends the generator; if the sizes cannot be met in some group, the first
`next` raises `ValueError`, and every later one ends the generator. -/
theorem C118_shuffle (rng : Rng γ) (seed : Int → γ) (w : LWorld α γ K) (c : ShuffleConfig K)
    (hinit : Spec.SizesAllowed c.testSize.spec c.trainSize.spec) (rs : RState) (a : Nat)
    (ops : List (LOp α K)) (hw : ∀ i v, (.write a i v : LOp α K) ∉ ops) :
    ∃ w', lstep rng seed w (.split (.shuffle c rs) (w.arr a).length (some a)) =
        (.opened w.gens.length, w') ∧
    ∀ (i : Nat) o, (asked w.gens.length ops (lrun rng seed w' ops).1)[i]? = some o →
      ((∀ g ∈ w.arr a, Spec.Fits ((w.arr a).count g) c.testSize.spec c.trainSize.spec) →
        ((i : Int) < c.nSplits → ∃ fold, o = .yielded fold ∧
          Spec.IsFold (w.arr a).length fold.1 fold.2 ∧
          ∀ g ∈ w.arr a, Spec.TestCount ((w.arr a).count g) c.testSize.spec c.trainSize.spec
            (Spec.inGroup (w.arr a) g fold.2)) ∧
        (c.nSplits ≤ i → o = .stopped)) ∧
      ((∃ g ∈ w.arr a, ¬ Spec.Fits ((w.arr a).count g) c.testSize.spec c.trainSize.spec) →
        o = if i = 0 ∧ 0 < c.nSplits then .raised .valueError else .stopped) := by
  have hcons : (Splitter.shuffle c rs : Splitter K).construct = .ok () :=
    (validateInit_iff _ _).1 hinit
  refine ⟨{ w with gens := w.gens ++ [Gen.grouped a rs.source (.shuffle c (w.arr a).length)] },
    by rw [lstep, Splitter.make, hcons]; rfl, ?_⟩
  intro i o ho
  exact shuffle_run (kind_grouped rng seed w.gens.length a) ops
    (by rintro o ho i v rfl; exact hw i v ho)
    { w with gens := w.gens ++ [Gen.grouped a rs.source (.shuffle c (w.arr a).length)] } c
    rs.source (by simp) i o ho

/-- **C118**, `ShuffleSplitWithinGroups` with an integer seed: the folds are the ones of an
undisturbed call. -/
theorem C118_shuffle_seed (rng : Rng γ) (seed : Int → γ) (w : LWorld α γ K) (c : ShuffleConfig K)
    (hinit : Spec.SizesAllowed c.testSize.spec c.trainSize.spec) (z : Int) (n : Nat)
    (groups : Option Nat) (ops : List (LOp α K))
    (hw : ∀ a i v, groups = some a → (.write a i v : LOp α K) ∉ ops) :
    ∃ w', lstep rng seed w (.split (.shuffle c (.seed z)) n groups) = (.opened w.gens.length, w') ∧
    ∀ outs, outs = asked w.gens.length ops (lrun rng seed w' ops).1 →
      outs = (List.range outs.length).map
        (served (shuffleSplitWithinGroups rng c (seed z) n (groups.map w.arr))) := by
  have hval := (validateInit_iff c.testSize c.trainSize).1 hinit
  have hcons : (Splitter.shuffle c (.seed z) : Splitter K).construct = .ok () := hval
  cases groups with
  | some a =>
    refine ⟨{ w with gens := w.gens ++ [Gen.grouped a (.pending z) (.shuffle c n)] },
      by rw [lstep, Splitter.make, hcons]; rfl, ?_⟩
    intro outs ho
    obtain ⟨m, he⟩ := run_kind_own (kind_grouped rng seed w.gens.length a) ops
      (by rintro o ho i v rfl; exact hw a i v rfl ho)
      { w with gens := w.gens ++ [Gen.grouped a (.pending z) (.shuffle c n)] } (.pending z)
      trivial (.shuffle c n) (by simp)
    rw [serveOwn_shuffle rng _ c n hval] at he
    exact served_all (ho.trans he)
  | none =>
    refine ⟨{ w with gens := w.gens ++ [Gen.whole n (.pending z) (.shuffle c n)] },
      by rw [lstep, Splitter.make, hcons]; rfl, ?_⟩
    intro outs ho
    obtain ⟨m, he⟩ := run_kind_own (kind_whole rng seed w.gens.length n) ops (by simp)
      { w with gens := w.gens ++ [Gen.whole n (.pending z) (.shuffle c n)] } (.pending z)
      trivial (.shuffle c n) (by simp)
    rw [serveOwn_shuffle rng _ c n hval] at he
    rw [Option.map_none, shuffleSplitWithinGroups_none]
    exact served_all (ho.trans he)

/-- **C118**, when errors surface.  `InterlacedKFold` raises at the call of `split`.  The
other two splitters never raise there once they could be constructed: that the groups are too
small, or that the labels do not belong to the samples, shows at the first `next`. -/
theorem C118_late_errors (rng : Rng γ) (seed : Int → γ) (w : LWorld α γ K) (n : Nat)
    (groups : Option Nat) :
    (∀ k shuffle rs, 2 ≤ k →
      ∃ w', lstep rng seed w (.split (.kfold k shuffle rs) n groups) =
        (.opened w.gens.length, w')) ∧
    (∀ (c : ShuffleConfig K) rs, Spec.SizesAllowed c.testSize.spec c.trainSize.spec →
      ∃ w', lstep rng seed w (.split (.shuffle c rs) n groups) = (.opened w.gens.length, w')) ∧
    (∀ k : Int, (∃ w', lstep rng seed w (.split (.interlaced k) n groups) =
        (.opened w.gens.length, w')) ↔
      2 ≤ k ∧ k ≤ n ∧ ∀ a, groups = some a → (w.arr a).length = n) ∧
    (∀ k : Int, ¬ (2 ≤ k ∧ k ≤ n ∧ ∀ a, groups = some a → (w.arr a).length = n) →
      lstep rng seed w (.split (.interlaced k) n groups) = (.raised .valueError, w)) := by
  have hint : ∀ k : Int, (2 ≤ k ∧ k ≤ n ∧ ∀ a, groups = some a → (w.arr a).length = n) →
      ∃ w', lstep rng seed w (.split (.interlaced k) n groups) = (.opened w.gens.length, w') := by
    rintro k ⟨h2, hn, hl⟩
    obtain ⟨folds, he, -⟩ := C46_interlaced k n h2 hn
    refine ⟨{ w with gens := w.gens ++ [.predefined folds] }, ?_⟩
    rw [lstep, Splitter.make, Splitter.construct, if_neg (by omega)]
    cases groups with
    | none => rw [Option.map_none]; dsimp only; rw [Splitter.open, he]; rfl
    | some a =>
      rw [Option.map_some]; dsimp only
      rw [Splitter.open, he, if_neg (by simp [hl a rfl])]; rfl
  have hbad : ∀ k : Int, ¬ (2 ≤ k ∧ k ≤ n ∧ ∀ a, groups = some a → (w.arr a).length = n) →
      lstep rng seed w (.split (.interlaced k) n groups) = (.raised .valueError, w) := by
    intro k h
    rw [lstep, Splitter.make, Splitter.construct]
    by_cases hk : k ≤ 1
    · rw [if_pos hk]; rfl
    rw [if_neg hk]
    dsimp only
    cases groups with
    | none =>
      rw [Option.map_none, Splitter.open, C46_rejects k n (by
        by_contra hc; push Not at hc
        exact h ⟨by omega, hc.2, by simp⟩)]
      rfl
    | some a =>
      rw [Option.map_some, Splitter.open]
      by_cases hl : (w.arr a).length = n
      · rw [if_neg (by simp [hl]), C46_rejects k n (by
          by_contra hc; push Not at hc
          exact h ⟨by omega, hc.2, by intro a' ha; cases ha; exact hl⟩)]
        rfl
      · rw [if_pos (by simp [hl])]
        rfl
  refine ⟨?_, ?_, ?_, hbad⟩
  · intro k shuffle rs hk
    have hcons : (Splitter.kfold k shuffle rs : Splitter K).construct = .ok () := by
      rw [Splitter.construct, if_neg (by omega)]
    cases groups <;> exact ⟨_, by rw [lstep, Splitter.make, hcons]; rfl⟩
  · intro c rs hinit
    have hcons : (Splitter.shuffle c rs : Splitter K).construct = .ok () :=
      (validateInit_iff _ _).1 hinit
    cases groups <;> exact ⟨_, by rw [lstep, Splitter.make, hcons]; rfl⟩
  · intro k
    refine ⟨?_, hint k⟩
    rintro ⟨w', hw'⟩
    by_contra hc
    rw [hbad k hc] at hw'
    cases hw'

/-! ### How many folds -/

/-- Whether a result is a fold. -/
def Out.isFold : Out → Bool
  | .yielded _ => true
  | _ => false

/-- `k` folds and then the end. -/
def Regular (outs : List Out) (k : Nat) : Prop :=
  ∀ (i : Nat) o, outs[i]? = some o →
    (i < k → o.isFold = true) ∧ (k ≤ i → o = .stopped)

/-- An exception and then the end. -/
def Raising (outs : List Out) : Prop :=
  ∃ e, ∀ (i : Nat) o, outs[i]? = some o → o = if i = 0 then .raised e else .stopped

theorem Regular.count {outs : List Out} {k : Nat} (h : Regular outs k) :
    (outs.filter Out.isFold).length = min outs.length k := by
  induction outs generalizing k with
  | nil => simp
  | cons o outs ih =>
    have h0 := h 0 o rfl
    cases k with
    | zero =>
      have : o = .stopped := h0.2 le_rfl
      subst this
      have ht : Regular outs 0 := fun i o ho =>
        ⟨by omega, fun _ => (h (i + 1) o (by simpa using ho)).2 (by omega)⟩
      have := ih ht
      simpa [Out.isFold] using this
    | succ k =>
      have ht : Regular outs k := fun i o ho =>
        ⟨fun hi => (h (i + 1) o (by simpa using ho)).1 (by omega),
          fun hi => (h (i + 1) o (by simpa using ho)).2 (by omega)⟩
      rw [List.filter_cons, if_pos (h0.1 (by omega)), List.length_cons, ih ht, List.length_cons]
      omega

theorem Raising.count {outs : List Out} (h : Raising outs) :
    (outs.filter Out.isFold).length = 0 := by
  obtain ⟨e, h⟩ := h
  rw [List.length_eq_zero_iff, List.filter_eq_nil_iff]
  intro o ho
  obtain ⟨i, hi⟩ := List.mem_iff_getElem?.1 ho
  rw [h i o hi]
  split <;> simp [Out.isFold]

theorem served_shape (r : Res (List Fold)) (m : Nat) :
    (∃ folds, r = .ok folds ∧ Regular ((List.range m).map (served r)) folds.length) ∨
      Raising ((List.range m).map (served r)) := by
  have hget : ∀ (i : Nat) o, ((List.range m).map (served r))[i]? = some o → o = served r i := by
    intro i o ho
    rw [List.getElem?_map] at ho
    obtain ⟨i', hi', rfl⟩ := Option.map_eq_some_iff.1 ho
    obtain ⟨h, h'⟩ := List.getElem?_eq_some_iff.1 hi'
    rw [List.getElem_range] at h'
    rw [h']
  cases r with
  | error e =>
    right
    exact ⟨e, fun i o ho => hget i o ho⟩
  | ok folds =>
    left
    refine ⟨folds, rfl, fun i o ho => ?_⟩
    rw [hget i o ho]
    constructor
    · intro hi
      simp [served, List.getElem?_eq_getElem hi, Out.isFold]
    · intro hi
      simp [served, List.getElem?_eq_none hi]

theorem kfoldWithinGroups_length (rng : Rng γ) (k : Int) (shuffle : Bool) (s : γ) (n : Nat)
    (labels : List α) {folds : List Fold}
    (h : kfoldWithinGroups rng k shuffle s n (some labels) = .ok folds) :
    (folds.length : Int) = k := by
  by_cases hl : labels.length = n
  swap
  · unfold kfoldWithinGroups at h
    split at h
    · cases h
    · have hb : (Option.any (fun g => g.length != n) (some labels)) = true := by simp [hl]
      rw [if_pos hb] at h
      cases h
  subst hl
  by_cases hbad : k ≤ 1 ∨ (labels.length : Int) < k ∨ ∃ g ∈ labels, (labels.count g : Int) < k
  · rw [(C48_rejects rng k shuffle s labels).1 hbad] at h; cases h
  · push Not at hbad
    obtain ⟨folds', he, hl, -⟩ := C47_kfold_within_groups rng k shuffle s labels (by omega)
      (by rintro rfl; simp at hbad; omega) (fun g hg => hbad.2.2 g hg)
    rw [he] at h
    cases h
    exact hl

theorem shuffle_shape {rng : Rng γ} {seed : Int → γ} {β : Type} [LinearOrder β] {j : Nat}
    {mk : Source γ → Body β K → Gen α γ K} {labels : LWorld α γ K → List β}
    {ok : LOp α K → Prop} (hkind : Kind rng seed j mk labels ok) (ops : List (LOp α K))
    (hok : ∀ o ∈ ops, ok o) (w : LWorld α γ K) (c : ShuffleConfig K) (n : Nat) (src : Source γ)
    (hj : w.gens[j]? = some (mk src (.shuffle c n))) :
    Regular (asked j ops (lrun rng seed w ops).1) c.nSplits.toNat ∨
      Raising (asked j ops (lrun rng seed w ops).1) := by
  by_cases hl : (labels w).length = n
  · subst hl
    by_cases hfit : ∀ g ∈ labels w, Spec.Fits ((labels w).count g) c.testSize.spec c.trainSize.spec
    · left
      intro i o ho
      obtain ⟨h1, h2⟩ := (shuffle_run hkind ops hok w c src hj i o ho).1 hfit
      refine ⟨fun hi => ?_, fun hi => h2 (by omega)⟩
      obtain ⟨fold, rfl, -⟩ := h1 (by omega)
      rfl
    · push Not at hfit
      by_cases h0 : 0 < c.nSplits
      · right
        refine ⟨.valueError, fun i o ho => ?_⟩
        have := (shuffle_run hkind ops hok w c src hj i o ho).2 hfit
        simpa [h0] using this
      · left
        intro i o ho
        have := (shuffle_run hkind ops hok w c src hj i o ho).2 hfit
        rw [if_neg (by omega)] at this
        exact ⟨by omega, fun _ => this⟩
  · right
    obtain ⟨ss, he, -⟩ := run_kind hkind ops hok w _ _ hj
    rw [he]
    refine ⟨.valueError, fun i o ho => ?_⟩
    cases ss with
    | nil => simp [Body.serve] at ho
    | cons s ss =>
      rw [Body.serve, next_shuffle', if_pos (by simp [hl])] at ho
      cases i with
      | zero => simpa [eq_comm] using ho
      | succ i =>
        rw [List.getElem?_cons_succ, Body.serve_finished, List.getElem?_replicate] at ho
        rw [if_neg (by omega)]
        split at ho
        · exact (Option.some.inj ho).symm
        · cases ho

theorem shape (rng : Rng γ) (seed : Int → γ) (w w' : LWorld α γ K) (sp : Splitter K)
    (n id : Nat) (groups : Option Nat) (ops : List (LOp α K))
    (hw : ∀ a i v, groups = some a → (.write a i v : LOp α K) ∉ ops)
    (h : lstep rng seed w (.split sp n groups) = (.opened id, w')) :
    Regular (asked id ops (lrun rng seed w' ops).1) sp.getNSplits.toNat ∨
      Raising (asked id ops (lrun rng seed w' ops).1) := by
  cases sp with
  | kfold k sh rs =>
    have hk : 2 ≤ k := by
      by_contra hk
      rw [lstep, Splitter.make, Splitter.construct, if_pos (by omega)] at h
      cases h
    obtain ⟨w'', he, s, -, -, hs⟩ := C118_kfold rng seed w k hk sh rs n groups ops hw
    rw [he] at h
    cases h
    have hall := hs _ rfl
    rw [hall]
    rcases served_shape (kfoldWithinGroups rng k sh s n (groups.map w.arr))
      (asked w.gens.length ops (lrun rng seed w' ops).1).length with ⟨folds, hf, hr⟩ | hr
    · left
      have hlen : (folds.length : Int) = k := by
        cases groups with
        | some a => exact kfoldWithinGroups_length rng k sh s n (w.arr a) hf
        | none =>
          rw [Option.map_none, kfoldWithinGroups_none] at hf
          exact kfoldWithinGroups_length rng k sh s n _ hf
      have : folds.length = (Splitter.kfold k sh rs : Splitter K).getNSplits.toNat := by
        rw [Splitter.getNSplits]; omega
      rwa [this] at hr
    · right; exact hr
  | shuffle c rs =>
    have hcons : (Splitter.shuffle c rs : Splitter K).construct = .ok () := by
      cases hc : (Splitter.shuffle c rs : Splitter K).construct with
      | ok u => rfl
      | error e => rw [lstep, Splitter.make, hc] at h; cases h
    rw [lstep, Splitter.make, hcons] at h
    cases groups with
    | some a =>
      cases h
      exact shuffle_shape (kind_grouped rng seed w.gens.length a) ops
        (by rintro o ho i v rfl; exact hw a i v rfl ho) _ c n rs.source (by simp)
    | none =>
      cases h
      exact shuffle_shape (kind_whole rng seed w.gens.length n) ops (by simp) _ c n rs.source
        (by simp)
  | interlaced k =>
    have hall := C118_interlaced rng seed w w' k n id groups ops h _ rfl
    have hkn : 2 ≤ k ∧ k ≤ n := by
      by_contra hc
      rw [(C118_late_errors rng seed w n groups).2.2.2 k
        (fun hh => hc ⟨hh.1, hh.2.1⟩)] at h
      cases h
    obtain ⟨folds, he, hl, -⟩ := C46_interlaced k n hkn.1 hkn.2
    rw [hall, he]
    rcases served_shape (.ok folds) (asked id ops (lrun rng seed w' ops).1).length with
      ⟨folds', hf, hr⟩ | hr
    · cases hf
      left
      have : folds.length = (Splitter.interlaced k : Splitter K).getNSplits.toNat := by
        rw [Splitter.getNSplits]; omega
      rwa [this] at hr
    · right; exact hr

/-- **C118**, `get_n_splits`.  Generators of all three splitters never yield more than
`get_n_splits()` folds (none if that is negative), and one that has ended without an exception
has yielded exactly so many. -/
theorem C118_n_splits (rng : Rng γ) (seed : Int → γ) (w w' : LWorld α γ K) (sp : Splitter K)
    (n id : Nat) (groups : Option Nat) (ops : List (LOp α K))
    (hw : ∀ a i v, groups = some a → (.write a i v : LOp α K) ∉ ops)
    (h : lstep rng seed w (.split sp n groups) = (.opened id, w')) (outs : List Out)
    (ho : outs = asked id ops (lrun rng seed w' ops).1) :
    ((outs.filter Out.isFold).length : Int) ≤ max 0 sp.getNSplits ∧
      (.stopped ∈ outs → (∀ e, .raised e ∉ outs) →
        ((outs.filter Out.isFold).length : Int) = max 0 sp.getNSplits) := by
  subst ho
  rcases shape rng seed w w' sp n id groups ops hw h with hr | hr
  · rw [hr.count]
    refine ⟨by omega, fun hs _ => ?_⟩
    obtain ⟨i, hi⟩ := List.mem_iff_getElem?.1 hs
    have hlt := (List.getElem?_eq_some_iff.1 hi).1
    have hle : sp.getNSplits.toNat ≤ i := by
      by_contra hlt'
      have := (hr i _ hi).1 (by omega)
      simp [Out.isFold] at this
    omega
  · rw [hr.count]
    refine ⟨by simp, fun hs hno => ?_⟩
    exfalso
    obtain ⟨e, he⟩ := hr
    obtain ⟨i, hi⟩ := List.mem_iff_getElem?.1 hs
    have hlt := (List.getElem?_eq_some_iff.1 hi).1
    have h0 : 0 < (asked id ops (lrun rng seed w' ops).1).length := by omega
    have hg := List.getElem?_eq_getElem h0
    have hz := he 0 _ hg
    rw [if_pos rfl] at hz
    exact hno e (by rw [← hz]; exact List.getElem_mem _)

/-! ### C119 -/

/-- The folds of a call of `split` that is carried out at once. -/
def atOnce (rng : Rng γ) (seed : Int → γ) (w : LWorld α γ K) (n : Nat) (groups : Option Nat) :
    Splitter K → Res (List Fold)
  | .kfold k shuffle rs =>
    kfoldWithinGroups rng k shuffle (rs.source.state seed w.rs) n (groups.map w.arr)
  | .shuffle c rs =>
    shuffleSplitWithinGroups rng c (rs.source.state seed w.rs) n (groups.map w.arr)
  | .interlaced k => interlacedKFold k n

/-- **C119**, the full claim: the folds of a call of `split` are those of the labels and of
the state of the `RandomState` at that call, whatever happens before they are asked for. -/
def C119_full : Prop :=
  ∀ (γ : Type) (rng : Rng γ) (seed : Int → γ) (w w' : LWorld Int γ ℚ) (sp : Splitter ℚ)
    (n id : Nat) (groups : Option Nat) (ops : List (LOp Int ℚ)),
    lstep rng seed w (.split sp n groups) = (.opened id, w') →
    ∀ outs, outs = asked id ops (lrun rng seed w' ops).1 →
      outs = (List.range outs.length).map (served (atOnce rng seed w n groups sp))

/-- Four samples in one group, for the examples. -/
def exWorld : LWorld Int Nat ℚ := ⟨fun _ => 0, fun _ => [5, 5, 5, 5], []⟩

/-- A generator that rotates by one more position every time, for the examples. -/
def rotateRng : Rng Nat where
  shuffle s n := ((List.range n).rotate s, s + 1)
  perm _ _ := List.rotate_perm _ _

/-- Why the full claim fails, first: the labels are read again for every fold
(split.py:148, 285).  Two folds without shuffling over four samples of one group; after the
first fold the caller relabels the samples 0 and 1, and the second fold raises `IndexError`
instead of testing the samples 2 and 3. -/
theorem C119_refuted_labels : ¬ C119_full := by
  intro h
  have := h Nat reverseRng (fun _ => 0) exWorld
    { exWorld with gens := [.grouped 0 (.pending 0) (.kfold 2 false 4)] }
    (.kfold 2 false (.seed 0)) 4 0 (some 0)
    [.next 0, .write 0 0 7, .write 0 1 7, .next 0] rfl _ rfl
  revert this
  decide +kernel

/-- Why the full claim fails, second, without any change to the labels: a `RandomState`
that is handed over is used when the folds are asked for (split.py:140, 147-150), not when
`split` is called.  One fold over four samples; somebody else draws from the same
`RandomState` before it is asked for. -/
theorem C119_refuted_random_state : ¬ C119_full := by
  intro h
  have := h Nat rotateRng (fun _ => 0) exWorld
    { exWorld with gens := [.grouped 0 (.object 0) (.shuffle ⟨1, .int 1, .none, true⟩ 4)] }
    (.shuffle ⟨1, .int 1, .none, true⟩ (.object 0)) 4 0 (some 0)
    [.draw 0 3, .next 0] rfl _ rfl
  revert this
  decide +kernel

/-! Without shuffling, the `RandomState` does not matter. -/

theorem kfoldGroups_ordered (rng : Rng γ) (k : Nat) (labels : List α) (gs : List α) (s s' : γ) :
    kfoldGroups rng k false labels s gs = kfoldGroups rng k false labels s' gs := by
  induction gs generalizing s s' with
  | nil => rfl
  | cons g gs ih =>
    unfold kfoldGroups kfold
    by_cases h : (members labels g).length < k
    · rw [if_pos h, if_pos h]
    · rw [if_neg h, if_neg h]
      simp only [Bool.false_eq_true, if_false]
      rw [ih s s']

theorem kfoldWithinGroups_ordered (rng : Rng γ) (k : Int) (n : Nat) (labels : Option (List α))
    (s s' : γ) :
    kfoldWithinGroups rng k false s n labels = kfoldWithinGroups rng k false s' n labels := by
  cases labels with
  | none =>
    rw [kfoldWithinGroups_none, kfoldWithinGroups_none]
    unfold kfoldWithinGroups kfoldMasks
    simp only [kfoldGroups_ordered rng _ _ _ s s']
  | some l =>
    unfold kfoldWithinGroups kfoldMasks
    simp only [kfoldGroups_ordered rng _ _ _ s s']

theorem shuffleMark_ordered {β : Type} [LinearOrder β] (rng : Rng γ) (c : ShuffleConfig K)
    (hs : c.shuffle = false) (labels : List β) (gs : List β) (s s' : γ) (mask : List Bool) :
    (shuffleMark rng c labels s mask gs).1 = (shuffleMark rng c labels s' mask gs).1 := by
  induction gs generalizing s s' mask with
  | nil => rfl
  | cons g gs ih =>
    unfold shuffleMark trainTestSplit
    cases validateSplit (members labels g).length c.testSize c.trainSize with
    | error e => rfl
    | ok p =>
      simp only [hs, Bool.false_eq_true, if_false]
      exact ih s s' _

theorem shuffleRound_ordered {β : Type} [LinearOrder β] (rng : Rng γ) (c : ShuffleConfig K)
    (hs : c.shuffle = false) (labels : List β) (n : Nat) (order : List β) (left : Nat)
    (s s' : γ) :
    (shuffleRound rng labels s c n order left).1 = (shuffleRound rng labels s' c n order left).1 ∧
    (shuffleRound rng labels s c n order left).2.2 =
      (shuffleRound rng labels s' c n order left).2.2 := by
  cases left with
  | zero => exact ⟨rfl, rfl⟩
  | succ left =>
    unfold shuffleRound
    have := shuffleMark_ordered rng c hs labels order s s' (List.replicate n false)
    revert this
    rcases shuffleMark rng c labels s (List.replicate n false) order with ⟨r, t⟩
    rcases shuffleMark rng c labels s' (List.replicate n false) order with ⟨r', t'⟩
    intro h
    dsimp only at h
    subst h
    cases r <;> exact ⟨rfl, rfl⟩

theorem serve_ordered {β : Type} [LinearOrder β] (rng : Rng γ) (c : ShuffleConfig K)
    (hs : c.shuffle = false) (labels : List β) (n : Nat) (order : List β) (ss : List γ)
    (left : Nat) (s : γ) :
    (Body.shuffleAt c n order left : Body β K).serve rng labels ss =
      (Body.shuffleAt c n order left).serveOwn rng labels s ss.length := by
  induction ss generalizing left s with
  | nil => rfl
  | cons t ss ih =>
    rw [Body.serve, List.length_cons, Body.serveOwn, next_shuffleAt, next_shuffleAt]
    obtain ⟨h1, h2⟩ := shuffleRound_ordered rng c hs labels n order left t s
    rw [h1, h2]
    congr 1
    cases left with
    | zero => rw [shuffleRound, Body.serve_finished, Body.serveOwn_finished]
    | succ left =>
      unfold shuffleRound
      rcases shuffleMark rng c labels s (List.replicate n false) order with ⟨r, t'⟩
      cases r with
      | error e => dsimp only; rw [Body.serve_finished, Body.serveOwn_finished]
      | ok m => exact ih left _

theorem serve_shuffle_ordered {β : Type} [LinearOrder β] (rng : Rng γ) (c : ShuffleConfig K)
    (hs : c.shuffle = false) (labels : List β) (n : Nat) (ss : List γ) (s : γ) :
    (Body.shuffle c n : Body β K).serve rng labels ss =
      (Body.shuffle c n).serveOwn rng labels s ss.length := by
  cases ss with
  | nil => rfl
  | cons t ss =>
    by_cases hl : labels.length = n
    · subst hl
      have := serve_ordered rng c hs labels labels.length (npUnique labels) (t :: ss)
        c.nSplits.toNat s
      rw [Body.serve, List.length_cons, Body.serveOwn] at this
      rw [Body.serve, List.length_cons, Body.serveOwn, next_shuffle, next_shuffle]
      exact this
    · rw [Body.serve, List.length_cons, Body.serveOwn, next_shuffle', next_shuffle',
        if_pos (by simp [hl]), if_pos (by simp [hl]), Body.serve_finished, Body.serveOwn_finished]

/-- Splitters whose `RandomState` nobody else can use, or that do not use one. -/
def Splitter.undisturbed : Splitter K → Prop
  | .kfold _ sh rs => sh = false ∨ ∃ z, rs = .seed z
  | .shuffle c rs => c.shuffle = false ∨ ∃ z, rs = .seed z
  | .interlaced _ => True

/-- **C119**, what holds: if nobody overwrites the group labels, and if the splitter has an
integer as `random_state` or does not shuffle, the folds are those of a call carried out at
once - whatever other generators are made and run in between, and whoever draws from
whatever `RandomState`.  Missing from the full claim: labels that are overwritten
(`C119_refuted_labels`), and a `RandomState` that is shared (`C119_refuted_random_state`);
for the latter see `C118_kfold` and `C118_shuffle`. -/
theorem C119_partial (rng : Rng γ) (seed : Int → γ) (w w' : LWorld α γ K) (sp : Splitter K)
    (hsp : sp.undisturbed) (n id : Nat) (groups : Option Nat) (ops : List (LOp α K))
    (hw : ∀ a i v, groups = some a → (.write a i v : LOp α K) ∉ ops)
    (h : lstep rng seed w (.split sp n groups) = (.opened id, w')) :
    ∀ outs, outs = asked id ops (lrun rng seed w' ops).1 →
      outs = (List.range outs.length).map (served (atOnce rng seed w n groups sp)) := by
  cases sp with
  | kfold k sh rs =>
    have hk : 2 ≤ k := by
      by_contra hk
      rw [lstep, Splitter.make, Splitter.construct, if_pos (by omega)] at h
      cases h
    obtain ⟨w'', he, s, hseed, -, hs⟩ := C118_kfold rng seed w k hk sh rs n groups ops hw
    rw [he] at h
    cases h
    intro outs ho
    rw [atOnce]
    rcases hsp with rfl | ⟨z, rfl⟩
    · rw [kfoldWithinGroups_ordered rng k n _ _ s]
      exact hs outs ho
    · have := hseed z rfl
      subst this
      exact hs outs ho
  | shuffle c rs =>
    have hcons : (Splitter.shuffle c rs : Splitter K).construct = .ok () := by
      cases hc : (Splitter.shuffle c rs : Splitter K).construct with
      | ok u => rfl
      | error e => rw [lstep, Splitter.make, hc] at h; cases h
    have hval : validateInit c.testSize c.trainSize = .ok () := hcons
    rcases hsp with hns | ⟨z, rfl⟩
    · rw [lstep, Splitter.make, hcons] at h
      intro outs ho
      rw [atOnce]
      cases groups with
      | some a =>
        cases h
        obtain ⟨ss, he, -⟩ := run_kind (kind_grouped rng seed w.gens.length a) ops
          (by rintro o ho i v rfl; exact hw a i v rfl ho)
          { w with gens := w.gens ++ [Gen.grouped a rs.source (.shuffle c n)] } rs.source
          (.shuffle c n) (by simp)
        rw [serve_shuffle_ordered rng c hns _ n ss (rs.source.state seed w.rs),
          serveOwn_shuffle rng _ c n hval] at he
        exact served_all (ho.trans he)
      | none =>
        cases h
        obtain ⟨ss, he, -⟩ := run_kind (kind_whole rng seed w.gens.length n) ops (by simp)
          { w with gens := w.gens ++ [Gen.whole n rs.source (.shuffle c n)] } rs.source
          (.shuffle c n) (by simp)
        rw [serve_shuffle_ordered rng c hns _ n ss (rs.source.state seed w.rs),
          serveOwn_shuffle rng _ c n hval] at he
        rw [Option.map_none, shuffleSplitWithinGroups_none]
        exact served_all (ho.trans he)
    · have hinit : Spec.SizesAllowed c.testSize.spec c.trainSize.spec := by
        by_contra hc
        rw [(validateInit_iff _ _).2 hc] at hval
        cases hval
      obtain ⟨w'', he, hs⟩ := C118_shuffle_seed rng seed w c hinit z n groups ops hw
      rw [he] at h
      cases h
      exact hs
  | interlaced k => exact C118_interlaced rng seed w w' k n id groups ops h

end Kam.Split

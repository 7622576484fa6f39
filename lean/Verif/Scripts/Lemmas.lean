/-
The loop of `cv_test` in closed form.
-/
import Verif.Scripts.Model
import Verif.Py.Lemmas
import Verif.Split.Lemmas
import Std.Data.String.ToNat

set_option linter.unusedSectionVars false

namespace Kam.Scripts

lemma bind_ok {β δ : Type} {x : Res β} {f : β → Res δ} {y : δ} (h : (x >>= f) = .ok y) :
    ∃ a, x = .ok a ∧ f a = .ok y := by
  cases x with
  | error e => cases h
  | ok a => exact ⟨a, rfl, h⟩

lemma ok_bind {β δ : Type} (a : β) (f : β → Res δ) : ((.ok a : Res β) >>= f) = f a := rfl

section dict
variable {ν : Type}

lemma set_new (d : Dict String ν) (k : String) (v : ν) (h : k ∉ d.keys) : d.set k v = d ++ [(k, v)] := by
  induction d with
  | nil => rfl
  | cons p d ih =>
    obtain ⟨k0, v0⟩ := p
    simp [Dict.keys] at h
    unfold Dict.set
    rw [if_neg (Ne.symm h.1), ih (by simpa [Dict.keys] using h.2)]
    rfl

lemma keys_map {β : Type} (l : List β) (key : β → String) (f : β → ν) :
    Dict.keys (l.map (fun r => (key r, f r))) = l.map key := by
  simp [Dict.keys, Function.comp_def]

end dict

variable {K α φ ε F V T γ M : Type} [Field K] [LinearOrder K] [IsStrictOrderedRing K] [FloorRing K] [LinearOrder α]

/-- The outcome of one fold: its number, the readings of the clock at the start and the end of training and
test, the split, the fit results and the predictions. -/
structure FD (K V T : Type) where
  fold : Nat
  t₁ : T
  t₂ : T
  t₃ : T
  t₄ : T
  trainI : List Nat
  testI : List Nat
  res : Dict String (J V)
  esc : Pred K

/-- The training entry of a fold. -/
def FD.training (env : Env K α ε F V T γ) (r : FD K V T) : Dict String (J V) :=
  update [("start_time", .leaf (env.iso r.t₁)), ("end_time", .leaf (env.iso r.t₂)),
     ("elapsed_time", .leaf (env.elapsed r.t₂ r.t₁)), ("elapsed_utime", .leaf (env.elapsedU r.t₂ r.t₁))] r.res

/-- The test entry of a fold. -/
def FD.test (env : Env K α ε F V T γ) (ev : List (List α)) (r : FD K V T) : Dict String (J V) :=
  [("start_time", .leaf (env.iso r.t₃)), ("end_time", .leaf (env.iso r.t₃)),
     ("elapsed_time", .leaf (env.elapsed r.t₄ r.t₃)), ("elapsed_utime", .leaf (env.elapsedU r.t₄ r.t₃)),
     ("n_events", .leaf (env.nat (gather ev r.testI).length))]

/-- The dictionaries of `cv_test` after the folds `l`. -/
def accOf (env : Env K α ε F V T γ) (ev : List (List α)) (sc : List K) (ef : Option (List ε))
    (l : List (FD K V T)) : Acc V where
  training := l.map (fun r => (Nat.repr r.fold, .dict (r.training env)))
  test := l.map (fun r => (Nat.repr r.fold, .dict (r.test env ev)))
  event := l.map (fun r => (Nat.repr r.fold, encEvents env (gather ev r.testI)))
  trues := l.map (fun r => (Nat.repr r.fold, encScores env (gather sc r.testI)))
  predicted := l.map (fun r => (Nat.repr r.fold, encPred env r.esc))
  mask := l.map (fun r => (Nat.repr r.fold, encIndex env r.testI))
  feature := ef.map (fun rows => env.names.map (fun k =>
    (k, l.map (fun r => (Nat.repr r.fold, encFeature env k (gather rows r.testI))))))

/-- A fold was computed as `cv_test` prescribes, with the generator `g` for the recommender. -/
def FoldOk (rec : Recommender K α φ ε V γ M) (data : ScoreData K α φ ε) (ev : List (List α)) (g : γ)
    (r : FD K V T) : Prop :=
  ∃ d' m g', data.filterEvent (.index (r.trainI.map Int.ofNat)) = .ok (some d') ∧
    rec.fit g d' = .ok (m, r.res, g') ∧ rec.predict m (gather ev r.testI) = .ok r.esc

lemma fold_new {l : List (FD K V T)} {fold : Nat} (h : ∀ r ∈ l, r.fold < fold) :
    Nat.repr fold ∉ l.map (fun r => Nat.repr r.fold) := by
  intro hm
  obtain ⟨r, hr, e⟩ := List.mem_map.1 hm
  have := Nat.repr_injective e
  have := h r hr
  omega

lemma accOf_snoc (env : Env K α ε F V T γ) (ev : List (List α)) (sc : List K) (ef : Option (List ε))
    (l : List (FD K V T)) (r : FD K V T) (h : ∀ x ∈ l, x.fold < r.fold) :
    accOf env ev sc ef (l ++ [r]) =
      { training := (accOf env ev sc ef l).training.set (Nat.repr r.fold) (.dict (r.training env))
        test := (accOf env ev sc ef l).test.set (Nat.repr r.fold) (.dict (r.test env ev))
        event := (accOf env ev sc ef l).event.set (Nat.repr r.fold) (encEvents env (gather ev r.testI))
        trues := (accOf env ev sc ef l).trues.set (Nat.repr r.fold) (encScores env (gather sc r.testI))
        predicted := (accOf env ev sc ef l).predicted.set (Nat.repr r.fold) (encPred env r.esc)
        mask := (accOf env ev sc ef l).mask.set (Nat.repr r.fold) (encIndex env r.testI)
        feature := match ef, (accOf env ev sc ef l).feature with
          | some rows, some fs => some (fs.map (fun p => (p.1, p.2.set (Nat.repr r.fold) (encFeature env p.1 (gather rows r.testI)))))
          | _, fs => fs } := by
  have hn := fold_new h
  have key : ∀ (f : FD K V T → J V), Dict.set (l.map (fun r => (Nat.repr r.fold, f r))) (Nat.repr r.fold) (f r)
      = (l ++ [r]).map (fun r => (Nat.repr r.fold, f r)) := by
    intro f
    rw [set_new _ _ _ (by rw [keys_map]; exact hn)]
    simp
  unfold accOf
  simp only [Acc.mk.injEq]
  refine ⟨(key _).symm, (key _).symm, (key _).symm, (key _).symm, (key _).symm, (key _).symm, ?_⟩
  cases ef with
  | none => rfl
  | some rows =>
    simp only [Option.map_some, List.map_map, Option.some.injEq]
    apply List.map_congr_left
    intro k _
    simp only [Function.comp, Prod.mk.injEq, true_and]
    exact (key (fun r => encFeature env k (gather rows r.testI))).symm

/-- One fold, read off a successful call. -/
lemma cvFold_ok {env : Env K α ε F V T γ} {clock : Nat → T} {rec : Recommender K α φ ε V γ M} {seed : Option Int}
    {data : ScoreData K α φ ε} {ev : List (List α)} {sc : List K} (hsc : data.score = some sc)
    {fold : Nat} {trainI testI : List Nat} {sys sys' : Sys γ} {l : List (FD K V T)} {acc' : Acc V}
    (hl : ∀ r ∈ l, r.fold < fold)
    (h : cvFold env clock rec seed data ev fold trainI testI sys (accOf env ev sc data.eventFeature l) = .ok (acc', sys')) :
    ∃ (r : FD K V T) (g : γ), r.fold = fold ∧ r.trainI = trainI ∧ r.testI = testI ∧ FoldOk rec data ev g r ∧
      acc' = accOf env ev sc data.eventFeature (l ++ [r]) ∧
      ((∃ n, seed = some n ∧ env.ofSeed n = .ok g ∧ sys'.glob = sys.glob) ∨ (seed = none ∧ g = sys.glob)) := by
  unfold cvFold at h
  simp only [] at h
  obtain ⟨train, h1, h⟩ := bind_ok h
  obtain ⟨o, h1a, h1b⟩ := bind_ok h1
  obtain ⟨⟨m, ti, s1⟩, h2, h⟩ := bind_ok h
  simp only [] at h
  obtain ⟨⟨esc, si, s2⟩, h3, h⟩ := bind_ok h
  simp only [hsc] at h
  rw [ok_bind] at h
  cases o with
  | none => cases h1b
  | some d' =>
    simp only [Except.ok.injEq] at h1b
    subst h1b
    unfold training at h2
    simp only [] at h2
    obtain ⟨⟨m', res, g'⟩, h2a, h2⟩ := bind_ok h2
    simp only [pure, Except.pure, Except.ok.injEq, Prod.mk.injEq] at h2
    obtain ⟨rfl, hti, hs1⟩ := h2
    unfold testing at h3
    simp only [] at h3
    obtain ⟨esc', h3a, h3⟩ := bind_ok h3
    simp only [pure, Except.pure, Except.ok.injEq, Prod.mk.injEq] at h3
    obtain ⟨rfl, hsi, hs2⟩ := h3
    have hfit : ∃ g gg, rec.fit g d' = .ok (m', res, gg) ∧
        ((∃ n, seed = some n ∧ env.ofSeed n = .ok g ∧ g' = sys.glob) ∨ (seed = none ∧ g = sys.glob)) := by
      cases seed with
      | none => exact ⟨sys.glob, g', h2a, .inr ⟨rfl, rfl⟩⟩
      | some n =>
        unfold fitWith at h2a
        simp only [] at h2a
        obtain ⟨g, e1, h2a⟩ := bind_ok h2a
        obtain ⟨⟨m2, res2, g2⟩, e2, h2a⟩ := bind_ok h2a
        simp only [pure, Except.pure, Except.ok.injEq, Prod.mk.injEq] at h2a
        obtain ⟨rfl, rfl, rfl⟩ := h2a
        exact ⟨g, g2, e2, .inl ⟨n, rfl, e1, rfl⟩⟩
    obtain ⟨g, gg, hf, hseed⟩ := hfit
    have hg : sys'.glob = g' := by
      simp only [pure, Except.pure, Except.ok.injEq, Prod.mk.injEq] at h
      rw [← h.2, ← hs2, ← hs1]
    refine ⟨⟨fold, clock sys.ticks, clock (sys.ticks + 1), clock (sys.ticks + 2), clock (sys.ticks + 3),
      trainI, testI, res, esc'⟩, g, rfl, rfl, rfl, ⟨d', m', gg, h1a, hf, h3a⟩, ?_, ?_⟩
    · rw [accOf_snoc _ _ _ _ _ _ hl]
      simp only [pure, Except.pure, Except.ok.injEq, Prod.mk.injEq] at h
      rw [← h.1, ← hti, ← hsi, ← hs1]
      rfl
    · rcases hseed with ⟨n, a, b, c⟩ | hh
      · exact .inl ⟨n, a, b, by rw [hg, c]⟩
      · exact .inr hh

/-- One fold succeeds when its parts do (integer seed). -/
lemma cvFold_run {env : Env K α ε F V T γ} (clock : Nat → T) {rec : Recommender K α φ ε V γ M} {n : Int}
    {data : ScoreData K α φ ε} {ev : List (List α)} {sc : List K} (hsc : data.score = some sc)
    {g : γ} (hg : env.ofSeed n = .ok g) (r : FD K V T) (hr : FoldOk rec data ev g r)
    (sys : Sys γ) (l : List (FD K V T)) (hl : ∀ x ∈ l, x.fold < r.fold) :
    cvFold env clock rec (some n) data ev r.fold r.trainI r.testI sys (accOf env ev sc data.eventFeature l) =
      .ok (accOf env ev sc data.eventFeature (l ++ [{ r with t₁ := clock sys.ticks, t₂ := clock (sys.ticks + 1), t₃ := clock (sys.ticks + 2), t₄ := clock (sys.ticks + 3) }]),
        ⟨sys.glob, sys.ticks + 4⟩) := by
  obtain ⟨d', m, g', h1, h2, h3⟩ := hr
  rw [accOf_snoc env ev sc data.eventFeature l { r with t₁ := clock sys.ticks, t₂ := clock (sys.ticks + 1), t₃ := clock (sys.ticks + 2), t₄ := clock (sys.ticks + 3) } hl]
  have et : training env clock rec (some n) sys d' = .ok (m, update [("start_time", .leaf (env.iso (clock sys.ticks))), ("end_time", .leaf (env.iso (clock (sys.ticks + 1)))),
     ("elapsed_time", .leaf (env.elapsed (clock (sys.ticks + 1)) (clock sys.ticks))), ("elapsed_utime", .leaf (env.elapsedU (clock (sys.ticks + 1)) (clock sys.ticks)))] r.res, ⟨sys.glob, sys.ticks + 2⟩) := by
    simp only [training, fitWith, hg, h2, ok_bind, pure, Except.pure]
  unfold cvFold
  simp only [h1, ok_bind, et, testing, h3, hsc, pure, Except.pure]
  rfl

/-- The folds that are processed among the `n` folds from `fold` on. -/
def wanted (target : Option Int) (fold n : Nat) : List Nat :=
  (List.range' fold n).filter (fun i : Nat => !(target.any (fun t => ((i : Nat) : Int) ≠ t)))

lemma wanted_succ (target : Option Int) (fold n : Nat) :
    wanted target fold (n + 1) =
      (if target.any (fun t => (fold : Int) ≠ t) then [] else [fold]) ++ wanted target (fold + 1) n := by
  unfold wanted
  rw [List.range'_succ, List.filter_cons]
  split <;> split <;> simp_all

/-- Training and test events as the splitter draws them in some state of the generator. -/
def DrawnFold (rng : Split.Rng γ) (cfg : Split.ShuffleConfig K) (users : List α) (trainI testI : List Nat) : Prop :=
  ∃ g g' mask, Split.shuffleMask rng cfg users g (List.replicate users.length false) (npUnique users) = .ok (mask, g') ∧
    trainI = (List.range users.length).filter (fun i => !(mask.getD i false)) ∧
    testI = (List.range users.length).filter (fun i => mask.getD i false)

lemma DrawnFold.isFold {rng : Split.Rng γ} {cfg : Split.ShuffleConfig K} {users : List α} {trainI testI : List Nat}
    (h : DrawnFold rng cfg users trainI testI) : Spec.IsFold users.length trainI testI := by
  obtain ⟨g, g', mask, _, rfl, rfl⟩ := h
  exact Split.isFold_of_mask _ _

/-- The loop of `cv_test`, any seed: the folds asked for, in order, each computed as prescribed from a split
into training and test events. -/
lemma cvLoop_ok {env : Env K α ε F V T γ} {clock : Nat → T} {rec : Recommender K α φ ε V γ M} {seed : Option Int}
    {cfg : Split.ShuffleConfig K} {data : ScoreData K α φ ε} {ev : List (List α)} {sc : List K}
    (hsc : data.score = some sc) {users : List α} {target : Option Int} (n : Nat) :
    ∀ (fold : Nat) (sys : Sys γ) (l : List (FD K V T)) (acc' : Acc V), (∀ r ∈ l, r.fold < fold) →
    cvLoop env clock rec seed cfg data ev users target n fold sys (accOf env ev sc data.eventFeature l) = .ok acc' →
    ∃ l' : List (FD K V T), acc' = accOf env ev sc data.eventFeature (l ++ l') ∧
      l'.map (·.fold) = wanted target fold n ∧
      ∀ r ∈ l', DrawnFold env.gen cfg users r.trainI r.testI ∧ ∃ g, FoldOk rec data ev g r := by
  induction n with
  | zero =>
    intro fold sys l acc' hl h
    unfold cvLoop at h
    simp only [Except.ok.injEq] at h
    exact ⟨[], by simp [← h], rfl, by simp⟩
  | succ n ih =>
    intro fold sys l acc' hl h
    unfold cvLoop at h
    obtain ⟨⟨mask, g⟩, h1, h⟩ := bind_ok h
    simp only [] at h
    rw [wanted_succ]
    split at h
    · rename_i ht
      rw [if_pos ht]
      obtain ⟨l', e1, e2, e3⟩ := ih (fold + 1) _ l acc' (fun r hr => by have := hl r hr; omega) h
      exact ⟨l', e1, by simpa using e2, e3⟩
    · rename_i ht
      rw [if_neg ht]
      obtain ⟨⟨acc1, sys1⟩, h2, h⟩ := bind_ok h
      obtain ⟨r, g', f1, f2, f3, f4, f5, _⟩ := cvFold_ok hsc hl h2
      subst f5
      simp only [] at h
      obtain ⟨l', e1, e2, e3⟩ := ih (fold + 1) sys1 (l ++ [r]) acc' (by
        intro x hx
        rw [List.mem_append] at hx
        rcases hx with hx | hx
        · have := hl x hx; omega
        · simp at hx; subst hx; omega) h
      refine ⟨r :: l', by rw [e1]; simp, by simp [f1, e2], ?_⟩
      intro x hx
      rw [List.mem_cons] at hx
      rcases hx with rfl | hx
      · rw [f2, f3]
        exact ⟨⟨_, g, mask, h1, rfl, rfl⟩, g', f4⟩
      · exact e3 x hx

/-- The loop with an integer seed: the splits are those drawn one after another from the global generator,
whatever is done in between. -/
lemma cvLoop_seeded {env : Env K α ε F V T γ} {clock : Nat → T} {rec : Recommender K α φ ε V γ M} {s : Int}
    {cfg : Split.ShuffleConfig K} {data : ScoreData K α φ ε} {ev : List (List α)} {sc : List K}
    (hsc : data.score = some sc) {users : List α} {target : Option Int} (n : Nat) :
    ∀ (fold : Nat) (sys : Sys γ) (l : List (FD K V T)) (acc' : Acc V), (∀ r ∈ l, r.fold < fold) →
    cvLoop env clock rec (some s) cfg data ev users target n fold sys (accOf env ev sc data.eventFeature l) = .ok acc' →
    ∃ (masks : List (List Bool)) (l' : List (FD K V T)),
      Split.shuffleMasks env.gen cfg users sys.glob n = .ok masks ∧
      acc' = accOf env ev sc data.eventFeature (l ++ l') ∧
      l'.map (·.fold) = wanted target fold n ∧
      ∀ r ∈ l', ∃ (mask : List Bool) (g : γ), masks[r.fold - fold]? = some mask ∧ fold ≤ r.fold ∧
        r.trainI = (List.range users.length).filter (fun i => !(mask.getD i false)) ∧
        r.testI = (List.range users.length).filter (fun i => mask.getD i false) ∧
        env.ofSeed s = .ok g ∧ FoldOk rec data ev g r := by
  induction n with
  | zero =>
    intro fold sys l acc' hl h
    unfold cvLoop at h
    simp only [Except.ok.injEq] at h
    exact ⟨[], [], rfl, by simp [← h], rfl, by simp⟩
  | succ n ih =>
    intro fold sys l acc' hl h
    unfold cvLoop at h
    obtain ⟨⟨mask, g⟩, h1, h⟩ := bind_ok h
    simp only [] at h
    rw [wanted_succ]
    split at h
    · rename_i ht
      rw [if_pos ht]
      obtain ⟨masks, l', e0, e1, e2, e3⟩ := ih (fold + 1) _ l acc' (fun r hr => by have := hl r hr; omega) h
      refine ⟨mask :: masks, l', ?_, e1, by simpa using e2, ?_⟩
      · unfold Split.shuffleMasks; simp only [h1, e0]
      · intro r hr
        obtain ⟨mk, g2, a1, a2, a3⟩ := e3 r hr
        refine ⟨mk, g2, ?_, by omega, a3⟩
        have : r.fold - fold = (r.fold - (fold + 1)) + 1 := by omega
        rw [this, List.getElem?_cons_succ]; exact a1
    · rename_i ht
      rw [if_neg ht]
      obtain ⟨⟨acc1, sys1⟩, h2, h⟩ := bind_ok h
      obtain ⟨r, g', f1, f2, f3, f4, f5, f6⟩ := cvFold_ok hsc hl h2
      subst f5
      simp only [] at h
      obtain ⟨masks, l', e0, e1, e2, e3⟩ := ih (fold + 1) sys1 (l ++ [r]) acc' (by
        intro x hx
        rw [List.mem_append] at hx
        rcases hx with hx | hx
        · have := hl x hx; omega
        · simp at hx; subst hx; omega) h
      have hgl : sys1.glob = g ∧ env.ofSeed s = .ok g' := by
        rcases f6 with ⟨n', hn, a, b⟩ | ⟨a, _⟩
        · cases hn; exact ⟨b, a⟩
        · cases a
      refine ⟨mask :: masks, r :: l', ?_, by rw [e1]; simp, by simp [f1, e2], ?_⟩
      · rw [hgl.1] at e0
        unfold Split.shuffleMasks; simp only [h1, e0]
      · intro x hx
        rw [List.mem_cons] at hx
        rcases hx with rfl | hx
        · exact ⟨mask, g', by rw [f1]; simp, by omega, f2, f3, hgl.2, f4⟩
        · obtain ⟨mk, g2, a1, a2, a3⟩ := e3 x hx
          refine ⟨mk, g2, ?_, by omega, a3⟩
          have : x.fold - fold = (x.fold - (fold + 1)) + 1 := by omega
          rw [this, List.getElem?_cons_succ]; exact a1

/-- The loop for a single fold, integer seed: it succeeds when all splits can be drawn and that fold can be
computed. -/
lemma cvLoop_single {env : Env K α ε F V T γ} (clock : Nat → T) {rec : Recommender K α φ ε V γ M} {s : Int}
    {cfg : Split.ShuffleConfig K} {data : ScoreData K α φ ε} {ev : List (List α)} {sc : List K}
    (hsc : data.score = some sc) {users : List α} {g : γ} (hg : env.ofSeed s = .ok g) (r : FD K V T)
    (hr : FoldOk rec data ev g r) (mask : List Bool)
    (htr : r.trainI = (List.range users.length).filter (fun i => !(mask.getD i false)))
    (hte : r.testI = (List.range users.length).filter (fun i => mask.getD i false)) (n : Nat) :
    ∀ (fold : Nat) (sys : Sys γ) (masks : List (List Bool)) (l : List (FD K V T)),
    (∀ x ∈ l, x.fold < fold) → Split.shuffleMasks env.gen cfg users sys.glob n = .ok masks →
    (fold ≤ r.fold → masks[r.fold - fold]? = some mask) →
    ∃ t₁ t₂ t₃ t₄, cvLoop env clock rec (some s) cfg data ev users (some (r.fold : Int)) n fold sys
      (accOf env ev sc data.eventFeature l) = .ok (accOf env ev sc data.eventFeature
        (l ++ if fold ≤ r.fold then [{ r with t₁ := t₁, t₂ := t₂, t₃ := t₃, t₄ := t₄ }] else [])) := by
  induction n with
  | zero =>
    intro fold sys masks l hl hm hmask
    unfold Split.shuffleMasks at hm
    simp only [Except.ok.injEq] at hm
    subst hm
    have : ¬ fold ≤ r.fold := by intro h; have := hmask h; simp at this
    refine ⟨clock 0, clock 0, clock 0, clock 0, ?_⟩
    unfold cvLoop
    rw [if_neg this, List.append_nil]
  | succ n ih =>
    intro fold sys masks l hl hm hmask
    unfold Split.shuffleMasks at hm
    cases h1 : Split.shuffleMask env.gen cfg users sys.glob (List.replicate users.length false) (npUnique users) with
    | error e => rw [h1] at hm; simp at hm
    | ok p =>
      obtain ⟨mk, g2⟩ := p
      rw [h1] at hm
      simp only [] at hm
      cases h2 : Split.shuffleMasks env.gen cfg users g2 n with
      | error e => rw [h2] at hm; simp at hm
      | ok ms =>
        rw [h2] at hm
        simp only [Except.ok.injEq] at hm
        subst hm
        unfold cvLoop
        rw [h1, ok_bind]
        simp only []
        by_cases ht : fold = r.fold
        · subst ht
          have hmk : mk = mask := by simpa using hmask le_rfl
          subst hmk
          rw [if_neg (by simp), ← htr, ← hte]
          have hrun := cvFold_run clock hsc hg r hr ⟨g2, sys.ticks⟩ l hl
          rw [hrun, ok_bind]
          simp only []
          obtain ⟨a, b, c, d, e⟩ := ih (r.fold + 1) ⟨g2, sys.ticks + 4⟩ ms (l ++ [{ r with t₁ := clock sys.ticks, t₂ := clock (sys.ticks + 1), t₃ := clock (sys.ticks + 2), t₄ := clock (sys.ticks + 3) }])
            (by intro x hx
                rw [List.mem_append] at hx
                rcases hx with hx | hx
                · have := hl x hx; omega
                · simp at hx; subst hx; simp) h2 (by intro h; omega)
          rw [if_neg (by omega), List.append_nil] at e
          refine ⟨clock sys.ticks, clock (sys.ticks + 1), clock (sys.ticks + 2), clock (sys.ticks + 3), ?_⟩
          rw [if_pos le_rfl]
          exact e
        · have htt : (some (r.fold : Int)).any (fun t => decide ((fold : Int) ≠ t)) = true := by
            simp; exact ht
          rw [if_pos htt]
          obtain ⟨a, b, c, d, e⟩ := ih (fold + 1) ⟨g2, sys.ticks⟩ ms l (fun x hx => by have := hl x hx; omega) h2 (by
            intro h
            have := hmask (by omega)
            have e : r.fold - fold = (r.fold - (fold + 1)) + 1 := by omega
            rw [e, List.getElem?_cons_succ] at this; exact this)
          refine ⟨a, b, c, d, ?_⟩
          rw [e]
          congr 2
          by_cases h : fold + 1 ≤ r.fold
          · rw [if_pos h, if_pos (by omega)]
          · rw [if_neg h, if_neg (by omega)]

end Kam.Scripts

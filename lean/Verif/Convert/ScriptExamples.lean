/-
Concrete runs of the conversion scripts: the hypotheses of C136 are met.
-/
import Verif.Convert.ScriptProps

set_option linter.unusedSectionVars false

namespace Kam.Convert
open Shell (Prog Files Exit steps)
open Convert.Spec

namespace Ex

/-- Two ratings of Flixster, and MovieLens 100k files with a line that has no gender. -/
def originals : Files Str Str := fun f =>
  if f = "data/ratings.txt".toList then some "1\t2\t3.5\n1\t3\t4.0\n".toList
  else if f = "data/u.data".toList then some "1\t1\t5\t0\n".toList
  else if f = "data/u.user".toList then some "1|24|M|other|z\n2|30||other|z\n".toList
  else none

/-- The arguments of a script called with a target directory. -/
def args : List Str := ["data/x.py".toList, "t/".toList]

lemma args_noHelp : NoHelp args := by unfold NoHelp; decide +kernel

/-- The files go where the argument says, or beside the package. -/
example : (Converter.flixster.plan "data".toList args).map (fun s => (s.input, s.output)) =
      [("data/ratings.txt".toList, "t/flixster.event".toList)] ∧
    (Converter.mini.plan "data".toList ["data/x.py".toList]).map (fun s => (s.input, s.output)) =
      [("data/../kamrecsys/datasets/data/movielens100k.event".toList, "data/../kamrecsys/datasets/data/movielens_mini.event".toList)] ∧
    (Converter.sushi3.plan [] ["sushi3.py".toList, "/t".toList]).map (fun s => (s.input, s.output)) =
      [("sushi3b.5000.10.score".toList, "/t/sushi3b_score.event".toList), ("sushi3.udata".toList, "/t/sushi3.user".toList),
       ("sushi3.idata".toList, "/t/sushi3.item".toList)] := by
  decide +kernel

/-- C136_converted is not vacuous. -/
example : ∀ s ∈ Converter.flixster.plan "data".toList args, Converts originals s := by
  intro s hs
  have : s = ⟨"data/ratings.txt".toList, "t/flixster.event".toList, convFlixster⟩ := List.mem_singleton.1 hs
  subst this
  exact ⟨"1\t2\t3.5\n1\t3\t4.0\n".toList, head flixsterHeadEvent ++ "1\t2\t3.5\n1\t3\t4.0\n".toList, by decide +kernel, by decide +kernel⟩

/-- C136_missing is not vacuous: there are no files of MovieLens 1m. -/
example (flush : Str → List Str) : ((Converter.movielens1m.prog flush "data".toList args).run originals).1 = .raised .ioError :=
  (C136_missing flush .movielens1m "data".toList args args_noHelp originals (pre := []) rfl (by simp) (by decide +kernel)).1

/-- C136_bad_line is not vacuous: the second user has no gender.  The events are converted, the first user too, and there is the
beginning of the second one. -/
example (flush : Str → List Str) : ((Converter.movielens100k.prog flush "data".toList args).run originals).1 = .raised .valueError ∧
    ∃ u, ((Converter.movielens100k.prog flush "data".toList args).run originals).2 "t/movielens100k.user".toList = some u ∧
      Broken convMl100kUser "1|24|M|other|z\n2|30||other|z\n".toList .valueError u := by
  have h := C136_bad_line flush .movielens100k "data".toList args args_noHelp originals
    (pre := [⟨"data/u.data".toList, "t/movielens100k.event".toList, fun t => .ok (convMl100kEvent t)⟩])
    (s := ⟨"data/u.user".toList, "t/movielens100k.user".toList, convMl100kUser⟩)
    (text := "1|24|M|other|z\n2|30||other|z\n".toList) (e := .valueError) rfl
    (by
      intro s hs
      rw [List.mem_singleton.1 hs]
      exact ⟨"1\t1\t5\t0\n".toList, _, by decide +kernel, rfl⟩)
    (by decide +kernel) (by decide +kernel)
  exact ⟨h.1, h.2.1⟩

/-- What is left in the file of users. -/
example : (fileOut ml100kHeadUser ml100kUserOut "1|24|M|other|z\n2|30||other|z\n".toList).text =
    head ml100kHeadUser ++ "1\t24\t0\t1\tz\n2\t30\t".toList := by
  decide +kernel

/-- What is left of a matrix whose second line has an entry that is no number. -/
example : (fileOutIdx sushiHeadEvent sushiEventOut "1 -1 0\n-1 4 x 3\n".toList).text =
    head sushiHeadEvent ++ "0\t0\t1\n0\t2\t0\n1\t1\t4\n".toList := by
  decide +kernel

/-- C136_help is not vacuous. -/
example : ¬ NoHelp ["x.py".toList, "t".toList, "-h".toList] := by unfold NoHelp; decide +kernel

/-- C136_stopped and C136_again are not vacuous: lines get into the file one after the other. -/
example : ∀ t : Str, ∀ c ∈ (fun t : Str => [t.take 10, t.take 20]) t, c <+: t := by
  intro t c hc
  rcases List.mem_cons.1 hc with rfl | hc
  · exact List.take_prefix _ _
  · rw [List.mem_singleton.1 hc]
    exact List.take_prefix _ _

end Ex
end Kam.Convert

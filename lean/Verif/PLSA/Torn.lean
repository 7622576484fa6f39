/-
Prediction with the topic model in one thread while `fit` of the same recommender runs in another.
-/
import Verif.PLSA.Steps

namespace Kam
namespace PLSA
namespace Steps
variable {n nu ni nl k : Nat}

/-- What `raw_predict` sees if the states of the recommender are `o 0, …, o 3` when it reads `pZ_`, `pRgZ_`, `pXgZ_` and `pYgZ_`, in the
order of the expression (score_predictor/topic_model.py:343-347).  Each attribute is read once for all requested pairs.  Simplified: reading
an attribute and using the entries of its array is one step (in the code the first two are views, whose entries are used once both have been
read), dividing an array in place
(score_predictor/topic_model.py:193, 204, 215, 219) is one step, and neither the score levels nor the tables that encode the requested ids
change, as both are assigned before (score_predictor/topic_model.py:244, base/base.py:97-110). -/
def torn (o : Nat → Obj n nu ni nl k) : Obj n nu ni nl k :=
  { o 0 with
    pZ := (o 0).pZ
    pR := (o 1).pR
    pX := (o 2).pX
    extX := (o 2).extX
    pY := (o 3).pY
    extY := (o 3).extY }

end Steps
end PLSA
end Kam

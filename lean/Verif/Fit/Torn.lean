/-
Prediction in one thread while `fit` of the same recommender runs in another.
-/
import Verif.Fit.Steps

namespace Kam
namespace MF
namespace Steps
variable {γ : Type} {nu ni k : Nat}

/-- What `raw_predict` sees if the states of the recommender are `o 0, …, o 4` when it reads `mu_`, `bu_`, `bi_`, `p_` and `q_`, in the order
of the expression (score_predictor/matrix_factorization.py:409-411, item_finder/matrix_factorization.py:417-419, 773-775).  Each attribute
is read once for all requested pairs.  Simplified: reading an attribute and copying the requested entries from its array is one step, and
the tables that encode the requested ids are those of the new data, as they are replaced before (base/base.py:97-110). -/
def torn (o : Nat → Obj γ nu ni k) : Obj γ nu ni k :=
  { o 4 with
    coef := ⟨(o 0).coef.mu, (o 1).coef.bu, (o 2).coef.bi, (o 3).coef.p, (o 4).coef.q⟩
    mu := (o 0).mu
    bu := (o 1).bu
    bi := (o 2).bi
    p := (o 3).p
    q := (o 4).q }

end Steps
end MF
end Kam

/-
The comment blocks consist of comments.
-/
import Verif.Convert.Spec

namespace Kam.Convert
open Convert.Spec

/-- Lines of comments. -/
def Headed (hd : List String) : Prop := ∀ l ∈ hd, Plain l.toList ∧ l.toList.head? = some '#'

instance (hd : List String) : Decidable (Headed hd) := by unfold Headed Plain; infer_instance

lemma headed_ml100kEvent : Headed ml100kHeadEvent := by decide +kernel
lemma headed_ml100kUser : Headed ml100kHeadUser := by decide +kernel
lemma headed_ml100kItem : Headed ml100kHeadItem := by decide +kernel
lemma headed_ml1mEvent : Headed ml1mHeadEvent := by decide +kernel
lemma headed_ml1mUser : Headed ml1mHeadUser := by decide +kernel
lemma headed_ml1mItem : Headed ml1mHeadItem := by decide +kernel
lemma headed_mini : Headed miniHeadEvent := by decide +kernel
lemma headed_flixster : Headed flixsterHeadEvent := by decide +kernel
lemma headed_sushiEvent : Headed sushiHeadEvent := by decide +kernel
lemma headed_sushiUser : Headed sushiHeadUser := by decide +kernel
lemma headed_sushiItem : Headed sushiHeadItem := by decide +kernel

end Kam.Convert

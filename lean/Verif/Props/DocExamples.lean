import Verif.Model.DocExamples
import Verif.Props.UnitTests

/-!
# C136: the examples of the documentation
-/

namespace Verif

open Pysolar Pysolar.UnitTests

namespace ScalarSim

variable {B B' : Backend} (S : ScalarSim B B')

theorem docExamples (t : ℚ) : RelM S.strict (List.Forall₂ S.rCheck) (DocExamples.examples B t) (DocExamples.examples B' t) := by
  have hw := S.rW_dt DocExamples.date
  unfold DocExamples.examples
  sim
  checks

end ScalarSim

namespace Props

open Pysolar.DocExamples

set_option maxRecDepth 100000 in
theorem iv_docExamples : allOf near (examples ivB (1 / 10 ^ 6)) = true := by decide +kernel

/-- C136: the three results in the documentation are those of the formulas, to a millionth. -/
theorem C136_examples (tp : ℝ) : AllPass (examples (mathB tp) (1 / 10 ^ 6)) :=
  allPass_of_near ((ivSim tp).docExamples _) iv_docExamples

end Props

end Verif

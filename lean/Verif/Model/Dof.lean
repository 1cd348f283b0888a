import Verif.Model.FitTail

/-!
# Degrees of freedom of the continuum fit
-/

namespace Verif.Model

variable {K : Type} [Field K] [LinearOrder K]

/-- py/qsonic/continuum_models/picca_continuum_model.py:270-271,
py/qsonic/continuum_models/true_continuum_model.py:65 and
py/qsonic/continuum_models/input_continuum_model.py:224: `cont_params['dof']`, which is set before the first
iteration and never again. The number of
fitted parameters is `cont_order + 1` for the first and zero for the others. -/
def Spectrum.initDof (nparam : Nat) (s : Spectrum K) : Int := (s.realSize : Int) - (nparam : Int)

end Verif.Model

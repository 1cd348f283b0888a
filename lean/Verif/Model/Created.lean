import Verif.Model.Select
import Verif.Model.SpectrumInit

/-!
# A spectrum as the constructor leaves it
-/

namespace Verif.Model
open Verif.Np

variable {K : Type} [Field K] [LinearOrder K]

/-- py/qsonic/spectrum.py:200-261: the new object, with `rsnr` from `_set_rsnr`, once the bad pixels have been set to
zero (`cleanArm`). `eps` is `1e-6`, `lya` is `WAVE_LYA_A`. Finite values only. -/
def createdSpec (sqrt : K → K) (eps lya : K) (row : MaskRow K) (z dwave : K) (wave flux ivar : Dict (List K))
    (reso : Dict (List (List K))) : ReadSpec K :=
  ⟨row, rsnr sqrt eps lya z wave flux ivar, Spectrum.blank z dwave wave flux ivar reso⟩

end Verif.Model

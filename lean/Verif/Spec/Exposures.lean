import Verif.Model.Spectrum
import Mathlib.Algebra.Order.Group.Abs

/-!
# Specification of the continua of exposures
-/

namespace Verif.Spec
open Verif.Np Verif.Model

variable {K : Type} [Field K] [LinearOrder K]

/-- Wavelengths `we` and `wc` are not empty and, but for a shift of at most `ε` pixels, on one grid with spacing
`dwave`. -/
def OneGrid (dwave ε : K) (we wc : List K) : Prop :=
  ∃ (w0 : K) (a : Int) (δ : K) (n N : Nat), |δ| ≤ ε ∧
    we = (List.range (n + 1)).map (fun i : Nat => w0 + ((a : K) + δ + (i : K)) * dwave) ∧
    wc = (List.range (N + 1)).map (fun j : Nat => w0 + (j : K) * dwave)

/-- Some pixel of `we` is at a pixel of `wc` or next to one (less than one and a half pixels away). -/
def Overlap (dwave : K) (we wc : List K) : Prop :=
  ∃ w ∈ we, ∃ v ∈ wc, |w - v| < 3 * dwave / 2

/-- An exposure (with its target) and the first fitted spectrum of the target: each arm of the exposure is an arm of the
fitted spectrum, with a continuum, and their wavelengths are on one grid. -/
def Matches (dwave ε : K) (e c : Spectrum K) : Prop :=
  e.dwave = dwave ∧ (Dict.keys e.fwave).Nodup ∧ ∀ x ∈ e.fwave,
    (e.fflux.arr x.1).length = x.2.length ∧
    ∃ wc cont, c.fwave.lookup x.1 = some wc ∧ c.cont.lookup x.1 = some cont ∧ cont.length = wc.length ∧
      OneGrid dwave ε x.2 wc

/-- Each continuum value of `r` is that of `c` at the wavelength of the pixel, up to `ε` pixels. -/
def ContFrom (dwave ε : K) (arms : List String) (c r : Spectrum K) : Prop :=
  ∀ arm ∈ arms, (r.fwave.arr arm).length = (r.cont.arr arm).length ∧
    ∀ p ∈ (r.fwave.arr arm).zip (r.cont.arr arm), ∃ q ∈ (c.fwave.arr arm).zip (c.cont.arr arm),
      |p.1 - q.1| ≤ ε * dwave ∧ p.2 = q.2

/-- The pixels of `r` are those of `e` at a pixel of `c`, with their flux. -/
def PixelsFrom (dwave : K) (arms : List String) (c e r : Spectrum K) : Prop :=
  ∀ arm ∈ arms, ∀ p, p ∈ (r.fwave.arr arm).zip (r.fflux.arr arm) ↔
    p ∈ (e.fwave.arr arm).zip (e.fflux.arr arm) ∧ ∃ v ∈ c.fwave.arr arm, |p.1 - v| < dwave / 2

end Verif.Spec

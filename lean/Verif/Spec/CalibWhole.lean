import Verif.Model.CalibWhole
import Verif.Spec.VarLss
import Verif.Spec.Calib

/-!
# What the file of `qsonic-calib` should hold
-/

namespace Verif.Spec
open Verif Verif.Model

variable {K : Type} [Field K] [LinearOrder K]

/-- A delta that is to be used, with `ids` listed for removal and the rows of the catalog if one is given: not listed,
no row of the target with a BAL if these are to be removed, no row of it in another survey if surveys are given, and
signal to noise in the range. -/
def CalUsed (C : CalibCfg K) (ids : List Int) (rows : Option (List (CalRow K))) (d : CalDelta K) : Prop :=
  d.targetid ∉ ids ∧
  (∀ l, rows = some l → ∀ r ∈ l, r.targetid = d.targetid →
    (C.removeBal = true → ¬ ((∃ p ∈ r.vminCiv450.zip r.vmaxCiv450, 0 < p.1 ∧ 0 < p.2) ∨
      (∃ p ∈ r.vminCiv2000.zip r.vmaxCiv2000, 0 < p.1 ∧ 0 < p.2))) ∧
    (C.keepSurveys ≠ [] → r.survey ∈ C.keepSurveys)) ∧
  C.minSnr < d.meanSnr ∧ d.meanSnr < C.maxSnr

open Classical in
/-- Those of a list. -/
noncomputable def calUsed (C : CalibCfg K) (ids : List Int) (rows : Option (List (CalRow K))) (l : List (CalDelta K)) :
    List (CalDelta K) := l.filter (fun d => decide (CalUsed C ids rows d))

/-- Pixels of a delta for the statistics. -/
def deltaPixels (d : CalDelta K) : List (VPix K) :=
  (d.wave.zip (d.delta.zip d.ivar)).map (fun p => ⟨p.1, p.2.1, p.2.2⟩)

/-- The table has one row for every bin and in it the statistics of all pixels of these deltas that are in the bin: central
wavelength, number of pixels, number of deltas with such a pixel, mean of delta, mean pipeline variance, variance of delta
and its mean squared error. -/
structure StatsOf (c : VarCfg K) (l : List (CalDelta K)) (t : VarTable K) : Prop where
  len : t.wave.length = c.nw * c.nv ∧ t.varPipe.length = c.nw * c.nv ∧ t.eVarPipe.length = c.nw * c.nv ∧
    t.varDelta.length = c.nw * c.nv ∧ t.eVarDelta.length = c.nw * c.nv ∧ t.meanDelta.length = c.nw * c.nv ∧
    t.var2Delta.length = c.nw * c.nv ∧ t.numPixels.length = c.nw * c.nv ∧ t.numQso.length = c.nw * c.nv
  row : ∀ iw iv, iw < c.nw → iv < c.nv →
    let P := inBin c iw iv (l.flatMap deltaPixels)
    let m : K := (P.map (fun p => p.delta)).sum / P.length
    let v : K := (P.map (fun p => (p.delta - m) ^ 2)).sum / P.length
    let i := iw * c.nv + iv
    t.wave[i]? = some (c.w1 + (iw + 1 / 2) * ((c.w2 - c.w1) / c.nw)) ∧
    t.numPixels[i]? = some P.length ∧ t.numQso[i]? = some (spectraIn c iw iv (l.map deltaPixels)) ∧
    t.meanDelta[i]? = some m ∧ t.varPipe[i]? = some ((P.map (fun p => 1 / p.ivar)).sum / (P.length : K)) ∧
    t.varDelta[i]? = some v ∧
    t.var2Delta[i]? = some (((P.map (fun p => p.delta ^ 4)).sum / (P.length : K) - v ^ 2) / (P.length : K))

section
variable (C : CalibCfg K) (t : VarTable K)

/-- The variance bins of a wavelength bin whose rows have these numbers of pixels and deltas. -/
def rowsWith (iw pix qso : Nat) : List Nat :=
  (List.range C.var.nv).filter (fun iv => decide (pix ≤ t.numPixels.getD (iw * C.var.nv + iv) 0) &&
    decide (qso ≤ t.numQso.getD (iw * C.var.nv + iv) 0))

/-- The square of the table between these variance bins. -/
def rowsCov (iw : Nat) (u : List Nat) : List (List K) :=
  u.map (fun a => u.map (fun b => ((t.cov.getD []).getD (iw * C.var.nv + a) []).getD b 0))

/-- The errors of `var_delta` in these rows, or their covariance if it is used and positive definite. -/
def rowsSigma (iw : Nat) (u : List Nat) : VarLss.Sigma K :=
  if C.useCov && C.cholesky (rowsCov C t iw u) then .matrix (rowsCov C t iw u)
  else .errors (u.map (fun iv => t.eVarDelta.getD (iw * C.var.nv + iv) 0))

/-- Data of these rows. -/
def rowsData (iw : Nat) (u : List Nat) : List K × List K × VarLss.Sigma K :=
  (u.map (fun iv => t.varPipe.getD (iw * C.var.nv + iv) 0), u.map (fun iv => t.varDelta.getD (iw * C.var.nv + iv) 0),
    rowsSigma C t iw u)

/-- What is fitted in a wavelength bin: the rows with enough pixels and deltas if these are at least five, otherwise those
with half as many if these are at least five. -/
def rowsFitted (iw : Nat) : Option (List K × List K × VarLss.Sigma K) :=
  if 5 ≤ (rowsWith C t iw C.minPix C.minQso).length then some (rowsData C t iw (rowsWith C t iw C.minPix C.minQso))
  else if 5 ≤ (rowsWith C t iw (C.minPix / 2) (C.minQso / 2)).length then
    some (rowsData C t iw (rowsWith C t iw (C.minPix / 2) (C.minQso / 2)))
  else none

/-- The outcome of `curve_fit` in every wavelength bin, started at 0.1 and 1. -/
def binFits : List (Option (List K × List K)) :=
  (List.range C.var.nw).map (fun iw => (rowsFitted C t iw).bind (fun a => C.curveFit a [1 / 10, 1]))

/-- Fitted values and errors in the wavelength bins, with zeros where there is no fit. -/
def fitValues : List (List K) × List (List K) :=
  ((binFits C t).map (fun r => (r.map Prod.fst).getD [0, 0]), (binFits C t).map (fun r => (r.map Prod.snd).getD [0, 0]))

/-- More than 40% of the wavelength bins have no fit. -/
def FitFails : Prop := 2 * C.var.nw < 5 * (binFits C t).countP (fun r => r.isNone)

end
end Verif.Spec

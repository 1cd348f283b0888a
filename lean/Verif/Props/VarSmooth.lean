import Verif.Spec.VarSmooth
import Verif.Props.VarFit
import Verif.Model.Spectrum
import Verif.Proofs.SpectrumInit
import Mathlib.Data.List.GetD
import Mathlib.Logic.Function.Iterate

/-!
# C107: smoothing of the fitted variance
-/

namespace Verif.Props
open Verif Verif.Np Verif.Model Verif.Model.VarLss Verif.Spec Verif.Proofs

section
variable {K : Type} [Field K] [LinearOrder K] {n : Nat} {c : VarCfg K}

/-- The result of the fit of one wavelength bin, none if there is too little data or `curve_fit` fails. -/
def binResult (minPix minQso : Nat) (sqrt : K → K) (cholesky : List (List K) → Bool) (uc : Bool)
    (curveFit : List K × List K × Sigma K → List K → Option (List K × List K)) (s : VarLss K n c)
    (guess : List (List K)) (iw : Nat) : Option (List K × List K) :=
  (s.fitArgs minPix minQso sqrt cholesky uc iw).bind (fun a => curveFit a (guess[iw]?.getD []))

theorem fit_rows (minPix minQso : Nat) (sqrt : K → K) (cholesky : List (List K) → Bool) (uc : Bool)
    (curveFit : List K × List K × Sigma K → List K → Option (List K × List K))
    (smooth : List (List K) → List (List K) → List (List K)) (s : VarLss K n c) (guess : List (List K))
    {Y E : List (List K)} (h : s.fit minPix minQso sqrt cholesky uc curveFit smooth guess = .ok (Y, E)) :
    let R := binResult minPix minQso sqrt cholesky uc curveFit s guess
    let y := (List.range c.nw).map (fun iw => ((R iw).map Prod.fst).getD ((guess[iw]?.getD []).map (fun _ => 0)))
    let e := (List.range c.nw).map (fun iw => ((R iw).map Prod.snd).getD ((guess[iw]?.getD []).map (fun _ => 0)))
    Y = smooth y e ∧ E = e ∧ guess.length = c.nw := by
  intro R y e
  unfold VarLss.fit at h
  by_cases hs : shapeOk c.nw guess = true
  swap
  · rw [if_neg hs] at h; cases h
  rw [if_pos hs] at h
  have hlen : guess.length = c.nw := by
    unfold shapeOk at hs
    simp only [Bool.and_eq_true, decide_eq_true_eq] at hs
    exact hs.1
  have hres : guess.zipIdx.map (fun g =>
      (g.1, fitBin curveFit (s.fitArgs minPix minQso sqrt cholesky uc g.2) g.1)) =
      (List.range c.nw).map (fun iw => (guess[iw]?.getD [], R iw)) := by
    refine List.ext_getElem? fun i => ?_
    by_cases hi : i < c.nw
    · have hi' : i < guess.length := by omega
      rw [List.getElem?_map, List.getElem?_map, List.getElem?_range hi, List.getElem?_zipIdx]
      simp only [List.getElem?_eq_getElem hi', Option.map_some, Nat.zero_add, R, binResult, fitBin, Option.getD_some]
    · rw [List.getElem?_eq_none (by simp; omega), List.getElem?_eq_none (by simp; omega)]
  rw [hres] at h
  dsimp only at h
  split at h
  · cases h
  split at h
  · cases h
  rw [List.map_map, List.map_map] at h
  obtain ⟨h1, h2⟩ := Prod.mk.inj (Except.ok.inj h)
  exact ⟨h1.symm, h2.symm, hlen⟩

/-- **C107.** The smoothed fit: a bin has the value, at its center, of the spline through the bins in which the fit
succeeded with positive `var_lss`, with the inverse errors as weights; all others have no influence. Errors are those
of the fit, and zero where it failed. -/
theorem C107_values (minPix minQso : Nat) (sqrt : K → K) (cholesky : List (List K) → Bool) (uc : Bool)
    (curveFit : List K × List K × Sigma K → List K → Option (List K × List K))
    (spline : List K → List K → List K → K → K) (s : VarLss K n c) (guess : List (List K)) {d : Nat}
    (hd : ∀ g ∈ guess, g.length = d) (hw : ∀ a p0 p q, curveFit a p0 = some (p, q) → p.length = p0.length)
    {Y E : List (List K)}
    (h : s.fit minPix minQso sqrt cholesky uc curveFit (smoothFit spline c) guess = .ok (Y, E)) :
    Y.length = c.nw ∧ E.length = c.nw ∧
    (∃ good, FittedBins c.nw (binResult minPix minQso sqrt cholesky uc curveFit s guess) good ∧
      ∀ iw < c.nw, Y[iw]? = some ((List.range d).map (fun j => spline (good.map (fun b => c.center b.1))
        (good.map (fun b => b.2.1.getD j 0)) (good.map (fun b => 1 / b.2.2.getD j 0)) (c.center iw)))) ∧
    ∀ iw < c.nw, (∀ p q, binResult minPix minQso sqrt cholesky uc curveFit s guess iw = some (p, q) → E[iw]? = some q) ∧
      (binResult minPix minQso sqrt cholesky uc curveFit s guess iw = none → E[iw]? = some (List.replicate d 0)) := by
  obtain ⟨h1, h2, hlen⟩ := fit_rows minPix minQso sqrt cholesky uc curveFit (smoothFit spline c) s guess h
  have hrow : ∀ iw p q, binResult minPix minQso sqrt cholesky uc curveFit s guess iw = some (p, q) → iw < c.nw →
      p.length = d := by
    intro iw p q hr hi
    unfold binResult at hr
    obtain ⟨a, -, ha⟩ := Option.bind_eq_some_iff.mp hr
    rw [hw _ _ _ _ ha, List.getElem?_eq_getElem (by omega), Option.getD_some]
    exact hd _ (List.getElem_mem _)
  have hg : ∀ iw < c.nw, (guess[iw]?.getD []).map (fun _ => (0 : K)) = List.replicate d 0 := by
    intro iw hi
    rw [List.getElem?_eq_getElem (by omega), Option.getD_some, List.map_const', hd _ (List.getElem_mem _)]
  generalize binResult minPix minQso sqrt cholesky uc curveFit s guess = R at h1 h2 hrow ⊢
  set yf : Nat → List K := fun iw => ((R iw).map Prod.fst).getD ((guess[iw]?.getD []).map (fun _ => 0)) with hyf
  set ef : Nat → List K := fun iw => ((R iw).map Prod.snd).getD ((guess[iw]?.getD []).map (fun _ => 0)) with hef
  have hylen : ∀ iw < c.nw, (yf iw).length = d := by
    intro iw hi
    rw [hyf]
    dsimp only
    cases hr : R iw with
    | none => rw [Option.map_none, Option.getD_none, hg iw hi, List.length_replicate]
    | some pq => exact hrow iw pq.1 pq.2 hr hi
  refine ⟨?_, ?_, ?_, ?_⟩
  · rw [h1]
    simp [smoothFit]
  · rw [h2]
    simp
  · refine ⟨((List.range c.nw).filter (fun k => decide (0 < (yf k).headD 0))).map (fun k => (k, yf k, ef k)), ⟨?_, ?_⟩, ?_⟩
    · rw [List.pairwise_map]
      exact List.pairwise_lt_range.filter _
    · intro k p q
      rw [List.mem_map]
      constructor
      · rintro ⟨k', hk', he⟩
        obtain ⟨m1, m2⟩ := List.mem_filter.mp hk'
        obtain ⟨rfl, rfl, rfl⟩ : k' = k ∧ yf k' = p ∧ ef k' = q :=
          ⟨congrArg Prod.fst he, congrArg (fun t => t.2.1) he, congrArg (fun t => t.2.2) he⟩
        have hk := List.mem_range.mp m1
        have hpos := of_decide_eq_true m2
        refine ⟨hk, ?_, hpos⟩
        cases hr : R k' with
        | none =>
          exfalso
          rw [hyf] at hpos
          dsimp only at hpos
          rw [hr, Option.map_none, Option.getD_none, hg k' hk] at hpos
          cases d with
          | zero => exact lt_irrefl _ hpos
          | succ d => exact lt_irrefl _ hpos
        | some pq =>
          rw [hyf, hef]
          dsimp only
          rw [hr]
          rfl
      · rintro ⟨hk, hr, hpos⟩
        have e1 : yf k = p := by rw [hyf]; dsimp only; rw [hr]; rfl
        have e2 : ef k = q := by rw [hef]; dsimp only; rw [hr]; rfl
        refine ⟨k, List.mem_filter.mpr ⟨List.mem_range.mpr hk, decide_eq_true (by rw [e1]; exact hpos)⟩, ?_⟩
        rw [e1, e2]
    · intro iw hi
      rw [h1]
      unfold smoothFit
      dsimp only
      rw [List.getElem?_map, List.getElem?_zipIdx, List.getElem?_map, List.getElem?_range hi]
      simp only [Option.map_some, Nat.zero_add, Option.some.injEq]
      apply List.ext_getElem
      · simp [hylen iw hi]
      intro j j1 j2
      simp only [List.getElem_map, List.getElem_zipIdx, List.getElem_range, Nat.zero_add]
      simp only [List.map_map]
      rw [show (List.map ((fun r : List K => decide (0 < r.headD 0)) ∘ yf) (List.range c.nw)) =
        (List.range c.nw).map (fun k => decide (0 < (yf k).headD 0)) from rfl]
      rw [maskSel_map, maskSel_map, maskSel_map, List.map_map]
      rfl
  · intro iw hi
    have he : E[iw]? = some (ef iw) := by
      rw [h2, List.getElem?_map, List.getElem?_range hi]
      rfl
    constructor
    · intro p q hr
      rw [he, hef]
      dsimp only
      rw [hr]
      rfl
    · intro hr
      rw [he, hef]
      dsimp only
      rw [hr, Option.map_none, Option.getD_none, hg iw hi]

theorem bins_bounds (minPix minQso : Nat) (sqrt : K → K) (cholesky : List (List K) → Bool) (uc : Bool)
    (curveFit : List K × List K × Sigma K → List K → Option (List K × List K))
    (spline : List K → List K → List K → K → K) (hs : KeepsBounds spline) (s : VarLss K n c)
    (guess : List (List K)) {d : Nat} (hd : ∀ g ∈ guess, g.length = d)
    (hw : ∀ a p0 p q, curveFit a p0 = some (p, q) → p.length = p0.length ∧ ∀ x ∈ p, 0 ≤ x ∧ x ≤ 2)
    (hsome : ∃ k < c.nw, ∃ p q, binResult minPix minQso sqrt cholesky uc curveFit s guess k = some (p, q) ∧ 0 < p.headD 0)
    {Y E : List (List K)} (h : s.fit minPix minQso sqrt cholesky uc curveFit (smoothFit spline c) guess = .ok (Y, E)) :
    ∀ row ∈ Y, row.length = d ∧ ∀ x ∈ row, 0 ≤ x ∧ x ≤ 2 := by
  obtain ⟨h1, -, ⟨good, hg, hY⟩, -⟩ := C107_values minPix minQso sqrt cholesky uc curveFit spline s guess hd
    (fun a p0 p q hh => (hw a p0 p q hh).1) h
  have hlen := (fit_rows minPix minQso sqrt cholesky uc curveFit (smoothFit spline c) s guess h).2.2
  intro row hrow
  obtain ⟨iw, hi, rfl⟩ := List.getElem_of_mem hrow
  have := hY iw (by omega)
  rw [List.getElem?_eq_getElem hi, Option.some.injEq] at this
  rw [this]
  refine ⟨by simp, fun x hx => ?_⟩
  obtain ⟨j, hj, rfl⟩ := List.mem_map.mp hx
  refine hs _ _ _ _ 0 2 ?_ ?_
  · obtain ⟨k, hk, p, q, hr, hp⟩ := hsome
    have := (hg.mem k p q).mpr ⟨hk, hr, hp⟩
    intro h0
    rw [List.map_eq_nil_iff] at h0
    rw [h0] at this
    cases this
  · intro y hy
    obtain ⟨⟨k, p, q⟩, hb, rfl⟩ := List.mem_map.mp hy
    obtain ⟨hk, hr, -⟩ := (hg.mem k p q).mp hb
    unfold binResult at hr
    obtain ⟨a, -, ha⟩ := Option.bind_eq_some_iff.mp hr
    obtain ⟨l1, l2⟩ := hw _ _ _ _ ha
    have hl : p.length = d := by
      rw [l1, List.getElem?_eq_getElem (by omega), Option.getD_some]
      exact hd _ (List.getElem_mem _)
    dsimp only
    rw [List.getD_eq_getElem _ _ (by rw [hl]; exact List.mem_range.mp hj)]
    exact l2 _ (List.getElem_mem _)

/-- **C107.** The update of both functions: in every bin `var_lss` and `eta` are the splines through the first and the
second fitted parameter of the good bins, and their errors are the first and the second error of the fit, zero where it
failed. -/
theorem C107_update (minPix minQso : Nat) (sqrt : K → K) (cholesky : List (List K) → Bool) (uc : Bool)
    (curveFit : List K × List K × Sigma K → List K → Option (List K × List K))
    (spline : List K → List K → List K → K → K) (s : VarLss K n c)
    (hw : ∀ a p0 p q, curveFit a p0 = some (p, q) → p.length = p0.length) (g g' : VarFuncs K)
    (h : g.update true (s.fit minPix minQso sqrt cholesky uc curveFit (smoothFit spline c)) = .ok g') :
    let res := binResult minPix minQso sqrt cholesky uc curveFit s (List.zipWith (fun a b => [a, b]) g.varlss g.eta)
    ∃ good, FittedBins c.nw res good ∧ ∀ iw < c.nw,
      g'.varlss[iw]? = some (spline (good.map (fun b => c.center b.1)) (good.map (fun b => b.2.1.getD 0 0))
        (good.map (fun b => 1 / b.2.2.getD 0 0)) (c.center iw)) ∧
      g'.eta[iw]? = some (spline (good.map (fun b => c.center b.1)) (good.map (fun b => b.2.1.getD 1 0))
        (good.map (fun b => 1 / b.2.2.getD 1 0)) (c.center iw)) ∧
      (∀ p q, res iw = some (p, q) → g'.eVarlss[iw]? = some (q.getD 0 0) ∧ g'.eEta[iw]? = some (q.getD 1 0)) ∧
      (res iw = none → g'.eVarlss[iw]? = some 0 ∧ g'.eEta[iw]? = some 0) := by
  intro res
  unfold VarFuncs.update at h
  simp only [if_true] at h
  obtain ⟨⟨Y, E⟩, hr, h⟩ := except_bind_eq_ok.mp h
  obtain rfl := Except.ok.inj h
  obtain ⟨-, -, ⟨good, h1, h2⟩, h3⟩ := C107_values minPix minQso sqrt cholesky uc curveFit spline s _ (d := 2) (by
    intro x hx
    obtain ⟨i, hi, rfl⟩ := List.getElem_of_mem hx
    simp) hw hr
  refine ⟨good, h1, fun iw hi => ⟨?_, ?_, ?_, ?_⟩⟩
  · dsimp only
    rw [List.getElem?_map, h2 iw hi]
    rfl
  · dsimp only
    rw [List.getElem?_map, h2 iw hi]
    rfl
  · intro p q hpq
    dsimp only
    rw [List.getElem?_map, List.getElem?_map, (h3 iw hi).1 p q hpq]
    exact ⟨rfl, rfl⟩
  · intro hn
    dsimp only
    rw [List.getElem?_map, List.getElem?_map, (h3 iw hi).2 hn]
    exact ⟨rfl, rfl⟩

/-- **C107**, the part of the claim that holds. Full claim: after every update of the functions `var_lss` and `eta` have
values between the bounds of the fit, 0 and 2, in every wavelength bin, and a bin with enough data is fitted. Proved: the
values are there if the spline stays between the values it goes through, and there are such values; eta does not change
if it is not fitted. Missing: cubic splines do not stay there (`C107_refuted`), and a bin that has left the bounds is not
fitted again (`C107_stuck_refuted`). -/
theorem C107_partial (minPix minQso : Nat) (sqrt : K → K) (cholesky : List (List K) → Bool) (uc : Bool)
    (curveFit : List K × List K × Sigma K → List K → Option (List K × List K))
    (spline : List K → List K → List K → K → K) (hs : KeepsBounds spline) (s : VarLss K n c)
    (hw : ∀ a p0 p q, curveFit a p0 = some (p, q) → p.length = p0.length ∧ ∀ x ∈ p, 0 ≤ x ∧ x ≤ 2)
    (fitEta : Bool) (g g' : VarFuncs K)
    (hsome : ∃ k < c.nw, ∃ p q, binResult minPix minQso sqrt cholesky uc curveFit s
      (if fitEta then List.zipWith (fun a b => [a, b]) g.varlss g.eta else g.varlss.map (fun a => [a])) k = some (p, q) ∧
        0 < p.headD 0)
    (h : g.update fitEta (s.fit minPix minQso sqrt cholesky uc curveFit (smoothFit spline c)) = .ok g') :
    g'.varlss.length = c.nw ∧ (∀ x ∈ g'.varlss, 0 ≤ x ∧ x ≤ 2) ∧
    (fitEta = true → g'.eta.length = c.nw ∧ ∀ x ∈ g'.eta, 0 ≤ x ∧ x ≤ 2) ∧
    (fitEta = false → g'.eta = g.eta ∧ g'.eEta = g.eEta) := by
  unfold VarFuncs.update at h
  dsimp only at h
  generalize hgu : (if fitEta = true then List.zipWith (fun a b => [a, b]) g.varlss g.eta
    else g.varlss.map (fun a => [a])) = guess at h hsome
  obtain ⟨r, hr, h⟩ := except_bind_eq_ok.mp h
  obtain ⟨Y, E⟩ := r
  have hg' := (Except.ok.inj h).symm
  have hd : ∀ x ∈ guess, x.length = if fitEta = true then 2 else 1 := by
    intro x hx
    rw [← hgu] at hx
    cases fitEta with
    | true =>
      obtain ⟨i, hi, rfl⟩ := List.getElem_of_mem hx
      simp
    | false =>
      obtain ⟨y, -, rfl⟩ := List.mem_map.mp hx
      rfl
  have hY := bins_bounds minPix minQso sqrt cholesky uc curveFit spline hs s guess hd hw hsome hr
  have hl := (C107_values minPix minQso sqrt cholesky uc curveFit spline s guess hd
    (fun a p0 p q hh => (hw a p0 p q hh).1) hr).1
  have key : ∀ j, j < (if fitEta = true then 2 else 1) → ∀ x ∈ Y.map (fun x => x.getD j 0), 0 ≤ x ∧ x ≤ 2 := by
    intro j hj x hx
    obtain ⟨row, hrow, rfl⟩ := List.mem_map.mp hx
    obtain ⟨l1, l2⟩ := hY row hrow
    rw [List.getD_eq_getElem _ _ (by rw [l1]; exact hj)]
    exact l2 _ (List.getElem_mem _)
  cases fitEta with
  | true =>
    rw [if_pos rfl] at hg'
    rw [hg']
    exact ⟨by simp [hl], key 0 (by simp), fun _ => ⟨by simp [hl], key 1 (by simp)⟩, fun hc => (by cases hc)⟩
  | false =>
    rw [if_neg (by simp)] at hg'
    rw [hg']
    exact ⟨by simp [hl], key 0 (by simp), fun hc => (by cases hc), fun _ => ⟨rfl, rfl⟩⟩

end

/-! ### Where the claim is false, and examples -/

/-- Five wavelength bins with five variance bins each. -/
def c107Cfg : VarCfg ℚ := { w1 := 3600, w2 := 3700, nw := 5, nv := 5, edges := [1, 2, 3, 4, 5, 6] }

/-- A spectrum with a pixel in each bin; `d` gives the deltas of the wavelength bins. -/
def c107Spec (d : List ℚ) : List (VPix ℚ) :=
  d.zipIdx.flatMap (fun x => (List.range 5).map (fun j : Nat => ⟨3605 + 20 * (x.2 : ℚ), x.1, (j : ℚ) + 3 / 2⟩))

/-- Statistics of two quasars with opposite deltas. -/
def c107Stats (d : List ℚ) : Option (VarLss ℚ 2 c107Cfg) :=
  ((calculate 0 false (rankObjs c107Cfg (n := 2) (by decide) [[c107Spec d, c107Spec (d.map (- ·))]])).head?).map Prod.fst

/-- A fit: the variance of delta in the first bin, with error one; as for scipy, a start outside of the bounds is an
exception. -/
def c107Fit (a : List ℚ × List ℚ × Sigma ℚ) (p0 : List ℚ) : Option (List ℚ × List ℚ) :=
  if p0.all (fun x => decide (0 ≤ x) && decide (x ≤ 2)) then some ([a.2.1.headD 0], [1]) else none

/-- The polynomial through all points: for four of them this is the cubic spline. -/
def c107Cubic (xs ys _ws : List ℚ) (x : ℚ) : ℚ :=
  ((xs.zip ys).map (fun p => p.2 * ((xs.filter (fun q => decide (q ≠ p.1))).map (fun q => (x - q) / (p.1 - q))).prod)).sum

/-- The update without eta. -/
def c107Update (d : List ℚ) (g : VarFuncs ℚ) : Option (VarFuncs ℚ) :=
  (c107Stats d).bind fun s =>
    (g.update false (s.fit 2 2 id (fun _ => true) false c107Fit (smoothFit c107Cubic c107Cfg))).toOption

/-- Start of the iterations. -/
def c107Start : VarFuncs ℚ := ⟨[1 / 10, 1 / 10, 1 / 10, 1 / 10, 1 / 10], [0, 0, 0, 0, 0], [1, 1, 1, 1, 1], [0, 0, 0, 0, 0]⟩

/-- What the update gives if there is no data in the last bin. -/
def c107Bad : VarFuncs ℚ :=
  ⟨[1, 1, 1, 1 / 100, -74 / 25], [1, 1, 1, 1, 0], [1, 1, 1, 1, 1], [0, 0, 0, 0, 0]⟩

/-- **C107**, refuted: all fits are between the bounds, but the cubic through the four fitted bins gives a negative
variance in the bin without data. The error of that bin is saved as zero, as if it were known exactly, and a pixel with
this variance has a negative weight. -/
theorem C107_refuted :
    c107Update [1, 1, 1, 1 / 10] c107Start = some c107Bad ∧
    (∃ x ∈ c107Bad.varlss, x < 0) ∧ Spectrum.pixelWeight (-74 / 25) 1 1 (1 : ℚ) < 0 := by
  decide +kernel

/-- **C107**, refuted: from then on all bins have the same, sufficient data. The fit of the last bin starts outside of its
bounds and fails, the bin gets the value of the same cubic, and this goes on however many iterations there are; the fit
from the start of the first iteration would give 1. -/
theorem C107_stuck_refuted :
    (∀ k, ((fun g : Option (VarFuncs ℚ) => g.bind (c107Update [1, 1, 1, 1 / 10, 1]))^[k]) (some c107Bad) = some c107Bad) ∧
    ∃ s, c107Stats [1, 1, 1, 1 / 10, 1] = some s ∧
      binResult 2 2 id (fun _ => true) false c107Fit s (c107Start.varlss.map (fun a => [a])) 4 = some ([1], [1]) ∧
      binResult 2 2 id (fun _ => true) false c107Fit s (c107Bad.varlss.map (fun a => [a])) 4 = none := by
  refine ⟨fun k => Function.iterate_fixed (by decide +kernel) k, ?_⟩
  have h : (c107Stats [1, 1, 1, 1 / 10, 1]).isSome = true := by decide +kernel
  obtain ⟨s, hs⟩ := Option.isSome_iff_exists.mp h
  have hall : (c107Stats [1, 1, 1, 1 / 10, 1]).all (fun s =>
      decide (binResult 2 2 id (fun _ => true) false c107Fit s (c107Start.varlss.map (fun a => [a])) 4 = some ([1], [1])) &&
      decide (binResult 2 2 id (fun _ => true) false c107Fit s (c107Bad.varlss.map (fun a => [a])) 4 = none)) = true := by
    decide +kernel
  rw [hs] at hall
  simp only [Option.all_some, Bool.and_eq_true, decide_eq_true_eq] at hall
  exact ⟨s, hs, hall.1, hall.2⟩

/-- A fit with eta: `var_lss` as before, eta is 3 / 2. -/
def c107Fit2 (a : List ℚ × List ℚ × Sigma ℚ) (p0 : List ℚ) : Option (List ℚ × List ℚ) :=
  if p0.all (fun x => decide (0 ≤ x) && decide (x ≤ 2)) then some ([a.2.1.headD 0, 3 / 2], [1, 1]) else none

/-- **C107**, refuted: a bin whose fitted `var_lss` is at its bound 0 counts as failed, with its eta, although the fit
succeeded: all deltas of the last bin vanish, so that the fit there is exact, but the bin gets the extrapolation of the
four others. -/
theorem C107_zero_refuted :
    ((c107Stats [1, 1, 1, 1, 0]).bind fun s =>
      (c107Start.update true (s.fit 2 2 id (fun _ => true) false c107Fit2 (smoothFit c107Cubic c107Cfg))).toOption) =
      some ⟨[1, 1, 1, 1, 1], [1, 1, 1, 1, 1], [3 / 2, 3 / 2, 3 / 2, 3 / 2, 3 / 2], [1, 1, 1, 1, 1]⟩ ∧
    (c107Stats [1, 1, 1, 1, 0]).bind (fun s =>
      binResult 2 2 id (fun _ => true) false c107Fit2 s (List.replicate 5 [1 / 10, 1]) 4) = some ([0, 3 / 2], [1, 1]) := by
  decide +kernel

/-- A fit with eta whose errors differ. -/
def c107Fit3 (a : List ℚ × List ℚ × Sigma ℚ) (p0 : List ℚ) : Option (List ℚ × List ℚ) :=
  (c107Fit2 a p0).map (fun r => (r.1, [1 / 4, 1 / 2]))

/-- The hypothesis of `C107_update` is met; there is no data in the last bin. -/
example : ((c107Stats [1, 1, 1, 1]).bind fun s =>
      (c107Start.update true (s.fit 2 2 id (fun _ => true) false c107Fit3 (smoothFit c107Cubic c107Cfg))).toOption) =
      some ⟨[1, 1, 1, 1, 1], [1 / 4, 1 / 4, 1 / 4, 1 / 4, 0], [3 / 2, 3 / 2, 3 / 2, 3 / 2, 3 / 2],
        [1 / 2, 1 / 2, 1 / 2, 1 / 2, 0]⟩ := by
  decide +kernel

/-- A spline that keeps bounds: the first value. -/
theorem c107First_keeps : KeepsBounds (fun (_ ys _ : List ℚ) (_ : ℚ) => ys.headD 0) := by
  intro xs ys ws x lo hi hne h
  cases ys with
  | nil => exact absurd rfl hne
  | cons y ys => exact h y (List.mem_cons_self)

/-- The hypotheses of `C107_partial` are met: four bins are fitted, the fifth gets a value of theirs. -/
example : ((c107Stats [1, 1, 1, 1 / 10]).bind fun s =>
    (c107Start.update false (s.fit 2 2 id (fun _ => true) false c107Fit
      (smoothFit (fun (_ ys _ : List ℚ) (_ : ℚ) => ys.headD 0) c107Cfg))).toOption) =
      some ⟨[1, 1, 1, 1, 1], [1, 1, 1, 1, 0], [1, 1, 1, 1, 1], [0, 0, 0, 0, 0]⟩ ∧
    (c107Stats [1, 1, 1, 1 / 10]).bind (fun s =>
      binResult 2 2 id (fun _ => true) false c107Fit s (c107Start.varlss.map (fun a => [a])) 0) = some ([1], [1]) := by
  decide +kernel

end Verif.Props

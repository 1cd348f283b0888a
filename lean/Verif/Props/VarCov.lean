import Verif.Props.VarErrors
import Verif.Props.CovSquare

/-!
# C77: covariance of the variance of delta
-/

namespace Verif.Props
open Verif Verif.Model Verif.Model.VarLss Verif.Spec Verif.Proofs
open scoped BigOperators

section
variable {K : Type} [Field K] [LinearOrder K] [IsStrictOrderedRing K] [FloorRing K] {n : Nat} {c : VarCfg K}

/-- The jackknife covariance of two bins of data set `j`, from the differences of the means without one subsample. -/
def jackCov {m d : Nat} (xd : Fin n → Fin m → Fin d → K) (j : Fin m) (k l : Fin d) : K :=
  (∑ i, xd i j k * xd i j l) * ((n : K) - 1) / n

omit [IsStrictOrderedRing K] [FloorRing K] in
/-- What `finish` with covariance does to an object that has not been normalised. -/
theorem finish_covariance (eps : K) {s : VarLss K n c} (hs : s.sub.mean = none) :
    ∃ t xd mean, s.finish eps true = (t, none) ∧ (s.sub.getMeanNVar eps false).1.xdiff = some xd ∧
      t.sub.mean = some mean ∧ t.sub.variance = some (Subsample.varOf xd) ∧
      t.sub.covariance.map (fun f => blocks (f 1)) = some (covRow1 mean (Subsample.varOf xd)
        (Subsample.blocksOf xd 0 (c.nv + 2)) (Subsample.blocksOf xd 1 (c.nv + 2))) := by
  obtain ⟨xd, mean, h⟩ : ∃ xd mean, s.sub.getMeanNVar eps false = ({ s.sub.getMean with
      mean := some mean
      xdiff := some xd
      variance := some (Subsample.varOf xd) }, none) := by
    unfold Subsample.getMeanNVar Subsample.ensureMean
    rw [hs]
    exact ⟨_, _, rfl⟩
  unfold VarLss.finish
  rw [h]
  simp only [if_true]
  unfold finishCov
  have hcov : ∀ t : Subsample K n 4 ((c.nv + 2) * (c.nw + 2)), t.mean = some mean → t.xdiff = some xd →
      t.getMeanNCov eps (some [0, 1]) (some (c.nv + 2)) false =
      ({ t with covariance := some (fun j => if j ∈ [0, 1] then
        some (Subsample.covEntry xd (some (c.nv + 2)) j) else none) }, none) := by
    intro t h1 h2
    unfold Subsample.getMeanNCov
    have e : t.ensureMean eps false = t := by unfold Subsample.ensureMean; rw [h1]
    have e2 : Subsample.checkBlock ((c.nv + 2) * (c.nw + 2)) (some (c.nv + 2)) = .ok () := by
      simp [Subsample.checkBlock]
    simp only [e, e2]
    rw [h2]
    simp [Subsample.covariances]
  rw [hcov _ rfl rfl]
  exact ⟨_, xd, _, rfl, rfl, rfl, rfl, rfl⟩

omit [LinearOrder K] [IsStrictOrderedRing K] [FloorRing K] in
theorem atNat_bin {iw iv : Nat} (hw : iw < c.nw) (hv : iv < c.nv) (f : Fin ((c.nv + 2) * (c.nw + 2)) → K) :
    Subsample.atNat f ((iw + 1) * (c.nv + 2) + (iv + 1)) = f ⟨binIdx c iw iv, binIdx_lt hw hv⟩ := by
  have e : (iw + 1) * (c.nv + 2) + (iv + 1) = binIdx c iw iv := by
    unfold binIdx
    omega
  unfold Subsample.atNat
  rw [e, dif_pos (binIdx_lt hw hv)]

/-- **C77.** The covariance of two variance bins of a wavelength bin that the fit is given is the jackknife covariance of the
means of delta² plus what `block_covariance_of_square` gives for the mean of delta, both for these two bins. -/
theorem C77_covariance (hc : GoodBins c) (h : 0 < n) (eps : K) (ranks : List (List (List (VPix K)))) (r)
    (hr : r ∈ calculate eps true (rankObjs c h ranks)) (iw : Nat) (hw : iw < c.nw) :
    ∃ sub ∈ Subsample.allreduce ((rankObjs c h ranks : List (VarLss K n c)).map (·.sub)), ∃ xd,
      (sub.getMeanNVar eps false).1.xdiff = some xd ∧ ∃ bin : Nat → Fin ((c.nv + 2) * (c.nw + 2)),
      (∀ a < c.nv, ∀ {α : Type} (f : Fin ((c.nv + 2) * (c.nw + 2)) → α), (valid c f)[iw * c.nv + a]? = some (f (bin a))) ∧
      (∀ a < c.nv, ∀ j, (r.1.errRow j).bind (fun l => l[iw * c.nv + a]?) = some (jackCov xd j (bin a) (bin a))) ∧
      ∀ a < c.nv, ∀ b < c.nv, ∃ ma mb,
        (r.1.meanRow 0).bind (fun l => l[iw * c.nv + a]?) = some ma ∧
        (r.1.meanRow 0).bind (fun l => l[iw * c.nv + b]?) = some mb ∧
        r.1.covVarDelta iw a b = jackCov xd 1 (bin a) (bin b) +
          (jackCov xd 0 (bin a) (bin a) * jackCov xd 0 (bin b) (bin b) + jackCov xd 0 (bin a) (bin b) ^ 2 +
            2 * jackCov xd 0 (bin a) (bin b) * (ma * mb) +
            (jackCov xd 0 (bin a) (bin a) * mb ^ 2 + jackCov xd 0 (bin b) (bin b) * ma ^ 2)) := by
  obtain ⟨o1, -⟩ := rankObjs_ok hc.length h ranks.zipIdx ranks.length
  have hcalc : (rankObjs c h ranks : List (VarLss K n c)).head?.any (·.calculated) = false := by
    cases e : (rankObjs c h ranks : List (VarLss K n c)) with
    | nil => rfl
    | cons s l =>
      have : s ∈ (rankObjs c h ranks : List (VarLss K n c)) := by rw [e]; exact List.mem_cons_self
      have := (o1 s this).2.2
      simp [this]
  unfold VarLss.calculate at hr
  rw [if_neg (by rw [hcalc]; simp), allreduce_eq] at hr
  obtain ⟨s', hs', rfl⟩ := List.mem_map.mp hr
  obtain ⟨s, hs, rfl⟩ := List.mem_map.mp hs'
  obtain ⟨t, xd, mean, f1, f2, f3, f4, f5⟩ := finish_covariance eps (s := { s with
    sub := { s.sub with
      x := fun i j k => (((rankObjs c h ranks).map (·.sub)).map (fun s => s.x i j k)).sum
      w := fun i k => (((rankObjs c h ranks).map (·.sub)).map (fun s => s.w i k)).sum }
    numPix := fun k => ((rankObjs c h ranks).map (fun s => s.numPix k)).sum
    numQso := fun k => ((rankObjs c h ranks).map (fun s => s.numQso k)).sum }) (o1 s hs).1
  rw [f1]
  refine ⟨_, List.mem_map.mpr ⟨s.sub, List.mem_map.mpr ⟨s, hs, rfl⟩, rfl⟩, xd, f2,
    fun a => if ha : a < c.nv then ⟨binIdx c iw a, binIdx_lt hw ha⟩ else ⟨0, by positivity⟩, ?_, ?_, ?_⟩
  · intro a ha α f
    dsimp only
    rw [dif_pos ha]
    exact valid_get c f hw ha
  · intro a ha j
    dsimp only
    rw [dif_pos ha]
    unfold errRow
    rw [f4]
    exact valid_get c _ hw ha
  · intro a ha b hb
    dsimp only
    rw [dif_pos ha, dif_pos hb]
    refine ⟨mean 0 ⟨binIdx c iw a, binIdx_lt hw ha⟩, mean 0 ⟨binIdx c iw b, binIdx_lt hw hb⟩, ?_, ?_, ?_⟩
    · unfold meanRow
      rw [f3]
      exact valid_get c _ hw ha
    · unfold meanRow
      rw [f3]
      exact valid_get c _ hw hb
    · obtain ⟨cov, hcov, hb1⟩ := Option.map_eq_some_iff.mp f5
      unfold covVarDelta
      rw [hcov, Option.getD_some, hb1]
      unfold covRow1 blockCovSquare
      simp only [atNat_bin hw ha, atNat_bin hw hb]
      unfold Subsample.blocksOf
      simp only [atNat_bin hw ha, atNat_bin hw hb]
      rfl

/-- **C77.** That covariance is symmetric, and its diagonal is the variance that the fit without covariance is given,
before the floor is applied; so a fit with the diagonal of the covariance would have the same errors. -/
theorem C77_symmetric (hc : GoodBins c) (h : 0 < n) (eps : K) (ranks : List (List (List (VPix K)))) (r)
    (hr : r ∈ calculate eps true (rankObjs c h ranks)) (iw : Nat) (hw : iw < c.nw) :
    (∀ a < c.nv, ∀ b < c.nv, r.1.covVarDelta iw a b = r.1.covVarDelta iw b a) ∧
    ∀ a < c.nv, ∃ v0 v1 ma, 0 ≤ v0 ∧ 0 ≤ v1 ∧
      (r.1.errRow 0).bind (fun l => l[iw * c.nv + a]?) = some v0 ∧
      (r.1.errRow 1).bind (fun l => l[iw * c.nv + a]?) = some v1 ∧
      (r.1.meanRow 0).bind (fun l => l[iw * c.nv + a]?) = some ma ∧
      r.1.covVarDelta iw a a = v1 + (4 * ma ^ 2 * v0 + 2 * v0 ^ 2) := by
  obtain ⟨sub, -, xd, -, bin, -, herr, hall⟩ := C77_covariance hc h eps ranks r hr iw hw
  have hsym : ∀ j k l, jackCov xd j k l = jackCov xd j l k := by
    intro j k l
    unfold jackCov
    simp only [mul_comm]
  have hn : (1 : K) ≤ n := by exact_mod_cast h
  have hnn : ∀ j k, 0 ≤ jackCov xd j k k := by
    intro j k
    unfold jackCov
    exact div_nonneg (mul_nonneg (Finset.sum_nonneg fun i _ => mul_self_nonneg _) (by linarith)) (by linarith)
  constructor
  · intro a ha b hb
    obtain ⟨ma, mb, h1, h2, h3⟩ := hall a ha b hb
    obtain ⟨mb', ma', g1, g2, g3⟩ := hall b hb a ha
    rw [h1] at g2
    rw [h2] at g1
    cases g1
    cases g2
    rw [h3, g3, hsym 1 (bin b), hsym 0 (bin b) (bin a)]
    ring
  · intro a ha
    obtain ⟨ma, mb, h1, h2, h3⟩ := hall a ha a ha
    rw [h1] at h2
    cases h2
    refine ⟨_, _, ma, hnn 0 (bin a), hnn 1 (bin a), herr a ha 0, herr a ha 1, h1, ?_⟩
    rw [h3]
    ring

end

/-- One spectrum in each of two subsamples; delta is 1 and -1 in the first variance bin, 4 and 4 in the second. -/
def c77Ranks : List (List (List (VPix ℚ))) :=
  [[[⟨3600, 1, 1⟩, ⟨3650, 4, 2⟩]], [[⟨3600, -1, 1⟩, ⟨3650, 4, 2⟩]]]

/-- **C77**: the matrix is not always positive semidefinite, so that the fallback to diagonal errors does not only happen
with fewer subsamples than bins. Here the matrix is [[2, 16], [16, 0]]: `block_covariance_of_square` is not the
covariance of squares (`C47_independent_refuted`). -/
theorem C77_definite_refuted :
    (calculate 0 true (rankObjs c48Cfg (n := 2) (by decide) c77Ranks)).map (fun r =>
      (r.1.covVarDelta 0 0 0, r.1.covVarDelta 0 0 1, r.1.covVarDelta 0 1 1)) = [(2, 16, 0), (2, 16, 0)] ∧
    (calculate 0 true (rankObjs c48Cfg (n := 2) (by decide) c77Ranks)).all (fun r =>
      decide (r.1.covVarDelta 0 0 0 - r.1.covVarDelta 0 0 1 - r.1.covVarDelta 0 1 0 + r.1.covVarDelta 0 1 1 < 0)) = true := by
  decide +kernel

end Verif.Props

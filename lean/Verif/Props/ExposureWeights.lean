import Verif.Props.Exposures
import Verif.Props.DeltaFiles
import Verif.Proofs.Readers

/-!
# The weights of exposures that are read after the fit (C72)
-/

namespace Verif.Props
open Verif.Np Verif.Model Verif.Spec Verif.Proofs

variable {K : Type} [Field K] [LinearOrder K] [FloorRing K]

/-- Smoothed ivar and weights are the dictionary of the ivar: the state after `set_forest_region`, or after
`coadd_arms_forest` without continuum. -/
def WeightsAreIvar (s : Spectrum K) : Prop := s.ivarSm = none ∧ s.weight = none

omit [Field K] [LinearOrder K] [FloorRing K] in
theorem sliceSm_shared {s : Spectrum K} (h : WeightsAreIvar s) (arm : String) (i1 i2 : Nat) :
    WeightsAreIvar (s.sliceSm arm i1 i2) := by
  unfold Spectrum.sliceSm
  split
  · exact ⟨h.1, h.2⟩
  · rename_i d hd
    rw [h.1] at hd
    cases hd

omit [Field K] [LinearOrder K] [FloorRing K] in
theorem sliceWeight_shared {s : Spectrum K} (h : WeightsAreIvar s) (arm : String) (i1 i2 : Nat) :
    WeightsAreIvar (s.sliceWeight arm i1 i2) := by
  unfold Spectrum.sliceWeight
  split
  · exact sliceSm_shared h _ _ _
  · rename_i d hd
    rw [h.2] at hd
    cases hd

theorem slice'_weightsAreIvar {s : Spectrum K} (h : WeightsAreIvar s) (arm : String) (i1 i2 : Nat) :
    WeightsAreIvar (s.slice' arm i1 i2) := by
  unfold Spectrum.slice'
  split
  · exact h
  · have h1 : WeightsAreIvar (((s.sliceWave arm i1 i2).sliceFlux arm i1 i2).sliceIvar arm i1 i2) := ⟨h.1, h.2⟩
    generalize ((s.sliceWave arm i1 i2).sliceFlux arm i1 i2).sliceIvar arm i1 i2 = t at h1
    have h2 := sliceWeight_shared (sliceSm_shared h1 arm i1 i2) arm i1 i2
    generalize (t.sliceSm arm i1 i2).sliceWeight arm i1 i2 = u at h2
    exact ⟨h2.1, h2.2⟩

theorem matchArm_shared {c s r : Spectrum K} {arm : String} {w : List K} (h : WeightsAreIvar s)
    (hr : matchArm c s arm w = .ok r) : WeightsAreIvar r := by
  unfold matchArm at hr
  split at hr
  · cases hr
  · cases hm : matchIdx s.dwave w _ with
    | error e => rw [hm] at hr; cases hr
    | ok x =>
      rw [hm, except_bind_ok] at hr
      cases hc : dictGet c.cont arm with
      | error e => rw [hc] at hr; cases hr
      | ok cont =>
        rw [hc, except_bind_ok] at hr
        cases hr
        exact slice'_weightsAreIvar h _ _ _

theorem matchArms_shared {c r : Spectrum K} (l : Dict (List K)) {t : Spectrum K} (h : WeightsAreIvar t)
    (hr : l.foldlM (fun t x => matchArm c t x.1 x.2) t = .ok r) : WeightsAreIvar r := by
  induction l generalizing t with
  | nil => cases hr; exact h
  | cons x l ih =>
    rw [List.foldlM_cons] at hr
    cases hm : matchArm c t x.1 x.2 with
    | error e => rw [hm] at hr; cases hr
    | ok u =>
      rw [hm, except_bind_ok] at hr
      exact ih (matchArm_shared h hm) hr

theorem matchExposure_shared {c s r : Spectrum K} (h : WeightsAreIvar s) (hr : matchExposure c s = .ok r) :
    WeightsAreIvar r := by
  unfold matchExposure at hr
  exact matchArms_shared _ (t := { s with
      cont := []
      valid := c.valid
      chi2 := c.chi2
      x0 := c.x0 }) ⟨h.1, h.2⟩ hr

theorem dropShortArms_shared {s : Spectrum K} (h : WeightsAreIvar s) (lya1 lya2 skip : K) :
    WeightsAreIvar (s.dropShortArms lya1 lya2 skip) := by
  unfold Spectrum.dropShortArms
  dsimp only
  generalize List.map _ _ = l
  induction l generalizing s with
  | nil => exact h
  | cons a l ih =>
    refine ih (s := s.dropArm a) ?_
    simp [Spectrum.dropArm, WeightsAreIvar, h.1, h.2]

omit [FloorRing K] in
theorem armHdu_cols {lya : K} {maxlastnight : Nat} {a : BlindArgs K} {id : Ident K} {mr rsnr : K} {s : Spectrum K}
    (h : WeightsAreIvar s) {arm : String} {w : List K} {snr : K} {cont : List K} {hdu : Hdu K}
    (hh : armHdu (setBlinding lya ClassState.init maxlastnight a) id mr rsnr s arm w snr cont = .ok hdu) :
    ∃ v, hdu.cols.lookup "IVAR" = some v ∧ hdu.cols.lookup "WEIGHT" = some v := by
  have hn := colnames_eq lya [(maxlastnight, a)]
  simp only [List.foldl_cons, List.foldl_nil] at hn
  have hwt : s.fweight = s.fivar := by
    unfold Spectrum.fweight Spectrum.fivarSm
    rw [h.1, h.2]
    rfl
  have key : ∀ (name : String) (hdr : Dict (HVal K)) (x d v c : List K) (l : List (Col K)),
      makeHdu name hdr (setBlinding lya ClassState.init maxlastnight a).colnames
        ([Col.vec x, .vec d, .vec v, .vec v, .vec c] ++ l) = .ok hdu →
      ∃ v, hdu.cols.lookup "IVAR" = some v ∧ hdu.cols.lookup "WEIGHT" = some v := by
    intro name hdr x d v c l hm
    unfold makeHdu at hm
    split at hm
    · cases hm
      refine ⟨.vec v, ?_⟩
      dsimp only
      rw [hn]
      split <;> simp [List.lookup]
    · cases hm
  unfold armHdu at hh
  dsimp only at hh
  rw [hwt] at hh
  split at hh
  · exact key _ _ _ _ _ _ [] hh
  · cases hd : dictGet s.freso arm with
    | error e => rw [hd] at hh; cases hh
    | ok r =>
      rw [hd, except_bind_ok] at hh
      exact key _ _ _ _ _ _ _ hh

omit [FloorRing K] in
theorem write_shared {lya : K} {maxlastnight : Nat} {a : BlindArgs K} {id : Ident K} {mr : String → K} {rsnr : K}
    {s : Spectrum K} (h : WeightsAreIvar s) {hdus : List (Hdu K)}
    (hw : s.write (setBlinding lya ClassState.init maxlastnight a) id mr rsnr = .ok hdus) :
    ∀ hdu ∈ hdus, ∃ v, hdu.cols.lookup "IVAR" = some v ∧ hdu.cols.lookup "WEIGHT" = some v := by
  intro hdu hh
  unfold Spectrum.write at hw
  cases hm : s.fwave.mapM (fun x => writeArm (setBlinding lya ClassState.init maxlastnight a) id mr rsnr s x.1 x.2) with
  | error e => rw [hm] at hw; cases hw
  | ok l =>
    rw [hm, except_bind_ok] at hw
    cases hw
    obtain ⟨hl, hlm, hhl⟩ := List.mem_flatten.mp hh
    obtain ⟨x, -, hx⟩ := forall₂_mem_right (mapM_ok_inv hm) hlm
    unfold writeArm at hx
    cases hsn : dictGet s.meanSnr x.1 with
    | error e => rw [hsn] at hx; cases hx
    | ok snr =>
      rw [hsn, except_bind_ok] at hx
      split at hx
      · cases hx; cases hhl
      · cases hc : dictGet s.cont x.1 with
        | error e => rw [hc] at hx; cases hx
        | ok cont =>
          rw [hc, except_bind_ok] at hx
          cases hA : armHdu (setBlinding lya ClassState.init maxlastnight a) id (mr x.1) rsnr s x.1 x.2 snr cont with
          | error e => rw [hA] at hx; cases hx
          | ok o =>
            rw [hA, except_bind_ok] at hx
            cases hx
            obtain rfl := List.mem_singleton.mp hhl
            exact armHdu_cols h hA

theorem matchExposures_shared {coadds exposures res : List (Int × Spectrum K)} (h : ∀ e ∈ exposures, WeightsAreIvar e.2)
    (hr : matchExposures coadds exposures = .ok res) : ∀ r ∈ res, WeightsAreIvar r.2 := by
  intro r hrm
  obtain ⟨e, he, hre⟩ := forall₂_mem_right (mapM_ok_inv hr) hrm
  cases hc : coaddOf coadds e.1 with
  | error x => rw [hc] at hre; cases hre
  | ok c =>
    rw [hc, except_bind_ok] at hre
    cases hm : matchExposure c e.2 with
    | error x => rw [hm] at hre; cases hre
    | ok s =>
      rw [hm, except_bind_ok] at hre
      cases hre
      exact matchExposure_shared (h e he) hm

/-- **C72**, the part that holds. Full claim (the comment "assign cont, forest weight" in scripts/qsonic_fit.py:411): the
weights of the exposures are the weights of their continuum and the fitted var_lss, as for all other spectra. Proved:
for every exposure that is read after the fit, whatever was fitted, the weights that are used by the final cleaning and
written are equal to the ivar (pure ivar weights; `C72_refuted` for the claim). -/
theorem C72_partial (coadds exposures res : List (Int × Spectrum K)) (h : ∀ e ∈ exposures, WeightsAreIvar e.2)
    (hr : matchExposures coadds exposures = .ok res) (lya1 lya2 skip : K) (lya : K) (maxlastnight : Nat) (a : BlindArgs K)
    (meanReso : String → K) (rsnr : K) (id : Ident K) :
    ∀ r ∈ res, ∀ hdus, (r.2.dropShortArms lya1 lya2 skip).write (setBlinding lya ClassState.init maxlastnight a) id
        meanReso rsnr = .ok hdus →
      ∀ hdu ∈ hdus, ∃ v, hdu.cols.lookup "IVAR" = some v ∧ hdu.cols.lookup "WEIGHT" = some v := by
  intro r hrm hdus hw
  exact write_shared (dropShortArms_shared (matchExposures_shared h hr r hrm) _ _ _) hw

/-- **C72** is refuted in every pixel: for every exposure that is read after the fit, the weight of a pixel with signal is
larger than the one of the fitted var_lss and of the continuum the exposure was given. -/
theorem C72_refuted [IsStrictOrderedRing K] (coadds exposures res : List (Int × Spectrum K))
    (h : ∀ e ∈ exposures, WeightsAreIvar e.2) (hr : matchExposures coadds exposures = .ok res) (varlss eta : K → K)
    (hv : ∀ x, 0 < varlss x) (he : ∀ x, 1 ≤ eta x) :
    ∀ r ∈ res, ∀ (arm : String) (i : Nat) (w c v p : K), (r.2.fwave.arr arm)[i]? = some w → (r.2.cont.arr arm)[i]? = some c →
      (r.2.fivar.arr arm)[i]? = some v → (r.2.fweight.arr arm)[i]? = some p → 0 < v → c ≠ 0 →
      v / (eta w + v * (varlss w * c ^ 2)) < p := by
  intro r hrm arm i w c v p _ _ h3 h4 hv0 hc
  have hs := matchExposures_shared h hr r hrm
  have hwt : r.2.fweight = r.2.fivar := by
    unfold Spectrum.fweight Spectrum.fivarSm
    rw [hs.1, hs.2]
    rfl
  rw [hwt, h3] at h4
  obtain rfl := Option.some.inj h4
  have hc2 : 0 < c ^ 2 := by positivity
  have := mul_pos hv0 (mul_pos (hv w) hc2)
  have h1 : 1 < eta w + v * (varlss w * c ^ 2) := by linarith [he w]
  exact div_lt_self hv0 h1

/-- An exposure with the pixels of the fitted spectrum. -/
def expSame : Spectrum ℚ :=
  { Spectrum.blank 2 2 [] [] [] [] with
    fwave := [("B", [10, 12, 14, 16])]
    fflux := [("B", [1, 2, 3, 4])]
    fivar := [("B", [1, 1, 1, 1])]
    ivarSm := none
    weight := none }

example : WeightsAreIvar expSame ∧ (matchExposures [(7, expCoadd)] [(7, expSame)]).toOption.map (List.flatMap fun r =>
    r.2.fwave.arr "B" ++ r.2.cont.arr "B" ++ r.2.fivar.arr "B" ++ r.2.fweight.arr "B") =
      some [10, 12, 14, 16, 5, 6, 7, 8, 1, 1, 1, 1, 1, 1, 1, 1] := by
  exact ⟨⟨rfl, rfl⟩, by decide +kernel⟩

end Verif.Props

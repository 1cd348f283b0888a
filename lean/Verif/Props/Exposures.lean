import Verif.Proofs.Exposures
import Mathlib.Data.Rat.Floor

/-!
# Exposures get the continuum of the coadded spectrum (C63)
-/

namespace Verif.Props
open Verif.Model Verif.Np Verif.Spec Verif.Proofs

variable {K : Type} [Field K] [LinearOrder K] [FloorRing K] [IsStrictOrderedRing K]

theorem matchExposure_ok {dw ε : K} (hd : 0 < dw) (hε : ε < 1 / 2) {e c : Spectrum K} (h : Matches dw ε e c) :
    ∃ r, matchExposure c e = .ok r ∧
      (r.valid = true → ContFrom dw ε (Dict.keys e.fwave) c r) ∧
      ((∀ x ∈ e.fwave, Overlap dw x.2 (c.fwave.arr x.1)) →
        r.valid = c.valid ∧ PixelsFrom dw (Dict.keys e.fwave) c e r) := by
  obtain ⟨hdw, hn, hx⟩ := h
  have harr : ∀ x ∈ e.fwave, e.fwave.arr x.1 = x.2 := fun x hx => arr_of_lookup (lookup_of_mem hn hx)
  let idx : String → Nat × Int × Nat × Int := fun arm =>
    (matchIdx dw (e.fwave.arr arm) (c.fwave.arr arm)).toOption.getD (0, 0, 0, 0)
  have hidx0 : ∀ x ∈ e.fwave, ∀ (w0 : K) (a : Int) (δ : K) (n N : Nat), |δ| < 1 / 2 →
      x.2 = (List.range (n + 1)).map (fun i : Nat => w0 + ((a : K) + δ + (i : K)) * dw) →
      c.fwave.arr x.1 = (List.range (N + 1)).map (fun j : Nat => w0 + (j : K) * dw) →
      idx x.1 = ((-a).toNat, (n + 1 : Int) + min (N - n - a) 0, a.toNat, (N + 1 : Int) - max (N - n - a) 0) := by
    intro x hxm w0 a δ n N hδ hwe hwc
    change (matchIdx dw (e.fwave.arr x.1) (c.fwave.arr x.1)).toOption.getD (0, 0, 0, 0) = _
    rw [harr x hxm, hwe, hwc, matchIdx_ok hd hδ]
    rfl
  have hidx : ∀ x ∈ e.fwave, c.fwave.lookup x.1 = some (c.fwave.arr x.1) ∧
      c.cont.lookup x.1 = some (c.cont.arr x.1) ∧ matchIdx e.dwave x.2 (c.fwave.arr x.1) = .ok (idx x.1) := by
    intro x hxm
    obtain ⟨-, wc, cont, h1, h2, -, w0, a, δ, n, N, hδ, hwe, hwc⟩ := hx x hxm
    have e1 := arr_of_lookup h1
    have e2 := arr_of_lookup h2
    rw [e1, e2]
    refine ⟨h1, h2, ?_⟩
    have hm := matchIdx_ok (w0 := w0) (a := a) (n := n) (N := N) hd (hδ.trans_lt hε)
    rw [hidx0 x hxm w0 a δ n N (hδ.trans_lt hε) hwe (e1.trans hwc), hdw, hwe, hwc, hm]
  obtain ⟨r, r1, r2, -, r4⟩ := matchArms_ok c e.fwave hn
    { e with
      cont := []
      valid := c.valid
      chi2 := c.chi2
      x0 := c.x0 } (fun x hxm => ⟨harr x hxm, (hx x hxm).1⟩) idx (fun a => c.fwave.arr a) (fun a => c.cont.arr a) hidx
  dsimp only at r2 r4
  refine ⟨r, r1, ?_, ?_⟩
  · intro hv arm harm
    obtain ⟨x, hxm, rfl⟩ := List.mem_map.mp harm
    obtain ⟨hfl, wc, cont, h1, h2, hcl, w0, a, δ, n, N, hδ, hwe, hwc⟩ := hx x hxm
    obtain ⟨q1, -, q3⟩ := r2 x hxm
    have e1 := arr_of_lookup h1
    have e2 := arr_of_lookup h2
    have hi := hidx0 x hxm w0 a δ n N (hδ.trans_lt hε) hwe (e1.trans hwc)
    have hlen := (r4.mp hv).2 x hxm
    rw [q1, arr_of_lookup q3, e1, e2]
    rw [hi, e2] at hlen
    rw [hi]
    refine ⟨hlen, ?_⟩
    exact aligned hd hδ hwe hwc hcl _ _ hlen
  · intro ho
    have hcut : ∀ x ∈ e.fwave, (cutArm x.2 (e.fflux.arr x.1) (c.cont.arr x.1) (idx x.1)).wave.length =
        (cutArm x.2 (e.fflux.arr x.1) (c.cont.arr x.1) (idx x.1)).cont.length ∧
        ∀ p, p ∈ (cutArm x.2 (e.fflux.arr x.1) (c.cont.arr x.1) (idx x.1)).wave.zip
            (cutArm x.2 (e.fflux.arr x.1) (c.cont.arr x.1) (idx x.1)).flux ↔
          p ∈ x.2.zip (e.fflux.arr x.1) ∧ ∃ v ∈ c.fwave.arr x.1, |p.1 - v| < dw / 2 := by
      intro x hxm
      obtain ⟨hfl, wc, cont, h1, h2, hcl, w0, a, δ, n, N, hδ, hwe, hwc⟩ := hx x hxm
      have e1 := arr_of_lookup h1
      have e2 := arr_of_lookup h2
      have hi := hidx0 x hxm w0 a δ n N (hδ.trans_lt hε) hwe (e1.trans hwc)
      have hox := ho x hxm
      rw [e1] at hox ⊢
      rw [hi, e2]
      exact overlap_cut hd (hδ.trans_lt hε) hwe hwc hcl hox rfl rfl
    constructor
    · rw [Bool.eq_iff_iff, r4]
      exact ⟨fun h => h.1, fun h => ⟨h, fun x hxm => (hcut x hxm).1⟩⟩
    · intro arm harm p
      obtain ⟨x, hxm, rfl⟩ := List.mem_map.mp harm
      obtain ⟨q1, q2, -⟩ := r2 x hxm
      rw [q1, q2, harr x hxm]
      exact (hcut x hxm).2 p

/-- **C63**, the part that holds (`mpi_read_exposures_after`, scripts/qsonic_fit.py:412-442). Full claim: each exposure gets
the continuum values of its own target at its own wavelengths. Proved for all lists of exposures whose arms are
arms of the fitted spectrum and on its grid, up to a shift below half a pixel: every exposure keeps its target,
gets its continuum from a fitted spectrum of that target, and if it is valid at the end every value is that of its
wavelength. If its arms overlap with those of the fitted spectrum, it is valid if that is, and the pixels left are
those where the fitted spectrum has one, each with its own flux. Missing: an arm that the fitted spectrum does not have
makes the run fail (`C63_refuted`); ivar and weights of a cut arm get lost (`C63_ivar_refuted`). -/
theorem C63_partial {dw ε : K} (hd : 0 < dw) (hε : ε < 1 / 2) (coadds exposures : List (Int × Spectrum K))
    (h : ∀ e ∈ exposures, ∃ c, coadds.lookup e.1 = some c ∧ Matches dw ε e.2 c) :
    ∃ res, matchExposures coadds exposures = .ok res ∧
      List.Forall₂ (fun e r => r.1 = e.1 ∧ ∃ c, (e.1, c) ∈ coadds ∧
        (r.2.valid = true → ContFrom dw ε (Dict.keys e.2.fwave) c r.2) ∧
        ((∀ x ∈ e.2.fwave, Overlap dw x.2 (c.fwave.arr x.1)) →
          r.2.valid = c.valid ∧ PixelsFrom dw (Dict.keys e.2.fwave) c e.2 r.2)) exposures res := by
  induction exposures with
  | nil => exact ⟨[], rfl, .nil⟩
  | cons e es ih =>
    obtain ⟨res, h1, h2⟩ := ih (fun x hx => h x (.tail _ hx))
    obtain ⟨c, hc, hm⟩ := h e (.head _)
    obtain ⟨r, r1, r2, r3⟩ := matchExposure_ok hd hε hm
    have hco : coaddOf coadds e.1 = .ok c := by
      unfold coaddOf
      rw [hc]
    refine ⟨(e.1, r) :: res, ?_, .cons ⟨rfl, c, ?_, r2, r3⟩ h2⟩
    · unfold matchExposures at h1 ⊢
      rw [List.mapM_cons, hco, except_bind_ok, r1, except_bind_ok, except_bind_ok, h1]
      rfl
    · obtain ⟨l₁, l₂, hl, -⟩ := List.lookup_eq_some_iff.mp hc
      rw [hl]
      exact List.mem_append_right _ (.head _)

/-- An exposure that begins one pixel before the fitted spectrum and ends one pixel before its end. -/
def expCoadd : Spectrum ℚ :=
  { Spectrum.blank 2 2 [] [] [] [] with
    fwave := [("B", [10, 12, 14, 16])]
    fflux := [("B", [1, 1, 1, 1])]
    fivar := [("B", [1, 1, 1, 1])]
    cont := [("B", [5, 6, 7, 8])]
    ivarSm := none
    weight := none
    valid := true }

/-- See `expCoadd`. -/
def expSpec : Spectrum ℚ :=
  { Spectrum.blank 2 2 [] [] [] [] with
    fwave := [("B", [8, 10, 12, 14])]
    fflux := [("B", [1, 2, 3, 4])]
    fivar := [("B", [1, 1, 1, 1])]
    ivarSm := none
    weight := none }

example : Matches 2 0 expSpec expCoadd ∧ (∀ x ∈ expSpec.fwave, Overlap 2 x.2 (expCoadd.fwave.arr x.1)) ∧
    (matchExposure expCoadd expSpec).toOption.map (fun r =>
        (r.fwave.arr "B", r.fflux.arr "B", r.cont.arr "B", r.valid)) =
      some ([10, 12, 14], [2, 3, 4], [5, 6, 7], true) := by
  refine ⟨⟨rfl, by decide, ?_⟩, ?_, by decide +kernel⟩
  · intro x hx
    obtain rfl := List.mem_singleton.mp hx
    exact ⟨by decide, [10, 12, 14, 16], [5, 6, 7, 8], rfl, rfl, rfl, 10, -1, 0, 3, 3, by decide +kernel,
      by decide +kernel, by decide +kernel⟩
  · intro x hx
    obtain rfl := List.mem_singleton.mp hx
    exact ⟨10, by decide, 10, by decide, by decide +kernel⟩

/-- **C63** fails whenever an exposure has an arm that the fitted spectrum does not have: the run ends with `RuntimeError`
since the arm is deleted during the iteration over the arms. -/
theorem C63_refuted {dw ε : K} (hd : 0 < dw) (hε : ε < 1 / 2) (c e : Spectrum K) (l₁ l₂ : Dict (List K))
    (arm : String) (we : List K) (he : e.fwave = l₁ ++ (arm, we) :: l₂) (hc : c.fwave.lookup arm = none)
    (h₁ : Matches dw ε { e with fwave := l₁ } c) (hn : (Dict.keys e.fwave).Nodup) :
    matchExposure c e = .error .runtimeError := by
  obtain ⟨hdw, hn1, hx⟩ := h₁
  dsimp only at hdw hn1 hx
  have harr : ∀ x ∈ l₁, e.fwave.arr x.1 = x.2 := fun x hxm =>
    arr_of_lookup (lookup_of_mem hn (by rw [he]; exact List.mem_append_left _ hxm))
  let idx : String → Nat × Int × Nat × Int := fun a =>
    (matchIdx dw (e.fwave.arr a) (c.fwave.arr a)).toOption.getD (0, 0, 0, 0)
  have hidx : ∀ x ∈ l₁, c.fwave.lookup x.1 = some (c.fwave.arr x.1) ∧
      c.cont.lookup x.1 = some (c.cont.arr x.1) ∧ matchIdx e.dwave x.2 (c.fwave.arr x.1) = .ok (idx x.1) := by
    intro x hxm
    obtain ⟨-, wc, cont, h1, h2, -, w0, a, δ, n, N, hδ, hwe, hwc⟩ := hx x hxm
    have e1 := arr_of_lookup h1
    have e2 := arr_of_lookup h2
    have hm := matchIdx_ok (w0 := w0) (a := a) (n := n) (N := N) hd (hδ.trans_lt hε)
    rw [e1, e2]
    refine ⟨h1, h2, ?_⟩
    change _ = Except.ok ((matchIdx dw (e.fwave.arr x.1) (c.fwave.arr x.1)).toOption.getD (0, 0, 0, 0))
    rw [harr x hxm, e1, hdw, hwe, hwc, hm]
    rfl
  obtain ⟨t, r1, -⟩ := matchArms_ok c l₁ hn1
    { e with
      cont := []
      valid := c.valid
      chi2 := c.chi2
      x0 := c.x0 } (fun x hxm => ⟨harr x hxm, (hx x hxm).1⟩) idx (fun a => c.fwave.arr a) (fun a => c.cont.arr a) hidx
  unfold matchExposure
  rw [he]
  have := matchArms_missing c l₁ l₂ arm we _ t r1 hc
  rw [← he] at this ⊢
  exact this

/-- The exposure has an R arm, the fitted spectrum has not. -/
example : matchExposure expCoadd { expSpec with fwave := [("B", [8, 10, 12, 14]), ("R", [16])] } =
    .error .runtimeError := by
  refine C63_refuted (dw := 2) (ε := 0) (by decide) (by decide +kernel) _ _ [("B", [8, 10, 12, 14])] [] "R" [16] rfl
    rfl ⟨rfl, by decide, ?_⟩ (by decide)
  intro x hx
  obtain rfl := List.mem_singleton.mp hx
  exact ⟨by decide, [10, 12, 14, 16], [5, 6, 7, 8], rfl, rfl, rfl, 10, -1, 0, 3, 3, by decide +kernel,
    by decide +kernel, by decide +kernel⟩

/-- **C63** for the ivar of exposures that have to be cut: smoothed ivar and weights of an exposure are the same object
as its ivar, so that it is cut three times. Here a valid exposure with three pixels keeps the ivar of one. -/
theorem C63_ivar_refuted : ∃ r, matchExposure expCoadd expSpec = .ok r ∧ r.valid = true ∧
    (r.fwave.arr "B").length = 3 ∧ (r.cont.arr "B").length = 3 ∧ (r.fivar.arr "B").length = 1 := by
  have h : ∀ x : Except Err (Spectrum ℚ), (x.toOption.map (fun r => (r.valid, (r.fwave.arr "B").length,
      (r.cont.arr "B").length, (r.fivar.arr "B").length))) = some (true, 3, 3, 1) →
      ∃ r, x = .ok r ∧ r.valid = true ∧ (r.fwave.arr "B").length = 3 ∧ (r.cont.arr "B").length = 3 ∧
        (r.fivar.arr "B").length = 1 := by
    intro x hx
    cases x with
    | error e => simp [Except.toOption] at hx
    | ok r =>
      have := Option.some.inj hx
      simp only [Prod.mk.injEq] at this
      exact ⟨r, rfl, this⟩
  exact h _ (by decide +kernel)

end Verif.Props

import Verif.Model.Fiducial
import Verif.Props.MpiCalls
import Verif.Props.Interp
import Verif.Props.Spectrum
import Verif.Props.Calibration

/-!
# C83: fiducial mean flux and var_lss
-/

namespace Verif.Props
open Verif Verif.Model Verif.Np Verif.Proofs

variable {K : Type} [Field K] [LinearOrder K]

section read
variable {rtol atol : K}

theorem fiducialRead_exc {table : Option (Dict (List K))} {col : String} {e : Err}
    (h : fiducialRead rtol atol table col = .error e) : e.isException = true := by
  unfold fiducialRead at h
  split at h
  · cases h; rfl
  · split at h
    · cases h; rfl
    · unfold readGrid at h
      split at h
      · split at h
        · dsimp only [Except.bind] at h
          split at h
          · cases h; rfl
          · cases h
        · cases h; rfl
      · cases h; rfl

theorem fiducial_uniform {V W : Type} (c : Codec (Option (LinInterp K)) V) (called : W)
    (table : Nat → Option (Dict (List K))) (col : String) (n : Nat) :
    (∃ f, fiducialRead rtol atol (table 0) col = .ok f ∧
      runJob n (fun r => fiducialInterp c called rtol atol table col r) =
        (.done (List.replicate (n + 1) (.ok f)), [called] :: List.replicate n [])) ∨
    (∃ e, fiducialRead rtol atol (table 0) col = .error e ∧
      runJob n (fun r => fiducialInterp c called rtol atol table col r) =
        (.done (List.replicate (n + 1) (.error .qsonic)), [called] :: List.replicate n [])) := by
  have h := C04_bcast_uniform c called (fun r => fiducialRead rtol atol (table r) col)
    (fun e he => fiducialRead_exc he) n
  cases hf : fiducialRead rtol atol (table 0) col with
  | ok f => left; refine ⟨f, rfl, ?_⟩; rw [hf] at h; exact h
  | error e => right; refine ⟨e, rfl, ?_⟩; rw [hf] at h; exact h

/-- **C83.** Every rank gets the function of the file that the root read, from the column VAR_LSS or MEANFLUX, or every rank
raises `QsonicException`; no rank waits for ever. -/
theorem C83_uniform {V W : Type} (c : Codec (Option (LinInterp K)) V) (called : W) (wave1 wave2 : K)
    (table : Nat → Option (Dict (List K))) (n : Nat) :
    ((∃ f, fiducialRead rtol atol (table 0) "VAR_LSS" = .ok f ∧
      runJob n (fun r => fiducialVarlss c called rtol atol table r) =
        (.done (List.replicate (n + 1) (.ok f)), [called] :: List.replicate n [])) ∨
    (∃ e, fiducialRead rtol atol (table 0) "VAR_LSS" = .error e ∧
      runJob n (fun r => fiducialVarlss c called rtol atol table r) =
        (.done (List.replicate (n + 1) (.error .qsonic)), [called] :: List.replicate n []))) ∧
    ((∃ f, fiducialRead rtol atol (table 0) "MEANFLUX" = .ok f ∧
      runJob n (fun r => meanfluxInterp c called rtol atol wave1 wave2 true table r) =
        (.done (List.replicate (n + 1) (.ok f)), [called] :: List.replicate n [])) ∨
    (∃ e, fiducialRead rtol atol (table 0) "MEANFLUX" = .error e ∧
      runJob n (fun r => meanfluxInterp c called rtol atol wave1 wave2 true table r) =
        (.done (List.replicate (n + 1) (.error .qsonic)), [called] :: List.replicate n []))) :=
  ⟨fiducial_uniform c called table "VAR_LSS" n, fiducial_uniform c called table "MEANFLUX" n⟩

end read

section values
variable [IsStrictOrderedRing K] {rtol atol : K}

omit [IsStrictOrderedRing K] in
theorem readGrid_spec {waves : List K} {g : K × K} (h : readGrid rtol atol waves = .ok g) :
    ∃ w1, waves[0]? = some g.1 ∧ waves[1]? = some w1 ∧ g.2 = w1 - g.1 ∧
      ∀ (i : Nat) (a b : K), waves[i]? = some a → waves[i + 1]? = some b → |b - a - g.2| ≤ atol + rtol * |g.2| := by
  unfold readGrid at h
  split at h
  · next w0 w1 l =>
    split at h
    · next hall =>
      cases h
      refine ⟨w1, rfl, rfl, rfl, ?_⟩
      intro i a b ha hb
      rw [List.all_eq_true] at hall
      have : (List.zipWith (fun a b => b - a) (w0 :: w1 :: l) (w0 :: w1 :: l).tail)[i]? = some (b - a) := by
        rw [List.getElem?_zipWith, ha, List.getElem?_tail, hb]
      simpa using hall _ (List.mem_of_getElem? this)
    · cases h
  · cases h

/-- **C83.** The function of an accepted file has the values of the table at positions that are off by at most the
tolerance times the number of the row from the wavelengths in the file. -/
theorem C83_table [FloorRing K] {t : Dict (List K)} {col : String} {f : LinInterp K}
    (h : fiducialRead rtol atol (some t) col = .ok f) (hd : 0 < f.dxp) (h2 : 2 ≤ f.fp.length) {waves data : List K}
    (hw : t.lookup "LAMBDA" = some waves) (hc : t.lookup col = some data) {i : Nat} {a y : K} (ha : waves[i]? = some a)
    (hy : data[i]? = some y) :
    f.eval (f.xp0 + i * f.dxp) = some y ∧ |a - (f.xp0 + i * f.dxp)| ≤ i * (atol + rtol * f.dxp) := by
  unfold fiducialRead at h
  dsimp only at h
  rw [hw] at h
  dsimp only at h
  rw [hc] at h
  cases hg : readGrid rtol atol waves with
  | error e => rw [hg] at h; cases h
  | ok g =>
    rw [hg] at h
    cases h
    obtain ⟨w1, e0, -, -, hs⟩ := readGrid_spec hg
    refine ⟨C41_nodes hd h2 hy, ?_⟩
    dsimp only at hd ⊢
    rw [abs_of_pos hd] at hs
    clear hy
    induction i generalizing a with
    | zero =>
      rw [e0] at ha
      cases ha
      simp
    | succ i ih =>
      have hi : i < waves.length := by
        have := (List.getElem?_eq_some_iff.mp ha).1
        omega
      have h1 := ih (List.getElem?_eq_getElem hi)
      have h3 := hs i _ _ (List.getElem?_eq_getElem hi) ha
      have : a - (g.1 + ((i + 1 : Nat) : K) * g.2) = (a - waves[i] - g.2) + (waves[i] - (g.1 + i * g.2)) := by
        push_cast; ring
      rw [this]
      calc _ ≤ _ := abs_add_le _ _
        _ ≤ (atol + rtol * g.2) + i * (atol + rtol * g.2) := add_le_add h3 h1
        _ = _ := by push_cast; ring

/-- **C83.** Without a file the mean flux is one at all wavelengths. -/
theorem C83_default [FloorRing K] {V W : Type} (c : Codec (Option (LinInterp K)) V) (called : W) {wave1 wave2 : K}
    (h : wave1 < wave2) (table : Nat → Option (Dict (List K))) (rank : Nat) :
    ∃ f, meanfluxInterp c called rtol atol wave1 wave2 false table rank = .ret f ∧ ∀ x, f.eval x = some 1 := by
  refine ⟨_, rfl, fun x => ?_⟩
  have := C41_linear (f := defaultMeanflux wave1 wave2) (a := 1) (b := 0) (sub_pos.mpr h) (by simp [defaultMeanflux])
    (fun k y hk => by
      have := List.mem_of_getElem? hk
      simp [defaultMeanflux] at this
      rw [this]; ring) x
  rw [this]
  congr 1
  ring

/-- A table of values that are not negative gives such values between its ends. -/
theorem eval_nonneg [FloorRing K] {f : LinInterp K} (hd : 0 < f.dxp) (h2 : 2 ≤ f.fp.length) (hp : ∀ y ∈ f.fp, 0 ≤ y)
    {x : K} (hl : f.xp0 ≤ x) (hu : x ≤ f.xp0 + ((f.fp.length : K) - 1) * f.dxp) : 0 ≤ asFun f.eval x := by
  obtain ⟨k, hk, hlt⟩ := interpIdx_nat h2 ((x - f.xp0) / f.dxp)
  have hi := interpIdx_eq h2 ((x - f.xp0) / f.dxp)
  rw [hk] at hi
  have x0 : 0 ≤ (x - f.xp0) / f.dxp := div_nonneg (by linarith) hd.le
  have x1 : (x - f.xp0) / f.dxp ≤ (f.fp.length : K) - 1 := by rw [div_le_iff₀ hd]; linarith
  have f0 : 0 ≤ ⌊(x - f.xp0) / f.dxp⌋ := Int.floor_nonneg.mpr x0
  have a : (k : K) ≤ (x - f.xp0) / f.dxp := by
    have : (k : Int) ≤ ⌊(x - f.xp0) / f.dxp⌋ := by omega
    exact_mod_cast Int.le_floor.mp this
  have b : (x - f.xp0) / f.dxp ≤ k + 1 := by
    rcases lt_or_ge (⌊(x - f.xp0) / f.dxp⌋) ((f.fp.length : Int) - 1) with hf | hf
    · have : ⌊(x - f.xp0) / f.dxp⌋ < (k : Int) + 1 := by omega
      have := Int.floor_lt.mp this
      push_cast at this
      exact this.le
    · have : (f.fp.length : Int) = k + 2 := by omega
      have : (f.fp.length : K) = k + 2 := by exact_mod_cast this
      linarith
  rw [le_div_iff₀ hd] at a
  rw [div_le_iff₀ hd] at b
  obtain ⟨y, hy, hm, -, -⟩ := C41_between hd (k := k) (x := x)
    (List.getElem?_eq_getElem (show k < f.fp.length by omega)) (List.getElem?_eq_getElem hlt)
    (by linarith) (by linarith)
  unfold asFun
  rw [hy]
  exact le_trans (le_min (hp _ (List.getElem_mem _)) (hp _ (List.getElem_mem _))) hm

/-- **C83.** Where the table of var_lss covers the forest and is not negative, the weights of a spectrum with continuum are
those of an inverse variance: not negative, zero only for masked pixels, at most the ivar. -/
theorem C83_weights_partial [FloorRing K] {f : LinInterp K} (hd : 0 < f.dxp) (h2 : 2 ≤ f.fp.length)
    (hp : ∀ y ∈ f.fp, 0 ≤ y) {s : Spectrum K} (hval : s.valid = true) (hc : s.cont ≠ []) {arm : String} {wave : List K}
    (hw : s.fwave.lookup arm = some wave) (hcl : (s.cont.arr arm).length = wave.length)
    (hvl : (s.fivarSm.arr arm).length = wave.length) (hv : ∀ v ∈ s.fivarSm.arr arm, 0 ≤ v)
    (hin : ∀ w ∈ wave, f.xp0 ≤ w ∧ w ≤ f.xp0 + ((f.fp.length : K) - 1) * f.dxp) :
    ∃ wt, (s.setForestWeight (asFun f.eval) (fun _ => 1)).fweight.lookup arm = some wt ∧ wt.length = wave.length ∧
      ∀ (i : Nat) x v, wt[i]? = some x → (s.fivarSm.arr arm)[i]? = some v → 0 ≤ x ∧ (x = 0 ↔ v = 0) ∧ x ≤ v := by
  obtain ⟨wt, e, hl, h⟩ := C25_weight hval hc hw hcl hvl hv (eta := fun _ => 1) (varlss := asFun f.eval)
    (fun _ _ => one_pos) (fun w hw => eval_nonneg hd h2 hp (hin w hw).1 (hin w hw).2)
  refine ⟨wt, e, hl, ?_⟩
  intro i x v hx hiv
  have hi := (List.getElem?_eq_some_iff.mp hx).1
  obtain ⟨x', hx', h1, h2, h3, -⟩ := h i _ _ v (List.getElem?_eq_getElem (by omega))
    (List.getElem?_eq_getElem (by omega)) hiv
  rw [hx] at hx'
  cases hx'
  exact ⟨h1, h2, by simpa using h3⟩

/-- **C83.** Outside of the table: if its first two values rise, there is a wavelength below its first one where a pixel with
positive ivar gets a negative weight, for any ivar and any continuum that is not zero. -/
theorem C83_weights_refuted [FloorRing K] {f : LinInterp K} (hd : 0 < f.dxp) {y1 y2 : K} (h1 : f.fp[0]? = some y1)
    (h2 : f.fp[1]? = some y2) (hy : 0 ≤ y1) (hr : y1 < y2) {v c : K} (hv : 0 < v) (hc : c ≠ 0) :
    ∃ x < f.xp0, Spectrum.pixelWeight (asFun f.eval x) 1 c v = -v := by
  have hc2 : 0 < c ^ 2 := by positivity
  have hs : 0 < (y2 - y1) / f.dxp := div_pos (sub_pos.mpr hr) hd
  have hlt : -(2 / (v * c ^ 2)) < y1 := by
    have : 0 < 2 / (v * c ^ 2) := by positivity
    linarith
  refine ⟨f.xp0 - (y1 + 2 / (v * c ^ 2)) / ((y2 - y1) / f.dxp), ?_, ?_⟩
  · have : 0 < (y1 + 2 / (v * c ^ 2)) / ((y2 - y1) / f.dxp) := div_pos (by linarith) hs
    linarith
  · have e := (C41_outside hd (x := f.xp0 - (y1 + 2 / (v * c ^ 2)) / ((y2 - y1) / f.dxp))).1 y1 y2 h1 h2 (by
      have : 0 < (y1 + 2 / (v * c ^ 2)) / ((y2 - y1) / f.dxp) := div_pos (by linarith) hs
      linarith)
    have hval : asFun f.eval (f.xp0 - (y1 + 2 / (v * c ^ 2)) / ((y2 - y1) / f.dxp)) = -(2 / (v * c ^ 2)) := by
      unfold asFun
      rw [e, Option.getD_some]
      generalize (y2 - y1) / f.dxp = q at hs ⊢
      have : q * (f.xp0 - (y1 + 2 / (v * c ^ 2)) / q - f.xp0) = -(y1 + 2 / (v * c ^ 2)) := by
        have hq : q ≠ 0 := hs.ne'
        generalize y1 + 2 / (v * c ^ 2) = r
        field_simp
        ring
      rw [this]
      ring
    rw [hval]
    unfold Spectrum.pixelWeight
    have : 1 + v * (-(2 / (v * c ^ 2)) * c ^ 2) = -1 := by field_simp; ring
    rw [this, div_neg, div_one]

/-- A file that is accepted, on three ranks; a file without the column is refused on all. -/
example : (runJob 2 (fun r => fiducialVarlss (W := Unit) (Codec.refl (Option (LinInterp ℚ))) () 0 0 (fun _ =>
    some [("LAMBDA", [3700, 3800, 3900]), ("VAR_LSS", [1 / 10, 2 / 10, 1 / 10])]) r)).2 = [[()], [], []] ∧
    (fiducialRead (K := ℚ) 0 0 (some [("LAMBDA", [3700, 3800, 3900]), ("VAR_LSS", [1 / 10, 2 / 10, 1 / 10])])
      "VAR_LSS").toOption.map (fun f => (f.xp0, f.dxp, f.fp)) = some (3700, 100, [1 / 10, 2 / 10, 1 / 10]) ∧
    (fiducialRead (K := ℚ) 0 0 (some [("LAMBDA", [3700, 3800, 3901]), ("VAR_LSS", [1 / 10, 2 / 10, 1 / 10])])
      "VAR_LSS").toOption.map (fun f => (f.xp0, f.dxp, f.fp)) = none ∧
    (fiducialRead (K := ℚ) 0 0 (some [("LAMBDA", [3700, 3800, 3900])])
      "VAR_LSS").toOption.map (fun f => (f.xp0, f.dxp, f.fp)) = none := by
  decide +kernel

/-- With this table, at 3500 Angstrom, var_lss is -0.1, and a pixel with ivar 100 and continuum 1 gets the weight -100/9. -/
example : asFun (LinInterp.eval (⟨3700, 100, [1 / 10, 2 / 10, 1 / 10]⟩ : LinInterp ℚ)) 3500 = -1 / 10 ∧
    Spectrum.pixelWeight (-1 / 10 : ℚ) 1 1 100 = -100 / 9 := by
  decide +kernel

/-- A spectrum inside of this table. -/
def c83Spec : Spectrum ℚ :=
  { Spectrum.blank 2 1 [] [] [] [] with
    fwave := [("B", [3700, 3750, 3900])], fflux := [("B", [1, 1, 1])], fivar := [("B", [1, 0, 4])], ivarSm := none,
    weight := none, cont := [("B", [1, 2, 3])], valid := true }

/-- The hypotheses of `C83_weights_partial`. -/
example : c83Spec.valid = true ∧ c83Spec.cont ≠ [] ∧ c83Spec.fwave.lookup "B" = some [3700, 3750, 3900] ∧
    (c83Spec.cont.arr "B").length = 3 ∧ (c83Spec.fivarSm.arr "B").length = 3 ∧ (∀ v ∈ c83Spec.fivarSm.arr "B", 0 ≤ v) ∧
    (∀ w ∈ [3700, 3750, 3900], (3700 : ℚ) ≤ w ∧ w ≤ 3700 + ((3 : ℚ) - 1) * 100) := by
  decide +kernel

end values
end Verif.Props

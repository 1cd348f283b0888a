import Verif.Model.DeltaFl
import Verif.Props.StackFl
import Verif.Proofs.Interp

/-!
# C126: numbers in the deltas
-/

namespace Verif.Props
open Verif Verif.Np Verif.Model Verif.Spec Verif.Proofs

variable {K : Type} [Field K] [LinearOrder K] [IsStrictOrderedRing K]

/-- **C126, part.** If flux, inverse variance and continuum are numbers (the continuum may be zero or negative) and the
variance is positive, the table has numbers only: delta is `flux / cont - 1`, and a pixel with continuum zero is masked: it has
delta, ivar and weight zero. Reading changes nothing. `v` is the inverse variance, `p.ivar` the smoothed one of the weight. Missing: a NaN in
the stack (`C126_normalized_refuted`) or an infinite inverse variance (`C126_infinite_ivar_refuted`). -/
theorem C126_partial {varlss eta : K → K} {p : NPix K} (hi : 0 ≤ p.ivar) (he : 0 < eta p.wave) (hv : 0 ≤ varlss p.wave)
    (v : K) :
    let r := writeRow p.wave (.fin p.flux) (.fin v) (p.fl.wt varlss eta) (.fin p.cont)
    readRow r = r ∧ r.cont = .fin p.cont ∧ r.ivar = .fin (v * p.cont ^ 2) ∧ r.weight = .fin (p.w varlss eta) ∧
    (v * p.cont ^ 2 ≠ 0 → r.delta = .fin (p.flux / p.cont - 1)) ∧
    (p.cont = 0 → r.delta = .fin 0 ∧ r.ivar = .fin 0 ∧ r.weight = .fin 0) ∧
    (v = 0 → r.delta = .fin 0 ∧ r.ivar = .fin 0) := by
  intro r
  have hd : eta p.wave + p.ivar * (varlss p.wave * (p.cont * p.cont)) ≠ 0 :=
    (add_pos_of_pos_of_nonneg he (mul_nonneg hi (mul_nonneg hv (mul_self_nonneg _)))).ne'
  have hiv : r.ivar = .fin (v * p.cont ^ 2) := by
    simp only [r, writeRow, Fl.mul, pow_two]
  have hwt : r.weight = .fin (p.w varlss eta) := by
    simp only [r, writeRow, FlPix.wt, NPix.fl, NPix.w, Fl.mul, Fl.add, Fl.div]
    rw [if_neg hd]
    simp only [Fl.mul, pow_two]
  have hdl : v * p.cont ^ 2 = 0 → r.delta = .fin 0 := by
    intro h
    change maskDelta _ r.ivar = _
    rw [hiv, h]
    unfold maskDelta
    rw [if_pos rfl]
  refine ⟨?_, rfl, hiv, hwt, fun hne => ?_, fun hc => ⟨hdl (by rw [hc]; ring), ?_, ?_⟩, fun hv0 => ⟨hdl (by rw [hv0, zero_mul]), ?_⟩⟩
  · have : maskDelta r.delta r.ivar = r.delta := by
      unfold maskDelta
      split
      · next h => rw [hiv] at h; exact (hdl (Fl.fin.inj h)).symm
      · rfl
    unfold readRow
    rw [this]
  · change maskDelta _ r.ivar = _
    rw [hiv]
    unfold maskDelta
    have hc : p.cont ≠ 0 := by rintro hc; exact hne (by rw [hc]; ring)
    rw [if_neg (fun h => hne (Fl.fin.inj h))]
    simp only [Fl.div]
    rw [if_neg hc]
    simp only [Fl.add, sub_eq_add_neg]
  · rw [hiv, hc]; congr 1; ring
  · rw [hwt]; unfold NPix.w; rw [hc]; congr 1; ring
  · rw [hiv, hv0, zero_mul]

/-- **C126, part.** With numbers, the stack of qsonic-calib is the weighted mean of `1 + delta` where there is weight. -/
theorem C126_calib_partial {α : Type} (row : α → FlRow K) (d w : α → K) (l : List α)
    (h : ∀ a ∈ l, (row a).delta = .fin (d a) ∧ (row a).weight = .fin (w a)) :
    calibPixel (l.map row) = .fin (wmean (fun a => 1 + d a) w l) := by
  have e1 : (l.map row).map (fun r => Fl.mul (Fl.add (.fin 1) r.delta) r.weight) =
      l.map (fun a => Fl.fin (w a * (1 + d a))) := by
    rw [List.map_map]
    refine List.map_congr_left fun a ha => ?_
    dsimp only [Function.comp]
    rw [(h a ha).1, (h a ha).2]
    simp only [Fl.add, Fl.mul, mul_comm]
  have e2 : (l.map row).map (·.weight) = l.map (fun a => Fl.fin (w a)) := by
    rw [List.map_map]
    exact List.map_congr_left fun a ha => (h a ha).2
  unfold calibPixel wmean
  dsimp only
  rw [e1, e2, Fl.sum_fin, Fl.sum_fin]
  by_cases h0 : 0 < (l.map w).sum
  · rw [if_pos (by simpa [Fl.lt] using h0), if_pos h0]
    simp only [Fl.div]
    rw [if_neg h0.ne']
  · rw [if_neg (by simpa [Fl.lt] using h0), if_neg h0]

omit [IsStrictOrderedRing K] in
theorem mul_nan (a : Fl K) : Fl.mul a .nan = .nan := by cases a <;> rfl

omit [IsStrictOrderedRing K] in
theorem nan_mul (a : Fl K) : Fl.mul .nan a = .nan := by cases a <;> rfl

omit [IsStrictOrderedRing K] in
theorem writeRow_nan (w : K) (flux ivar weight : Fl K) : writeRow w flux ivar weight .nan = ⟨w, .nan, .nan, .nan, .nan⟩ := by
  have h : Fl.div flux .nan = .nan := by cases flux <;> rfl
  unfold writeRow maskDelta
  simp only [h, Fl.nan_add, mul_nan]
  rw [if_neg (by simp)]

/-- **C126.** It fails with `--normalize-stacked-flux` and a continuum that is zero in one pixel `p` of one quasar: in every
quasar on every rank, all pixels between the centers next to that of the bin of `p` are written as NaN, also masked ones,
and no row is masked when the table is read. -/
theorem C126_normalized_refuted [FloorRing K] {w1 w2 dw r1 r2 dr : K} (C : FlStackCfg K)
    (ho : linGrid w1 w2 dw = .ok C.obs) (hw : w1 < w2) (hr : linGrid r1 r2 dr = .ok C.rf) (hrw : r1 < r2) (sqrt : K → K)
    (ranks : List (List (FlSpec K))) {z : K} {p : FlPix K} (hp : (z, p) ∈ flPixels ranks.flatten) {f v : K}
    (hf : p.flux = .fin f) (hi : p.ivar = .fin v) (hc : p.cont = .fin 0) (he : C.eta p.wave ≠ 0) (h1 : w1 ≤ p.wave)
    (h2 : r1 ≤ p.wave / (1 + z)) {k : Nat} (hk : k + 1 < C.obs.n) {j : Nat} (hj : j = k ∨ j = k + 1)
    (hin : InStackCell w1 w2 C.obs.n j p.wave) {e : Fl K}
    (hep : (C.calculate sqrt (ranks.map C.stack)).ep[j]? = some e) (hpos : Fl.lt (.fin 0) e = true) {x : K}
    (hx0 : C.obs.x0 + k * C.obs.dx ≤ x) (hx1 : x < C.obs.x0 + (k + 1) * C.obs.dx) (flux ivar weight cont : Fl K) :
    ∃ c, normCont C.obs (C.calculate sqrt (ranks.map C.stack)).fp x cont = some c ∧
      readRow (writeRow x flux ivar weight c) = ⟨x, .nan, .nan, .nan, .nan⟩ := by
  have hjn : j < C.obs.n := by omega
  have hst := (C125_zero_continuum_refuted C ho hw hr hrw sqrt ranks hp hf hi hc he h1 h2).1 j hjn hin e hep hpos
  have hlen : (C.calculate sqrt (ranks.map C.stack)).fp.length = C.obs.n := by
    unfold FlStackCfg.calculate FlStackCfg.divPos FlStackCfg.sumArrays
    simp
  generalize (C.calculate sqrt (ranks.map C.stack)).fp = fp at hst hlen
  have hd := dx_pos ho hw
  have hidx : interpIdx fp.length ((x - C.obs.x0) / C.obs.dx) = (k : Int) := by
    rw [hlen]
    refine interpIdx_segment hk ?_ ?_
    · rw [le_div_iff₀ hd]; linarith
    · rw [div_lt_iff₀ hd]; linarith
  have hk0 : k < fp.length := by omega
  have hk1 : k + 1 < fp.length := by omega
  have hev : evalLinFl x C.obs.x0 C.obs.dx fp = some .nan := by
    unfold evalLinFl
    dsimp only
    rw [hidx, if_neg (by omega), Int.toNat_natCast, show ((k : Int) + 1).toNat = k + 1 by omega,
      List.getElem?_eq_getElem hk0, List.getElem?_eq_getElem hk1]
    simp only [Option.bind_some, Option.map_some]
    rcases hj with rfl | rfl
    · rw [List.getElem?_eq_getElem hk0] at hst
      rw [Option.some.inj hst, nan_mul, Fl.nan_add]
    · rw [List.getElem?_eq_getElem hk1] at hst
      rw [Option.some.inj hst, nan_mul, Fl.add_nan]
  refine ⟨.nan, ?_, ?_⟩
  · unfold normCont
    rw [hev, Option.map_some, mul_nan]
  · rw [writeRow_nan]
    unfold readRow maskDelta
    simp

/-- **C126.** It fails for an infinite inverse variance: with `varlss > 0` the weight written is NaN and is not masked, and
qsonic-calib has no flux in the pixel, whatever the other deltas there are. -/
theorem C126_infinite_ivar_refuted {varlss eta : K → K} {p : FlPix K} {f c : K} (hf : p.flux = .fin f) (hi : p.ivar = .pinf)
    (hc : p.cont = .fin c) (hc0 : c ≠ 0) (hv : 0 < varlss p.wave) (others : List (FlRow K)) :
    let r := readRow (writeRow p.wave p.flux p.ivar (p.wt varlss eta) p.cont)
    r.delta = .fin (f / c - 1) ∧ r.ivar = .pinf ∧ r.weight = .nan ∧ calibPixel (r :: others) = .fin 0 := by
  intro r
  have h1 : 0 < varlss p.wave * (c * c) := mul_pos hv (mul_self_pos.mpr hc0)
  have h2 : 0 < c * c := mul_self_pos.mpr hc0
  have hw : r.weight = .nan := by
    change Fl.mul (p.wt varlss eta) _ = _
    unfold FlPix.wt
    rw [hi, hc]
    simp only [Fl.mul, Fl.infMul]
    rw [if_pos h1]
    simp only [Fl.add, Fl.div, Fl.mul]
  refine ⟨?_, ?_, hw, ?_⟩
  · change maskDelta (maskDelta _ _) (Fl.mul _ _) = _
    rw [hf, hi, hc]
    simp only [Fl.mul, Fl.infMul, if_pos h2, maskDelta, reduceCtorEq, if_false, Fl.div, if_neg hc0, Fl.add, sub_eq_add_neg]
  · change Fl.mul _ _ = _
    rw [hi, hc]
    simp only [Fl.mul, Fl.infMul, if_pos h2]
  · unfold calibPixel
    dsimp only
    have : Fl.sum ((r :: others).map (·.weight)) = .nan := Fl.sum_nan (List.mem_map.mpr ⟨r, List.mem_cons_self, hw⟩)
    rw [this]
    rfl

/-- Rows with numbers, masked by the continuum, and with an infinite inverse variance. -/
example :
    (writeRow (3303 : ℚ) (.fin 3) (.fin 2) ((NPix.fl ⟨3303, 3, 2, 2⟩).wt (fun _ => 1) (fun _ => 1)) (.fin 2)).delta =
      .fin (1 / 2) ∧
    (writeRow (3303 : ℚ) (.fin 3) (.fin 2) ((NPix.fl ⟨3303, 3, 2, 0⟩).wt (fun _ => 1) (fun _ => 1)) (.fin 0)).delta =
      .fin 0 ∧
    (writeRow (3303 : ℚ) (.fin 3) .pinf (FlPix.wt (fun _ => 1) (fun _ => 1) ⟨3303, .fin 3, .pinf, .fin 2⟩) (.fin 2)).weight =
      .nan ∧
    calibPixel [⟨3303, .fin 1, .fin 1, .fin 1, .fin (1 : ℚ)⟩, ⟨3303, .fin 2, .fin 3, .fin 3, .fin 1⟩] =
      .fin (11 / 4) := by
  decide +kernel

/-- The hypotheses of `C126_normalized_refuted` with `k = 0`: `3308` lies between the first two centers, and the first bin
has the zero continuum. -/
example : linGrid (3300 : ℚ) 3332 8 = .ok c125Cfg.obs ∧ linGrid (1100 : ℚ) 1120 10 = .ok c125Cfg.rf ∧
    InStackCell 3300 3332 c125Cfg.obs.n 0 (3302 : ℚ) ∧ (c125Cfg.calculate id
      ([[flSpec c125Good], [c125Zero]].map c125Cfg.stack)).ep[0]? = some (.fin (1 / 2)) ∧
    c125Cfg.obs.x0 + (0 : ℕ) * c125Cfg.obs.dx ≤ 3308 ∧ 3308 < c125Cfg.obs.x0 + ((0 : ℕ) + 1) * c125Cfg.obs.dx ∧
    normCont c125Cfg.obs (c125Cfg.calculate id ([[flSpec c125Good], [c125Zero]].map c125Cfg.stack)).fp 3308 (.fin 1) =
      some .nan ∧
    normCont c125Cfg.obs (c125Cfg.calculate id ([[flSpec c125Good], []].map c125Cfg.stack)).fp 3308 (.fin 1) =
      some (.fin (5 / 2)) := by
  decide +kernel

end Verif.Props

import Verif.Model.DeltaCoaddFl
import Verif.Props.DeltaFl
import Verif.Props.VarLssFl

/-!
# C129: special values when deltas are coadded
-/

namespace Verif.Props
open Verif Verif.Np Verif.Model Verif.Spec Verif.Proofs

variable {K : Type} [Field K] [LinearOrder K] [IsStrictOrderedRing K]

/-- A row of numbers. -/
structure NumRow (K : Type) where
  delta : K
  ivar : K
  weight : K
  cont : K

/-- The row of the table. -/
def NumRow.fl (wave : K) (r : NumRow K) : FlRow K := ⟨wave, .fin r.delta, .fin r.ivar, .fin r.weight, .fin r.cont⟩

/-- The variance where there is weight. -/
def NumRow.v (r : NumRow K) : K := if 0 < r.weight ∧ 0 < r.ivar then 1 / r.ivar else 0

omit [IsStrictOrderedRing K] in
theorem var_fl (x : K) (r : NumRow K) : (r.fl x).var = .fin r.v := by
  unfold FlRow.var NumRow.fl NumRow.v
  simp only [Fl.lt, Bool.and_eq_true, decide_eq_true_eq]
  split_ifs with h
  · simp only [Fl.div, if_neg h.2.ne']
  · rfl

omit [IsStrictOrderedRing K] in
theorem quot_fin (a n : K) : FlRow.quot (.fin a) (.fin n) = .fin (if 0 < n then a / n else a) := by
  unfold FlRow.quot
  simp only [Fl.lt, decide_eq_true_eq]
  split_ifs with h
  · simp only [Fl.div, if_neg h.ne']
  · rfl

/-- The sum of a row of numbers. -/
theorem sum_fl (x : K) (l : List (NumRow K)) {g : FlRow K → Fl K} {f : NumRow K → K}
    (h : ∀ r, g (r.fl x) = .fin (f r)) : Fl.sum ((l.map (NumRow.fl x)).map g) = .fin (l.map f).sum := by
  rw [List.map_map, ← Fl.sum_fin]
  congr 1
  exact List.map_congr_left fun r _ => h r

/-- C129. Rows of numbers with weights between zero and the inverse variance give a row of numbers: where the sum of the
weights is positive, delta and continuum are the weighted means, the inverse variance is that of the mean, and the weight
is positive and at most the inverse variance; else all are zero. There is no division by zero. What is missing: weights
above the inverse variance (`C129_eta_refuted`), rows that are not numbers (`C129_nan_refuted`). -/
theorem C129_partial (x : K) (l : List (NumRow K)) (h : ∀ r ∈ l, 0 ≤ r.weight ∧ r.weight ≤ r.ivar) :
    (0 < (l.map (fun r => r.weight)).sum → ∃ i w, FlRow.coRow x (l.map (NumRow.fl x)) =
      ⟨x, .fin ((l.map (fun r => r.weight * r.delta)).sum / (l.map (fun r => r.weight)).sum), .fin i, .fin w,
        .fin ((l.map (fun r => r.weight * r.cont)).sum / (l.map (fun r => r.weight)).sum)⟩ ∧
      i * ((l.filter (fun r => decide (0 < r.weight))).map (fun r => r.weight ^ 2 / r.ivar)).sum =
        (l.map (fun r => r.weight)).sum ^ 2 ∧ 0 < w ∧ w ≤ i) ∧
    (¬ 0 < (l.map (fun r => r.weight)).sum →
      FlRow.coRow x (l.map (NumRow.fl x)) = ⟨x, .fin 0, .fin 0, .fin 0, .fin 0⟩) := by
  have eN : FlRow.coNorm (l.map (NumRow.fl x)) = .fin (l.map (fun r => r.weight)).sum := sum_fl x l fun r => rfl
  have eD : FlRow.coDelta (l.map (NumRow.fl x)) = .fin (if 0 < (l.map (fun r => r.weight)).sum then
      (l.map (fun r => r.weight * r.delta)).sum / (l.map (fun r => r.weight)).sum else
      (l.map (fun r => r.weight * r.delta)).sum) := by
    unfold FlRow.coDelta
    rw [eN, sum_fl x l (f := fun r => r.weight * r.delta) fun r => rfl, quot_fin]
  have eC : FlRow.coCont (l.map (NumRow.fl x)) = .fin (if 0 < (l.map (fun r => r.weight)).sum then
      (l.map (fun r => r.weight * r.cont)).sum / (l.map (fun r => r.weight)).sum else
      (l.map (fun r => r.weight * r.cont)).sum) := by
    unfold FlRow.coCont
    rw [eN, sum_fl x l (f := fun r => r.weight * r.cont) fun r => rfl, quot_fin]
  have eL : FlRow.coLss (l.map (NumRow.fl x)) = .fin (if 0 < (l.map (fun r => r.weight)).sum then
      (l.map (fun r => 1 - r.weight * r.v)).sum / (l.map (fun r => r.weight)).sum else
      (l.map (fun r => 1 - r.weight * r.v)).sum) := by
    unfold FlRow.coLss
    rw [eN, sum_fl x l (f := fun r => 1 - r.weight * r.v) fun r => ?_, quot_fin]
    rw [var_fl]
    simp only [NumRow.fl, Fl.mul, Fl.add]
    congr 1
    ring
  have eV : Fl.sum ((l.map (NumRow.fl x)).map (fun r => Fl.mul (Fl.mul r.weight r.weight) r.var)) =
      .fin (l.map (fun r => r.weight ^ 2 * r.v)).sum := by
    refine sum_fl x l fun r => ?_
    rw [var_fl]
    simp only [NumRow.fl, Fl.mul, pow_two]
  constructor
  · intro hW
    have hV : (l.map (fun r => r.weight ^ 2 * r.v)).sum =
        ((l.filter (fun r => decide (0 < r.weight))).map (fun r => r.weight ^ 2 / r.ivar)).sum := by
      clear eN eD eC eL eV hW
      induction l with
      | nil => rfl
      | cons r l ih =>
        rw [List.map_cons, List.sum_cons, ih (fun q hq => h q (List.mem_cons_of_mem _ hq)), List.filter_cons]
        obtain ⟨h1, h2⟩ := h r List.mem_cons_self
        by_cases hr : 0 < r.weight
        · rw [if_pos (by simpa using hr), List.map_cons, List.sum_cons]
          unfold NumRow.v
          rw [if_pos ⟨hr, hr.trans_le h2⟩]
          congr 1
          ring
        · rw [if_neg (by simpa using hr), show r.weight = 0 from le_antisymm (not_lt.mp hr) h1]
          ring
    have hVpos : 0 < ((l.filter (fun r => decide (0 < r.weight))).map (fun r => r.weight ^ 2 / r.ivar)).sum := by
      obtain ⟨r, hr, hrw⟩ : ∃ r ∈ l, 0 < r.weight := by
        by_contra hne
        push Not at hne
        refine absurd (List.sum_eq_zero fun y hy => ?_) hW.ne'
        obtain ⟨r, hr, rfl⟩ := List.mem_map.mp hy
        exact le_antisymm (hne r hr) (h r hr).1
      have hmem : r.weight ^ 2 / r.ivar ∈
          (l.filter (fun r => decide (0 < r.weight))).map (fun r => r.weight ^ 2 / r.ivar) :=
        List.mem_map.mpr ⟨r, List.mem_filter.mpr ⟨hr, by simpa using hrw⟩, rfl⟩
      refine lt_of_lt_of_le (div_pos (pow_pos hrw 2) (hrw.trans_le (h r hr).2))
        (List.single_le_sum (fun y hy => ?_) _ hmem)
      obtain ⟨q, hq, rfl⟩ := List.mem_map.mp hy
      have hq' : 0 < q.weight := by simpa using (List.mem_filter.mp hq).2
      have : 0 < q.ivar := hq'.trans_le (h q (List.mem_filter.mp hq).1).2
      positivity
    have hL : 0 ≤ (l.map (fun r => 1 - r.weight * r.v)).sum := by
      refine List.sum_nonneg fun y hy => ?_
      obtain ⟨r, hr, rfl⟩ := List.mem_map.mp hy
      obtain ⟨h1, h2⟩ := h r hr
      unfold NumRow.v
      split_ifs with hp
      · rw [sub_nonneg, mul_one_div, div_le_one hp.2]
        exact h2
      · simp
    set W := (l.map (fun r => r.weight)).sum
    set V := ((l.filter (fun r => decide (0 < r.weight))).map (fun r => r.weight ^ 2 / r.ivar)).sum
    set L := (l.map (fun r => 1 - r.weight * r.v)).sum
    have hI : FlRow.coIvar (l.map (NumRow.fl x)) = .fin (W ^ 2 / V) := by
      unfold FlRow.coIvar
      dsimp only
      rw [eN, eV, hV]
      simp only [Fl.lt, decide_eq_true_eq, if_pos hW, Fl.mul, Fl.div, if_neg hVpos.ne', pow_two]
    have hi : 0 < W ^ 2 / V := by positivity
    have hd : 1 ≤ 1 + W ^ 2 / V * (L / W) := by
      have : 0 ≤ W ^ 2 / V * (L / W) := by positivity
      linarith
    refine ⟨W ^ 2 / V, (W ^ 2 / V) / (1 + W ^ 2 / V * (L / W)), ?_, by field_simp, by positivity, ?_⟩
    · unfold FlRow.coRow
      rw [eD, eC, eL, hI]
      simp only [if_pos hW, Fl.mul, Fl.add, Fl.div, if_neg (zero_lt_one.trans_le hd).ne']
    · exact div_le_self hi.le hd
  · intro hW
    have hz : ∀ r ∈ l, r.weight = 0 := by
      intro r hr
      have := List.single_le_sum (l := l.map (fun r => r.weight)) (fun y hy => by
        obtain ⟨q, hq, rfl⟩ := List.mem_map.mp hy; exact (h q hq).1) r.weight (List.mem_map_of_mem hr)
      exact le_antisymm (this.trans (not_lt.mp hW)) (h r hr).1
    have zero : ∀ f : NumRow K → K, (∀ r ∈ l, f r = 0) → (l.map f).sum = 0 := fun f hf =>
      List.sum_eq_zero fun y hy => by obtain ⟨r, hr, rfl⟩ := List.mem_map.mp hy; exact hf r hr
    have hI : FlRow.coIvar (l.map (NumRow.fl x)) = .fin 0 := by
      unfold FlRow.coIvar
      dsimp only
      rw [eN, eV]
      simp only [Fl.lt, decide_eq_true_eq, if_neg hW]
      rw [zero _ fun r hr => by rw [hz r hr]; ring]
    unfold FlRow.coRow
    rw [eD, eC, eL, hI]
    simp only [if_neg hW]
    rw [zero (fun r => r.weight * r.delta) fun r hr => by rw [hz r hr, zero_mul],
      zero (fun r => r.weight * r.cont) fun r hr => by rw [hz r hr, zero_mul]]
    simp [Fl.mul, Fl.add, Fl.div]

/-- C129, the negation for small `eta`: two good pixels with weights twice the inverse variance, as var_lss 0 and eta 1/2
give, are coadded to a pixel of infinite weight. -/
theorem C129_eta_refuted (x d1 d2 c1 c2 : K) {v1 v2 : K} (h1 : 0 < v1) (h2 : 0 < v2) :
    (FlRow.coRow x ([⟨d1, v1, v1 / (1 / 2), c1⟩, ⟨d2, v2, v2 / (1 / 2), c2⟩].map (NumRow.fl x))).weight = .pinf := by
  have a1 : 0 < v1 / (1 / 2) := by positivity
  have a2 : 0 < v2 / (1 / 2) := by positivity
  have aN : 0 < v1 / (1 / 2) + (v2 / (1 / 2) + 0) := by linarith
  set l : List (NumRow K) := [⟨d1, v1, v1 / (1 / 2), c1⟩, ⟨d2, v2, v2 / (1 / 2), c2⟩] with hl
  have eN : FlRow.coNorm (l.map (NumRow.fl x)) = .fin (v1 / (1 / 2) + (v2 / (1 / 2) + 0)) := by
    refine (sum_fl x l (f := fun r => r.weight) fun r => rfl).trans ?_
    simp [hl]
  have hv1 : (⟨d1, v1, v1 / (1 / 2), c1⟩ : NumRow K).v = 1 / v1 := if_pos ⟨a1, h1⟩
  have hv2 : (⟨d2, v2, v2 / (1 / 2), c2⟩ : NumRow K).v = 1 / v2 := if_pos ⟨a2, h2⟩
  have eI : FlRow.coIvar (l.map (NumRow.fl x)) = .fin (v1 + v2) := by
    unfold FlRow.coIvar
    dsimp only
    rw [eN, sum_fl x l (f := fun r => r.weight ^ 2 * r.v) fun r => by
      rw [var_fl]; simp only [NumRow.fl, Fl.mul, pow_two]]
    simp only [hl, List.map_cons, List.map_nil, List.sum_cons, List.sum_nil, hv1, hv2, Fl.lt, decide_eq_true_eq,
      if_pos aN, Fl.mul, Fl.div]
    have : (v1 / (1 / 2)) ^ 2 * (1 / v1) + ((v2 / (1 / 2)) ^ 2 * (1 / v2) + 0) = 4 * (v1 + v2) := by
      field_simp
      ring
    rw [this, if_neg (by positivity)]
    congr 1
    field_simp
    ring
  have eL : FlRow.coLss (l.map (NumRow.fl x)) = .fin (-1 / (v1 + v2)) := by
    unfold FlRow.coLss
    rw [eN, sum_fl x l (f := fun r => 1 - r.weight * r.v) fun r => by
      rw [var_fl]
      simp only [NumRow.fl, Fl.mul, Fl.add]
      congr 1
      ring, quot_fin, if_pos aN]
    simp only [hl, List.map_cons, List.map_nil, List.sum_cons, List.sum_nil, hv1, hv2]
    congr 1
    field_simp
    ring
  unfold FlRow.coRow
  dsimp only
  rw [eI, eL]
  have : 1 + (v1 + v2) * (-1 / (v1 + v2)) = 0 := by
    field_simp
    ring
  simp only [Fl.mul, Fl.add, this, Fl.div, if_true, Fl.infMul]
  rw [if_pos (by positivity)]

/-- C129, the negation for a row with weight NaN, as written for an infinite inverse variance
(`C126_infinite_ivar_refuted`) or after normalisation (`C126_normalized_refuted`): the coadded row is NaN whatever the row
of the other delta is, and so is the signal to noise of the coadded delta. -/
theorem C129_nan_refuted (x : K) {l : List (FlRow K)} {r : FlRow K} (hr : r ∈ l) (hw : r.weight = .nan)
    {sqrt : K → K} (rows : List (FlRow K)) (hx : FlRow.coRow x l ∈ rows) :
    FlRow.coRow x l = ⟨x, .nan, .nan, .nan, .nan⟩ ∧ FlRow.snr sqrt rows = .nan := by
  have sn : ∀ g : FlRow K → Fl K, g r = .nan → Fl.sum (l.map g) = .nan := fun g hg =>
    Fl.sum_nan (List.mem_map.mpr ⟨r, hr, hg⟩)
  have eN : FlRow.coNorm l = .nan := sn _ hw
  have eI : FlRow.coIvar l = .nan := by
    unfold FlRow.coIvar
    dsimp only
    rw [eN, sn _ (by rw [hw]; exact nan_mul _)]
    rfl
  have e : FlRow.coRow x l = ⟨x, .nan, .nan, .nan, .nan⟩ := by
    unfold FlRow.coRow FlRow.coDelta FlRow.coCont
    rw [eN, eI, sn _ (by rw [hw]; exact nan_mul _), sn _ (by rw [hw]; exact nan_mul _), nan_mul, Fl.add_nan]
    rfl
  refine ⟨e, ?_⟩
  unfold FlRow.snr
  rw [Fl.sum_nan (List.mem_map.mpr ⟨_, hx, by rw [e]; exact nan_mul _⟩)]
  rfl

/-- C129, the signal to noise: with numbers and at least one good pixel it is the mean over the good pixels of the
signal to noise of `1 + delta`. What is missing: deltas without good pixel (`C129_masked_refuted`). -/
theorem C129_snr_partial (x : K) {sqrt : K → K} (h0 : sqrt 0 = 0) (l : List (NumRow K)) (hi : ∀ r ∈ l, 0 ≤ r.ivar)
    (hg : ∃ r ∈ l, 0 < r.ivar) : FlRow.snr sqrt (l.map (NumRow.fl x)) =
      .fin (((l.filter (fun r => decide (0 < r.ivar))).map (fun r => sqrt r.ivar * (r.delta + 1))).sum /
        (l.filter (fun r => decide (0 < r.ivar))).length) := by
  have hc : (l.map (NumRow.fl x)).countP (fun r => Fl.lt (.fin 0) r.ivar) =
      (l.filter (fun r => decide (0 < r.ivar))).length := by
    rw [List.countP_map, List.countP_eq_length_filter]
    rfl
  have hn : (l.filter (fun r => decide (0 < r.ivar))).length ≠ 0 := by
    obtain ⟨r, hr, hr0⟩ := hg
    exact (List.length_pos_of_mem (List.mem_filter.mpr ⟨hr, by simpa using hr0⟩)).ne'
  have hs : (l.map (fun r => sqrt r.ivar * (r.delta + 1))).sum =
      ((l.filter (fun r => decide (0 < r.ivar))).map (fun r => sqrt r.ivar * (r.delta + 1))).sum := by
    clear hc hn hg
    induction l with
    | nil => rfl
    | cons r l ih =>
      rw [List.map_cons, List.sum_cons, ih fun q hq => hi q (List.mem_cons_of_mem _ hq), List.filter_cons]
      by_cases hr : 0 < r.ivar
      · rw [if_pos (by simpa using hr), List.map_cons, List.sum_cons]
      · rw [if_neg (by simpa using hr), le_antisymm (not_lt.mp hr) (hi r List.mem_cons_self), h0, zero_mul, zero_add]
  unfold FlRow.snr
  rw [hc, sum_fl x l (f := fun r => sqrt r.ivar * (r.delta + 1)) fun r => rfl, hs]
  simp only [Fl.div]
  rw [if_neg (by exact_mod_cast hn)]

/-- C129, the negation for deltas without good pixel: MEANSNR is NaN. -/
theorem C129_masked_refuted (x : K) {sqrt : K → K} (h0 : sqrt 0 = 0) (l : List (NumRow K)) (hi : ∀ r ∈ l, r.ivar = 0) :
    FlRow.snr sqrt (l.map (NumRow.fl x)) = .nan := by
  have hc : (l.map (NumRow.fl x)).countP (fun r => Fl.lt (.fin 0) r.ivar) = 0 := by
    rw [List.countP_map, List.countP_eq_zero]
    intro r hr
    simp [NumRow.fl, Fl.lt, hi r hr]
  unfold FlRow.snr
  rw [hc, sum_fl x l (f := fun r => sqrt r.ivar * (r.delta + 1)) fun r => rfl]
  rw [List.sum_eq_zero fun y hy => by
    obtain ⟨r, hr, rfl⟩ := List.mem_map.mp hy
    rw [hi r hr, h0, zero_mul]]
  simp [Fl.div, Fl.infMul]

/-- Signal to noise with the square root replaced by the identity: (2 * 2 + 4 * 1) / 2. -/
example : FlRow.snr id ([⟨1, 2, 1, 3⟩, ⟨0, 4, 1, 6⟩, ⟨0, 0, 0, 6⟩].map (NumRow.fl (K := ℚ) 4000)) = .fin 4 ∧
    FlRow.snr id ([⟨0, 0, 0, 6⟩].map (NumRow.fl (K := ℚ) 4000)) = .nan := ⟨by decide +kernel, by decide +kernel⟩

deriving instance DecidableEq for FlRow

/-- Two good rows with weights 1/2 and 1. -/
example : FlRow.coRow 4000 ([⟨1, 1, 1 / 2, 3⟩, ⟨4, 2, 1, 6⟩].map (NumRow.fl (K := ℚ) 4000)) =
    ⟨4000, .fin 3, .fin 3, .fin 1, .fin 5⟩ := by decide +kernel

/-- With eta 1/2. -/
example : FlRow.coRow 4000 ([⟨1, 1, 2, 3⟩, ⟨4, 2, 4, 6⟩].map (NumRow.fl (K := ℚ) 4000)) =
    ⟨4000, .fin 3, .fin 3, .pinf, .fin 5⟩ := by decide +kernel

/-- With a row of weight NaN. -/
example : FlRow.coRow (K := ℚ) 4000 [⟨4000, .fin 1, .pinf, .nan, .fin 1⟩, ⟨4000, .fin 4, .fin 2, .fin 1, .fin 6⟩] =
    ⟨4000, .nan, .nan, .nan, .nan⟩ := by decide +kernel

end Verif.Props

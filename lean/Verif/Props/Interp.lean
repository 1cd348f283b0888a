import Verif.Proofs.Spline
import Mathlib.Data.Rat.Floor
import Mathlib.Algebra.Order.Floor.Ring
import Mathlib.Algebra.Polynomial.Eval.Degree
import Mathlib.Algebra.Polynomial.Degree.Lemmas
import Mathlib.Tactic.ComputeDegree

/-!
# C41, C42, C43: interpolators
-/

namespace Verif.Props
open Verif.Model Verif.Proofs

section
variable {K : Type} [Field K] [LinearOrder K] [IsStrictOrderedRing K] [FloorRing K]

/-! ### C41 -/

/-- **C41.** With two or more nodes the linear interpolator never reads outside its table: it has a value at
every point, on the line through two neighbouring nodes. -/
theorem C41_value {f : LinInterp K} (hn : 2 ≤ f.fp.length) (x : K) :
    ∃ (k : Nat) (y1 y2 : K), f.fp[k]? = some y1 ∧ f.fp[k + 1]? = some y2 ∧
      f.eval x = some (y1 + (y2 - y1) * ((x - f.xp0) / f.dxp - k)) := by
  obtain ⟨k, hk, hlt⟩ := interpIdx_nat hn ((x - f.xp0) / f.dxp)
  refine ⟨k, f.fp[k]'(by omega), f.fp[k + 1]'hlt, List.getElem?_eq_getElem _, List.getElem?_eq_getElem _, ?_⟩
  exact evalLin_of_idx hk (List.getElem?_eq_getElem _) (List.getElem?_eq_getElem _)

omit [FloorRing K] in
theorem lerp_between {y1 y2 t : K} (h0 : 0 ≤ t) (h1 : t ≤ 1) :
    min y1 y2 ≤ y1 + (y2 - y1) * t ∧ y1 + (y2 - y1) * t ≤ max y1 y2 := by
  rcases le_total y1 y2 with h | h
  · rw [min_eq_left h, max_eq_right h]
    constructor <;> nlinarith [mul_nonneg (sub_nonneg.mpr h) h0,
      mul_nonneg (sub_nonneg.mpr h) (sub_nonneg.mpr h1)]
  · rw [min_eq_right h, max_eq_left h]
    constructor <;> nlinarith [mul_nonneg (sub_nonneg.mpr h) h0,
      mul_nonneg (sub_nonneg.mpr h) (sub_nonneg.mpr h1)]

/-- **C41.** Between two nodes the value is on the line through them, hence between their values; at the
nodes it is the value of the table. -/
theorem C41_between {f : LinInterp K} (hd : 0 < f.dxp) {k : Nat} {y1 y2 : K} (h1 : f.fp[k]? = some y1)
    (h2 : f.fp[k + 1]? = some y2) {x : K} (hx : f.xp0 + k * f.dxp ≤ x)
    (hx' : x ≤ f.xp0 + (k + 1) * f.dxp) :
    ∃ y, f.eval x = some y ∧ min y1 y2 ≤ y ∧ y ≤ max y1 y2 ∧
      (y - y1) * f.dxp = (y2 - y1) * (x - (f.xp0 + k * f.dxp)) := by
  have hlt : k + 1 < f.fp.length := (List.getElem?_eq_some_iff.mp h2).1
  have hn : 2 ≤ f.fp.length := by omega
  have t0 : (k : K) ≤ (x - f.xp0) / f.dxp := by rw [le_div_iff₀ hd]; linarith
  have t1 : (x - f.xp0) / f.dxp ≤ k + 1 := by rw [div_le_iff₀ hd]; linarith
  have key : f.eval x = some (y1 + (y2 - y1) * ((x - f.xp0) / f.dxp - k)) := by
    rcases lt_or_eq_of_le t1 with h | h
    · exact evalLin_of_idx (interpIdx_segment hlt t0 h) h1 h2
    · by_cases hl : k + 2 < f.fp.length
      · have e : f.eval x = _ := evalLin_of_idx (x := x) (xp0 := f.xp0) (dxp := f.dxp) (fp := f.fp)
          (interpIdx_segment (k := k + 1) (by omega) (by rw [h]; push_cast; exact le_rfl)
            (by rw [h]; push_cast; linarith)) h2 (List.getElem?_eq_getElem hl)
        rw [e, h]
        push_cast
        congr 1
        ring
      · exact evalLin_of_idx (interpIdx_right (by omega) t0) h1 h2
  refine ⟨_, key, ?_, ?_, ?_⟩
  · exact (lerp_between (by linarith) (by linarith)).1
  · exact (lerp_between (by linarith) (by linarith)).2
  · have : (x - f.xp0) / f.dxp * f.dxp = x - f.xp0 := div_mul_cancel₀ _ hd.ne'
    linear_combination (y2 - y1) * this

/-- **C41.** The nodes are reproduced. -/
theorem C41_nodes {f : LinInterp K} (hd : 0 < f.dxp) (hn : 2 ≤ f.fp.length) {k : Nat} {y : K}
    (h : f.fp[k]? = some y) : f.eval (f.xp0 + k * f.dxp) = some y := by
  have hlt : k < f.fp.length := (List.getElem?_eq_some_iff.mp h).1
  have e : (f.xp0 + k * f.dxp - f.xp0) / f.dxp = k := by
    rw [add_sub_cancel_left, mul_div_cancel_right₀ _ hd.ne']
  by_cases hk : k + 1 < f.fp.length
  · obtain ⟨v, hv, -, -, h4⟩ := C41_between hd h (List.getElem?_eq_getElem hk) le_rfl
      (by nlinarith : f.xp0 + k * f.dxp ≤ _)
    rw [sub_self, mul_zero, mul_eq_zero] at h4
    rw [hv, sub_eq_zero.mp (h4.resolve_right hd.ne')]
  · obtain ⟨j, rfl⟩ : ∃ j, k = j + 1 := ⟨k - 1, by omega⟩
    have hj : f.fp[j]? = some (f.fp[j]'(by omega)) := List.getElem?_eq_getElem _
    have := evalLin_of_idx (x := f.xp0 + ((j + 1 : Nat) : K) * f.dxp) (xp0 := f.xp0) (dxp := f.dxp)
      (interpIdx_right (n := f.fp.length) (k := j) (by omega) (by rw [e]; push_cast; linarith)) hj h
    unfold LinInterp.eval
    rw [this, e]
    push_cast
    congr 1
    ring

/-- **C41.** Outside, the first or the last segment is continued as a line (as documented). -/
theorem C41_outside {f : LinInterp K} (hd : 0 < f.dxp) {x : K} :
    (∀ y1 y2, f.fp[0]? = some y1 → f.fp[1]? = some y2 → x ≤ f.xp0 →
      f.eval x = some (y1 + (y2 - y1) / f.dxp * (x - f.xp0))) ∧
    (∀ k y1 y2, f.fp.length = k + 2 → f.fp[k]? = some y1 → f.fp[k + 1]? = some y2 →
      f.xp0 + (k + 1) * f.dxp ≤ x →
      f.eval x = some (y2 + (y2 - y1) / f.dxp * (x - (f.xp0 + (k + 1) * f.dxp)))) := by
  constructor
  · intro y1 y2 h1 h2 hx
    have hlt : 1 < f.fp.length := (List.getElem?_eq_some_iff.mp h2).1
    have t : (x - f.xp0) / f.dxp ≤ 0 := div_nonpos_of_nonpos_of_nonneg (by linarith) hd.le
    have := evalLin_of_idx (k := 0) (interpIdx_left (n := f.fp.length) hlt (lt_of_le_of_lt t one_pos)) h1 h2
    unfold LinInterp.eval
    rw [this]
    push_cast
    congr 1
    ring
  · intro k y1 y2 hn h1 h2 hx
    have t : (k : K) ≤ (x - f.xp0) / f.dxp := by rw [le_div_iff₀ hd]; nlinarith
    have := evalLin_of_idx (interpIdx_right (n := f.fp.length) hn t) h1 h2
    unfold LinInterp.eval
    rw [this]
    congr 1
    field_simp
    ring

/-- **C41.** A table of a linear function gives that function, everywhere. -/
theorem C41_linear {f : LinInterp K} (hd : 0 < f.dxp) (hn : 2 ≤ f.fp.length) {a b : K}
    (h : ∀ (k : Nat) (y : K), f.fp[k]? = some y → y = a + b * (f.xp0 + k * f.dxp)) (x : K) :
    f.eval x = some (a + b * x) := by
  obtain ⟨k, y1, y2, h1, h2, e⟩ := C41_value hn x
  rw [e, h k y1 h1, h (k + 1) y2 h2]
  push_cast
  congr 1
  field_simp
  ring

example : let f : LinInterp ℚ := ⟨10, 2, [1, 5, 2]⟩
    f.eval 10 = some 1 ∧ f.eval 11 = some 3 ∧ f.eval 14 = some 2 ∧ f.eval 16 = some (-1) ∧
    f.eval 9 = some (-1) := by decide +kernel

/-- One node: the read is outside of the table. -/
example : (⟨10, 2, [1]⟩ : LinInterp ℚ).eval 10 = none := by decide +kernel

/-! ### C42 -/

/-- **C42.** The second derivatives of the natural spline vanish at both ends and satisfy the equations of
a continuous slope at all nodes between, whatever was in the uninitialised arrays. -/
theorem C42_system (junk junk' : Nat → K) {xp0 dxp : K} (hd : dxp ≠ 0) {fp : List K} (hn : 2 ≤ fp.length) :
    let y := (CubicInterp.natural junk junk' xp0 dxp fp).y2p
    y.length = fp.length ∧ y[0]? = some 0 ∧ y[fp.length - 1]? = some 0 ∧
    ∀ (i : Nat) (y0 y1 y2 f0 f1 f2 : K), y[i]? = some y0 → y[i + 1]? = some y1 → y[i + 2]? = some y2 →
      fp[i]? = some f0 → fp[i + 1]? = some f1 → fp[i + 2]? = some f2 →
      dxp / 6 * (y0 + 4 * y1 + y2) = (f2 - f1) / dxp - (f1 - f0) / dxp := by
  intro y
  have hy : ∀ i, i < fp.length → y[i]? =
      some (splineNatural junk junk' fp.length (fun i => fp.getD i 0) dxp i) := by
    intro i hi
    change (toArr _ _)[i]? = _
    unfold toArr
    rw [List.getElem?_map, List.getElem?_range hi]; rfl
  obtain ⟨h0, h1, h2⟩ := splineNatural_spec junk junk' hn (fun i => fp.getD i 0) (dxp := dxp)
  refine ⟨by change (toArr _ _).length = _; unfold toArr; simp, by rw [hy 0 (by omega), h0],
    by rw [hy _ (by omega), h1], ?_⟩
  intro i y0 y1 y2 f0 f1 f2 g0 g1 g2 e0 e1 e2
  have hi : i + 2 < fp.length := (List.getElem?_eq_some_iff.mp e2).1
  rw [hy _ (by omega), Option.some.injEq] at g0 g1 g2
  have := h2 (i + 1) (by omega) (by omega)
  simp only [Nat.add_sub_cancel] at this
  rw [g0, g1, g2] at this
  rw [List.getD_eq_getElem?_getD, List.getD_eq_getElem?_getD, List.getD_eq_getElem?_getD, e0, e1, e2] at this
  simp only [Option.getD_some] at this
  rw [this]
  field_simp
  ring

/-- **C42.** These equations have no other solution. -/
theorem C42_unique (junk junk' : Nat → K) {n : Nat} (hn : 2 ≤ n) (fp : Nat → K) {dxp : K}
    {z : Nat → K} (h0 : z 0 = 0) (h1 : z (n - 1) = 0)
    (h : ∀ i, 1 ≤ i → i ≤ n - 2 →
      z (i - 1) + 4 * z i + z (i + 1) = 6 * ((fp (i + 1) + fp (i - 1) - 2 * fp i) / dxp) / dxp) :
    ∀ i, i < n → splineNatural junk junk' n fp dxp i = z i := by
  obtain ⟨g0, g1, g⟩ := splineNatural_spec junk junk' hn fp (dxp := dxp)
  intro i hi
  have := dominance (e := fun i => splineNatural junk junk' n fp dxp i - z i) (a := 0) (b := n - 1)
    (by rw [g0, h0, sub_self]) (by rw [g1, h1, sub_self]) le_rfl
    (fun i h1 h2 => by
      have e : splineNatural junk junk' n fp dxp (i - 1) - z (i - 1) +
          4 * (splineNatural junk junk' n fp dxp i - z i) +
          (splineNatural junk junk' n fp dxp (i + 1) - z (i + 1)) = 0 := by
        linear_combination g i (by omega) (by omega) - h i (by omega) (by omega)
      rw [e, abs_zero]) i (by omega) (by omega)
  rw [zero_div] at this
  exact sub_eq_zero.mp (abs_nonpos_iff.mp this)

/-- Four nodes. -/
example : (CubicInterp.natural (fun _ => 7) (fun _ => 8) 0 1 [0, 1, 0, 1] : CubicInterp ℚ).y2p = [0, -4, 4, 0] := by
  decide +kernel

end

theorem cubic_affine (c0 c1 c2 c3 s u : ℝ) : ∃ a b c d : ℝ, ∀ x,
    c0 + c1 * (s * x + u) + c2 * (s * x + u) ^ 2 + c3 * (s * x + u) ^ 3 = a + b * x + c * x ^ 2 + d * x ^ 3 :=
  ⟨c0 + c1 * u + c2 * u ^ 2 + c3 * u ^ 3, c1 * s + 2 * c2 * s * u + 3 * c3 * s * u ^ 2,
    c2 * s ^ 2 + 3 * c3 * s ^ 2 * u, c3 * s ^ 3, fun x => by ring⟩

theorem pieceAt_cubic (xp0 dxp : ℝ) (f y : Nat → ℝ) (i : Nat) : ∃ a b c d : ℝ, ∀ x,
    pieceAt dxp f y i ((x - xp0) / dxp) = a + b * x + c * x ^ 2 + d * x ^ 3 := by
  obtain ⟨a, b, c, d, h⟩ := cubic_affine (f i)
    (f (i + 1) - f i + dxp ^ 2 / 6 * (y i * (-2) - y (i + 1))) (dxp ^ 2 / 6 * (3 * y i))
    (dxp ^ 2 / 6 * (y (i + 1) - y i)) (1 / dxp) (-xp0 / dxp - i)
  refine ⟨a, b, c, d, fun x => ?_⟩
  rw [← h x]
  unfold pieceAt cubicPiece
  dsimp only
  have : (x - xp0) / dxp - i = 1 / dxp * x + (-xp0 / dxp - i) := by ring
  rw [this]
  ring

/-- An evaluated spline as glued pieces. -/
theorem eval_glued {xp0 dxp : ℝ} {fp : List ℝ} (hn : 2 ≤ fp.length) (Y : Nat → ℝ) (x : ℝ) :
    evalCubic x xp0 dxp fp (toArr fp.length Y) =
      some (glued (pieceAt dxp (fun i => fp.getD i 0) Y) (fp.length - 2) ((x - xp0) / dxp)) := by
  obtain ⟨k, hk, hlt⟩ := interpIdx_nat hn ((x - xp0) / dxp)
  have hY : ∀ i, i < fp.length → (toArr fp.length Y)[i]? = some (Y i) := by
    intro i hi
    unfold toArr
    rw [List.getElem?_map, List.getElem?_range hi]; rfl
  have hF : ∀ i, i < fp.length → fp[i]? = some (fp.getD i 0) := by
    intro i hi
    rw [List.getD_eq_getElem?_getD, List.getElem?_eq_getElem hi]; rfl
  rw [evalCubic_of_idx hk (hF k (by omega)) (hF (k + 1) hlt) (hY k (by omega)) (hY (k + 1) hlt),
    glued_idx _ hn _ hk]
  rfl

/-- On a segment, ends included, the glued function is the piece. -/
theorem glued_seg {dxp : ℝ} {n : Nat} (F Y : Nat → ℝ) {i : Nat} (hi : i + 1 < n) {t : ℝ}
    (h0 : (i : ℝ) ≤ t) (h1 : t ≤ i + 1) :
    glued (pieceAt dxp F Y) (n - 2) t = pieceAt dxp F Y i t := by
  rcases lt_or_eq_of_le h1 with h | h
  · exact glued_idx _ (by omega) _ (interpIdx_segment hi h0 h)
  · by_cases hl : i + 2 < n
    · rw [glued_idx (k := i + 1) _ (by omega) _ (interpIdx_segment (by omega)
        (by rw [h]; push_cast; exact le_rfl) (by rw [h]; push_cast; linarith)), h, pieceAt_right]
      have := pieceAt_left dxp F Y (i + 1)
      push_cast at this
      exact this
    · exact glued_idx _ (by omega) _ (interpIdx_right (by omega) h0)

/-- Values at the nodes and on the segments, for any second derivatives. -/
theorem glued_segments {xp0 dxp : ℝ} (hd : 0 < dxp) {n : Nat} (F Y : Nat → ℝ) {i : Nat} (hi : i + 1 < n) :
    glued (pieceAt dxp F Y) (n - 2) i = F i ∧ glued (pieceAt dxp F Y) (n - 2) ((i : ℝ) + 1) = F (i + 1) ∧
    ∃ a b c d : ℝ, ∀ x, xp0 + i * dxp ≤ x → x ≤ xp0 + (i + 1) * dxp →
      glued (pieceAt dxp F Y) (n - 2) ((x - xp0) / dxp) = a + b * x + c * x ^ 2 + d * x ^ 3 := by
  refine ⟨by rw [glued_seg F Y hi le_rfl (by linarith), pieceAt_left], by
    rw [glued_seg F Y hi (by linarith) le_rfl, pieceAt_right], ?_⟩
  obtain ⟨a, b, c, d, h⟩ := pieceAt_cubic xp0 dxp F Y i
  refine ⟨a, b, c, d, fun x h0 h1 => ?_⟩
  rw [glued_seg F Y hi (by rw [le_div_iff₀ hd]; linarith) (by rw [div_le_iff₀ hd]; linarith), h]

/-- **C42.** The natural spline of a real table is, on the whole line, twice continuously differentiable;
it takes the values of the table at the nodes, is a cubic between any two neighbours and has no curvature
at the first and the last node. -/
theorem C42_natural_spline (junk junk' : Nat → ℝ) {xp0 dxp : ℝ} (hd : 0 < dxp) {fp : List ℝ}
    (hn : 2 ≤ fp.length) : ∃ f f' f'' : ℝ → ℝ,
    (∀ x, (CubicInterp.natural junk junk' xp0 dxp fp).eval x = some (f x)) ∧
    (∀ x, HasDerivAt f (f' x) x) ∧ (∀ x, HasDerivAt f' (f'' x) x) ∧ Continuous f'' ∧
    (∀ (i : Nat) (y : ℝ), fp[i]? = some y → f (xp0 + i * dxp) = y) ∧
    f'' xp0 = 0 ∧ f'' (xp0 + ((fp.length - 1 : Nat) : ℝ) * dxp) = 0 ∧
    (∀ i : Nat, i + 1 < fp.length → ∃ a b c d : ℝ, ∀ x, xp0 + i * dxp ≤ x → x ≤ xp0 + (i + 1) * dxp →
      f x = a + b * x + c * x ^ 2 + d * x ^ 3) := by
  obtain ⟨s0, s1, s2⟩ := splineNatural_spec junk junk' hn (fun i => fp.getD i 0) (dxp := dxp)
  have hev := fun x => eval_glued (xp0 := xp0) (dxp := dxp) hn
    (splineNatural junk junk' fp.length (fun i => fp.getD i 0) dxp) x
  have hF : ∀ i y, fp[i]? = some y → fp.getD i 0 = y := by
    intro i y h
    rw [List.getD_eq_getElem?_getD, h]; rfl
  generalize hY : splineNatural junk junk' fp.length (fun i => fp.getD i 0) dxp = Y at s0 s1 s2 hev
  generalize hG : (fun i => fp.getD i 0) = F at s2 hev
  have hFG : ∀ i y, fp[i]? = some y → F i = y := by
    intro i y h; rw [← hG]; exact hF i y h
  generalize hN : fp.length = n at *
  have j0 : ∀ i, i < n - 2 → pieceAt dxp F Y i ((i : ℝ) + 1) = pieceAt dxp F Y (i + 1) ((i : ℝ) + 1) := by
    intro i _
    rw [pieceAt_right]
    have := pieceAt_left dxp F Y (i + 1)
    push_cast at this
    exact this.symm
  have j1 : ∀ i, i < n - 2 → pieceAt' dxp F Y i ((i : ℝ) + 1) = pieceAt' dxp F Y (i + 1) ((i : ℝ) + 1) := by
    intro i hi
    rw [← sub_eq_zero, pieceAt'_jump]
    have := s2 (i + 1) (by omega) (by omega)
    simp only [Nat.add_sub_cancel, fun i => congrFun hG i] at this
    rw [this]
    have := hd.ne'
    field_simp
    ring
  have hin : ∀ x, HasDerivAt (fun x : ℝ => (x - xp0) / dxp) (1 / dxp) x := fun x =>
    ((hasDerivAt_id x).sub_const _).div_const _
  have hcin : Continuous (fun x : ℝ => (x - xp0) / dxp) := by fun_prop
  have node : ∀ i : Nat, (xp0 + (i : ℝ) * dxp - xp0) / dxp = i := by
    intro i
    rw [add_sub_cancel_left, mul_div_cancel_right₀ _ hd.ne']
  refine ⟨fun x => glued (pieceAt dxp F Y) (n - 2) ((x - xp0) / dxp),
    fun x => glued (pieceAt' dxp F Y) (n - 2) ((x - xp0) / dxp) * (1 / dxp),
    fun x => glued (pieceAt'' dxp Y) (n - 2) ((x - xp0) / dxp) * (1 / dxp) * (1 / dxp),
    ?_, ?_, ?_, ?_, ?_, ?_, ?_, ?_⟩
  · intro x
    have : (CubicInterp.natural junk junk' xp0 dxp fp).eval x =
        evalCubic x xp0 dxp fp (toArr fp.length (splineNatural junk junk' fp.length
          (fun i => fp.getD i 0) dxp)) := rfl
    rw [this, hN, hY]
    exact hev x
  · intro x
    exact (glued_deriv (pieceAt_deriv dxp F Y) (n - 2) j0 j1 ((x - xp0) / dxp)).comp x (hin x)
  · intro x
    exact ((glued_deriv (pieceAt'_deriv dxp F Y) (n - 2) j1 (fun i _ => pieceAt''_joins dxp Y i)
      ((x - xp0) / dxp)).comp x (hin x)).mul_const _
  · exact (((glued_continuous (pieceAt''_continuous dxp Y) (n - 2)
      (fun i _ => pieceAt''_joins dxp Y i)).comp hcin).mul continuous_const).mul continuous_const
  · intro i y h
    have hlt : i < n := by rw [← hN]; exact (List.getElem?_eq_some_iff.mp h).1
    dsimp only
    rw [node]
    by_cases hi : i + 1 < n
    · rw [(glued_segments (xp0 := xp0) hd F Y hi).1]; exact hFG i y h
    · obtain ⟨j, rfl⟩ : ∃ j, i = j + 1 := ⟨i - 1, by omega⟩
      push_cast
      rw [(glued_segments (xp0 := xp0) hd F Y (i := j) (by omega)).2.1]; exact hFG _ y h
  · dsimp only
    rw [sub_self, zero_div, glued_idx (k := 0) _ hn _ (interpIdx_left hn one_pos)]
    unfold pieceAt''
    simp [s0]
  · dsimp only
    rw [node, glued_idx (k := n - 2) _ hn _ (interpIdx_right (by omega)
      (by exact_mod_cast (by omega : n - 2 ≤ n - 1)))]
    unfold pieceAt''
    have e : ((n - 1 : Nat) : ℝ) - ((n - 2 : Nat) : ℝ) = 1 := by
      rw [show n - 1 = (n - 2) + 1 by omega]; push_cast; ring
    rw [e, show n - 2 + 1 = n - 1 by omega, s1]
    simp
  · intro i hi
    exact (glued_segments hd F Y hi).2.2

/-! ### C43 -/

section
variable {K : Type} [Field K] [LinearOrder K] [IsStrictOrderedRing K]

/-- **C43.** With four or more nodes the second derivatives do not depend on what was in the uninitialised
array, only on the table. -/
theorem C43_only_table (junk junk' : Nat → K) {xp0 dxp : K} {fp : List K} (hn : 4 ≤ fp.length) :
    CubicInterp.notaknot junk xp0 dxp fp = CubicInterp.notaknot junk' xp0 dxp fp := by
  unfold CubicInterp.notaknot toArr
  congr 1
  refine List.map_congr_left fun i hi => ?_
  exact splineNotaknot_junk junk junk' hn _ dxp (List.mem_range.mp hi)

/-- **C43.** The not-a-knot conditions hold exactly, and so do the equations of a continuous slope next to
the ends; at the other nodes they hold up to the rounding of the tabulated pivots, 1e-15 of the second
derivatives. -/
theorem C43_system (junk : Nat → K) {xp0 dxp : K} {fp : List K} (hn : 4 ≤ fp.length) :
    let y := fun i => (CubicInterp.notaknot junk xp0 dxp fp).y2p.getD i 0
    let rhs := fun i => 6 * (fp.getD (i - 1) 0 - 2 * fp.getD i 0 + fp.getD (i + 1) 0) / dxp ^ 2
    let n := fp.length
    (CubicInterp.notaknot junk xp0 dxp fp).y2p.length = n ∧
    y 0 - 2 * y 1 + y 2 = 0 ∧ y (n - 3) - 2 * y (n - 2) + y (n - 1) = 0 ∧
    y 0 + 4 * y 1 + y 2 = rhs 1 ∧ y (n - 3) + 4 * y (n - 2) + y (n - 1) = rhs (n - 2) ∧
    (∀ i, 2 ≤ i → i ≤ n - 3 →
      |y (i - 1) + 4 * y i + y (i + 1) - rhs i| ≤ 1 / 10 ^ 15 * (|y (i - 1)| + |y i|)) := by
  dsimp only
  have hy : ∀ i, i < fp.length → (CubicInterp.notaknot junk xp0 dxp fp).y2p.getD i 0 =
      splineNotaknot junk fp.length (fun i => fp.getD i 0) dxp i := by
    intro i hi
    change (toArr _ _).getD i 0 = _
    unfold toArr
    rw [List.getD_eq_getElem?_getD, List.getElem?_map, List.getElem?_range hi]; rfl
  refine ⟨by change (toArr _ _).length = _; unfold toArr; simp, ?_⟩
  obtain ⟨h1, h2, h3, h4, h5⟩ := splineNotaknot_spec junk hn (fun i => fp.getD i 0) (dxp := dxp)
  rw [hy 0 (by omega), hy 1 (by omega), hy 2 (by omega), hy (fp.length - 3) (by omega),
    hy (fp.length - 2) (by omega), hy (fp.length - 1) (by omega)]
  refine ⟨h1, h2, h3, h4, fun i hi hi' => ?_⟩
  rw [hy (i - 1) (by omega), hy i (by omega), hy (i + 1) (by omega)]
  exact h5 i hi hi'

/-- **C43.** The result is the exact not-a-knot spline up to 2e-15 of the largest second derivative. -/
theorem C43_close (junk : Nat → K) {xp0 dxp : K} {fp : List K} (hn : 4 ≤ fp.length) {z : Nat → K}
    (h0 : z 0 - 2 * z 1 + z 2 = 0)
    (h1 : z (fp.length - 3) - 2 * z (fp.length - 2) + z (fp.length - 1) = 0)
    (hz : ∀ i, 1 ≤ i → i ≤ fp.length - 2 → z (i - 1) + 4 * z i + z (i + 1) =
      6 * (fp.getD (i - 1) 0 - 2 * fp.getD i 0 + fp.getD (i + 1) 0) / dxp ^ 2) {M : K}
    (hM : ∀ i, i < fp.length → |z i| ≤ M) :
    ∀ i, i < fp.length →
      |(CubicInterp.notaknot junk xp0 dxp fp).y2p.getD i 0 - z i| ≤ 2 / 10 ^ 15 * M := by
  obtain ⟨-, g0, g1, g2, g3, g4⟩ := C43_system junk (xp0 := xp0) (dxp := dxp) hn
  have hM0 : 0 ≤ M := (abs_nonneg _).trans (hM 0 (by omega))
  dsimp only at g0 g1 g2 g3 g4
  generalize (CubicInterp.notaknot junk xp0 dxp fp).y2p = yl at *
  generalize hn' : fp.length = n at *
  obtain ⟨e, he⟩ : ∃ e : Nat → K, ∀ i, e i = yl.getD i 0 - z i := ⟨_, fun _ => rfl⟩
  have e1 : e 1 = 0 := by
    rw [he]
    have := hz 1 le_rfl (by omega)
    simp only [Nat.sub_self, show 1 + 1 = 2 from rfl] at this g2
    linarith
  have en : e (n - 2) = 0 := by
    rw [he]
    have := hz (n - 2) (by omega) le_rfl
    rw [show n - 2 - 1 = n - 3 by omega, show n - 2 + 1 = n - 1 by omega] at this
    rw [show n - 2 - 1 = n - 3 by omega, show n - 2 + 1 = n - 1 by omega] at g3
    linarith
  obtain ⟨k, hk, hmax⟩ := (Finset.Icc 1 (n - 2)).exists_max_image (fun j => |e j|)
    ⟨1, Finset.mem_Icc.mpr ⟨le_rfl, by omega⟩⟩
  rw [Finset.mem_Icc] at hk
  have hyb : ∀ i, 1 ≤ i → i ≤ n - 2 → |yl.getD i 0| ≤ M + |e k| := by
    intro i hi hi'
    have : yl.getD i 0 = z i + e i := by rw [he]; ring
    rw [this]
    exact (abs_add_le _ _).trans (add_le_add (hM i (by omega)) (hmax i (Finset.mem_Icc.mpr ⟨hi, hi'⟩)))
  have hd := dominance e1 en (r := 2 / 10 ^ 15 * (M + |e k|)) (by positivity) (fun i hi hi' => by
    have hr := g4 i (by omega) (by omega)
    have hzi := hz i (by omega) (by omega)
    have e2 : e (i - 1) + 4 * e i + e (i + 1) = yl.getD (i - 1) 0 + 4 * yl.getD i 0 + yl.getD (i + 1) 0 -
        6 * (fp.getD (i - 1) 0 - 2 * fp.getD i 0 + fp.getD (i + 1) 0) / dxp ^ 2 := by
      rw [he, he, he, ← hzi]; ring
    rw [e2]
    refine hr.trans ?_
    have a1 := hyb (i - 1) (by omega) (by omega)
    have a2 := hyb i (by omega) (by omega)
    have : (0 : K) < 1 / 10 ^ 15 := by positivity
    calc 1 / 10 ^ 15 * (|yl.getD (i - 1) 0| + |yl.getD i 0|)
        ≤ 1 / 10 ^ 15 * ((M + |e k|) + (M + |e k|)) :=
          mul_le_mul_of_nonneg_left (add_le_add a1 a2) this.le
      _ = 2 / 10 ^ 15 * (M + |e k|) := by ring)
  have hE : |e k| ≤ 2 / 10 ^ 15 * M := by
    have := hd k hk.1 hk.2
    norm_num at this ⊢
    linarith
  have hin : ∀ i, 1 ≤ i → i ≤ n - 2 → |e i| ≤ 2 / 10 ^ 15 * M := fun i hi hi' =>
    (hmax i (Finset.mem_Icc.mpr ⟨hi, hi'⟩)).trans hE
  intro i hi
  rw [← he]
  by_cases hi0 : i = 0
  · subst hi0
    have : e 0 = - e 2 := by
      have := e1
      rw [he] at this
      rw [he, he]
      linear_combination g0 - h0 + 2 * this
    rw [this, abs_neg]
    exact hin 2 (by omega) (by omega)
  · by_cases hin' : i = n - 1
    · subst hin'
      have : e (n - 1) = - e (n - 3) := by
        have := en
        rw [he] at this
        rw [he, he]
        linear_combination g1 - h1 + 2 * this
      rw [this, abs_neg]
      exact hin (n - 3) (by omega) (by omega)
    · exact hin i (by omega) (by omega)

/-- **C43.** The second derivatives are bounded by the second differences of the table. -/
theorem C43_bound (junk : Nat → K) {xp0 dxp : K} {fp : List K} (hn : 4 ≤ fp.length) {D : K}
    (hD : ∀ (i : Nat) (f0 f1 f2 : K), fp[i]? = some f0 → fp[i + 1]? = some f1 → fp[i + 2]? = some f2 →
      |f0 - 2 * f1 + f2| ≤ D) :
    ∀ i, i < fp.length →
      |(CubicInterp.notaknot junk xp0 dxp fp).y2p.getD i 0| * dxp ^ 2 ≤ 504 / 100 * D := by
  obtain ⟨-, g0, g1, g2, g3, g4⟩ := C43_system junk (xp0 := xp0) (dxp := dxp) hn
  dsimp only at g0 g1 g2 g3 g4
  have hd : ∀ i, 1 ≤ i → i ≤ fp.length - 2 →
      |fp.getD (i - 1) 0 - 2 * fp.getD i 0 + fp.getD (i + 1) 0| ≤ D := by
    intro i h1 h2
    obtain ⟨j, rfl⟩ : ∃ j, i = j + 1 := ⟨i - 1, by omega⟩
    simp only [Nat.add_sub_cancel, List.getD_eq_getElem?_getD]
    rw [List.getElem?_eq_getElem (i := j) (by omega), List.getElem?_eq_getElem (i := j + 1) (by omega),
      List.getElem?_eq_getElem (i := j + 1 + 1) (by omega)]
    exact hD j _ _ _ (List.getElem?_eq_getElem _) (List.getElem?_eq_getElem _)
      (List.getElem?_eq_getElem _)
  have hD0 : 0 ≤ D := (abs_nonneg _).trans (hd 1 le_rfl (by omega))
  generalize (CubicInterp.notaknot junk xp0 dxp fp).y2p = yl at *
  generalize hn' : fp.length = n at *
  by_cases hx : dxp = 0
  · intro i _
    rw [hx]
    simp only [ne_eq, OfNat.ofNat_ne_zero, not_false_eq_true, zero_pow, mul_zero]
    positivity
  have hx2 : 0 < dxp ^ 2 := by positivity
  obtain ⟨t, ht⟩ : ∃ t : Nat → K, ∀ i, yl.getD i 0 = t i / dxp ^ 2 :=
    ⟨fun i => yl.getD i 0 * dxp ^ 2, fun i => by rw [mul_div_cancel_right₀ _ hx2.ne']⟩
  have habs : ∀ i, |t i / dxp ^ 2| = |t i| / dxp ^ 2 := fun i => by rw [abs_div, abs_of_pos hx2]
  simp only [ht] at g0 g1 g2 g3 g4 ⊢
  have k1 : 6 * t 1 = 6 * (fp.getD (1 - 1) 0 - 2 * fp.getD 1 0 + fp.getD (1 + 1) 0) := by
    have := g2
    field_simp at this g0
    linear_combination this - g0
  have k2 : 6 * t (n - 2) =
      6 * (fp.getD (n - 2 - 1) 0 - 2 * fp.getD (n - 2) 0 + fp.getD (n - 2 + 1) 0) := by
    have := g3
    field_simp at this g1
    linear_combination this - g1
  have b1 : |t 1| ≤ D := by
    rw [mul_left_cancel₀ (by norm_num) k1]; exact hd 1 le_rfl (by omega)
  have b2 : |t (n - 2)| ≤ D := by
    rw [mul_left_cancel₀ (by norm_num) k2]; exact hd (n - 2) (by omega) le_rfl
  have b3 : ∀ i, 2 ≤ i → i ≤ n - 3 →
      |t (i - 1) + 4 * t i + t (i + 1)| ≤ 6 * D + 1 / 10 ^ 15 * (|t (i - 1)| + |t i|) := by
    intro i h1 h2
    have := g4 i h1 h2
    rw [habs, habs, ← add_div, ← mul_div_assoc, ← mul_div_assoc, ← add_div, ← add_div, ← sub_div, abs_div,
      abs_of_pos hx2, div_le_div_iff_of_pos_right hx2] at this
    have hh := hd i (by omega) (by omega)
    have h6 : |6 * (fp.getD (i - 1) 0 - 2 * fp.getD i 0 + fp.getD (i + 1) 0)| ≤ 6 * D := by
      rw [abs_mul, abs_of_pos (by norm_num : (0 : K) < 6)]
      linarith
    rw [abs_le] at *
    constructor <;> linarith [this.1, this.2, h6.1, h6.2]
  obtain ⟨k, hk, hmax⟩ := (Finset.Icc 1 (n - 2)).exists_max_image (fun j => |t j|)
    ⟨1, Finset.mem_Icc.mpr ⟨le_rfl, by omega⟩⟩
  rw [Finset.mem_Icc] at hk
  have hin : |t k| ≤ 301 / 100 * D := by
    by_cases h1 : k = 1
    · subst h1; linarith
    by_cases h2 : k = n - 2
    · rw [h2]; linarith
    have h3 := b3 k (by omega) (by omega)
    have h4 := hmax (k - 1) (Finset.mem_Icc.mpr ⟨by omega, by omega⟩)
    have h5 := hmax (k + 1) (Finset.mem_Icc.mpr ⟨by omega, by omega⟩)
    have h6 : 4 * |t k| ≤ |t (k - 1) + 4 * t k + t (k + 1)| + |t (k - 1)| + |t (k + 1)| := by
      have : 4 * |t k| = |4 * t k| := by rw [abs_mul, abs_of_pos (by norm_num : (0 : K) < 4)]
      rw [this]
      have e : 4 * t k = (t (k - 1) + 4 * t k + t (k + 1)) - t (k - 1) - t (k + 1) := by ring
      calc |4 * t k| = |(t (k - 1) + 4 * t k + t (k + 1)) - t (k - 1) - t (k + 1)| := by rw [← e]
        _ ≤ |(t (k - 1) + 4 * t k + t (k + 1)) - t (k - 1)| + |t (k + 1)| := abs_sub _ _
        _ ≤ _ := by linarith [abs_sub (t (k - 1) + 4 * t k + t (k + 1)) (t (k - 1))]
    have h7 : 1 / 10 ^ 15 * (|t (k - 1)| + |t k|) ≤ 1 / 10 ^ 15 * (2 * |t k|) :=
      mul_le_mul_of_nonneg_left (by linarith) (by positivity)
    norm_num at h7
    norm_num at h3
    linarith
  intro i hi
  rw [habs, div_mul_cancel₀ _ hx2.ne']
  by_cases hi0 : i = 0
  · subst hi0
    have e : t 0 = 2 * t 1 - t 2 := by
      field_simp at g0
      linear_combination g0
    rw [e]
    have := hmax 2 (Finset.mem_Icc.mpr ⟨by omega, by omega⟩)
    have h2 : |2 * t 1| ≤ 2 * D := by
      rw [abs_mul, abs_of_pos (by norm_num : (0 : K) < 2)]; linarith
    linarith [abs_sub (2 * t 1) (t 2)]
  by_cases hin' : i = n - 1
  · subst hin'
    have e : t (n - 1) = 2 * t (n - 2) - t (n - 3) := by
      field_simp at g1
      linear_combination g1
    rw [e]
    have := hmax (n - 3) (Finset.mem_Icc.mpr ⟨by omega, by omega⟩)
    have h2 : |2 * t (n - 2)| ≤ 2 * D := by
      rw [abs_mul, abs_of_pos (by norm_num : (0 : K) < 2)]; linarith
    linarith [abs_sub (2 * t (n - 2)) (t (n - 3))]
  have := hmax i (Finset.mem_Icc.mpr ⟨by omega, by omega⟩)
  linarith

/-- **C43.** Between its nodes the interpolant stays within 63/100 of the largest second difference of the
straight line. -/
theorem C43_overshoot [FloorRing K] (junk : Nat → K) {xp0 dxp : K} (hd : 0 < dxp) {fp : List K}
    (hn : 4 ≤ fp.length) {D : K}
    (hD : ∀ (i : Nat) (f0 f1 f2 : K), fp[i]? = some f0 → fp[i + 1]? = some f1 → fp[i + 2]? = some f2 →
      |f0 - 2 * f1 + f2| ≤ D) {x : K} (hx : xp0 ≤ x) (hx' : x ≤ xp0 + ((fp.length - 1 : Nat) : K) * dxp) :
    ∃ y, (CubicInterp.notaknot junk xp0 dxp fp).eval x = some y ∧ ∃ v,
      (LinInterp.mk xp0 dxp fp).eval x = some v ∧ |y - v| ≤ 63 / 100 * D := by
  obtain ⟨k, hk, hlt⟩ := interpIdx_nat (n := fp.length) (by omega) ((x - xp0) / dxp)
  obtain ⟨hl, -⟩ := C43_system junk (xp0 := xp0) (dxp := dxp) hn
  have hb := C43_bound junk (xp0 := xp0) (dxp := dxp) hn hD
  have h1 : fp[k]? = some _ := List.getElem?_eq_getElem (by omega)
  have h2 : fp[k + 1]? = some _ := List.getElem?_eq_getElem hlt
  obtain ⟨yl, hyl⟩ : ∃ yl, (CubicInterp.notaknot junk xp0 dxp fp).y2p = yl := ⟨_, rfl⟩
  rw [hyl] at hl hb
  have h3 : yl[k]? = some _ := List.getElem?_eq_getElem (by omega)
  have h4 : yl[k + 1]? = some _ := List.getElem?_eq_getElem (by omega)
  have b1 := hb k (by omega)
  have b2 := hb (k + 1) (by omega)
  rw [List.getD_eq_getElem?_getD, h3] at b1
  rw [List.getD_eq_getElem?_getD, h4] at b2
  have e : (CubicInterp.notaknot junk xp0 dxp fp).eval x =
      evalCubic x xp0 dxp fp (CubicInterp.notaknot junk xp0 dxp fp).y2p := rfl
  rw [hyl, evalCubic_of_idx hk h1 h2 h3 h4] at e
  refine ⟨_, e, _, evalLin_of_idx hk h1 h2, ?_⟩
  have t0 : 0 ≤ (x - xp0) / dxp := div_nonneg (by linarith) hd.le
  have t1 : (x - xp0) / dxp ≤ ((fp.length - 1 : Nat) : K) := by rw [div_le_iff₀ hd]; linarith
  have hb0 : 0 ≤ (x - xp0) / dxp - k := by
    rw [interpIdx_eq (by omega)] at hk
    have : (k : Int) ≤ ⌊(x - xp0) / dxp⌋ ∨ k = 0 := by omega
    rcases this with h | h
    · rw [Int.le_floor] at h
      have h : (k : K) ≤ (x - xp0) / dxp := by exact_mod_cast h
      linarith
    · subst h; simpa using t0
  have hb1 : (x - xp0) / dxp - k ≤ 1 := by
    rw [interpIdx_eq (by omega)] at hk
    have : ⌊(x - xp0) / dxp⌋ ≤ (k : Int) ∨ k = fp.length - 2 := by omega
    rcases this with h | h
    · have := Int.lt_floor_add_one ((x - xp0) / dxp)
      have h' : ((⌊(x - xp0) / dxp⌋ : Int) : K) ≤ ((k : Int) : K) := Int.cast_le.mpr h
      rw [Int.cast_natCast] at h'
      linarith
    · have : ((fp.length - 1 : Nat) : K) = k + 1 := by
        rw [show fp.length - 1 = k + 1 by omega]; push_cast; ring
      linarith
  generalize (x - xp0) / dxp - k = b at *
  generalize fp[k] = f1
  generalize fp[k + 1] = f2
  generalize yl[k]'(by omega) = z1 at b1 ⊢
  generalize yl[k + 1]'(by omega) = z2 at b2 ⊢
  simp only [Option.getD_some] at b1 b2
  have eq : cubicPiece dxp f1 f2 z1 z2 b - (f1 + (f2 - f1) * b) =
      -((b * (1 - b) / 6) * ((2 - b) * (z1 * dxp ^ 2) + (1 + b) * (z2 * dxp ^ 2))) := by
    unfold cubicPiece
    dsimp only
    ring
  rw [eq, abs_neg, abs_mul, abs_of_nonneg (by
    have := mul_nonneg hb0 (sub_nonneg.mpr hb1)
    positivity : 0 ≤ b * (1 - b) / 6)]
  have hx2 : 0 ≤ dxp ^ 2 := by positivity
  have c1 : |(2 - b) * (z1 * dxp ^ 2)| ≤ (2 - b) * (504 / 100 * D) := by
    rw [abs_mul, abs_mul, abs_of_nonneg hx2, abs_of_nonneg (by linarith : 0 ≤ 2 - b)]
    exact mul_le_mul_of_nonneg_left b1 (by linarith)
  have c2 : |(1 + b) * (z2 * dxp ^ 2)| ≤ (1 + b) * (504 / 100 * D) := by
    rw [abs_mul, abs_mul, abs_of_nonneg hx2, abs_of_nonneg (by linarith : 0 ≤ 1 + b)]
    exact mul_le_mul_of_nonneg_left b2 (by linarith)
  have c3 := abs_add_le ((2 - b) * (z1 * dxp ^ 2)) ((1 + b) * (z2 * dxp ^ 2))
  have hq : b * (1 - b) ≤ 1 / 4 := by nlinarith [sq_nonneg (b - 1 / 2)]
  have hq0 : 0 ≤ b * (1 - b) := mul_nonneg hb0 (sub_nonneg.mpr hb1)
  have hD0 : 0 ≤ D := by
    have : 0 ≤ |z1| * dxp ^ 2 := by positivity
    linarith
  calc b * (1 - b) / 6 * |(2 - b) * (z1 * dxp ^ 2) + (1 + b) * (z2 * dxp ^ 2)|
      ≤ b * (1 - b) / 6 * (3 * (504 / 100 * D)) :=
        mul_le_mul_of_nonneg_left (by linarith) (by positivity)
    _ ≤ 1 / 4 / 6 * (3 * (504 / 100 * D)) :=
        mul_le_mul_of_nonneg_right (by linarith) (by positivity)
    _ = 63 / 100 * D := by ring

variable [FloorRing K]

/-- **C43.** A table of a linear function gives that function, everywhere. -/
theorem C43_linear (junk : Nat → K) {xp0 dxp : K} (hd : dxp ≠ 0) {fp : List K} (hn : 4 ≤ fp.length) {a b : K}
    (h : ∀ (k : Nat) (y : K), fp[k]? = some y → y = a + b * (xp0 + k * dxp)) (x : K) :
    (CubicInterp.notaknot junk xp0 dxp fp).eval x = some (a + b * x) := by
  have hF : ∀ i, i < fp.length → fp.getD i 0 = a + b * (xp0 + i * dxp) := by
    intro i hi
    rw [List.getD_eq_getElem?_getD, List.getElem?_eq_getElem hi]
    exact h i _ (List.getElem?_eq_getElem hi)
  have hy := C43_close junk (xp0 := xp0) (dxp := dxp) hn (z := fun _ => 0) (by ring) (by ring)
    (fun i hi hi' => by
      rw [hF (i - 1) (by omega), hF i (by omega), hF (i + 1) (by omega)]
      obtain ⟨j, rfl⟩ : ∃ j, i = j + 1 := ⟨i - 1, by omega⟩
      simp only [Nat.add_sub_cancel]
      push_cast
      ring) (M := 0) (fun i _ => by simp)
  obtain ⟨hl, -⟩ := C43_system junk (xp0 := xp0) (dxp := dxp) hn
  have hy0 : ∀ i, i < fp.length → (CubicInterp.notaknot junk xp0 dxp fp).y2p[i]? = some 0 := by
    intro i hi
    have := hy i hi
    rw [mul_zero, abs_nonpos_iff, sub_zero, List.getD_eq_getElem?_getD,
      List.getElem?_eq_getElem (by rw [hl]; exact hi)] at this
    rw [List.getElem?_eq_getElem (by rw [hl]; exact hi)]
    exact congrArg some this
  obtain ⟨k, hk, hlt⟩ := interpIdx_nat (n := fp.length) (by omega) ((x - xp0) / dxp)
  have h1 : fp[k]? = some _ := List.getElem?_eq_getElem (by omega)
  have h2 : fp[k + 1]? = some _ := List.getElem?_eq_getElem hlt
  have := evalCubic_of_idx hk h1 h2 (hy0 k (by omega)) (hy0 (k + 1) hlt)
  have e : (CubicInterp.notaknot junk xp0 dxp fp).eval x =
      evalCubic x xp0 dxp fp (CubicInterp.notaknot junk xp0 dxp fp).y2p := rfl
  rw [e, this, h k _ h1, h (k + 1) _ h2]
  unfold cubicPiece
  dsimp only
  push_cast
  congr 1
  field_simp
  ring

omit [FloorRing K] in
/-- **C43, refuted for three nodes.** The result depends on what the uninitialised array held. -/
theorem C43_three_nodes_refuted : ∃ junk junk' : Nat → K,
    CubicInterp.notaknot junk 0 1 [0, 1, 0] ≠ CubicInterp.notaknot junk' 0 1 [0, 1, 0] := by
  refine ⟨fun _ => 0, fun _ => 1, fun h => ?_⟩
  have h0 : (CubicInterp.notaknot (fun _ => (0 : K)) 0 1 [0, 1, 0]).y2p[0]? =
      (CubicInterp.notaknot (fun _ => (1 : K)) 0 1 [0, 1, 0]).y2p[0]? := by rw [h]
  have e : ∀ c : K, (CubicInterp.notaknot (fun _ => c) 0 1 [0, 1, 0]).y2p[0]? =
      some ((2 * ((0 - 2 * 1 + 0) / 6 / 6) - c) * (6 / 1 ^ 2)) := fun c => by
    simp [CubicInterp.notaknot, toArr, splineNotaknot, secondDifferences, nakEnds, divSix, uAt, uTable,
      Function.update, List.range']
  rw [e, e, Option.some.injEq] at h0
  norm_num at h0

end

/-- Second derivatives of a table of six squares: 2 up to the rounding of the pivots. -/
example : ((CubicInterp.notaknot (fun _ => 7) 0 1 [0, 1, 4, 9, 16, 25] : CubicInterp ℚ).y2p.map
    (fun y => decide (|y - 2| ≤ 1 / 10 ^ 15))) = [true, true, true, true, true, true] := by decide +kernel

/-- **C43.** The not-a-knot spline of a real table takes the values of the table at the nodes, is
continuous and a cubic between neighbours; at an inner node the slopes from the left and from the right
differ by no more than the rounding of the pivots. -/
theorem C43_spline (junk : Nat → ℝ) {xp0 dxp : ℝ} (hd : 0 < dxp) {fp : List ℝ} (hn : 4 ≤ fp.length) :
    ∃ f : ℝ → ℝ, (∀ x, (CubicInterp.notaknot junk xp0 dxp fp).eval x = some (f x)) ∧ Continuous f ∧
    (∀ (i : Nat) (y : ℝ), fp[i]? = some y → f (xp0 + i * dxp) = y) ∧
    (∀ i : Nat, i + 1 < fp.length → ∃ a b c d : ℝ, ∀ x, xp0 + i * dxp ≤ x → x ≤ xp0 + (i + 1) * dxp →
      f x = a + b * x + c * x ^ 2 + d * x ^ 3) ∧
    (∀ (i : Nat) (y0 y1 : ℝ), i + 2 < fp.length → (CubicInterp.notaknot junk xp0 dxp fp).y2p[i]? = some y0 →
      (CubicInterp.notaknot junk xp0 dxp fp).y2p[i + 1]? = some y1 → ∃ l r : ℝ,
      HasDerivWithinAt f l (Set.Iic (xp0 + (i + 1) * dxp)) (xp0 + (i + 1) * dxp) ∧
      HasDerivWithinAt f r (Set.Ici (xp0 + (i + 1) * dxp)) (xp0 + (i + 1) * dxp) ∧
      |l - r| ≤ dxp / 6 * (1 / 10 ^ 15 * (|y0| + |y1|))) := by
  have hn2 : 2 ≤ fp.length := by omega
  obtain ⟨-, -, s3, s4, s5⟩ := splineNotaknot_spec junk hn (fun i => fp.getD i 0) (dxp := dxp)
  have hy : ∀ i, i < fp.length → (CubicInterp.notaknot junk xp0 dxp fp).y2p[i]? =
      some (splineNotaknot junk fp.length (fun i => fp.getD i 0) dxp i) := by
    intro i hi
    change (toArr _ _)[i]? = _
    unfold toArr
    rw [List.getElem?_map, List.getElem?_range hi]; rfl
  have hev : ∀ x, (CubicInterp.notaknot junk xp0 dxp fp).eval x = _ := fun x =>
    eval_glued (xp0 := xp0) (dxp := dxp) hn2
      (splineNotaknot junk fp.length (fun i => fp.getD i 0) dxp) x
  have hFG : ∀ i y, fp[i]? = some y → (fun i => fp.getD i 0) i = y := by
    intro i y h
    dsimp only
    rw [List.getD_eq_getElem?_getD, h]; rfl
  -- residual of every row
  have hres : ∀ i, i + 2 < fp.length →
      |splineNotaknot junk fp.length (fun i => fp.getD i 0) dxp i +
        4 * splineNotaknot junk fp.length (fun i => fp.getD i 0) dxp (i + 1) +
        splineNotaknot junk fp.length (fun i => fp.getD i 0) dxp (i + 2) -
        6 * (fp.getD i 0 - 2 * fp.getD (i + 1) 0 + fp.getD (i + 2) 0) / dxp ^ 2| ≤
      1 / 10 ^ 15 * (|splineNotaknot junk fp.length (fun i => fp.getD i 0) dxp i| +
        |splineNotaknot junk fp.length (fun i => fp.getD i 0) dxp (i + 1)|) := by
    intro i hi
    have hnn : (0 : ℝ) ≤ 1 / 10 ^ 15 * (|splineNotaknot junk fp.length (fun i => fp.getD i 0) dxp i| +
        |splineNotaknot junk fp.length (fun i => fp.getD i 0) dxp (i + 1)|) := by positivity
    by_cases h0 : i = 0
    · subst h0
      refine le_trans (le_of_eq ?_) hnn
      rw [abs_eq_zero, sub_eq_zero]
      exact s3
    · by_cases h1 : i + 3 = fp.length
      · refine le_trans (le_of_eq ?_) hnn
        rw [abs_eq_zero, sub_eq_zero]
        rw [show fp.length - 3 = i by omega, show fp.length - 2 = i + 1 by omega,
          show fp.length - 1 = i + 2 by omega] at s4
        exact s4
      · exact s5 (i + 1) (by omega) (by omega)
  generalize splineNotaknot junk fp.length (fun i => fp.getD i 0) dxp = Y at hev hy hres
  clear s3 s4 s5
  generalize hG : (fun i => fp.getD i 0) = F at hev hFG
  simp only [fun i => congrFun hG i] at hres
  generalize hN : fp.length = n at *
  have hcin : Continuous (fun x : ℝ => (x - xp0) / dxp) := by fun_prop
  have hin : ∀ x, HasDerivAt (fun x : ℝ => (x - xp0) / dxp) (1 / dxp) x := fun x =>
    ((hasDerivAt_id x).sub_const _).div_const _
  have node : ∀ c : ℝ, (xp0 + c * dxp - xp0) / dxp = c := by
    intro c
    rw [add_sub_cancel_left, mul_div_cancel_right₀ _ hd.ne']
  refine ⟨fun x => glued (pieceAt dxp F Y) (n - 2) ((x - xp0) / dxp), hev, ?_, ?_,
    fun i hi => (glued_segments hd F Y hi).2.2, ?_⟩
  · refine (glued_continuous (fun i => ?_) (n - 2) (fun i _ => ?_)).comp hcin
    · exact continuous_iff_continuousAt.mpr fun x => (pieceAt_deriv dxp F Y i x).continuousAt
    · rw [pieceAt_right]
      have := pieceAt_left dxp F Y (i + 1)
      push_cast at this
      exact this.symm
  · intro i y h
    have hlt : i < n := by rw [← hN]; exact (List.getElem?_eq_some_iff.mp h).1
    dsimp only
    rw [node]
    by_cases hi : i + 1 < n
    · rw [(glued_segments (xp0 := xp0) hd F Y hi).1]; exact hFG i y h
    · obtain ⟨j, rfl⟩ : ∃ j, i = j + 1 := ⟨i - 1, by omega⟩
      push_cast
      rw [(glued_segments (xp0 := xp0) hd F Y (i := j) (by omega)).2.1]; exact hFG _ y h
  · intro i y0 y1 hi h0 h1
    rw [hy i (by omega), Option.some.injEq] at h0
    rw [hy (i + 1) (by omega), Option.some.injEq] at h1
    subst h0 h1
    have hx : ∀ j : Nat, HasDerivAt (fun x => pieceAt dxp F Y j ((x - xp0) / dxp))
        (pieceAt' dxp F Y j ((i : ℝ) + 1) * (1 / dxp)) (xp0 + ((i : ℝ) + 1) * dxp) := by
      intro j
      have := pieceAt_deriv dxp F Y j ((i : ℝ) + 1)
      rw [← node ((i : ℝ) + 1)] at this
      have := HasDerivAt.comp (h₂ := pieceAt dxp F Y j) (h := fun x : ℝ => (x - xp0) / dxp) _ this
        (hin (xp0 + ((i : ℝ) + 1) * dxp))
      rw [node] at this
      exact this
    refine ⟨_, _, ((hx i).hasDerivWithinAt.congr_of_eventuallyEq ?_ ?_),
      ((hx (i + 1)).hasDerivWithinAt.congr_of_eventuallyEq ?_ ?_), ?_⟩
    · have hm : Set.Ioi (xp0 + (i : ℝ) * dxp) ∈ nhds (xp0 + ((i : ℝ) + 1) * dxp) :=
        Ioi_mem_nhds (by nlinarith)
      filter_upwards [mem_nhdsWithin_of_mem_nhds hm, self_mem_nhdsWithin] with x hx1 hx2
      have a1 : xp0 + (i : ℝ) * dxp < x := hx1
      have a2 : x ≤ xp0 + ((i : ℝ) + 1) * dxp := hx2
      exact glued_seg F Y (by omega) (by rw [le_div_iff₀ hd]; linarith) (by rw [div_le_iff₀ hd]; linarith)
    · rw [node]
      exact glued_seg F Y (by omega) (by linarith) le_rfl
    · have hm : Set.Iio (xp0 + ((i : ℝ) + 2) * dxp) ∈ nhds (xp0 + ((i : ℝ) + 1) * dxp) :=
        Iio_mem_nhds (by nlinarith)
      filter_upwards [mem_nhdsWithin_of_mem_nhds hm, self_mem_nhdsWithin] with x hx1 hx2
      have a1 : x < xp0 + ((i : ℝ) + 2) * dxp := hx1
      have a2 : xp0 + ((i : ℝ) + 1) * dxp ≤ x := hx2
      exact glued_seg F Y (by omega) (by rw [le_div_iff₀ hd]; push_cast; linarith)
        (by rw [div_le_iff₀ hd]; push_cast; linarith)
    · rw [node]
      exact glued_seg F Y (by omega) (by push_cast; linarith) (by push_cast; linarith)
    · rw [← sub_mul, pieceAt'_jump]
      have e : (dxp ^ 2 / 6 * (Y i + 4 * Y (i + 1) + Y (i + 2)) - (F i - 2 * F (i + 1) + F (i + 2))) *
          (1 / dxp) = dxp / 6 * (Y i + 4 * Y (i + 1) + Y (i + 2) -
            6 * (F i - 2 * F (i + 1) + F (i + 2)) / dxp ^ 2) := by
        have := hd.ne'
        field_simp
      rw [e, abs_mul, abs_of_pos (by positivity : 0 < dxp / 6)]
      exact mul_le_mul_of_nonneg_left (hres i hi) (by positivity)

end Verif.Props

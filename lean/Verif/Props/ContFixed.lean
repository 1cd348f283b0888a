import Verif.Props.MeanCont

/-!
# C85: empty bins and fixed points of the mean continuum
-/

namespace Verif.Props
open Verif Verif.Model Verif.Proofs

section
variable {K : Type} [Field K] [LinearOrder K] [IsStrictOrderedRing K]

omit [IsStrictOrderedRing K] in
/-- Only bins with data enter the mean over bins with data. -/
theorem meanWhere_congr {std a b : List K} (hl : a.length = b.length)
    (h : ∀ (i : Nat) (s x y : K), std[i]? = some s → a[i]? = some x → b[i]? = some y → 0 < s → x = y) :
    meanWhere std a = meanWhere std b := by
  have : ((std.zip a).filter (fun p => decide (0 < p.1))).map Prod.snd =
      ((std.zip b).filter (fun p => decide (0 < p.1))).map Prod.snd := by
    induction std generalizing a b with
    | nil => rfl
    | cons s std ih =>
      cases a with
      | nil => cases b with
        | nil => rfl
        | cons y b => simp at hl
      | cons x a => cases b with
        | nil => simp at hl
        | cons y b =>
          have := ih (by simpa using hl) (fun i s x y h1 h2 h3 => h (i + 1) s x y (by simpa using h1) (by simpa using h2)
            (by simpa using h3))
          by_cases hs : 0 < s
          · have e := h 0 s x y rfl rfl rfl hs
            simp [hs, e, this]
          · simp [hs, this]
  unfold meanWhere
  rw [this]

omit [IsStrictOrderedRing K] in
theorem fillFlux_congr {std a b : List K} (hl : a.length = b.length)
    (h : ∀ (i : Nat) (s x y : K), std[i]? = some s → a[i]? = some x → b[i]? = some y → 0 < s → x = y) :
    fillFlux std a = fillFlux std b := by
  unfold fillFlux
  rw [meanWhere_congr hl h]
  refine List.ext_getElem? fun i => ?_
  rw [List.getElem?_zipWith, List.getElem?_zipWith]
  cases hs : std[i]? with
  | none => rfl
  | some s =>
    cases hx : a[i]? with
    | none =>
      have : b[i]? = none := by rw [List.getElem?_eq_none_iff] at *; omega
      rw [this]
    | some x =>
      have hi : i < b.length := by have := (List.getElem?_eq_some_iff.mp hx).1; omega
      rw [List.getElem?_eq_getElem hi]
      dsimp only
      by_cases h0 : 0 < s
      · rw [if_pos h0, if_pos h0, h i s x _ hs hx (List.getElem?_eq_getElem hi) h0]
      · rw [if_neg h0, if_neg h0]

variable (smooth : List K → List K → List K) (x : List K) (order : Nat) (residual : Bool) {old flux std : List K}

omit [IsStrictOrderedRing K] in
/-- **C85.** The new mean continuum, its errors and the convergence do not depend on what the stack has in empty bins. -/
theorem C85_empty {flux' : List K} (hl : flux.length = flux'.length)
    (h : ∀ (i : Nat) (s a b : K), std[i]? = some s → flux[i]? = some a → flux'[i]? = some b → 0 < s → a = b) :
    meanUpdate smooth x order residual old flux std = meanUpdate smooth x order residual old flux' std := by
  unfold meanUpdate rawMeancont
  rw [fillFlux_congr hl h]

/-- The mean error of bins with data is positive. -/
theorem meanWhere_pos (h : ∃ s ∈ std, 0 < s) : 0 < meanWhere std std := by
  unfold meanWhere
  dsimp only
  have hz : std.zip std = std.map (fun s => (s, s)) := by
    rw [List.zip, List.zipWith_self]
  rw [hz, List.filter_map, List.map_map]
  have e : (List.filter ((fun p : K × K => decide (0 < p.1)) ∘ fun s => (s, s)) std).map (Prod.snd ∘ fun s => (s, s)) =
      std.filter (fun s => decide (0 < s)) := by
    change List.map id _ = _
    rw [List.map_id]
    rfl
  rw [e]
  obtain ⟨s, hs, h0⟩ := h
  have hm : s ∈ std.filter (fun s => decide (0 < s)) := List.mem_filter.mpr ⟨hs, by simpa using h0⟩
  have hp : ∀ t ∈ std.filter (fun s => decide (0 < s)), 0 < t := fun t ht => by simpa using (List.mem_filter.mp ht).2
  refine div_pos (List.sum_pos _ hp (List.ne_nil_of_mem hm)) ?_
  exact_mod_cast List.length_pos_of_mem hm

/-- **C85.** The reported error of a bin with data is the error of the stack in units of the norm of the mean continuum; that
of an empty bin is ten times the average over the bins with data. If there are data, all errors have the sign of the norm. -/
theorem C85_errors (hd : ∃ s ∈ std, 0 < s) :
    ∃ m : K, (projectNormalize x order (rawMeancont smooth residual old flux std)).2 = m ∧
      ∃ a, (std.filter (fun s => decide (0 < s))).sum = a * ((std.filter (fun s => decide (0 < s))).length : K) ∧
      0 < a ∧ ∀ (i : Nat) (s : K), std[i]? = some s →
        (0 < s → (meanUpdate smooth x order residual old flux std).ep[i]? = some (s / m)) ∧
        (¬ 0 < s → (meanUpdate smooth x order residual old flux std).ep[i]? = some (10 * a / m)) := by
  refine ⟨_, rfl, meanWhere std std, ?_, meanWhere_pos hd, ?_⟩
  · have hz : std.zip std = std.map (fun s => (s, s)) := by rw [List.zip, List.zipWith_self]
    have e : (List.filter ((fun p : K × K => decide (0 < p.1)) ∘ fun s => (s, s)) std).map (Prod.snd ∘ fun s => (s, s)) =
        std.filter (fun s => decide (0 < s)) := by
      change List.map id _ = _
      rw [List.map_id]
      rfl
    unfold meanWhere
    dsimp only
    rw [hz, List.filter_map, List.map_map, e, div_mul_cancel₀]
    obtain ⟨s, hs, h0⟩ := hd
    have hm : s ∈ std.filter (fun s => decide (0 < s)) := List.mem_filter.mpr ⟨hs, by simpa using h0⟩
    exact_mod_cast (List.length_pos_of_mem hm).ne'
  · intro i s hs
    have : (meanUpdate smooth x order residual old flux std).ep[i]? = some ((if 0 < s then s else 10 * meanWhere std std) /
        (projectNormalize x order (rawMeancont smooth residual old flux std)).2) := by
      change ((fillStd std).map _)[i]? = _
      unfold fillStd
      rw [List.getElem?_map, List.getElem?_map, hs]
      rfl
    rw [this]
    exact ⟨fun h => by rw [if_pos h], fun h => by rw [if_neg h]⟩

omit [IsStrictOrderedRing K] in
theorem meanWhere_const {v : K} [CharZero K] (hl : flux.length = std.length) (hd : ∃ s ∈ std, 0 < s)
    (hv : ∀ (i : Nat) (s a : K), std[i]? = some s → flux[i]? = some a → 0 < s → a = v) : meanWhere std flux = v := by
  unfold meanWhere
  dsimp only
  have hall : ∀ a ∈ ((std.zip flux).filter (fun p => decide (0 < p.1))).map Prod.snd, a = v := by
    intro a ha
    obtain ⟨p, hp, rfl⟩ := List.mem_map.mp ha
    obtain ⟨hp1, hp2⟩ := List.mem_filter.mp hp
    obtain ⟨i, hi⟩ := List.getElem?_of_mem hp1
    rw [List.getElem?_zip_eq_some] at hi
    exact hv i p.1 p.2 hi.1 hi.2 (by simpa using hp2)
  have hne : ((std.zip flux).filter (fun p => decide (0 < p.1))).map Prod.snd ≠ [] := by
    obtain ⟨s, hs, h0⟩ := hd
    obtain ⟨i, hi⟩ := List.getElem?_of_mem hs
    have hil : i < flux.length := by have := (List.getElem?_eq_some_iff.mp hi).1; omega
    refine List.ne_nil_of_mem (a := flux[i]) (List.mem_map.mpr ⟨(s, flux[i]), List.mem_filter.mpr ⟨?_, by simpa using h0⟩, rfl⟩)
    exact List.mem_of_getElem? (i := i) (List.getElem?_zip_eq_some.mpr ⟨hi, List.getElem?_eq_getElem hil⟩)
  generalize ((std.zip flux).filter (fun p => decide (0 < p.1))).map Prod.snd = l at *
  rw [List.eq_replicate_of_mem hall, List.sum_replicate, List.length_replicate, nsmul_eq_mul, mul_div_cancel_left₀]
  have : l.length ≠ 0 := by simpa using hne
  exact_mod_cast this

omit [IsStrictOrderedRing K] in
theorem fillFlux_const {v : K} [CharZero K] (hl : flux.length = std.length) (hd : ∃ s ∈ std, 0 < s)
    (hv : ∀ (i : Nat) (s a : K), std[i]? = some s → flux[i]? = some a → 0 < s → a = v) :
    fillFlux std flux = List.replicate std.length v := by
  unfold fillFlux
  rw [meanWhere_const hl hd hv]
  refine List.ext_getElem? fun i => ?_
  rw [List.getElem?_zipWith, List.getElem?_replicate]
  cases hs : std[i]? with
  | none =>
    rw [if_neg (by rw [List.getElem?_eq_none_iff] at hs; omega)]
  | some s =>
    have hi := (List.getElem?_eq_some_iff.mp hs).1
    rw [List.getElem?_eq_getElem (by omega : i < flux.length), if_pos hi]
    dsimp only
    split
    · next h => rw [hv i s _ hs (List.getElem?_eq_getElem (by omega)) h]
    · rfl

end

section
variable {K : Type} [Field K]

/-- The projection leaves alone what has no part of the polynomials. -/
theorem project_free {x old : List K} (ho : old.length = x.length) {v : K} {order : Nat}
    (h : ∀ ci, 0 < ci → ci ≤ order → splIntegral x (List.zipWith (· * ·) old (legArr x ci)) = 0) :
    project x order (old.map (v * ·)) = old.map (v * ·) := by
  induction order with
  | zero => rfl
  | succ n ih =>
    rw [project_succ, ih (fun ci h0 h1 => h ci h0 (by omega))]
    have e : List.zipWith (· * ·) (old.map (v * ·)) (legArr x (n + 1)) =
        (List.zipWith (· * ·) old (legArr x (n + 1))).map (v * ·) := by
      rw [List.zipWith_map_left, List.map_zipWith]
      congr 1
      funext a b
      ring
    have hB : splIntegral x (List.zipWith (· * ·) (old.map (v * ·)) (legArr x (n + 1))) = 0 := by
      have := splIntegral_div x (List.zipWith (· * ·) old (legArr x (n + 1))) v⁻¹
      rw [h (n + 1) (by omega) le_rfl, zero_div] at this
      refine Eq.trans ?_ this
      rw [e]
      congr 1
      refine List.map_congr_left fun a _ => ?_
      rw [div_inv_eq_mul, mul_comm]
    unfold projectStep
    dsimp only
    rw [hB]
    refine List.ext_getElem (by simp [legArr_length, ho]) fun i h1 h2 => ?_
    rw [List.getElem_zipWith]
    ring

end

section
variable {K : Type} [Field K] [LinearOrder K] [IsStrictOrderedRing K] {x old flux std : List K} {order : Nat}
  (smooth : List K → List K → List K)

/-- **C85.** If the stack of flux over continuum has the same value in all bins with data, a mean continuum that is
normalised and free of the polynomials stays as it is, also in empty bins, and the fit has converged. Assumed: smoothing
leaves constants alone. -/
theorem C85_fixed (hsm : ∀ (n : Nat) (v : K) (w : List K), smooth (List.replicate n v) w = List.replicate n v)
    (ho : old.length = x.length) (hl : flux.length = std.length) (hs : std.length = x.length) (hd : ∃ s ∈ std, 0 < s)
    {v : K} (hv0 : 0 < v) (hv : ∀ (i : Nat) (s a : K), std[i]? = some s → flux[i]? = some a → 0 < s → a = v)
    (hn : splIntegral x old = 1)
    (hp : ∀ ci, 0 < ci → ci ≤ order → splIntegral x (List.zipWith (· * ·) old (legArr x ci)) = 0) (h0 : ∀ o ∈ old, o ≠ 0) :
    (meanUpdate smooth x order true old flux std).fp = old ∧
      (meanUpdate smooth x order true old flux std).converged = true := by
  have hraw : rawMeancont smooth true old flux std = old.map (v * ·) := by
    unfold rawMeancont
    dsimp only
    rw [if_pos rfl, fillFlux_const hl hd hv, hsm]
    refine List.ext_getElem (by simp [hs, ho]) fun i h1 h2 => ?_
    simp
  have hpn : projectNormalize x order (rawMeancont smooth true old flux std) = (old, v) := by
    unfold projectNormalize
    dsimp only
    rw [hraw, project_free ho hp]
    have e := splIntegral_div x old v⁻¹
    rw [hn, one_div, inv_inv] at e
    have e2 : old.map (v * ·) = old.map (· / v⁻¹) := List.map_congr_left fun a _ => by
      rw [div_inv_eq_mul, mul_comm]
    have e3 : splIntegral x (old.map (v * ·)) = v := by rw [e2, e]
    rw [e3, List.map_map]
    refine Prod.ext ?_ rfl
    dsimp only
    conv_rhs => rw [← List.map_id old]
    refine List.map_congr_left fun a _ => ?_
    simp only [Function.comp, id]
    field_simp
  have hfp : (meanUpdate smooth x order true old flux std).fp = old := by
    change (projectNormalize x order (rawMeancont smooth true old flux std)).1 = old
    rw [hpn]
  refine ⟨hfp, C79_complete smooth x order true ?_⟩
  intro i n o e hn' ho' he
  rw [hfp, ho'] at hn'
  cases hn'
  rw [div_self (h0 _ (List.mem_of_getElem? ho')), sub_self, abs_zero]
  have hep : (meanUpdate smooth x order true old flux std).ep = (fillStd std).map (· / v) := by
    change (fillStd std).map (· / (projectNormalize x order (rawMeancont smooth true old flux std)).2) = _
    rw [hpn]
  rw [hep] at he
  have hm := List.mem_of_getElem? he
  obtain ⟨f, hf, rfl⟩ := List.mem_map.mp hm
  have fpos : 0 < f := by
    unfold fillStd at hf
    obtain ⟨s, -, rfl⟩ := List.mem_map.mp hf
    split
    · assumption
    · exact mul_pos (by norm_num) (meanWhere_pos hd)
  positivity

end

/-- Three bins, the middle one empty: a flat mean continuum stays. -/
example : (meanUpdate (fun f _ => f) [0, 1 / 2, 1] 1 true [1, 1, 1] [3, 0, 3] ([1, 0, 2] : List ℚ)).fp = [1, 1, 1] ∧
    splIntegral [0, 1 / 2, 1] [1, 1, (1 : ℚ)] = 1 ∧
    splIntegral [0, 1 / 2, 1] (List.zipWith (· * ·) [1, 1, 1] (legArr [0, 1 / 2, (1 : ℚ)] 1)) = 0 ∧
    (meanUpdate (fun f _ => f) [0, 1 / 2, 1] 1 true [1, 1, 1] [3, 0, 3] ([1, 0, 2] : List ℚ)).ep = [1 / 3, 5, 2 / 3] := by
  decide +kernel

/-- `C79_points_partial`, `C79_complete`: converged, with three bins: the updates are 6.25% and 1/16 with errors of one half. The empty bin in the middle gets
the mean of the others. -/
example : (meanUpdate (fun f _ => f) [0, 1 / 2, 1] 1 false [1, 1, 1] [1, 5, 3] ([1, 0, 1] : List ℚ)).fp =
      [17 / 16, 1, 15 / 16] ∧
    (meanUpdate (fun f _ => f) [0, 1 / 2, 1] 1 false [1, 1, 1] [1, 5, 3] ([1, 0, 1] : List ℚ)).ep =
      [1 / 2, 5, 1 / 2] ∧
    (meanUpdate (fun f _ => f) [0, 1 / 2, 1] 1 false [1, 1, 1] [1, 5, 3] ([1, 0, 1] : List ℚ)).converged = true ∧
    (meanUpdate (fun f _ => f) [0, 1 / 2, 1] 1 false [1, 2, 1] [1, 5, 3] ([1, 0, 1] : List ℚ)).converged = true ∧
    (meanUpdate (fun f _ => f) [0, 1 / 2, 1] 1 false [2, 1, 1] [1, 5, 3] ([1, 0, 1] : List ℚ)).converged = false := by
  decide +kernel

end Verif.Props

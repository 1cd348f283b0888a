import Verif.Model.Args
import Verif.Proofs.Spectrum
import Mathlib.Data.Rat.Floor
import Mathlib.Tactic.Linarith
import Mathlib.Tactic.FieldSimp
import Mathlib.Tactic.Ring

/-!
# Options and redshift range: C58, C59, C66
-/

namespace Verif.Props
open Verif.Model Verif.Np Verif.Proofs Verif.Spec

/-! ### C66 -/

/-- **C66**, the part that holds (`_float_range`, py/qsonic/io.py:714-728). Full claim: the option accepts exactly
the numbers in the range. Proved for every text that is not NaN: text that is no number is refused, a finite number
is accepted exactly if it is in the range, and then unchanged, and infinity is refused. Missing: NaN, which is
accepted (`C66_refuted`). -/
theorem C66_partial {K : Type} [LinearOrder K] (f1 f2 : K) (parse : String → Option (Fl K)) (arg : String) :
    (parse arg = none → ∃ e, floatRange (.fin f1) (.fin f2) parse arg = .error e) ∧
    (∀ x, parse arg = some (.fin x) →
      ((∃ y, floatRange (.fin f1) (.fin f2) parse arg = .ok y) ↔ f1 ≤ x ∧ x ≤ f2) ∧
      (f1 ≤ x → x ≤ f2 → floatRange (.fin f1) (.fin f2) parse arg = .ok (.fin x))) ∧
    (parse arg = some .pinf ∨ parse arg = some .ninf →
      ∃ e, floatRange (.fin f1) (.fin f2) parse arg = .error e) := by
  unfold floatRange
  refine ⟨fun h => ?_, fun x h => ?_, fun h => ?_⟩
  · rw [h]; exact ⟨_, rfl⟩
  · rw [h]
    simp only [Fl.lt, Bool.or_eq_true, decide_eq_true_eq]
    constructor
    · constructor
      · rintro ⟨y, hy⟩
        split at hy
        · cases hy
        · next hn => push Not at hn; exact hn
      · rintro ⟨h1, h2⟩
        exact ⟨.fin x, if_neg (by push Not; exact ⟨h1, h2⟩)⟩
    · intro h1 h2
      exact if_neg (by push Not; exact ⟨h1, h2⟩)
  · rcases h with h | h <;> rw [h] <;> exact ⟨_, rfl⟩

/-- **C66** is false for NaN: it is accepted whatever the range. -/
theorem C66_refuted {K : Type} [LinearOrder K] (f1 f2 : K) (parse : String → Option (Fl K)) (arg : String)
    (h : parse arg = some .nan) : floatRange (.fin f1) (.fin f2) parse arg = .ok .nan := by
  unfold floatRange
  rw [h]
  rfl

/-- A small parser for the examples. -/
def demoParse (s : String) : Option (Fl ℚ) :=
  if s = "nan" then some .nan else if s = "inf" then some .pinf else if s = "0.2" then some (.fin (1 / 5))
  else if s = "2" then some (.fin 2) else none

example : floatRange (.fin 0) (.fin 1) demoParse "0.2" = .ok (.fin (1 / 5)) := by decide +kernel
example : floatRange (.fin 0) (.fin 1) demoParse "2" = .error .typeError := by decide +kernel
example : floatRange (.fin 0) (.fin 1) demoParse "x" = .error .typeError := by decide +kernel
example : floatRange (.fin 0) (.fin 1) demoParse "nan" = .ok .nan := by decide +kernel

/-! ### C58 -/

/-- The option is given (a file name). -/
def IsGiven (o : Option String) : Prop := ∃ s, o = some s ∧ s ≠ ""

theorem given_iff (o : Option String) : given o = true ↔ IsGiven o := by
  unfold IsGiven
  cases o <;> simp [given]

/-- The conflicts that are looked for. -/
structure NoConflict {K : Type} [LT K] (a : FitArgs K) : Prop where
  /-- the true continuum (asked for in either way) is for mocks with fiducial functions, without input continua -/
  true_continuum : (a.trueContinuum = true ∨ a.continuumModel = "true") → a.mockAnalysis = true ∧
    IsGiven a.fiducialMeanflux ∧ IsGiven a.fiducialVarlss ∧ ¬ IsGiven a.inputContinuumDir
  wave : a.wave1 < a.wave2
  forest : a.forestW1 < a.forestW2
  tile : a.tileFormat = true → a.mockAnalysis = false ∧ a.saveByHpx = false ∧ a.exposures = "disable"

/-- **C58**, the part that holds (`args_logic_fnc_qsonic_fit`, scripts/qsonic_fit.py:60-95). Full claim: exactly the
consistent options are accepted. Proved: the options are accepted exactly if they are free of the conflicts of
`NoConflict`; a message is logged for each conflict, so at least one if they are refused; accepted options have the
continuum model that was asked for in either way (directory of continua, true continuum), the same arms each
once, and the flag for the true continuum agrees with the model. Missing: the input model without a directory is
accepted (`C58_refuted`). -/
theorem C58_partial {K : Type} [LinearOrder K] (setOrder : List String → List String)
    (hs : ∀ l, (setOrder l).Nodup ∧ ∀ x, x ∈ setOrder l ↔ x ∈ l) (a : FitArgs K) :
    ((argsLogic setOrder a).2.2 = true ↔ NoConflict a) ∧
    ((argsLogic setOrder a).2.2 = false ↔ (argsLogic setOrder a).2.1 ≠ []) ∧
    (NoConflict a →
      (argsLogic setOrder a).1.arms.Nodup ∧ (∀ x, x ∈ (argsLogic setOrder a).1.arms ↔ x ∈ a.arms) ∧
      (IsGiven a.inputContinuumDir → (argsLogic setOrder a).1.continuumModel = "input") ∧
      (¬ IsGiven a.inputContinuumDir → (a.trueContinuum = true ∨ a.continuumModel = "true") →
        (argsLogic setOrder a).1.continuumModel = "true") ∧
      (¬ IsGiven a.inputContinuumDir → a.trueContinuum = false → a.continuumModel ≠ "true" →
        (argsLogic setOrder a).1.continuumModel = a.continuumModel) ∧
      ((argsLogic setOrder a).1.trueContinuum = true ↔ (argsLogic setOrder a).1.continuumModel = "true")) := by
  have hmsg : (argsLogic setOrder a).2.2 = false ↔ (argsLogic setOrder a).2.1 ≠ [] := by
    unfold argsLogic
    simp only [ne_eq, List.map_eq_nil_iff]
    rw [← List.isEmpty_iff, Bool.not_eq_true]
  refine ⟨?_, hmsg, fun hc => ?_⟩
  · unfold argsLogic argConditions
    dsimp only
    rw [List.isEmpty_iff, List.filter_eq_nil_iff]
    simp only [List.mem_cons, List.not_mem_nil, or_false, forall_eq_or_imp, forall_eq, Bool.and_eq_true,
      Bool.or_eq_true, decide_eq_true_eq, Bool.not_eq_true', not_and, Bool.not_eq_false, given_iff, not_le]
    constructor
    · rintro ⟨h1, h2, h3, h4, h5, h6, h7, h8, h9⟩
      refine ⟨fun ht => ⟨h1 ht, h2 ht, h3 ht, h4 ht⟩, h5, h6, fun ht => ⟨?_, ?_, ?_⟩⟩
      · rw [← Bool.not_eq_true]
        exact fun hm => h7 hm ht
      · rw [← Bool.not_eq_true]
        exact h8 ht
      · by_contra hm
        exact h9 hm ht
    · rintro ⟨h1, h2, h3, h4⟩
      refine ⟨fun ht => (h1 ht).1, fun ht => (h1 ht).2.1, fun ht => (h1 ht).2.2.1, fun ht => (h1 ht).2.2.2, h2, h3,
        fun hm ht => ?_, fun ht hh => ?_, fun he ht => he (h4 ht).2.2⟩
      · rw [(h4 ht).1] at hm
        cases hm
      · rw [(h4 ht).2.1] at hh
        cases hh
  · have hm : (argsLogic setOrder a).1.continuumModel =
        if given a.inputContinuumDir then "input"
        else if (a.trueContinuum || decide (a.continuumModel = "true")) then "true" else a.continuumModel := rfl
    have ht : (argsLogic setOrder a).1.trueContinuum =
        (a.trueContinuum || decide (a.continuumModel = "true")) := rfl
    rw [hm, ht, ← given_iff]
    refine ⟨(hs _).1, (hs _).2, fun h => if_pos h, fun h1 h2 => ?_, fun h1 h2 h3 => ?_, ?_⟩
    · rw [if_neg h1, if_pos (by simpa using h2)]
    · rw [if_neg h1, if_neg (by simp [h2, h3])]
    · constructor
      · intro h
        have := (hc.true_continuum (by simpa using h)).2.2.2
        rw [← given_iff] at this
        rw [if_neg this, if_pos h]
      · intro h
        by_contra hn
        rw [if_neg hn] at h
        split at h
        · exact absurd h (by decide)
        · rw [h] at hn
          exact hn (by simp)

/-- Options for the examples. -/
def demoArgs : FitArgs ℚ where
  arms := ["B", "R", "B"]
  trueContinuum := false
  continuumModel := "picca"
  mockAnalysis := false
  fiducialMeanflux := none
  fiducialVarlss := none
  inputContinuumDir := none
  wave1 := 3600
  wave2 := 6000
  forestW1 := 1050
  forestW2 := 1180
  tileFormat := false
  saveByHpx := false
  exposures := "disable"

/-- **C58** is false for the input continuum model without a directory of continua: it is accepted and stays, although
the model then has no files to read. -/
theorem C58_refuted : ∃ a : FitArgs ℚ, (argsLogic List.dedup a).2.2 = true ∧
    (argsLogic List.dedup a).1.continuumModel = "input" ∧ (argsLogic List.dedup a).1.inputContinuumDir = none :=
  ⟨{ demoArgs with continuumModel := "input" }, by decide +kernel⟩

example : (argsLogic List.dedup demoArgs).2.2 = true ∧ (argsLogic List.dedup demoArgs).1.arms = ["R", "B"] := by
  decide +kernel
example : (argsLogic List.dedup { demoArgs with trueContinuum := true }).2 =
    (["True continuum is only applicable to mock analysis.", "True continuum analysis requires fiducial mean flux.",
      "True continuum analysis requires fiducial var_lss."], false) := by decide +kernel
example : ∀ l : List String, (l.dedup).Nodup ∧ ∀ x, x ∈ l.dedup ↔ x ∈ l :=
  fun l => ⟨List.nodup_dedup l, fun _ => List.mem_dedup⟩

/-! ### C59 -/

/-- A list of numbers at least `d` apart, in an interval. -/
theorem spaced_length {K : Type} [Field K] [LinearOrder K] [IsStrictOrderedRing K] {d A B : K} (l : List K)
    (hp : l.Pairwise (fun x y => x + d ≤ y)) (hA : ∀ x ∈ l, A ≤ x) (hB : ∀ x ∈ l, x < B) (hne : l ≠ []) :
    ((l.length : K) - 1) * d < B - A := by
  induction l generalizing A with
  | nil => exact absurd rfl hne
  | cons x l ih =>
    cases l with
    | nil =>
      have h1 := hA x (.head _)
      have h2 := hB x (.head _)
      simp only [List.length_cons, List.length_nil, Nat.zero_add, Nat.cast_one, sub_self, zero_mul]
      linarith
    | cons y l =>
      have h1 := hA x (.head _)
      have := ih (A := A + d) hp.of_cons (fun z hz => by
        have := List.rel_of_pairwise_cons hp hz
        linarith) (fun z hz => hB z (.tail _ hz)) (by simp)
      rw [List.length_cons, Nat.cast_succ]
      linarith

section
variable {K : Type} [Field K] [LinearOrder K] [IsStrictOrderedRing K] [FloorRing K]

theorem fivar_single (s : Spectrum K) (arm : String) (wave : List K) (hs : DataOk s) (hf : Fresh s)
    (hw : s.wave = [(arm, wave)]) (sqrt : K → K) (eps w1 w2 lya1 lya2 : K) :
    (s.setForestRegion sqrt eps w1 w2 lya1 lya2).realSize ≤
      (wave.filter (fun w => decide (InForest s.z w1 w2 lya1 lya2 w))).length := by
  have hp := hs.sorted arm wave (by rw [hw]; simp)
  have hl := hs.ivar arm wave (by rw [hw]; simp)
  have h1 : (s.setForestRegion sqrt eps w1 w2 lya1 lya2).fivar =
      (Spectrum.regionArm (max w1 ((1 + s.z) * lya1)) (min w2 ((1 + s.z) * lya2)) s arm wave).fivar := by
    unfold Spectrum.setForestRegion
    rw [hw]
    rfl
  unfold Spectrum.realSize
  rw [h1]
  unfold Spectrum.regionArm
  dsimp only
  split
  · rw [hf.fivar]; simp
  · dsimp only
    rw [hf.fivar]
    have e := slice_inForest (s := s) hp w1 w2 lya1 lya2 hl
    rw [e]
    change ([(arm, _)].map (fun x : String × List K => numGood x.2)).sum ≤ _
    simp only [List.map_cons, List.map_nil, List.sum_cons, List.sum_nil, Nat.add_zero]
    have h2 : (pixelsWhere (InForest s.z w1 w2 lya1 lya2) wave (s.ivar.arr arm)).length ≤
        (wave.filter (fun w => decide (InForest s.z w1 w2 lya1 lya2 w))).length := by
      clear h1 e hp hw
      rename_i hng
      clear hng
      generalize s.ivar.arr arm = y at hl
      induction wave generalizing y with
      | nil => simp [pixelsWhere_nil]
      | cons w ws ih =>
        cases y with
        | nil => simp at hl
        | cons a y =>
          have := ih (y := y) (by simpa using hl)
          rw [pixelsWhere_cons, List.filter_cons]
          by_cases h : InForest s.z w1 w2 lya1 lya2 w <;> simp [h, this]
    exact le_trans (List.countP_le_length) h2

/-- **C59**, the part that holds (`mpi_run_all`, scripts/qsonic_fit.py:459-461; `set_forest_region`, `is_long`). Full
claim: a quasar outside of the redshift range that is derived from the wavelength limits cannot pass the length cut.
Proved for a spectrum of one arm (as after coadding) with pixels at least `dwave` apart, all limits, skip ratios and
redshifts outside of the range: its forest has fewer good pixels than the cut asks for plus one. Missing: the claim
without the one pixel is false (`C59_refuted`), and pixels of overlapping arms count twice. -/
theorem C59_partial (s : Spectrum K) (arm : String) (wave : List K) (hs : DataOk s) (hf : Fresh s)
    (hw : s.wave = [(arm, wave)]) (hd : 0 < s.dwave) (hgrid : wave.Pairwise (fun x y => x + s.dwave ≤ y))
    (sqrt : K → K) (eps w1 w2 f1 f2 skip : K) (hz : 0 < 1 + s.z) (hf1 : 0 < f1) (hf2 : f1 < f2) (hs0 : 0 ≤ skip)
    (hs1 : skip ≤ 1)
    (hout : ¬ ((redshiftRange w1 w2 f1 f2 skip).1 ≤ s.z ∧ s.z ≤ (redshiftRange w1 w2 f1 f2 skip).2)) :
    ((s.setForestRegion sqrt eps w1 w2 f1 f2).realSize : K) <
      skip * ((1 + s.z) * (f2 - f1) / s.dwave) + 1 := by
  have hle : ((s.setForestRegion sqrt eps w1 w2 f1 f2).realSize : K) ≤
      ((wave.filter (fun w => decide (InForest s.z w1 w2 f1 f2 w))).length : K) := by
    exact_mod_cast fivar_single s arm wave hs hf hw sqrt eps w1 w2 f1 f2
  refine lt_of_le_of_lt hle ?_
  have hthr : 0 ≤ skip * ((1 + s.z) * (f2 - f1) / s.dwave) :=
    mul_nonneg hs0 (div_nonneg (mul_nonneg hz.le (by linarith)) hd.le)
  by_cases hne : wave.filter (fun w => decide (InForest s.z w1 w2 f1 f2 w)) = []
  · rw [hne]
    simp only [List.length_nil, Nat.cast_zero]
    linarith
  have hin : ∀ x ∈ wave.filter (fun w => decide (InForest s.z w1 w2 f1 f2 w)),
      max w1 ((1 + s.z) * f1) ≤ x ∧ x < min w2 ((1 + s.z) * f2) := by
    intro x hx
    have := (List.mem_filter.mp hx).2
    rw [decide_eq_true_eq, ← inForest_iff] at this
    exact this
  have hlen := spaced_length _ (hgrid.filter _) (fun x hx => (hin x hx).1) (fun x hx => (hin x hx).2) hne
  have hgap : min w2 ((1 + s.z) * f2) - max w1 ((1 + s.z) * f1) ≤ skip * ((1 + s.z) * (f2 - f1)) := by
    have h1 := min_le_left w2 ((1 + s.z) * f2)
    have h2 := min_le_right w2 ((1 + s.z) * f2)
    have h3 := le_max_left w1 ((1 + s.z) * f1)
    have h4 := le_max_right w1 ((1 + s.z) * f1)
    have ht : 0 ≤ (f2 - f1) * skip := mul_nonneg (by linarith) hs0
    have ht' : (f2 - f1) * skip ≤ f2 - f1 := by nlinarith
    unfold redshiftRange at hout
    dsimp only at hout
    rw [not_and_or, not_le, not_le] at hout
    rcases hout with h | h
    · have hp : 0 < f2 - (f2 - f1) * skip := by linarith
      have : (1 + s.z) * (f2 - (f2 - f1) * skip) < w1 := by
        rw [← lt_div_iff₀ hp]; linarith
      nlinarith
    · have hp : 0 < f1 + (f2 - f1) * skip := by linarith
      have : w2 < (1 + s.z) * (f1 + (f2 - f1) * skip) := by
        rw [← div_lt_iff₀ hp]; linarith
      nlinarith
  have h5 : ((wave.filter (fun w => decide (InForest s.z w1 w2 f1 f2 w))).length : K) - 1 <
      skip * ((1 + s.z) * (f2 - f1) / s.dwave) := by
    rw [← mul_div_assoc, lt_div_iff₀ hd]
    linarith
  linarith

end

/-- A quasar with five pixels at and above the lower wavelength limit. -/
def c59Spec : Spectrum ℚ :=
  Spectrum.blank (39 / 10) 1 [("brz", [9, 10, 11, 12, 13, 14, 15])] [("brz", [1, 1, 1, 1, 1, 1, 1])]
    [("brz", [1, 1, 1, 1, 1, 1, 1])] []

/-- **C59** is false: this quasar is below the lower limit of the redshifts, 4, and its forest has 5 pixels, more than
the required 4.9. -/
theorem C59_refuted : (redshiftRange (10 : ℚ) 100 1 3 (1 / 2)).1 > c59Spec.z ∧
    (c59Spec.setForestRegion id 0 10 100 1 3).isLong (3 - 1) (1 / 2) = true := by decide +kernel

example : ¬ ((redshiftRange (10 : ℚ) 100 1 3 (1 / 2)).1 ≤ c59Spec.z ∧
    c59Spec.z ≤ (redshiftRange (10 : ℚ) 100 1 3 (1 / 2)).2) := by decide +kernel
example : ([9, 10, 11, 12, 13, 14, 15] : List ℚ).Pairwise (fun x y => x + 1 ≤ y) := by decide +kernel

end Verif.Props

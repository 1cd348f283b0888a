import Verif.Model.ContFit
import Verif.Proofs.Dict
import Mathlib.Analysis.SpecialFunctions.Log.Basic

/-!
# Lemmas on the fit of continua
-/

namespace Verif.Proofs
open Verif Verif.Np Verif.Model Verif.Model.Spectrum

variable {K C : Type}

/-- The loop over the arms: valid exactly if no arm is rejected; then every arm has its estimate. -/
theorem contLoop_spec (reject : List C → Bool) (est : List K → List C) (mul : List K → List C → List C)
    (fw : Dict (List K)) (hn : fw.keys.Nodup) (d : Dict (List C)) :
    ((contLoop reject est mul fw d).1 = true ↔ ∀ a ∈ fw, reject (est a.2) = false) ∧
    ((contLoop reject est mul fw d).1 = true → ∀ arm, (contLoop reject est mul fw d).2.lookup arm =
      match fw.lookup arm with
      | some w => some (mul w (est w))
      | none => d.lookup arm) := by
  induction fw generalizing d with
  | nil => simp [contLoop]
  | cons a fw ih =>
    obtain ⟨k, w⟩ := a
    unfold contLoop
    have hn' : k ∉ Dict.keys fw ∧ (Dict.keys fw).Nodup := List.nodup_cons.mp hn
    by_cases hr : reject (est w) = true
    · rw [if_pos hr]
      simp [hr]
    · rw [if_neg hr]
      obtain ⟨h1, h2⟩ := ih hn'.2 (d.set k (mul w (est w)))
      refine ⟨?_, fun h arm => ?_⟩
      · rw [h1]
        simp only [List.mem_cons, forall_eq_or_imp]
        simp [hr]
      · rw [h2 h arm, lookup_set, List.lookup_cons]
        by_cases ha : arm = k
        · subst ha
          have : List.lookup arm fw = none := lookup_eq_none_iff.mpr hn'.1
          simp [this]
        · have : (arm == k) = false := by simpa using ha
          simp only [this, if_neg ha]

/-- An accepted loop over at least one arm leaves a continuum. -/
theorem contLoop_ne_nil {reject : List C → Bool} {est : List K → List C} {mul : List K → List C → List C}
    {fw : Dict (List K)} (hn : fw.keys.Nodup) (hne : fw ≠ []) {d : Dict (List C)}
    (h : (contLoop reject est mul fw d).1 = true) : (contLoop reject est mul fw d).2 ≠ [] := by
  intro he
  obtain ⟨⟨k, w⟩, l, rfl⟩ := List.exists_cons_of_ne_nil hne
  have := (contLoop_spec reject est mul _ hn d).2 h k
  rw [he] at this
  simp at this

theorem contLoop_noreject (est : List K → List C) (mul : List K → List C → List C)
    (fw : Dict (List K)) (d : Dict (List C)) : (contLoop (fun _ => false) est mul fw d).1 = true := by
  induction fw generalizing d with
  | nil => rfl
  | cons a fw ih => exact ih _

variable [Field K] [LinearOrder K]

theorem sfw_same (varlss eta : K → K) (s : Spectrum K) :
    (s.setForestWeight varlss eta).valid = s.valid ∧ (s.setForestWeight varlss eta).cont = s.cont ∧
    (s.setForestWeight varlss eta).fwave = s.fwave ∧ (s.setForestWeight varlss eta).fflux = s.fflux ∧
    (s.setForestWeight varlss eta).fivar = s.fivar ∧ (s.setForestWeight varlss eta).ivarSm = s.ivarSm ∧
    (s.setForestWeight varlss eta).z = s.z := by
  unfold setForestWeight
  split <;> exact ⟨rfl, rfl, rfl, rfl, rfl, rfl, rfl⟩

theorem chi2_same (s : Spectrum K) :
    s.calcContinuumChi2.valid = s.valid ∧ s.calcContinuumChi2.cont = s.cont ∧
    s.calcContinuumChi2.fwave = s.fwave ∧ s.calcContinuumChi2.fflux = s.fflux ∧
    s.calcContinuumChi2.fivar = s.fivar ∧ s.calcContinuumChi2.ivarSm = s.ivarSm ∧
    s.calcContinuumChi2.z = s.z ∧ s.calcContinuumChi2.weight = s.weight := by
  unfold calcContinuumChi2
  split <;> exact ⟨rfl, rfl, rfl, rfl, rfl, rfl, rfl, rfl⟩

theorem endFit_cases (varlss eta : K → K) (s : Spectrum K) :
    (endFit varlss eta s).valid = s.valid ∧
    (s.valid = true → (endFit varlss eta s) = (s.setForestWeight varlss eta).calcContinuumChi2 ∧
      (endFit varlss eta s).cont = s.cont) ∧
    (s.valid = false → (endFit varlss eta s).cont = [] ∧ (endFit varlss eta s).chi2 = -1 ∧
      (endFit varlss eta s).fweight = s.fivarSm) := by
  have hv : (s.setForestWeight varlss eta).calcContinuumChi2.valid = s.valid :=
    (chi2_same _).1.trans (sfw_same varlss eta s).1
  have hc : (s.setForestWeight varlss eta).calcContinuumChi2.cont = s.cont :=
    (chi2_same _).2.1.trans (sfw_same varlss eta s).2.1
  have hw : s.valid = false → (s.setForestWeight varlss eta).calcContinuumChi2.fweight = s.fivarSm := by
    intro h
    have h1 : (s.setForestWeight varlss eta).weight = none := by
      unfold setForestWeight; rw [if_pos (Or.inl h)]
    unfold fweight fivarSm
    rw [(chi2_same _).2.2.2.2.2.2.2, h1, (chi2_same _).2.2.2.2.2.1, (chi2_same _).2.2.2.2.1,
      (sfw_same varlss eta s).2.2.2.2.2.1, (sfw_same varlss eta s).2.2.2.2.1]
    rfl
  unfold endFit
  dsimp only
  generalize (s.setForestWeight varlss eta).calcContinuumChi2 = t at hv hc hw
  rw [hv]
  cases h : s.valid with
  | true => simp only [if_true]; exact ⟨hv.trans h, fun _ => ⟨trivial, hc⟩, fun h' => (by cases h')⟩
  | false =>
    simp only [Bool.false_eq_true, if_false]
    exact ⟨hv.trans h, fun h' => (by cases h'), fun _ => ⟨rfl, rfl, hw h⟩⟩

theorem endFit_same (varlss eta : K → K) (s : Spectrum K) :
    (endFit varlss eta s).fwave = s.fwave ∧ (endFit varlss eta s).fflux = s.fflux ∧
    (endFit varlss eta s).fivar = s.fivar ∧ (endFit varlss eta s).ivarSm = s.ivarSm := by
  obtain ⟨-, -, a1, a2, a3, a4, -⟩ := chi2_same (s.setForestWeight varlss eta)
  obtain ⟨-, -, b1, b2, b3, b4, -⟩ := sfw_same varlss eta s
  unfold endFit
  dsimp only
  split
  · exact ⟨a1.trans b1, a2.trans b2, a3.trans b3, a4.trans b4⟩
  · exact ⟨a1.trans b1, a2.trans b2, a3.trans b3, a4.trans b4⟩

end Verif.Proofs

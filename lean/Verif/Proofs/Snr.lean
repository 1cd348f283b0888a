import Verif.Proofs.Aligned
import Mathlib.Algebra.Order.BigOperators.Group.List
import Mathlib.Tactic.Linarith

/-! Forest signal-to-noise and initial amplitude. -/

namespace Verif.Proofs
open Verif.Np Verif.Model Verif.Spec List Spectrum

variable {K : Type} [Field K] [LinearOrder K] [FloorRing K]

/-- Numerator of the initial amplitude in one arm. -/
def x0Num (flux ivar : List K) : K :=
  (((flux.zip ivar).filter (fun p => decide (0 < p.1))).map (fun p => p.1 * p.2)).sum

/-- Denominator of the initial amplitude in one arm. -/
def x0Den (flux ivar : List K) : K :=
  (((flux.zip ivar).filter (fun p => decide (0 < p.1))).map Prod.snd).sum

/-- `mean_snr[arm]`. -/
def snrOf (sqrt : K → K) (flux ivar : List K) : K :=
  if numGood ivar = 0 then 0 else dot (ivar.map sqrt) flux / (numGood ivar : K)

theorem related_foldl (sqrt : K → K) (s : Spectrum K) (l : Dict (List K)) (acc : K × K × Dict K) :
    let r := l.foldl (fun acc x => relatedArm sqrt s acc x.1 x.2) acc
    r.1 = acc.1 + (l.map (fun x => x0Num (s.fflux.arr x.1) x.2)).sum ∧
    r.2.1 = acc.2.1 + (l.map (fun x => x0Den (s.fflux.arr x.1) x.2)).sum ∧
    r.2.2 = l.foldl (fun (d : Dict K) x => d.set x.1 (snrOf sqrt (s.fflux.arr x.1) x.2)) acc.2.2 := by
  induction l generalizing acc with
  | nil => simp
  | cons x l ih =>
    obtain ⟨h1, h2, h3⟩ := ih (relatedArm sqrt s acc x.1 x.2)
    simp only [List.foldl_cons]
    rw [h1, h2, h3]
    refine ⟨?_, ?_, rfl⟩
    · rw [List.map_cons, List.sum_cons, ← add_assoc]; rfl
    · rw [List.map_cons, List.sum_cons, ← add_assoc]; rfl

theorem foldl_set_nodup {β : Type} (f : String → β → K) {l : Dict β} (hn : l.keys.Nodup)
    (d : Dict K) (h : ∀ a ∈ l.keys, a ∉ d.keys) :
    l.foldl (fun (d : Dict K) x => d.set x.1 (f x.1 x.2)) d = d ++ l.mapVals f := by
  induction l generalizing d with
  | nil => simp [Dict.mapVals]
  | cons x l ih =>
    rw [keys_cons, List.nodup_cons] at hn
    have hx : d.set x.1 (f x.1 x.2) = d ++ [(x.1, f x.1 x.2)] := by
      unfold Dict.set dictSet
      rw [if_neg]
      exact h x.1 (by simp)
    rw [List.foldl_cons, hx, ih hn.2]
    · simp [Dict.mapVals]
    · intro a ha hm
      unfold Dict.keys at hm
      rw [List.map_append, List.mem_append] at hm
      rcases hm with hm | hm
      · exact h a (List.mem_cons_of_mem _ ha) hm
      · simp at hm
        subst hm
        exact hn.1 ha

theorem related_eq (sqrt : K → K) (eps : K) (s : Spectrum K) (hn : s.fivar.keys.Nodup) :
    (setForestRelatedParameters sqrt eps s).x0 =
      (s.fivar.map (fun x => x0Num (s.fflux.arr x.1) x.2)).sum /
        (eps + (s.fivar.map (fun x => x0Den (s.fflux.arr x.1) x.2)).sum) ∧
    (setForestRelatedParameters sqrt eps s).meanSnr =
      s.fivar.mapVals (fun arm v => snrOf sqrt (s.fflux.arr arm) v) := by
  obtain ⟨h1, h2, h3⟩ := related_foldl sqrt s s.fivar (0, eps, [])
  unfold setForestRelatedParameters
  simp only [h1, h2, h3, zero_add]
  refine ⟨trivial, ?_⟩
  rw [foldl_set_nodup (fun arm v => snrOf sqrt (s.fflux.arr arm) v) hn [] (by simp)]
  rfl

theorem dot_filter (sqrt : K → K) (h0 : ∀ v, v ≤ 0 → sqrt v = 0) (flux ivar : List K) :
    dot (ivar.map sqrt) flux =
      (((flux.zip ivar).filter (fun p => decide (0 < p.2))).map (fun p => sqrt p.2 * p.1)).sum := by
  unfold dot
  induction ivar generalizing flux with
  | nil => simp
  | cons v ivar ih =>
    cases flux with
    | nil => simp
    | cons f flux =>
      rw [List.map_cons, List.zipWith_cons_cons, List.sum_cons, ih, List.zip_cons_cons,
        List.filter_cons]
      by_cases hv : 0 < v
      · simp [hv]
      · simp [hv, h0 v (not_lt.mp hv)]

theorem snrOf_eq (sqrt : K → K) (h0 : ∀ v, v ≤ 0 → sqrt v = 0) (flux ivar : List K) :
    snrOf sqrt flux ivar = meanSnrOf sqrt flux ivar := by
  unfold snrOf meanSnrOf
  rw [dot_filter sqrt h0]
  unfold numGood
  rw [List.countP_eq_length_filter]
  split
  next h => rw [h]; simp
  next h => rfl

theorem agreeGood_filter {ivar f g : List K} (h : AgreeGood ivar f g) :
    (f.zip ivar).filter (fun p => decide (0 < p.2)) = (g.zip ivar).filter (fun p => decide (0 < p.2)) := by
  obtain ⟨hl, hg⟩ := h
  induction ivar generalizing f g with
  | nil => simp
  | cons v ivar ih =>
    cases f with
    | nil =>
      cases g with
      | nil => rfl
      | cons b g => simp at hl
    | cons a f =>
      cases g with
      | nil => simp at hl
      | cons b g =>
        have := ih (f := f) (g := g) (by simpa using hl) (fun i v h1 h2 => by
          have := hg (i + 1) v (by simpa using h1) h2; simpa using this)
        rw [List.zip_cons_cons, List.zip_cons_cons, List.filter_cons, List.filter_cons, this]
        by_cases hv : 0 < v
        · have := hg 0 v (by simp) hv
          simp at this
          simp [hv, this]
        · simp [hv]

/-- Only good pixels contribute to the initial amplitude. -/
theorem x0_good [IsStrictOrderedRing K] {flux ivar : List K} (hv : ∀ v ∈ ivar, 0 ≤ v) :
    x0Num flux ivar = ((((flux.zip ivar).filter (fun p => decide (0 < p.2))).filter
      (fun p => decide (0 < p.1))).map (fun p => p.1 * p.2)).sum ∧
    x0Den flux ivar = ((((flux.zip ivar).filter (fun p => decide (0 < p.2))).filter
      (fun p => decide (0 < p.1))).map Prod.snd).sum := by
  unfold x0Num x0Den
  induction ivar generalizing flux with
  | nil => simp
  | cons v ivar ih =>
    cases flux with
    | nil => simp
    | cons f flux =>
      have hv0 := hv v (by simp)
      obtain ⟨h1, h2⟩ := ih (flux := flux) (fun x hx => hv x (List.mem_cons_of_mem _ hx))
      simp only [List.zip_cons_cons, List.filter_cons]
      by_cases hp : 0 < v
      · by_cases hf : 0 < f <;> simp [hp, hf, h1, h2]
      · have : v = 0 := le_antisymm (not_lt.mp hp) hv0
        subst this
        by_cases hf : 0 < f <;> simp [hf, h1, h2]

theorem x0_bounds [IsStrictOrderedRing K] {flux ivar : List K} (hv : ∀ v ∈ ivar, 0 ≤ v) {B : K}
    (hB : ∀ f ∈ flux, f ≤ B) :
    0 ≤ x0Num flux ivar ∧ 0 ≤ x0Den flux ivar ∧ x0Num flux ivar ≤ B * x0Den flux ivar ∧
    (∀ (i : Nat) (f v : K), flux[i]? = some f → ivar[i]? = some v → 0 < f → 0 < v →
      0 < x0Num flux ivar) := by
  unfold x0Num x0Den
  induction ivar generalizing flux with
  | nil => simp
  | cons v ivar ih =>
    cases flux with
    | nil => simp
    | cons f flux =>
      have hv0 := hv v (by simp)
      have hfB := hB f (by simp)
      obtain ⟨h1, h2, h3, h4⟩ := ih (flux := flux) (fun x hx => hv x (List.mem_cons_of_mem _ hx))
        (fun x hx => hB x (List.mem_cons_of_mem _ hx))
      simp only [List.zip_cons_cons, List.filter_cons]
      by_cases hf : 0 < f
      · simp only [hf, decide_true, if_true, List.map_cons, List.sum_cons]
        have hfv : 0 ≤ f * v := mul_nonneg hf.le hv0
        refine ⟨by linarith, by linarith, ?_, ?_⟩
        · have := mul_le_mul_of_nonneg_right hfB hv0
          rw [mul_add]
          linarith
        · intro i f' v' hi hi' hf' hv'
          cases i with
          | zero =>
            simp at hi hi'
            subst hi hi'
            have := mul_pos hf hv'
            linarith
          | succ i =>
            have := h4 i f' v' (by simpa using hi) (by simpa using hi') hf' hv'
            linarith
      · simp only [hf, decide_false, Bool.false_eq_true, if_false]
        refine ⟨h1, h2, h3, ?_⟩
        intro i f' v' hi hi' hf' hv'
        cases i with
        | zero =>
          simp at hi
          subst hi
          exact absurd hf' hf
        | succ i => exact h4 i f' v' (by simpa using hi) (by simpa using hi') hf' hv'

end Verif.Proofs

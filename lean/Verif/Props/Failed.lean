import Verif.Proofs.Failed
import Verif.Props.RankFree

/-!
# C101: quasars whose continuum fit fails have no influence on the others
-/

namespace Verif.Props
open Verif.Model Verif.Model.Prog Verif.Spec Verif.Proofs Verif Verif.Np

section
variable {K : Type} [Field K] [LinearOrder K]

theorem etaCalibIvar_valid (eta : K → K) (s : Spectrum K) : (etaCalibIvar eta s).valid = s.valid := by
  unfold etaCalibIvar
  have : ∀ (l : Dict (List K)) (t : Spectrum K), (l.foldl (etaArm eta) t).valid = t.valid := by
    intro l
    induction l with
    | nil => exact fun _ => rfl
    | cons a l ih => exact fun t => (ih _).trans rfl
  exact this _ _

end

/-- **C101**, for any parts of the fitter. `g`, `s`, `conv` are the iterations on all spectra: `s 0 r` is the list of
rank `r`. Spectra that are invalid after every iteration that is done may be left out on every rank: all ranks end
with the same functions, number of iterations and verdict, or all with the same exception; every other spectrum is
changed as before (`f`), and the same extensions are written to the attributes file. -/
theorem C101_parts {G Sp R Q D V : Type} (F : FitterFns G Sp R Q D) (c : FitterCodecs R Q V)
    (hη : ∀ q x, F.valid x = false → F.valid (F.etaCalib q x) = false)
    (n niter : Nat) (hasFitter : Bool) (fname : String) (h0 : 0 < niter)
    (g : Nat → G) (s : Nat → Nat → List Sp) (conv : Nat → Bool) (h : Iterations F n hasFitter g s conv)
    (keep : Sp → Bool)
    (hd : ∀ i, Performed F n niter s conv i → ∀ r ≤ n, ∀ x ∈ s 0 r, keep x = false →
      F.valid (afterFits F g i x) = false) :
    ∃ (x : Except Err (G × Nat × Bool)) (f : Sp → Sp) (ev : Nat → List (SaverEv (String × D))),
      runJob n (fun r => F.iterate c fname niter hasFitter r (g 0) (s 0 r)) =
        (.done ((List.range (n + 1)).map (fun r => x.map (fun p => (p.1, (s 0 r).map f, p.2)))),
          (List.range (n + 1)).map ev) ∧
      runJob n (fun r => F.iterate c fname niter hasFitter r (g 0) ((s 0 r).filter keep)) =
        (.done ((List.range (n + 1)).map (fun r => x.map (fun p => (p.1, ((s 0 r).filter keep).map f, p.2)))),
          (List.range (n + 1)).map ev) := by
  obtain ⟨x, f, ev, h1, h2⟩ := sync_drop c h hη fname niter h0
  exact ⟨x, f, ev, h1.job, (h2 keep hd).job⟩

/-- **C101**, for the fitter with its numerical parts and any variance fitter. -/
theorem C101_failed {K : Type} [Field K] [LinearOrder K] [FloorRing K] {Q D V : Type} (C : FullCfg K)
    (P : FitterFns (FullState K) (Spectrum K) (StackSums K) Q D) (c : FitterCodecs (StackSums K) Q V)
    (n niter : Nat) (hasFitter : Bool) (fname : String) (h0 : 0 < niter) (g0 : FullState K)
    (sp : Nat → List (Spectrum K)) :
    ∃ (g : Nat → FullState K) (s : Nat → Nat → List (Spectrum K)) (conv : Nat → Bool),
      Iterations (C.fns P) n hasFitter g s conv ∧ g 0 = g0 ∧ s 0 = sp ∧
      ∃ (x : Except Err (FullState K × Nat × Bool)) (f : Spectrum K → Spectrum K)
        (ev : Nat → List (SaverEv (String × D))),
        runJob n (fun r => (C.fns P).iterate c fname niter hasFitter r g0 (sp r)) =
          (.done ((List.range (n + 1)).map (fun r => x.map (fun p => (p.1, (sp r).map f, p.2)))),
            (List.range (n + 1)).map ev) ∧
        ∀ keep : Spectrum K → Bool,
          (∀ i, Performed (C.fns P) n niter s conv i → ∀ r ≤ n, ∀ y ∈ sp r, keep y = false →
            (afterFits (C.fns P) g i y).valid = false) →
          runJob n (fun r => (C.fns P).iterate c fname niter hasFitter r g0 ((sp r).filter keep)) =
            (.done ((List.range (n + 1)).map (fun r => x.map (fun p => (p.1, ((sp r).filter keep).map f, p.2)))),
              (List.range (n + 1)).map ev) := by
  obtain ⟨g, s, conv, h, rfl, rfl⟩ := exists_iterations (C.fns P) n hasFitter g0 sp
  have hη : ∀ q y, (C.fns P).valid y = false → (C.fns P).valid ((C.fns P).etaCalib q y) = false := by
    intro q y hy
    change (if C.etaCalib = true then etaCalibIvar q.eta y else y).valid = false
    split
    · exact (etaCalibIvar_valid q.eta y).trans hy
    · exact hy
  obtain ⟨x, f, ev, h1, h2⟩ := sync_drop c h hη fname niter h0
  exact ⟨g, s, conv, h, rfl, rfl, x, f, ev, h1.job, fun keep hd => (h2 keep hd).job⟩

/-- A spectrum is invalid after a fit that failed, and no fit changes its wavelengths, flux and inverse variance. -/
theorem C101_invalid {K : Type} [Field K] [LinearOrder K] [FloorRing K] (C : FullCfg K) (g : FullState K)
    (s : Spectrum K) :
    (C.fitOne g s).fwave = s.fwave ∧ (C.fitOne g s).fflux = s.fflux ∧ (C.fitOne g s).fivar = s.fivar ∧
    ((∀ cost, (C.minimize cost (startA0 s :: List.replicate C.order 0)).1 = false) → (C.fitOne g s).valid = false) := by
  unfold FullCfg.fitOne Spectrum.piccaFit
  generalize hm : C.minimize _ _ = m
  have hsame : ∀ p : Bool × Dict (List K), (s.setCont p).fwave = s.fwave ∧ (s.setCont p).fflux = s.fflux ∧
      (s.setCont p).fivar = s.fivar := fun p => ⟨rfl, rfl, rfl⟩
  refine ⟨?_, ?_, ?_, fun h => ?_⟩
  · rw [(endFit_same _ _ _).1]; split <;> exact (hsame _).1
  · rw [(endFit_same _ _ _).2.1]; split <;> exact (hsame _).2.1
  · rw [(endFit_same _ _ _).2.2.1]; split <;> exact (hsame _).2.2
  · have : m.1 = false := by rw [← hm]; exact h _
    rw [(endFit_cases _ _ _).1, this]
    rfl

/-! ### Example -/

/-- A minimizer that fails when it starts at zero. -/
def c101Cfg : FullCfg ℚ := { c86Cfg with minimize := fun _ x => (x.headD 0 != 0, x) }

/-- A spectrum without flux. -/
def c101Bad : Spectrum ℚ := { c86Spec2 with fflux := [("B", [0, 0])] }

theorem startA0_noFlux (y : Spectrum ℚ) (h : y.fflux = [("B", [0, 0])]) : startA0 y = 0 := by
  unfold startA0
  rw [h]
  have hz : ∀ (l : List ℚ) (m : List ℚ), (∀ x ∈ m, x = 0) → (List.zipWith (· * ·) m l).sum = 0 := by
    intro l
    induction l with
    | nil => intro m _; cases m <;> rfl
    | cons b l ih =>
      intro m hm
      cases m with
      | nil => rfl
      | cons a m =>
        rw [List.zipWith_cons_cons, List.sum_cons, ih m fun x hx => hm x (List.mem_cons_of_mem _ hx),
          hm a List.mem_cons_self]
        ring
  have : (y.fivarSm.map (fun a => (List.zipWith (· * ·) (Dict.arr [("B", [(0 : ℚ), 0])] a.1) a.2).sum)).sum = 0 := by
    refine List.sum_eq_zero fun x hx => ?_
    obtain ⟨a, _, rfl⟩ := List.mem_map.mp hx
    refine hz _ _ fun x hx => ?_
    unfold Dict.arr at hx
    by_cases e : a.1 = "B"
    · rw [e] at hx
      simpa using hx
    · rw [List.lookup_cons, beq_false_of_ne e] at hx
      simp at hx
  rw [this, zero_div]

/-- Its fit fails with any functions. -/
theorem c101Bad_fails (g : Nat → FullState ℚ) (i : Nat) (h : 0 < i) :
    (afterFits (c101Cfg.fns c86Var) g i c101Bad).valid = false := by
  have key : ∀ j, (afterFits (c101Cfg.fns c86Var) g j c101Bad).fflux = [("B", [0, 0])] := by
    intro j
    induction j with
    | zero => rfl
    | succ j ih =>
      change (c101Cfg.fitOne (g j) (afterFits (c101Cfg.fns c86Var) g j c101Bad)).fflux = _
      rw [(C101_invalid _ _ _).2.1, ih]
  obtain ⟨j, rfl⟩ : ∃ j, i = j + 1 := ⟨i - 1, by omega⟩
  change (c101Cfg.fitOne (g j) (afterFits (c101Cfg.fns c86Var) g j c101Bad)).valid = false
  refine (C101_invalid _ _ _).2.2.2 fun cost => ?_
  rw [startA0_noFlux _ (key j)]
  rfl

-- the hypothesis of the theorem for all iterations, when this spectrum is the one left out
example (g : Nat → FullState ℚ) (s : Nat → Nat → List (Spectrum ℚ)) (conv : Nat → Bool) (i : Nat)
    (hi : Performed (c101Cfg.fns c86Var) 1 2 s conv i) (y : Spectrum ℚ)
    (hy : y ∈ [c101Bad, c86Spec2]) (hk : decide (y.fflux ≠ [("B", [0, 0])]) = false) :
    (afterFits (c101Cfg.fns c86Var) g i y).valid = false := by
  rcases List.mem_pair.mp hy with rfl | rfl
  · exact c101Bad_fails g i hi.1
  · exact absurd hk (by decide +kernel)

/-- The run with the spectrum on the second rank and without it. -/
example :
    let a := c86Job (runJob 1 (fun r => (c101Cfg.fns c86Var).iterate c86Codecs "" 2 false r c86Start
      (if r = 0 then [c52Spec] else [c101Bad, c86Spec2]))).1
    let b := c86Job (runJob 1 (fun r => (c101Cfg.fns c86Var).iterate c86Codecs "" 2 false r c86Start
      (if r = 0 then [c52Spec] else [c86Spec2]))).1
    a.map (fun x => x.1.length) = [1, 2] ∧ b.map (fun x => x.1.length) = [1, 1] ∧
    a.map (·.2) = b.map (·.2) ∧ b.map (fun x => x.2.2) = [2, 2] ∧ b.map (·.2.1) ≠ [[1, 1], [1, 1]] := by
  decide +kernel

end Verif.Props

import Verif.Proofs.Restart
import Verif.Props.WrittenRun

/-!
# C116: a fit does not remember earlier fits, and with one iteration every quasar stands alone

`fit_continuum` (py/qsonic/continuum_models/picca_continuum_model.py:192-251) in the iterations of `mpi_run_all`
(scripts/qsonic_fit.py:452-502). The model is in `Verif.Model.WrittenRun`.
-/

namespace Verif.Props
open Verif Verif.Np Verif.Model Verif.Model.Prog Verif.Spec Verif.Proofs

section
variable {Val K : Type} [LinearOrder Val] [Field K] [LinearOrder K] [IsStrictOrderedRing K] [FloorRing K]

omit [IsStrictOrderedRing K] in
/-- **C116**. Fitting a spectrum that has been fitted before, with any mean continuum, variance and eta and whether that
fit failed or not, gives exactly what fitting it for the first time gives: continuum, validity, weights, chi square and all
else. -/
theorem C116_history (C : FullCfg K) (g g' : FullState K) (s : Spectrum K) :
    C.fitOne g (C.fitOne g' s) = C.fitOne g s := fitOne_history C g g' s

/-- A run that finishes after any positive number of iterations gives on every rank the same deltas and the same tables
in the same files as a run with one iteration, that starts with a suitable mean continuum, variance and eta. The spectra
carry nothing else from an iteration to the next: no parameter of an earlier fit, no quasar that is lost on the way. -/
theorem C116_restart {Q D V : Type} (C : WrittenCfg Val K) {c : Catalog Val} {f : Val → List (ReadSpec K)} {dw dr : K}
    (hC : PlainRun C.run dw dr) (hr : ReadsPixels C.run c f) (h0 : 0 < C.run.niter)
    (P : FitterFns (FullState K) (Spectrum K) (StackSums K) Q D) (cs : Codec Bool V)
    (cq : Codec (List (List (Row Val))) V) (cn : Codec Val V) (fc : FitterCodecs (StackSums K) Q V)
    {ang2pix : Nat → Val → Val → Val} {file : Except Err (Catalog Val)} {isMock : Bool}
    {ks : Option (List Val)} {zmin zmax : Val}
    (h : readQuasarCatalog ang2pix file isMock C.run.tile ks zmin zmax = .ok c) (n : Nat)
    (hidle : IdleOk C.run ∨ n + 1 ≤ (catPixels C.run.tile c).length) (fname : String) (g0 : FullState K)
    {outs : List (WrittenOut Val K)}
    (hjob : (runJob n (fun r => C.runAll P cs cq cn fc (.ok c) fname g0 (n + 1) r)).1 = .done (outs.map .ok)) :
    ∃ g : FullState K, (runJob n (fun r => ({ C with run := { C.run with niter := 1 } } : WrittenCfg Val K).runAll
      P cs cq cn fc (.ok c) fname g (n + 1) r)).1 = .done (outs.map .ok) := by
  rcases written_restart C hC hr h0 P cs cq cn fc h n hidle fname g0 with ⟨y, g, M, M', s1, s2⟩ | ⟨M, s1⟩
  · refine ⟨g, ?_⟩
    rw [s1.job] at hjob
    rw [← hjob]
    exact (congrArg Prod.fst s2.job).trans rfl
  · rw [s1.job] at hjob
    have hl := Outcome.done.inj hjob
    cases outs with
    | nil => simp at hl
    | cons o l =>
      have := congrArg List.head? hl
      simp [List.range_succ_eq_map] at this

/-- With one iteration, and without the normalizations after it, every quasar stands alone: what becomes of a spectrum
is a function of this spectrum and of the options, the same for all catalogs, numbers of processes and neighbours. The
job gives exactly the valid ones of the spectra that pass the cuts, each treated by itself; it fails, with
`QsonicException` on all ranks, exactly if there is none, or if columns for the mask of BALs are missing. -/
theorem C116_alone (C : WrittenCfg Val K) {dw dr : K} (hC : PlainRun C.run dw dr)
    (hA : ∀ k, IsArgsort k (C.run.argsort k)) (hsm : ∀ v x, (C.run.sel.smooth v x).length = v.length)
    (hextra : ∀ i, ∀ k ∈ (C.extra i).keys, k ∈ ["TILEID", "FIBER", "PETAL_LOC", "EXPID", "NIGHT"])
    (h1 : C.run.niter = 1) (hno : C.run.fit.normalize = false) (het : C.run.fit.etaCalib = false) (g0 : FullState K)
    {pick : List String → Option String} (hp : IsPick pick) :
    ∃ alone : ReadSpec K → ReadSpec K, (∀ x, (alone x).row = x.row) ∧
    ∀ {Q D V : Type} (c : Catalog Val) (f : Val → List (ReadSpec K)), ReadsPixels C.run c f →
    (∀ p ∈ catPixels C.run.tile c, ∀ x ∈ f p, NewSpec C.skipResomat x.spec) →
    ∀ (P : FitterFns (FullState K) (Spectrum K) (StackSums K) Q D) (cs : Codec Bool V)
    (cq : Codec (List (List (Row Val))) V) (cn : Codec Val V) (fc : FitterCodecs (StackSums K) Q V)
    (ang2pix : Nat → Val → Val → Val) (file : Except Err (Catalog Val)) (isMock : Bool)
    (ks : Option (List Val)) (zmin zmax : Val), readQuasarCatalog ang2pix file isMock C.run.tile ks zmin zmax = .ok c →
    ∀ n : Nat, (IdleOk C.run ∨ n + 1 ≤ (catPixels C.run.tile c).length) → ∀ fname : String,
    let all := ((((catPixels C.run.tile c).flatMap f).filter (fun x => decide (PassesCuts C.run.sel x))).map alone).filter
      (fun x => x.spec.valid)
    let job := (runJob n (fun r => C.runAll P cs cq cn fc (.ok c) fname g0 (n + 1) r)).1
    ((C.run.sel.bal = true ∧ balCheckCatalog C.run.cols ≠ .ok ()) ∨ all = [] →
      job = .done (List.replicate (n + 1) (.error .qsonic))) ∧
    (¬ (C.run.sel.bal = true ∧ balCheckCatalog C.run.cols ≠ .ok ()) → all ≠ [] →
      ∃ outs : List (WrittenOut Val K), job = .done (outs.map .ok) ∧ outs.length = n + 1 ∧
        (outs.flatMap (·.deltas)).Perm all) := by
  refine ⟨aloneOne C.run g0, fun x => prepOne_row C.run _ x, ?_⟩
  intro Q D V c f hr hnew P cs cq cn fc ang2pix file isMock ks zmin zmax h n hidle fname all job
  obtain ⟨a1, a2⟩ := written_alone C hC hr hA hsm hnew hextra h1 hno het P cs cq cn fc h n hidle fname g0 hp
  refine ⟨fun hb => ?_, fun hb hne => ?_⟩
  · obtain ⟨M, s1⟩ := a1 hb
    refine (congrArg Prod.fst s1.job).trans ?_
    simp [List.map_const']
  · obtain ⟨o, M, s1, hperm⟩ := a2 hb hne
    refine ⟨(List.range (n + 1)).map o, (congrArg Prod.fst s1.job).trans ?_, by simp, ?_⟩
    · dsimp only
      rw [List.map_map]
      rfl
    · rw [List.flatMap_map]
      exact hperm

end

/-! ### Concrete cases -/

/-- Another state, with which the continuum is twice as large at one end. -/
def c116State : FullState ℚ := { c86Start with cont := [2, 1], varlss := fun _ => 5 }

/-- The fits with the two states are different, and the second forgets the first. -/
example : (c86Cfg.fitOne c86Start c86Spec2).cont ≠ (c86Cfg.fitOne c116State c86Spec2).cont ∧
    (c86Cfg.fitOne c86Start c86Spec2).weight ≠ (c86Cfg.fitOne c116State c86Spec2).weight ∧
    (c86Cfg.fitOne c86Start (c86Cfg.fitOne c116State c86Spec2)).cont = (c86Cfg.fitOne c86Start c86Spec2).cont := by
  decide +kernel

/-- A run with one iteration and no normalization. -/
def c116Cfg : WrittenCfg Nat ℚ :=
  { c113Cfg true with run := { c88Cfg true with niter := 1, fit := { c86Cfg with normalize := false } } }

/-- What a job gives: the targets and continua. -/
def c116See : Outcome (WrittenOut Nat ℚ) → Option (List (List (Int × Dict (List ℚ))))
  | .done l => l.mapM (fun
      | .ok o => some (o.deltas.map (fun x => (x.row.targetid, x.spec.cont)))
      | .error _ => none)
  | _ => none

set_option synthInstance.maxSize 4000 in
/-- The job of `C116_alone` finishes on one process and on two, with the same continua. -/
example :
    let see := fun n => c116See (runJob n (fun r => c116Cfg.runAll c86Var c88Codec.1 c88Codec.2.1 c88Codec.2.2.1
      c88Codec.2.2.2 c88Cat "" c86Start (n + 1) r)).1
    (see 0).map (·.map (·.map Prod.fst)) = some [[20, 30]] ∧ (see 1).map (·.map (·.map Prod.fst)) = some [[20], [30]] ∧
    (see 0).map List.flatten = (see 1).map List.flatten := by
  decide +kernel

set_option synthInstance.maxSize 4000 in
/-- A job of two iterations with normalization finishes. -/
example : (c116See (runJob 1 (c113Run true 2)).1).map (·.map (·.map Prod.fst)) = some [[20], [30]] := by
  decide +kernel

/-- The hypotheses. -/
example : ∃ (c : Catalog Nat) (f : Nat → List (ReadSpec ℚ)), PlainRun c116Cfg.run 8 10 ∧ ReadsPixels c116Cfg.run c f ∧
    (∀ k, IsArgsort k (c116Cfg.run.argsort k)) ∧ (∀ v x, (c116Cfg.run.sel.smooth v x).length = v.length) ∧
    (∀ p ∈ catPixels c116Cfg.run.tile c, ∀ x ∈ f p, NewSpec c116Cfg.skipResomat x.spec) ∧
    (∀ i, ∀ k ∈ (c116Cfg.extra i).keys, k ∈ ["TILEID", "FIBER", "PETAL_LOC", "EXPID", "NIGHT"]) ∧
    c116Cfg.run.niter = 1 ∧ c116Cfg.run.fit.normalize = false ∧ c116Cfg.run.fit.etaCalib = false ∧
    readQuasarCatalog exPix (.ok exFile) false c116Cfg.run.tile (some [1, 2]) 2 3 = .ok c ∧ IdleOk c116Cfg.run ∧
    IsPick List.head? ∧ PlainRun (c113Cfg true).run 8 10 ∧ ReadsPixels (c113Cfg true).run c f ∧
    0 < (c113Cfg true).run.niter := by
  obtain ⟨c, h, hp⟩ := c88_cat
  have hr := c88_reads true h
  refine ⟨c, _, ⟨(c88_plain true).1, (c88_plain true).2, (c88_plain true).3, (c88_plain true).4, (c88_plain true).5,
    (c88_plain true).6, (c88_plain true).7⟩, ⟨hr.1, hr.2, hr.3, hr.4⟩, fun k => argsortStable_isArgsort k, fun v x => rfl, ?_, ?_,
    rfl, rfl, rfl, h, ⟨rfl, rfl, rfl⟩, head_isPick, c88_plain true, hr, by decide⟩
  · intro p _ x hx
    obtain ⟨r, -, rfl⟩ := List.mem_map.mp hx
    exact ⟨rfl, fun _ => rfl, fun h => by cases h⟩
  · intro i k hk
    obtain rfl : k = "TILEID" := List.mem_singleton.mp hk
    decide

end Verif.Props

import Verif.Proofs.RunEnds
import Verif.Props.AllRun

/-!
# C120: how a run ends
-/

namespace Verif.Props
open Verif Verif.Np Verif.Model Verif.Model.Prog Verif.Spec Verif.Proofs

section
variable {Val K : Type} [LinearOrder Val] [Field K] [LinearOrder K] [FloorRing K]

/-- **C120**, link: if no update fails, and with `--fiducial-varlss`, it is the run of `Verif.Model.AllRun`. -/
theorem C120_plain {Q D V : Type} (C : AllCfg Val K) (P : FitterFns (FullState K) (Spectrum K) (StackSums K) Q D)
    {E : UpdateErrs (FullState K) (StackSums K) Q} (hE : ∀ e, ¬ UpdateRaises E e) (cs : Codec Bool V)
    (cq : Codec (List (List (Row Val))) V) (cn : Codec Val V) (fc : FitterCodecs (StackSums K) Q V)
    (ck : Codec (List (ChiRow K)) V) (read : Except Err (Catalog Val)) (fname : String) (g0 : FullState K)
    (size rank : Nat) :
    C.runE P E cs cq cn fc ck read fname false g0 size rank = C.runAll P cs cq cn fc ck read fname g0 size rank := by
  have : E = ⟨fun _ _ => none, fun _ _ => none⟩ := by
    obtain ⟨m, v⟩ := E
    congr 1
    · funext g s
      by_contra h
      obtain ⟨e, he⟩ := Option.ne_none_iff_exists'.mp h
      exact hE e (.inl ⟨g, s, he⟩)
    · funext g s
      by_contra h
      obtain ⟨e, he⟩ := Option.ne_none_iff_exists'.mp h
      exact hE e (.inr ⟨g, s, he⟩)
  subst this
  unfold AllCfg.runE AllCfg.runAll
  simp only [iterateE_none]

/-- **C120**. A run of `qsonic-fit` never hangs, whatever the catalog, the spectra, the options, the fit and the number of
processes are. It ends in one of three ways, the same for all processes.

* The job is aborted.
* All processes exit with status 1. Then the catalog could not be used, or the BAL mask is wanted and its columns are
  missing, or all spectra were read and after some iteration no spectrum of any process had a valid fit, or an update
  raised the exception of the package.
* All processes finish. Then the catalog was good, all columns were there, the spectra of every pixel could be read, and
  there are not more processes than pixels (unless the data are mocks without BAL and DLA masks). -/
theorem C120_ends {Q D V : Type} (C : AllCfg Val K) (hR : OrdinaryErrors C.cat.run.reader)
    (hE : ∀ x, C.exps = some x → OrdinaryErrors x.1)
    (P : FitterFns (FullState K) (Spectrum K) (StackSums K) Q D) {E : UpdateErrs (FullState K) (StackSums K) Q}
    (hX : ∀ e, UpdateRaises E e → e.isException = true) (cs : Codec Bool V)
    (cq : Codec (List (List (Row Val))) V) (cn : Codec Val V) (fc : FitterCodecs (StackSums K) Q V)
    (ck : Codec (List (ChiRow K)) V) (ang2pix : Nat → Val → Val → Val) (file : Except Err (Catalog Val))
    (hf : ∀ e, file = .error e → e.isException = true) (isMock : Bool) (ks : Option (List Val)) (zmin zmax : Val)
    (n : Nat) (fname : String) (hasFitter : Bool) (g0 : FullState K) :
    let read := readQuasarCatalog ang2pix file isMock C.cat.run.tile ks zmin zmax
    let job := runJob n (fun r => mainProg (C.runE P E cs cq cn fc ck read fname hasFitter g0 (n + 1) r))
    job.1 = .aborted ∨
    (job.1 = .done (List.replicate (n + 1) (.error (.systemExit 1))) ∧
      ((∃ e, read = .error e) ∨ NoBalColumns C.cat.run ∨ ∃ c, read = .ok c ∧
        (NoValidFit C.cat c g0 n ∨ UpdateRaises E .qsonic) ∧
        ∀ p ∈ catPixels C.cat.run.tile c, ∃ s, C.cat.run.reader (catPixelRows C.cat.run.tile c p) = .ok s)) ∨
    ((∃ outs : Nat → CatalogOut Val K, job.1 = .done ((List.range (n + 1)).map (fun r => .ok (outs r)))) ∧
      ¬ NoBalColumns C.cat.run ∧ ∃ c, read = .ok c ∧
      (¬ IdleOk C.cat.run → n + 1 ≤ (catPixels C.cat.run.tile c).length) ∧
      ∀ p ∈ catPixels C.cat.run.tile c, ∃ s, C.cat.run.reader (catPixelRows C.cat.run.tile c p) = .ok s) := by
  dsimp only
  cases h : readQuasarCatalog ang2pix file isMock C.cat.run.tile ks zmin zmax with
  | error e =>
    have he : e.isException = true := ordinary_read ang2pix hf isMock C.cat.run.tile ks zmin zmax e h
    refine .inr (.inl ⟨?_, .inl ⟨e, rfl⟩⟩)
    unfold AllCfg.runE
    rw [main_exit ((sync_queue_error cs cq he C.cat.run.tile n).bind_error _)]
  | ok c =>
    rcases ends_ok C hR hE P hX cs cq cn fc ck h n fname hasFitter g0 with h1 | ⟨h1, h2⟩ | ⟨h1, h2, h3, -, h4⟩
    · exact .inl h1
    · exact .inr (.inl ⟨h1, .inr (h2.imp id fun h => ⟨c, rfl, h⟩)⟩)
    · exact .inr (.inr ⟨h1, h2, c, rfl, h3, h4⟩)

/-- **C120**. If the catalog cannot be used, all processes exit with status 1, and nothing is written. -/
theorem C120_catalog {Q D V : Type} (C : AllCfg Val K)
    (P : FitterFns (FullState K) (Spectrum K) (StackSums K) Q D) (E : UpdateErrs (FullState K) (StackSums K) Q)
    (cs : Codec Bool V) (cq : Codec (List (List (Row Val))) V) (cn : Codec Val V) (fc : FitterCodecs (StackSums K) Q V)
    (ck : Codec (List (ChiRow K)) V) (ang2pix : Nat → Val → Val → Val) (file : Except Err (Catalog Val))
    (hf : ∀ e, file = .error e → e.isException = true) (isMock : Bool) (ks : Option (List Val)) (zmin zmax : Val)
    {e : Err} (h : readQuasarCatalog ang2pix file isMock C.cat.run.tile ks zmin zmax = .error e)
    (n : Nat) (fname : String) (hasFitter : Bool) (g0 : FullState K) :
    runJob n (fun r => mainProg (C.runE P E cs cq cn fc ck
        (readQuasarCatalog ang2pix file isMock C.cat.run.tile ks zmin zmax) fname hasFitter g0 (n + 1) r)) =
      (.done (List.replicate (n + 1) (.error (.systemExit 1))), List.replicate (n + 1) []) := by
  have he : e.isException = true := ordinary_read ang2pix hf isMock C.cat.run.tile ks zmin zmax e h
  rw [h]
  unfold AllCfg.runE
  rw [main_exit ((sync_queue_error cs cq he C.cat.run.tile n).bind_error _)]
  simp [List.map_const']

/-- **C120**. If the spectra of one pixel cannot be read, the whole job is aborted, on any number of processes: there are
no results without that pixel. The columns for the BAL mask are checked before. -/
theorem C120_unreadable {Q D V : Type} (C : AllCfg Val K) (hR : OrdinaryErrors C.cat.run.reader)
    (hE : ∀ x, C.exps = some x → OrdinaryErrors x.1)
    (P : FitterFns (FullState K) (Spectrum K) (StackSums K) Q D) {E : UpdateErrs (FullState K) (StackSums K) Q}
    (hX : ∀ e, UpdateRaises E e → e.isException = true) (cs : Codec Bool V)
    (cq : Codec (List (List (Row Val))) V) (cn : Codec Val V) (fc : FitterCodecs (StackSums K) Q V)
    (ck : Codec (List (ChiRow K)) V) {c : Catalog Val} {ang2pix : Nat → Val → Val → Val}
    {file : Except Err (Catalog Val)} {isMock : Bool} {ks : Option (List Val)} {zmin zmax : Val}
    (h : readQuasarCatalog ang2pix file isMock C.cat.run.tile ks zmin zmax = .ok c) (hb : ¬ NoBalColumns C.cat.run)
    {p : Val} (hp : p ∈ catPixels C.cat.run.tile c) {e : Err}
    (hpe : C.cat.run.reader (catPixelRows C.cat.run.tile c p) = .error e) (n : Nat) (fname : String)
    (hasFitter : Bool) (g0 : FullState K) :
    (runJob n (fun r => mainProg (C.runE P E cs cq cn fc ck (.ok c) fname hasFitter g0 (n + 1) r))).1 = .aborted := by
  have hno : ¬ ∀ p ∈ catPixels C.cat.run.tile c, ∃ s, C.cat.run.reader (catPixelRows C.cat.run.tile c p) = .ok s := by
    intro h4
    obtain ⟨s, hs⟩ := h4 p hp
    rw [hpe] at hs
    cases hs
  rcases ends_ok C hR hE P hX cs cq cn fc ck h n fname hasFitter g0 with h1 | ⟨-, h2 | ⟨-, h4⟩⟩ | ⟨-, -, -, -, h4⟩
  · exact h1
  · exact absurd h2 hb
  · exact absurd h4 hno
  · exact absurd h4 hno

/-- **C120**. The claim that the fit of the variance functions cannot take the deltas away with `--fiducial-varlss`, where
its results "do not go into weights", is false. If it always raises, as `VarLSSFitter.fit` does with too few quasars
(`C51_fit`), no run finishes, with or without the option. -/
theorem C120_variance_refuted {Q D V : Type} (C : AllCfg Val K) (hR : OrdinaryErrors C.cat.run.reader)
    (hE : ∀ x, C.exps = some x → OrdinaryErrors x.1)
    (P : FitterFns (FullState K) (Spectrum K) (StackSums K) Q D) {E : UpdateErrs (FullState K) (StackSums K) Q}
    (hX : ∀ e, UpdateRaises E e → e.isException = true) (hfail : ∀ g s, E.var g s ≠ none) (cs : Codec Bool V)
    (cq : Codec (List (List (Row Val))) V) (cn : Codec Val V) (fc : FitterCodecs (StackSums K) Q V)
    (ck : Codec (List (ChiRow K)) V) {c : Catalog Val} {ang2pix : Nat → Val → Val → Val}
    {file : Except Err (Catalog Val)} {isMock : Bool} {ks : Option (List Val)} {zmin zmax : Val}
    (h : readQuasarCatalog ang2pix file isMock C.cat.run.tile ks zmin zmax = .ok c) (n : Nat) (fname : String)
    (hasFitter : Bool) (hn : hasFitter = true → 0 < C.cat.run.niter) (g0 : FullState K) :
    let job := runJob n (fun r => mainProg (C.runE P E cs cq cn fc ck (.ok c) fname hasFitter g0 (n + 1) r))
    job.1 = .aborted ∨ job.1 = .done (List.replicate (n + 1) (.error (.systemExit 1))) := by
  dsimp only
  rcases ends_ok C hR hE P hX cs cq cn fc ck h n fname hasFitter g0 with h1 | ⟨h1, -⟩ | ⟨-, -, -, h3, -⟩
  · exact .inl h1
  · exact .inr h1
  · obtain ⟨g, s, hg⟩ := h3 hn
    exact absurd hg (hfail g s)

end

section
variable {Val K : Type} [LinearOrder Val] [Field K] [LinearOrder K] [FloorRing K] [IsStrictOrderedRing K]

/-- **C120**, the other direction, without the steps after the fit: on good data (the conditions of C110) a run finishes on
any number of processes that are not more than the pixels, unless the columns for the BAL mask are missing or no spectrum
has a valid fit after some iteration. -/
theorem C120_finishes {Q D V : Type} (C : AllCfg Val K) (h1 : C.ncal = none) (h2 : C.after = false) (h3 : C.exps = none)
    {c : Catalog Val} {f : Val → List (ReadSpec K)} {dw dr : K} (hC : PlainRun C.cat.run dw dr)
    (hr : ReadsPixels C.cat.run c f) (hR : OrdinaryErrors C.cat.run.reader)
    (hA : ∀ k, IsArgsort k (C.cat.run.argsort k)) (hS : Shapes C.cat.run.fit C.cat.cov) (hn0 : 0 < C.cat.run.fit.rf.n)
    (hout : C.cat.run.outdir = true)
    (harm : ∀ p ∈ catPixels C.cat.run.tile c, ∀ x ∈ f p, PassesCuts C.cat.run.sel x →
      (inputSnrs C.cat.run.sel x.spec).length ≤ 3)
    (P : FitterFns (FullState K) (Spectrum K) (StackSums K) Q D) {E : UpdateErrs (FullState K) (StackSums K) Q}
    (hE : ∀ e, ¬ UpdateRaises E e) (cs : Codec Bool V)
    (cq : Codec (List (List (Row Val))) V) (cn : Codec Val V) (fc : FitterCodecs (StackSums K) Q V)
    (ck : Codec (List (ChiRow K)) V)
    {ang2pix : Nat → Val → Val → Val} {file : Except Err (Catalog Val)} {isMock : Bool}
    {ks : Option (List Val)} {zmin zmax : Val}
    (h : readQuasarCatalog ang2pix file isMock C.cat.run.tile ks zmin zmax = .ok c) (n : Nat)
    (hidle : IdleOk C.cat.run ∨ n + 1 ≤ (catPixels C.cat.run.tile c).length)
    (fname : String) (g0 : FullState K) (hb : ¬ NoBalColumns C.cat.run) (hv : ¬ NoValidFit C.cat c g0 n) :
    ∃ outs : Nat → CatalogOut Val K,
      (runJob n (fun r => mainProg (C.runE P E cs cq cn fc ck (.ok c) fname false g0 (n + 1) r))).1 =
        .done ((List.range (n + 1)).map (fun r => .ok (outs r))) := by
  have hends := ends_ok C hR (by rw [h3]; intro x hx; cases hx) P (E := E) (fun e he => absurd he (hE e)) cs cq cn fc ck h n
    fname false g0
  dsimp only at hends
  simp only [C120_plain C P hE, all_eq] at hends ⊢
  obtain ⟨Q1, Q2, night, hP1, -, hfit⟩ := fitPart_sync C.cat hC hr hS hn0 P cs cq cn fc h n n
    (hidle.imp id fun x => ⟨x, x⟩) fname g0
  rcases hfit with ⟨j, b, u, gf, -, ev, -, hu, y1, -⟩ | ⟨ev, y1, -⟩
  · have hsv : ∀ (r : Nat) (l : List (ReadSpec K)), ∃ files, C.cat.run.save r l = .ok files := fun r l =>
      (save_ok C.cat.run hA r l).imp fun _ x => x.1
    choose files hfiles using hsv
    have hend := sync_ending (W := SaverEv (String × D)) C hC hr hout harm ck hP1 hu (gf := gf) (t := id)
      (fun x _ => by unfold tailOne; rw [h1, h2]; rfl) night j b
    have hok : ∀ (t : Option (List (ChiRow K))) (r : Nat) (l : List (ReadSpec K)), ∃ o : CatalogOut Val K,
        endOf C night j b t r (C.exposures (Q1 r) l) = .ok o := by
      intro t r l
      unfold endOf AllCfg.exposures
      rw [h3]
      change ∃ o, (C.cat.run.save r _).bind _ = _
      rw [hfiles]
      exact ⟨_, rfl⟩
    choose o ho using hok
    exact ⟨_, congrArg Prod.fst (main_ok ((y1.bind (f := fun r (x : Fitted Val K) =>
      C.ending ck x.1.1 r x.1.2.1 x.1.2.2 x.2) hend).congr (fun _ _ => rfl) (fun r _ => (ho _ r _).symm)
      (fun _ _ => rfl)))⟩
  · have := main_exit (y1.bind_error (fun r (x : Fitted Val K) => C.ending ck x.1.1 r x.1.2.1 x.1.2.2 x.2))
    rcases hends with ha | ⟨-, hx | ⟨hx | hx, -⟩⟩ | ⟨hx, -⟩
    · rw [this] at ha
      cases ha
    · exact absurd hx hb
    · exact absurd hx hv
    · exact absurd hx (hE _)
    · exact hx

end

/-! ### Examples -/

/-- The example of C119 with another reader, the BAL mask or not, and another range of redshifts. -/
def c120Cfg (reader : List (Row Nat) → Except Err (List (ReadSpec ℚ))) (bal : Bool) : AllCfg Nat ℚ :=
  { c119Cfg true true true with
    cat := { c119Cat with run := { c119Cat.run with reader := reader, sel := { c119Cat.run.sel with bal := bal } } } }

/-- The job; the variance fit raises `var`, if any. -/
def c120Job (reader : List (Row Nat) → Except Err (List (ReadSpec ℚ))) (bal : Bool) (zmin : Nat) (var : Option Err)
    (hf : Bool) (n : Nat) : Outcome (CatalogOut Nat ℚ) × List (List (SaverEv (String × List ℚ))) :=
  runJob n (fun r => mainProg ((c120Cfg reader bal).runE c111Var ⟨fun _ _ => none, fun _ _ => var⟩ (c110Lift c88Codec.1)
    (c110Lift c88Codec.2.1) (c110Lift c88Codec.2.2.1) c119Fit c110Rows
    (readQuasarCatalog exPix (.ok exFile) false false (some [1, 2]) zmin 3) "" hf c86Start (n + 1) r))

/-- How a job ends: the number of processes that finish, or that exit with a status. -/
inductive JobEnd where
  | finished (k : Nat) | exited (codes : List Int) | aborted | hangs | other
  deriving DecidableEq

def jobEnd {A : Type} : Outcome A → JobEnd
  | .done l =>
    let codes := l.filterMap (fun
      | .error (.systemExit c) => some c
      | _ => none)
    let oks := l.filterMap (fun
      | .ok a => some a
      | _ => none)
    if oks.length = l.length then .finished l.length
    else if codes.length = l.length then .exited codes else .other
  | .aborted => .aborted
  | .deadlock => .hangs
  | _ => .other

/-- A reader that fails on the pixel `4` with the exception `e`. -/
def c120Bad (e : Err) (l : List (Row Nat)) : Except Err (List (ReadSpec ℚ)) :=
  if l.any (fun r => decide (r "HPXPIXEL" = 4)) then .error e else c119Cat.run.reader l

set_option synthInstance.maxSize 4000 in
/-- All ends, on one to four processes with two pixels. The run finishes on one and two, and is aborted with idle
processes. -/
example : (List.range 4).map (fun n => jobEnd (c120Job c119Cat.run.reader false 2 none false n).1) =
    [.finished 1, .finished 2, .aborted, .aborted] := by
  decide +kernel

set_option synthInstance.maxSize 4000 in
/-- The columns of the BAL mask are missing. -/
example : NoBalColumns (c120Cfg c119Cat.run.reader true).cat.run ∧
    (List.range 3).map (fun n => jobEnd (c120Job c119Cat.run.reader true 2 none false n).1) =
      [.exited [1], .exited [1, 1], .aborted] :=
  ⟨⟨rfl, "VMIN_CIV_450", by decide, by decide +kernel⟩, by decide +kernel⟩

set_option synthInstance.maxSize 4000 in
/-- No quasar is in the range of redshifts. -/
example : readQuasarCatalog exPix (.ok exFile) false false (some [1, 2]) 4 3 = .error .exception ∧
    (List.range 3).map (fun n => jobEnd (c120Job c119Cat.run.reader false 4 none false n).1) =
      [.exited [1], .exited [1, 1], .exited [1, 1, 1]] :=
  ⟨rfl, by decide +kernel⟩

set_option synthInstance.maxSize 4000 in
/-- The variance fit fails, with and without `--fiducial-varlss`, with the exception of the package or with another one. -/
example : (List.range 2).map (fun n => jobEnd (c120Job c119Cat.run.reader false 2 (some .qsonic) false n).1) =
      [.exited [1], .exited [1, 1]] ∧
    (List.range 2).map (fun n => jobEnd (c120Job c119Cat.run.reader false 2 (some .qsonic) true n).1) =
      [.exited [1], .exited [1, 1]] ∧
    (List.range 2).map (fun n => jobEnd (c120Job c119Cat.run.reader false 2 (some .valueError) false n).1) =
      [.aborted, .aborted] ∧
    (∀ e, UpdateRaises (⟨fun _ _ => none, fun _ _ => some .qsonic⟩ : UpdateErrs (FullState ℚ) (StackSums ℚ) Nat) e →
      e.isException = true) := by
  refine ⟨by decide +kernel, by decide +kernel, by decide +kernel, ?_⟩
  rintro e (⟨g, s, h⟩ | ⟨g, s, h⟩)
  · cases h
  · cases h; rfl

set_option synthInstance.maxSize 4000 in
/-- No spectrum is there: no valid fit. -/
example : (List.range 3).map (fun n => jobEnd (c120Job (fun _ => .ok []) false 2 none false n).1) =
    [.exited [1], .exited [1, 1], .exited [1, 1, 1]] := by
  decide +kernel

set_option synthInstance.maxSize 4000 in
/-- The hypotheses of `C120_unreadable`: the spectra of the pixel 4 cannot be read. -/
example : OrdinaryErrors (c120Cfg (c120Bad .osError) false).cat.run.reader ∧
    (∀ x, (c120Cfg (c120Bad .osError) false).exps = some x → OrdinaryErrors x.1) ∧
    ¬ NoBalColumns (c120Cfg (c120Bad .osError) false).cat.run ∧
    (∃ c, c88Cat = .ok c ∧ 4 ∈ catPixels false c ∧
      c120Bad .osError (catPixelRows false c 4) = .error .osError) ∧
    (List.range 3).map (fun n => jobEnd (c120Job (c120Bad .osError) false 2 none false n).1) = [.aborted, .aborted, .aborted] := by
  refine ⟨?_, ?_, fun h => absurd h.1 (by decide), ?_, by decide +kernel⟩
  · intro rows e h
    change c120Bad .osError rows = _ at h
    unfold c120Bad at h
    split at h
    · cases h; exact ⟨rfl, by simp⟩
    · cases h
  · intro x hx rows e h
    cases hx
    cases h
  · have key : ∃ c, c88Cat = .ok c ∧ 4 ∈ catPixels false c ∧
        (catPixelRows false c 4).any (fun r => decide (r "HPXPIXEL" = 4)) = true := ⟨_, rfl, by decide +kernel⟩
    obtain ⟨c, h1, h2, h3⟩ := key
    exact ⟨c, h1, h2, if_pos h3⟩

set_option synthInstance.maxSize 4000 in
/-- The hypothesis on the readers is needed: with the exception of the package, raised by one process only, `main` of
this process exits and the others wait for it. -/
example : (List.range 3).map (fun n => jobEnd (c120Job (c120Bad .qsonic) false 2 none false n).1) = [.exited [1], .hangs, .hangs] := by
  decide +kernel

theorem c120_two {A : Type} {a b : A} {l : List A} (h : l.Perm [a, b]) : l = [a, b] ∨ l = [b, a] := by
  match l, h.length_eq with
  | [x, y], _ =>
    have hx : x ∈ [a, b] := h.subset (by simp)
    simp only [List.mem_cons, List.not_mem_nil, or_false] at hx
    rcases hx with rfl | rfl
    · left; have := (List.perm_cons x).mp h; simpa using this
    · right
      have := (List.perm_cons x).mp (h.trans (.swap x a []))
      simpa using this

/-- The example of C119 without the steps after the fit and with one iteration. -/
def c120One : AllCfg Nat ℚ :=
  { c119Cfg false false false with cat := { c119Cat with run := { c119Cat.run with niter := 1 } } }

set_option synthInstance.maxSize 4000 in
/-- The hypotheses of `C120_finishes`, on one process. -/
example : ∃ (c : Catalog Nat) (f : Nat → List (ReadSpec ℚ)),
    (c120One.ncal.isNone ∧ c120One.after = false ∧ c120One.exps.isNone) ∧ PlainRun c120One.cat.run 8 10 ∧
    ReadsPixels c120One.cat.run c f ∧ OrdinaryErrors c120One.cat.run.reader ∧
    (∀ k, IsArgsort k (c120One.cat.run.argsort k)) ∧ Shapes c120One.cat.run.fit c120One.cat.cov ∧
    0 < c120One.cat.run.fit.rf.n ∧ c120One.cat.run.outdir = true ∧
    (∀ p ∈ catPixels c120One.cat.run.tile c, ∀ x ∈ f p, PassesCuts c120One.cat.run.sel x →
      (inputSnrs c120One.cat.run.sel x.spec).length ≤ 3) ∧
    readQuasarCatalog exPix (.ok exFile) false c120One.cat.run.tile (some [1, 2]) 2 3 = .ok c ∧
    0 + 1 ≤ (catPixels c120One.cat.run.tile c).length ∧ ¬ NoBalColumns c120One.cat.run ∧
    ¬ NoValidFit c120One.cat c c86Start 0 := by
  obtain ⟨c, h, hp⟩ := c88_cat
  have hr := c111_reads h
  refine ⟨c, _, ⟨rfl, rfl, rfl⟩, ⟨c111_plain.sqrt, c111_plain.eta, c111_plain.stack, c111_plain.obs, c111_plain.obsPos,
    c111_plain.rf, c111_plain.rfPos⟩, ⟨hr.ok, hr.row, hr.data, hr.coadd⟩, fun rows e he => (by cases he),
    fun k => argsortStable_isArgsort k, c119_shapes, (by decide : 0 < c119Cat.run.fit.rf.n), rfl, ?_, h, ?_,
    fun hb => (by cases hb.1), ?_⟩
  · have key : ∃ d, c88Cat = .ok d ∧ ∀ p ∈ catPixels false d, ∀ x ∈ (catPixelRows false d p).map
        (fun r => c87Arms (r "TARGETID" : Nat) (if r "TARGETID" = 40 then 1 / 100 else 3)),
        (inputSnrs c119Cat.run.sel x.spec).length ≤ 3 := ⟨_, rfl, by decide +kernel⟩
    obtain ⟨d, hd, hk⟩ := key
    rw [h] at hd
    obtain rfl := Except.ok.inj hd
    exact fun p hp x hx _ => hk p hp x hx
  · have key : ∃ d, c88Cat = .ok d ∧ 1 ≤ (catPixels false d).length := ⟨_, rfl, by decide +kernel⟩
    obtain ⟨d, hd, hk⟩ := key
    rw [h] at hd
    obtain rfl := Except.ok.inj hd
    exact hk
  · rintro ⟨q, gs, hq, hg, hlen, hall⟩
    have key : ∃ d, c88Cat = .ok d ∧ (catPixels false d).length = 2 ∧
        ∀ x ∈ [(catPixels false d).map (catPixelRows false d), ((catPixels false d).map (catPixelRows false d)).reverse],
        ((c120One.cat.run.prepare x).toOption.getD []).any
          (fun x => (fittedWith c120One.cat [c86Start] x).spec.valid) = true :=
      ⟨_, rfl, by decide +kernel, by decide +kernel⟩
    obtain ⟨d, hd, hlen2, hk⟩ := key
    rw [h] at hd
    obtain rfl := Except.ok.inj hd
    obtain ⟨l, hl, hv⟩ := hall 0 (Nat.le_refl 0)
    have hgs : gs = [c86Start] := by
      match gs, hg, hlen with
      | [a], hg, _ => simpa using hg
      | _ :: _ :: _, _, hlen => exact absurd hlen (by simp [c120One])
    subst hgs
    have := hk (q 0) (by
      change ((List.range 1).flatMap q).Perm ((catPixels false c).map (catPixelRows false c)) at hq
      generalize (catPixels false c) = ps at hq hlen2
      match ps, hlen2 with
      | [a, b], _ => rcases c120_two (by simpa [List.range_succ] using hq) with e | e <;> simp [e])
    rw [hl] at this
    obtain ⟨x, hx, hxv⟩ := List.any_eq_true.mp this
    rw [hv x hx] at hxv
    cases hxv

end Verif.Props

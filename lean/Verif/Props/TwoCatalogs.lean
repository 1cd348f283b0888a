import Verif.Proofs.TwoCatalogs
import Verif.Props.WholeRun

/-!
# C117: only the spectra that pass the cuts matter

`mpi_run_all` (scripts/qsonic_fit.py:452-502) on two catalogs. The model is in `Verif.Model.WholeRun`.
-/

namespace Verif.Props
open Verif Verif.Np Verif.Model Verif.Model.Prog Verif.Spec Verif.Proofs

section
variable {Val K : Type} [LinearOrder Val] [Field K] [LinearOrder K] [IsStrictOrderedRing K] [FloorRing K]

/-- **C117**. Two runs with a fiducial var_lss and the same cuts, calibrations, masks, smoothing and fit, where the spectra that pass the cuts
are the same up to their order. All else may be different: the rows of the catalogs, their order, columns and pixels, the
quasars that do not pass, the format of the data (tiles or pixels, mocks or not), the output and the number of processes.
Then both jobs raise `QsonicException` on all ranks and write the same to the attributes file, or both finish on all ranks after the same number of
iterations, with the same deltas and the same extensions of the attributes file, except for those of the variance of
the final fit. -/
theorem C117_catalogs {Q D V : Type} (C C' : WholeCfg Val K) {c c' : Catalog Val} {f f' : Val → List (ReadSpec K)}
    {dw dr : K} (hC : PlainRun C dw dr) (hr : ReadsPixels C c f) (hr' : ReadsPixels C' c' f')
    (hA : ∀ k, IsArgsort k (C.argsort k)) (hA' : ∀ k, IsArgsort k (C'.argsort k))
    (hsel : C'.sel = C.sel) (hfit : C'.fit = C.fit) (hsm : C'.smoothing = C.smoothing) (hnit : C'.niter = C.niter)
    (hbal : C.sel.bal = true → balCheckCatalog C.cols = .ok () ∧ balCheckCatalog C'.cols = .ok ())
    (hperm : (((catPixels C.tile c).flatMap f).filter (fun x => decide (PassesCuts C.sel x))).Perm
      (((catPixels C'.tile c').flatMap f').filter (fun x => decide (PassesCuts C.sel x))))
    (P : FitterFns (FullState K) (Spectrum K) (StackSums K) Q D) (cs : Codec Bool V)
    (cq : Codec (List (List (Row Val))) V) (cn : Codec Val V) (fc : FitterCodecs (StackSums K) Q V)
    {ang2pix ang2pix' : Nat → Val → Val → Val} {file file' : Except Err (Catalog Val)} {isMock isMock' : Bool}
    {ks ks' : Option (List Val)} {zmin zmax zmin' zmax' : Val}
    (h : readQuasarCatalog ang2pix file isMock C.tile ks zmin zmax = .ok c)
    (h' : readQuasarCatalog ang2pix' file' isMock' C'.tile ks' zmin' zmax' = .ok c') (n n' : Nat)
    (hidle : IdleOk C ∨ n + 1 ≤ (catPixels C.tile c).length)
    (hidle' : IdleOk C' ∨ n' + 1 ≤ (catPixels C'.tile c').length) (fname : String) (g0 : FullState K) :
    let job := runJob n (fun r => C.run P cs cq cn fc (.ok c) fname g0 (n + 1) r)
    let job' := runJob n' (fun r => C'.run P cs cq cn fc (.ok c') fname g0 (n' + 1) r)
    (∃ (outs outs' : List (WholeOut Val K)) (k : Nat) (b : Bool) (g : ReadSpec K → ReadSpec K)
      (exts tail tail' : List (String × D)),
      job = (.done (outs.map .ok), (List.range (n + 1)).map (fun r => if r = 0 ∧ fname ≠ "" then
          [.create fname] ++ (exts ++ tail).map (.write fname) ++ [.close fname] else [])) ∧
      job' = (.done (outs'.map .ok), (List.range (n' + 1)).map (fun r => if r = 0 ∧ fname ≠ "" then
          [.create fname] ++ (exts ++ tail').map (.write fname) ++ [.close fname] else [])) ∧
      outs.length = n + 1 ∧ outs'.length = n' + 1 ∧
      (∀ o ∈ outs ++ outs', o.iterations = k ∧ o.converged = b) ∧
      (∀ x, (g x).row = x.row) ∧
      (outs.flatMap (·.deltas)).Perm
        (((((catPixels C.tile c).flatMap f).filter (fun x => decide (PassesCuts C.sel x))).map g).filter
          (fun x => x.spec.valid)) ∧
      (outs'.flatMap (·.deltas)).Perm (outs.flatMap (·.deltas)) ∧
      tail.map Prod.fst = ["CONT-fit", "STACKED_FLUX-fit", "STACKED_FLUX_RF-fit", "VAR_FUNC-fit", "VAR_STATS"] ∧
      tail'.map Prod.fst = tail.map Prod.fst) ∨
    (∃ ev : List (SaverEv (String × D)),
      job = (.done (List.replicate (n + 1) (.error .qsonic)),
        (List.range (n + 1)).map (fun r => if r = 0 ∧ fname ≠ "" then ev else [])) ∧
      job' = (.done (List.replicate (n' + 1) (.error .qsonic)),
        (List.range (n' + 1)).map (fun r => if r = 0 ∧ fname ≠ "" then ev else []))) := by
  intro job job'
  rcases two_catalogs C C' hC hr hr' hA hA' hsel hfit hsm hnit hbal hperm P cs cq cn fc h h' n n' hidle hidle' fname g0 with
    ⟨night, night', k, b, g, D1, D2, F1, F2, exts, tail, tail', h1, h2, hg, hp1, hp2, ht, ht'⟩ | ⟨ev, h1, h2⟩
  · refine .inl ⟨(List.range (n + 1)).map (fun r => ⟨night, k, b, D1 r, F1 r⟩),
      (List.range (n' + 1)).map (fun r => ⟨night', k, b, D2 r, F2 r⟩), k, b, g, exts, tail, tail', ?_, ?_,
      by simp, by simp, ?_, hg, ?_, ?_, ht, ht'⟩
    · refine h1.job.trans ?_
      rw [List.map_map]
      rfl
    · refine h2.job.trans ?_
      rw [List.map_map]
      rfl
    · intro o ho
      rcases List.mem_append.mp ho with ho | ho
      all_goals
        obtain ⟨r, -, rfl⟩ := List.mem_map.mp ho
        exact ⟨rfl, rfl⟩
    · rw [List.flatMap_map]
      exact hp1
    · rw [List.flatMap_map, List.flatMap_map]
      exact hp2.trans hp1.symm
  · refine .inr ⟨ev, h1.job.trans ?_, h2.job.trans ?_⟩ <;> simp [List.map_const']

end

/-! ### Concrete case -/

/-- A catalog without the quasar 40 that does not pass the cuts, in another order, and with another position of 20. -/
def c117File : Catalog Nat :=
  { cols := ["TARGETID", "Z", "RA", "DEC", "SURVEY", "LASTNIGHT"]
    rows := [(fun c => if c = "TARGETID" then 20 else if c = "Z" then 2 else
        if c = "RA" then 7 else if c = "SURVEY" then 1 else 0),
      (fun c => if c = "TARGETID" then 30 else if c = "Z" then 2 else
        if c = "RA" then 4 else if c = "SURVEY" then 1 else 0)] }

/-- The catalog read. -/
def c117Cat : Except Err (Catalog Nat) := readQuasarCatalog exPix (.ok c117File) false false (some [1]) 1 4

/-- The run on this catalog: the options are those of `c88Cfg`, in one file for each process. -/
def c117Cfg : WholeCfg Nat ℚ := { c88Cfg true with pix := fun i => if i = 30 then 4 else 7, byHpx := false }

theorem c117_reads {c : Catalog Nat} (h : c117Cat = .ok c) :
    ReadsPixels c117Cfg c (fun p => (catPixelRows false c p).map
      (fun r => c87Spec (r "TARGETID" : Nat) (if r "TARGETID" = 40 then 1 / 100 else 3))) where
  ok _ _ := rfl
  row := by
    intro p _ x hx
    obtain ⟨r, hr, rfl⟩ := List.mem_map.mp hx
    refine ⟨r, hr, rfl, ?_⟩
    have e : ∃ d, c117Cat = .ok d ∧ ∀ r ∈ d.rows, r "HPXPIXEL" = if r "TARGETID" = 30 then 4 else 7 := by
      refine ⟨_, rfl, ?_⟩
      decide +kernel
    obtain ⟨d, e1, e2⟩ := e
    rw [h] at e1
    cases e1
    rw [e2 r (List.mem_filter.mp hr).1]
    change (if ((r "TARGETID" : Nat) : Int) = 30 then 4 else 7) = _
    norm_cast
  data := by
    intro p _ x hx
    obtain ⟨r, hr, rfl⟩ := List.mem_map.mp hx
    exact c87Spec_ok _ _
  coadd h := absurd h (by decide)

/-- What passes, as targets. -/
theorem c117_pass (c : Catalog Nat) : (((catPixels false c).flatMap (fun p => (catPixelRows false c p).map
      (fun r => c87Spec (r "TARGETID" : Nat) (if r "TARGETID" = 40 then 1 / 100 else 3)))).filter
      (fun x => decide (PassesCuts (c88Cfg true).sel x))) =
    (((catPixels false c).flatMap (fun p => (catPixelRows false c p).map (fun r => r "TARGETID"))).filter
      (fun t => decide (PassesCuts (c88Cfg true).sel (c87Spec (t : Nat) (if t = 40 then 1 / 100 else 3))))).map
      (fun t => c87Spec (t : Nat) (if t = 40 then 1 / 100 else 3)) := by
  rw [← Function.comp_def (fun x => decide (PassesCuts (c88Cfg true).sel x))
    (fun t : Nat => c87Spec (t : Nat) (if t = 40 then 1 / 100 else 3)), ← List.filter_map, List.map_flatMap]
  congr 2
  funext p
  rw [List.map_map]
  rfl

/-- The hypotheses: two different catalogs, the usable spectra are those of 20 and 30. -/
example : ∃ (c c' : Catalog Nat) (f f' : Nat → List (ReadSpec ℚ)), PlainRun (c88Cfg true) 8 10 ∧
    ReadsPixels (c88Cfg true) c f ∧ ReadsPixels c117Cfg c' f' ∧ (∀ k, IsArgsort k ((c88Cfg true).argsort k)) ∧
    (∀ k, IsArgsort k (c117Cfg.argsort k)) ∧ c117Cfg.sel = (c88Cfg true).sel ∧ c117Cfg.fit = (c88Cfg true).fit ∧
    c117Cfg.smoothing = (c88Cfg true).smoothing ∧ c117Cfg.niter = (c88Cfg true).niter ∧ (c88Cfg true).sel.bal = false ∧
    (((catPixels (c88Cfg true).tile c).flatMap f).filter (fun x => decide (PassesCuts (c88Cfg true).sel x))).Perm
      (((catPixels c117Cfg.tile c').flatMap f').filter (fun x => decide (PassesCuts (c88Cfg true).sel x))) ∧
    readQuasarCatalog exPix (.ok exFile) false (c88Cfg true).tile (some [1, 2]) 2 3 = .ok c ∧
    readQuasarCatalog exPix (.ok c117File) false c117Cfg.tile (some [1]) 1 4 = .ok c' ∧ IdleOk (c88Cfg true) ∧
    IdleOk c117Cfg ∧ c.rows.length = 3 ∧ c'.rows.length = 2 := by
  obtain ⟨c, h, e, l⟩ : ∃ c, c88Cat = .ok c ∧ (((catPixels false c).flatMap (fun p => (catPixelRows false c p).map
      (fun r => r "TARGETID"))).filter (fun t => decide (PassesCuts (c88Cfg true).sel (c87Spec (t : Nat)
      (if t = 40 then 1 / 100 else 3))))) = [30, 20] ∧ c.rows.length = 3 := ⟨_, rfl, by decide +kernel, by decide +kernel⟩
  obtain ⟨c', h', e', l'⟩ : ∃ c, c117Cat = .ok c ∧ (((catPixels false c).flatMap (fun p => (catPixelRows false c p).map
      (fun r => r "TARGETID"))).filter (fun t => decide (PassesCuts (c88Cfg true).sel (c87Spec (t : Nat)
      (if t = 40 then 1 / 100 else 3))))) = [30, 20] ∧ c.rows.length = 2 := ⟨_, rfl, by decide +kernel, by decide +kernel⟩
  refine ⟨c, c', _, _, c88_plain true, c88_reads true h, c117_reads h', fun k => argsortStable_isArgsort k,
    fun k => argsortStable_isArgsort k, rfl, rfl, rfl, rfl, rfl, ?_, h, h', ⟨rfl, rfl, rfl⟩, ⟨rfl, rfl, rfl⟩, l, l'⟩
  have p := c117_pass c
  have p' := c117_pass c'
  rw [e] at p
  rw [e'] at p'
  exact List.Perm.of_eq (p.trans p'.symm)

set_option synthInstance.maxSize 4000 in
/-- The two jobs, on two processes and on one. -/
example : ∃ a b : Int × List (String × List ℚ), a.1 = 20 ∧ b.1 = 30 ∧
    c88See (runJob 1 (c88Run true 2)).1 = some [(none, 1, [a], [.pix 5]), (none, 1, [b], [.pix 4])] ∧
    c88See (runJob 0 (fun r => c117Cfg.run c86Var c88Codec.1 c88Codec.2.1 c88Codec.2.2.1 c88Codec.2.2.2 c117Cat ""
      c86Start 1 r)).1 = some [(none, 1, [b, a], [.rank 0])] := by
  refine ⟨(20, [("b", [3 / 2, 11 / 8, 5 / 4, 9 / 8, 1])]), (30, [("b", [3 / 2, 11 / 8, 5 / 4, 9 / 8, 1])]), ?_⟩
  decide +kernel

end Verif.Props

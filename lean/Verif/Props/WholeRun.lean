import Verif.Proofs.WholeRun
import Verif.Proofs.FitRun

/-!
# C88: the whole run and the number of processes

`mpi_run_all` from the catalog to the delta files, on `n + 1` and on `n' + 1` processes. The model is in
`Verif.Model.WholeRun`, the vocabulary in `Verif.Spec.WholeRun`.
-/

namespace Verif.Props
open Verif Verif.Np Verif.Model Verif.Model.Prog Verif.Spec Verif.Proofs

section
variable {Val K : Type} [LinearOrder Val] [Field K] [LinearOrder K] [IsStrictOrderedRing K] [FloorRing K]

/-- **C88**. Full claim: which deltas a run gives, and what is in them, does not depend on the number of processes.

Proved: the runs on `n + 1` and `n' + 1` processes either both finish on all ranks, or both raise the same exception on
all ranks after the same writes. If they finish, all ranks of both runs have the same blinding night, which is the last
night of the whole catalog, and agree on the number of iterations and on convergence. There is one map `g` from spectra
read to deltas such that the deltas of all ranks together are, in either run, `g` of every spectrum of the catalog that
passes the cuts, without those whose fit failed. Delta files by pixel are the same files. The attributes file is written
by rank 0 only, with the same extensions, of which all but the last five have the same contents.

Missing: ranks without rows where blinding or masks need rows (see `C88_idle_refuted`), the variance fit during the
iterations (`C86_refuted`; here it is off, and `P` only makes the final tables), files by rank (`byHpx = false`), which depend on the layout by their name. -/
theorem C88_partial {Q D V : Type} (C : WholeCfg Val K) {c : Catalog Val} {f : Val → List (ReadSpec K)}
    {dw dr : K} (hC : PlainRun C dw dr) (hr : ReadsPixels C c f) (hA : ∀ k, IsArgsort k (C.argsort k))
    (P : FitterFns (FullState K) (Spectrum K) (StackSums K) Q D) (cs : Codec Bool V)
    (cq : Codec (List (List (Row Val))) V) (cn : Codec Val V) (fc : FitterCodecs (StackSums K) Q V)
    {ang2pix : Nat → Val → Val → Val} {file : Except Err (Catalog Val)} {isMock : Bool}
    {ks : Option (List Val)} {zmin zmax : Val}
    (h : readQuasarCatalog ang2pix file isMock C.tile ks zmin zmax = .ok c) (n n' : Nat)
    (hidle : IdleOk C ∨ (n + 1 ≤ (catPixels C.tile c).length ∧ n' + 1 ≤ (catPixels C.tile c).length))
    (fname : String) (g0 : FullState K) :
    let prog := fun size rank => C.run P cs cq cn fc (.ok c) fname g0 size rank
    (∃ (outs outs' : List (WholeOut Val K)) (night : Option Val) (k : Nat) (b : Bool)
      (g : ReadSpec K → ReadSpec K) (exts tail tail' : List (String × D)),
      runJob n (prog (n + 1)) = (.done (outs.map .ok), (List.range (n + 1)).map (fun r => if r = 0 ∧ fname ≠ "" then
          [.create fname] ++ (exts ++ tail).map (.write fname) ++ [.close fname] else [])) ∧
      runJob n' (prog (n' + 1)) = (.done (outs'.map .ok), (List.range (n' + 1)).map (fun r => if r = 0 ∧ fname ≠ "" then
          [.create fname] ++ (exts ++ tail').map (.write fname) ++ [.close fname] else [])) ∧
      outs.length = n + 1 ∧ outs'.length = n' + 1 ∧
      (∀ o ∈ outs ++ outs', o.night = night ∧ o.iterations = k ∧ o.converged = b) ∧
      (C.mock = true → night = none) ∧ (C.mock = false → ∃ m, night = some m ∧ IsLastNight c m) ∧
      (∀ x, (g x).row = x.row ∧ (g x).rsnr = x.rsnr) ∧
      (∀ o ∈ [outs, outs'], (o.flatMap (·.deltas)).Perm
        (((((catPixels C.tile c).flatMap f).filter (fun x => decide (PassesCuts C.sel x))).map g).filter
          (fun x => x.spec.valid))) ∧
      (C.outdir = true → C.byHpx = true → C.tile = false →
        SameFiles (outs.flatMap (·.files)) (outs'.flatMap (·.files))) ∧
      tail.map Prod.fst = ["CONT-fit", "STACKED_FLUX-fit", "STACKED_FLUX_RF-fit", "VAR_FUNC-fit", "VAR_STATS"] ∧
      tail'.map Prod.fst = tail.map Prod.fst) ∨
    (∃ ev : List (SaverEv (String × D)), ∀ m ∈ [n, n'],
      runJob m (prog (m + 1)) = (.done (List.replicate (m + 1) (.error .qsonic)),
        (List.range (m + 1)).map (fun r => if r = 0 ∧ fname ≠ "" then ev else []))) := by
  intro prog
  rcases whole_sync C hC hr hA P cs cq cn fc h n n' hidle fname g0 with
    ⟨night, k, b, g, D1, D2, F1, F2, exts, tail, tail', h1, h2, hn1, hn2, hg, hp1, hp2, hF, ht, ht'⟩ | ⟨ev, h1, h2⟩
  · refine .inl ⟨(List.range (n + 1)).map (fun r => ⟨night, k, b, D1 r, F1 r⟩),
      (List.range (n' + 1)).map (fun r => ⟨night, k, b, D2 r, F2 r⟩), night, k, b, g, exts, tail, tail', ?_, ?_,
      by simp, by simp, ?_, hn1, hn2, hg, ?_, ?_, ht, ht'⟩
    · refine h1.job.trans ?_
      rw [List.map_map]
      rfl
    · refine h2.job.trans ?_
      rw [List.map_map]
      rfl
    · intro o ho
      rcases List.mem_append.mp ho with ho | ho
      all_goals
        obtain ⟨r, -, rfl⟩ := List.mem_map.mp ho
        exact ⟨rfl, rfl, rfl⟩
    · intro o ho
      rcases List.mem_cons.mp ho with rfl | ho
      · rw [List.flatMap_map]
        exact hp1
      · obtain rfl := List.mem_singleton.mp ho
        rw [List.flatMap_map]
        exact hp2
    · intro a1 a2 a3
      rw [List.flatMap_map, List.flatMap_map]
      exact hF a1 a2 a3
  · refine .inr ⟨ev, fun m hm => ?_⟩
    rcases List.mem_cons.mp hm with rfl | hm
    · refine h1.job.trans ?_
      simp [List.map_const']
    · obtain rfl := List.mem_singleton.mp hm
      refine h2.job.trans ?_
      simp [List.map_const']

omit [IsStrictOrderedRing K] in
/-- **C88** is false when there are more processes than pixels, unless the data are mock and neither the BAL nor the DLA
mask is used: whatever the reader, the options and the fit, `main` ends in `comm.Abort()`. The ranks without rows raise
`ValueError` or `IndexError` (`np.max` of an empty list, `local_queue[0]`, `np.concatenate` of nothing). -/
theorem C88_idle_refuted {Q D V : Type} (C : WholeCfg Val K) {c : Catalog Val}
    (P : FitterFns (FullState K) (Spectrum K) (StackSums K) Q D) (cs : Codec Bool V)
    (cq : Codec (List (List (Row Val))) V) (cn : Codec Val V) (fc : FitterCodecs (StackSums K) Q V)
    {ang2pix : Nat → Val → Val → Val} {file : Except Err (Catalog Val)} {isMock : Bool}
    {ks : Option (List Val)} {zmin zmax : Val}
    (h : readQuasarCatalog ang2pix file isMock C.tile ks zmin zmax = .ok c) (n : Nat)
    (hn : (catPixels C.tile c).length < n + 1) (hidle : ¬ IdleOk C) (fname : String) (g0 : FullState K) :
    (runJob n (fun r => mainProg (C.run P cs cq cn fc (.ok c) fname g0 (n + 1) r))).1 = .aborted := by
  obtain ⟨q, hq, hlen, -, hpix, -⟩ := queues_ok h n
  -- a rank without rows
  obtain ⟨r, hr, hrq⟩ : ∃ r ≤ n, q.getD r [] = [] := by
    by_contra hno
    push Not at hno
    have hne : ∀ b ∈ q, 1 ≤ b.length := by
      intro b hb
      obtain ⟨i, hi, rfl⟩ := List.mem_iff_getElem.mp hb
      have := hno i (by omega)
      rw [List.getD_eq_getElem?_getD, List.getElem?_eq_getElem hi] at this
      exact List.length_pos_iff.mpr this
    have h1 : q.length ≤ q.flatten.length := by
      rw [List.length_flatten]
      have := List.card_nsmul_le_sum (q.map List.length) 1 (by
        intro x hx
        obtain ⟨b, hb, rfl⟩ := List.mem_map.mp hx
        exact hne b hb)
      simpa using this
    rw [hpix.length_eq, List.length_map] at h1
    omega
  have hs := sync_queue (W := SaverEv (String × D)) cs cq C.tile hq hlen
  rw [runJob_eq_runFam]
  unfold mainProg WholeCfg.run
  simp only [catch_eq_seqE]
  simp only [bind_eq_seqE (mpiGetLocalQueue _ _ _ _ _ _), seqE_assoc]
  rw [hs]
  refine runFam_abort n _ _ ⟨r, hr, ?_⟩
  simp only [hrq, onOk]
  by_cases hm : C.mock = true
  · have hprep : ∃ e, Unexpected e ∧ C.prepare [] = .error e := by
      unfold WholeCfg.prepare WholeCfg.maskIds WholeCfg.balStep WholeCfg.dlaStep
      by_cases hb : C.sel.bal = true
      · exact ⟨.indexError, ⟨rfl, by simp⟩, by simp [hb, Bind.bind, Except.bind]⟩
      · have hd : C.sel.dla.isSome = true := by
          by_contra hd
          exact hidle ⟨hm, by simpa using hb, by simpa using hd⟩
        exact ⟨.valueError, ⟨rfl, by simp⟩, by simp [hb, hd, Bind.bind, Except.bind]⟩
    obtain ⟨e, he, hprep⟩ := hprep
    have hbl : (C.blinding cn [] : Prog V (SaverEv (String × D)) (Option Val)) = .ret none := if_pos hm
    rw [hbl, hprep]
    change (peel (mainHandler e)).2 = _
    rw [handler_abort he]
    rfl
  · have hbl : (C.blinding cn [] : Prog V (SaverEv (String × D)) (Option Val)) = .raise .valueError := if_neg hm
    rw [hbl]
    rfl

end

/-! ### Concrete cases -/

/-- A run on the catalog `exFile`; the spectra of targets 20 and 30 pass the cuts, that of 40 does not. -/
def c88Cfg (mock : Bool) : WholeCfg Nat ℚ where
  sel := { c87Cfg with
    wave1 := 3300, wave2 := 3332, forestW1 := 1100, forestW2 := 1120, skip := 1 / 100, bal := false
    dla := if mock then none else some [⟨30, 21 / 10, 21⟩] }
  fit := c86Cfg
  mock := mock
  tile := false
  cols := []
  tid r := (r "TARGETID" : Nat)
  pix i := if i = 30 then 4 else 5
  reader l := .ok (l.map (fun r => c87Spec (r "TARGETID" : Nat) (if r "TARGETID" = 40 then 1 / 100 else 3)))
  smoothing := 0
  argsort := argsortStable
  outdir := true
  byHpx := true
  niter := 2

/-- Messages of the example. -/
def c88Codec : Codec Bool (StackSums ℚ × Nat × Bool × List (List (Row Nat))) ×
    Codec (List (List (Row Nat))) (StackSums ℚ × Nat × Bool × List (List (Row Nat))) ×
    Codec Nat (StackSums ℚ × Nat × Bool × List (List (Row Nat))) ×
    FitterCodecs (StackSums ℚ) Unit (StackSums ℚ × Nat × Bool × List (List (Row Nat))) :=
  let z : StackSums ℚ := ⟨[], [], [], []⟩
  (⟨fun b => (z, 0, b, []), fun x => x.2.2.1, fun _ => rfl⟩, ⟨fun q => (z, 0, true, q), fun x => x.2.2.2, fun _ => rfl⟩,
    ⟨fun n => (z, n, true, []), fun x => x.2.1, fun _ => rfl⟩,
    ⟨⟨fun n => (z, n, true, []), fun x => x.2.1, fun _ => rfl⟩, ⟨fun s => (s, 0, true, []), Prod.fst, fun _ => rfl⟩,
      ⟨fun _ => (z, 0, true, []), fun _ => (), fun _ => rfl⟩⟩)

/-- The catalog as read. -/
def c88Cat : Except Err (Catalog Nat) := readQuasarCatalog exPix (.ok exFile) false false (some [1, 2]) 2 3

/-- The program of a rank. -/
def c88Run (mock : Bool) (size rank : Nat) :
    Prog (StackSums ℚ × Nat × Bool × List (List (Row Nat))) (SaverEv (String × List ℚ)) (WholeOut Nat ℚ) :=
  (c88Cfg mock).run c86Var c88Codec.1 c88Codec.2.1 c88Codec.2.2.1 c88Codec.2.2.2 c88Cat "" c86Start size rank

/-- What is seen of a job: night, iterations, targets with the continua, names of the files. -/
def c88See : Outcome (WholeOut Nat ℚ) →
    Option (List (Option Nat × Nat × List (Int × List (String × List ℚ)) × List (DeltaName Nat)))
  | .done l => l.mapM (fun
      | .ok o => some (o.night, o.iterations, o.deltas.map (fun x => (x.row.targetid, x.spec.cont)),
          o.files.map Prod.fst)
      | .error _ => none)
  | _ => none

set_option synthInstance.maxSize 4000 in
/-- One process and two: the same two targets with the same continua and the same files, one per pixel. On three
processes the job is aborted, unless the data are mock. -/
example : ∃ a b : Int × List (String × List ℚ), a.1 = 20 ∧ b.1 = 30 ∧
    c88See (runJob 0 (c88Run false 1)).1 = some [(some 0, 1, [a, b], [.pix 4, .pix 5])] ∧
    c88See (runJob 1 (c88Run false 2)).1 = some [(some 0, 1, [a], [.pix 5]), (some 0, 1, [b], [.pix 4])] := by
  refine ⟨((((c88See (runJob 0 (c88Run false 1)).1).bind List.head?).getD (none, 0, [], [])).2.2.1).getD 0 (0, []),
    ((((c88See (runJob 0 (c88Run false 1)).1).bind List.head?).getD (none, 0, [], [])).2.2.1).getD 1 (0, []), ?_⟩
  decide +kernel

set_option synthInstance.maxSize 4000 in
example : (match (runJob 2 (fun r => mainProg (c88Run false 3 r))).1 with | .aborted => true | _ => false) = true ∧
    c88See (runJob 2 (c88Run true 3)).1 = some [
      (none, 1, [(20, [("b", [3 / 2, 11 / 8, 5 / 4, 9 / 8, 1])])], [.pix 5]),
      (none, 1, [(30, [("b", [3 / 2, 11 / 8, 5 / 4, 9 / 8, 1])])], [.pix 4]), (none, 1, [], [])] := by
  decide +kernel

theorem c88_plain (mock : Bool) : PlainRun (c88Cfg mock) 8 10 where
  sqrt v hv := if_pos hv
  eta := by rintro eta h; cases h; intro w; norm_num
  stack := by rintro st h; cases h; intro w; norm_num
  obs := by cases mock <;> decide +kernel
  obsPos := by change (3300 : ℚ) < 3332; norm_num
  rf := by cases mock <;> decide +kernel
  rfPos := by change (1100 : ℚ) < 1120; norm_num

theorem c88_reads (mock : Bool) {c : Catalog Nat} (h : c88Cat = .ok c) :
    ReadsPixels (c88Cfg mock) c (fun p => (catPixelRows false c p).map
      (fun r => c87Spec (r "TARGETID" : Nat) (if r "TARGETID" = 40 then 1 / 100 else 3))) where
  ok _ _ := rfl
  row := by
    intro p _ x hx
    obtain ⟨r, hr, rfl⟩ := List.mem_map.mp hx
    refine ⟨r, hr, rfl, ?_⟩
    have key : ∀ d, c88Cat = .ok d → ∀ r ∈ d.rows, r "HPXPIXEL" = if r "TARGETID" = 30 then 4 else 5 := by
      have e : ∃ d, c88Cat = .ok d ∧ ∀ r ∈ d.rows, r "HPXPIXEL" = if r "TARGETID" = 30 then 4 else 5 := by
        refine ⟨_, rfl, ?_⟩
        decide +kernel
      obtain ⟨d, e1, e2⟩ := e
      intro d' e3
      rw [e1] at e3
      cases e3
      exact e2
    have := key c h r (List.mem_filter.mp hr).1
    rw [this]
    change (if ((r "TARGETID" : Nat) : Int) = 30 then 4 else 5) = _
    norm_cast
  data := by
    intro p _ x hx
    obtain ⟨r, hr, rfl⟩ := List.mem_map.mp hx
    exact c87Spec_ok _ _
  coadd h := absurd h (by cases mock <;> decide)

theorem c88_cat : ∃ c, c88Cat = .ok c ∧ catPixels false c = [4, 5] := ⟨_, rfl, by decide +kernel⟩

/-- The hypotheses of `C88_partial` with ranks that all have rows, and with idle ranks. -/
example : ∃ (c : Catalog Nat) (f : Nat → List (ReadSpec ℚ)),
    PlainRun (c88Cfg false) 8 10 ∧ ReadsPixels (c88Cfg false) c f ∧ (∀ k, IsArgsort k ((c88Cfg false).argsort k)) ∧
    readQuasarCatalog exPix (.ok exFile) false (c88Cfg false).tile (some [1, 2]) 2 3 = .ok c ∧
    (0 + 1 ≤ (catPixels (c88Cfg false).tile c).length ∧ 1 + 1 ≤ (catPixels (c88Cfg false).tile c).length) ∧
    (((catPixels false c).flatMap f).filter (fun x => decide (PassesCuts (c88Cfg false).sel x))).length = 2 := by
  obtain ⟨c, h, hp⟩ := c88_cat
  refine ⟨c, _, c88_plain false, c88_reads false h, fun k => argsortStable_isArgsort k, h, ?_, ?_⟩
  · change 0 + 1 ≤ (catPixels false c).length ∧ 1 + 1 ≤ (catPixels false c).length
    rw [hp]
    decide
  · have key : ∃ d, c88Cat = .ok d ∧ (((catPixels false d).flatMap (fun p => (catPixelRows false d p).map
        (fun r => c87Spec (r "TARGETID" : Nat) (if r "TARGETID" = 40 then 1 / 100 else 3)))).filter
        (fun x => decide (PassesCuts (c88Cfg false).sel x))).length = 2 := ⟨_, rfl, by decide +kernel⟩
    obtain ⟨d, e1, e2⟩ := key
    rw [h] at e1
    cases e1
    exact e2

example : IdleOk (c88Cfg true) ∧ PlainRun (c88Cfg true) 8 10 ∧ ¬ IdleOk (c88Cfg false) ∧
    ∃ c, c88Cat = .ok c ∧ ReadsPixels (c88Cfg true) c (fun p => (catPixelRows false c p).map
      (fun r => c87Spec (r "TARGETID" : Nat) (if r "TARGETID" = 40 then 1 / 100 else 3))) ∧
      (catPixels false c).length < 2 + 1 := by
  obtain ⟨c, h, hp⟩ := c88_cat
  exact ⟨⟨rfl, rfl, rfl⟩, c88_plain true, fun h => absurd h.1 (by decide), c, h, c88_reads true h, by rw [hp]; decide⟩

/-- A run with `--coadd-arms before` on spectra of two arms. -/
def c88Coadd : WholeCfg Nat ℚ := { c88Cfg false with
  sel := { (c88Cfg false).sel with coaddBefore := true }
  reader := fun l => .ok (l.map (fun r => c87Arms (r "TARGETID" : Nat) (if r "TARGETID" = 40 then 1 / 100 else 3))) }

theorem c88Coadd_plain : PlainRun c88Coadd 8 10 where
  sqrt v hv := if_pos hv
  eta := by rintro eta h; cases h; intro w; norm_num
  stack := by rintro st h; cases h; intro w; norm_num
  obs := by decide +kernel
  obsPos := by change (3300 : ℚ) < 3332; norm_num
  rf := by decide +kernel
  rfPos := by change (1100 : ℚ) < 1120; norm_num

theorem c88Coadd_reads {c : Catalog Nat} (h : c88Cat = .ok c) :
    ReadsPixels c88Coadd c (fun p => (catPixelRows false c p).map
      (fun r => c87Arms (r "TARGETID" : Nat) (if r "TARGETID" = 40 then 1 / 100 else 3))) where
  ok _ _ := rfl
  row := by
    intro p hp x hx
    obtain ⟨r, hr, rfl⟩ := List.mem_map.mp hx
    obtain ⟨r', hr', e1, e2⟩ := (c88_reads false h).row p hp _ (List.mem_map.mpr ⟨r, hr, rfl⟩)
    exact ⟨r', hr', e1, e2⟩
  data := by
    intro p _ x hx
    obtain ⟨r, hr, rfl⟩ := List.mem_map.mp hx
    exact c87Arms_ok _ _
  coadd := by
    intro _ p _ x hx
    obtain ⟨r, hr, rfl⟩ := List.mem_map.mp hx
    exact c87Arms_ready _ _ _

set_option synthInstance.maxSize 4000 in
/-- One process and two, with `--coadd-arms before`: the continua have the arm `brz`. -/
example : ∃ a b : List ℚ, a.length = 6 ∧ b.length = 6 ∧
    c88See (runJob 0 (fun r => c88Coadd.run c86Var c88Codec.1 c88Codec.2.1 c88Codec.2.2.1 c88Codec.2.2.2 c88Cat ""
      c86Start 1 r)).1 = some [(some 0, 1, [(20, [("brz", a)]), (30, [("brz", b)])], [.pix 4, .pix 5])] ∧
    c88See (runJob 1 (fun r => c88Coadd.run c86Var c88Codec.1 c88Codec.2.1 c88Codec.2.2.1 c88Codec.2.2.2 c88Cat ""
      c86Start 2 r)).1 = some [(some 0, 1, [(20, [("brz", a)])], [.pix 5]), (some 0, 1, [(30, [("brz", b)])], [.pix 4])] := by
  let o := ((c88See (runJob 0 (fun r => c88Coadd.run c86Var c88Codec.1 c88Codec.2.1 c88Codec.2.2.1 c88Codec.2.2.2
    c88Cat "" c86Start 1 r)).1).bind List.head?).getD (none, 0, [], [])
  refine ⟨((o.2.2.1.getD 0 (0, [])).2.getD 0 ("", [])).2, ((o.2.2.1.getD 1 (0, [])).2.getD 0 ("", [])).2, ?_⟩
  decide +kernel

example : ∃ (c : Catalog Nat) (f : Nat → List (ReadSpec ℚ)), c88Coadd.sel.coaddBefore = true ∧
    PlainRun c88Coadd 8 10 ∧ ReadsPixels c88Coadd c f ∧ (∀ k, IsArgsort k (c88Coadd.argsort k)) ∧
    readQuasarCatalog exPix (.ok exFile) false c88Coadd.tile (some [1, 2]) 2 3 = .ok c ∧
    (0 + 1 ≤ (catPixels c88Coadd.tile c).length ∧ 1 + 1 ≤ (catPixels c88Coadd.tile c).length) := by
  obtain ⟨c, h, hp⟩ := c88_cat
  refine ⟨c, _, rfl, c88Coadd_plain, c88Coadd_reads h, fun k => argsortStable_isArgsort k, h, ?_⟩
  change 0 + 1 ≤ (catPixels false c).length ∧ 1 + 1 ≤ (catPixels false c).length
  rw [hp]
  decide

end Verif.Props

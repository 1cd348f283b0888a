import Verif.Proofs.Attributes
import Verif.Props.Interp
import Verif.Props.Shared

/-!
# C99: the attributes of one run as calibration of another
-/

namespace Verif.Props
open Verif Verif.Np Verif.Model Verif.Model.Prog Verif.Spec Verif.Proofs

section
variable {K Q V V' W : Type} [Field K] [LinearOrder K] [IsStrictOrderedRing K] [FloorRing K] {rtol atol : K}

omit [IsStrictOrderedRing K] in
theorem noiseInit_ok (cc : Codec (Option (CubicInterp K × CubicInterp K)) V') (called : W) {junk : Nat → K}
    {files : Nat → Option (FitsFile K)} {r : CubicInterp K × CubicInterp K}
    (h : noiseReadFile junk rtol atol (files 0) = .ok r) (addVarlss noEta : Bool) (m : Nat) :
    (runJob m (noiseInit cc called junk rtol atol addVarlss noEta files)).1 =
      .done (List.replicate (m + 1) (.ok (NoiseCal.mk' r addVarlss noEta))) := by
  have hs := (sync_fncBcast m cc called (fun r => noiseReadFile junk rtol atol (files r)) h).bind
    (f := fun _ r => .ret (NoiseCal.mk' r addVarlss noEta)) (sync_ret m (fun _ => NoiseCal.mk' r addVarlss noEta))
  have hs : Sync m (noiseInit cc called junk rtol atol addVarlss noEta files) _ _ := hs
  rw [hs.job]
  simp [List.map_const']

omit [IsStrictOrderedRing K] [FloorRing K] in
theorem fluxInit_ok (cc : Codec (Option (LinInterp K)) V') (called : W) {files : Nat → Option (FitsFile K)} {f : LinInterp K}
    (h : fluxReadFile rtol atol (files 0) = .ok f) (m : Nat) :
    (runJob m (fluxInit cc called rtol atol files)).1 = .done (List.replicate (m + 1) (.ok f)) := by
  have hs : Sync m (fluxInit cc called rtol atol files) _ _ :=
    sync_fncBcast m cc called (fun r => fluxReadFile rtol atol (files r)) h
  rw [hs.job]
  simp [List.map_const']

omit [Field K] [LinearOrder K] [IsStrictOrderedRing K] [FloorRing K] in
theorem fitsRead_of_mem {f : FitsFile K} (hn : (f.map Prod.fst).Nodup) {ext : String} {t : FitsTable K}
    (h : (ext, t) ∈ f) : fitsRead (some f) ext = .ok t := by
  unfold fitsRead
  dsimp only
  rw [lookup_of_mem' hn h]
  rfl

omit [IsStrictOrderedRing K] [FloorRing K] in
theorem fluxReadFile_of {f : FitsFile K} (hn : (f.map Prod.fst).Nodup) {waves fp : List K}
    (h : ("STACKED_FLUX", fluxTable waves fp) ∈ f) : fluxReadFile rtol atol (some f) = fluxRead rtol atol waves fp := by
  unfold fluxReadFile
  rw [fitsRead_of_mem hn h]
  rfl

omit [IsStrictOrderedRing K] [FloorRing K] in
theorem noiseReadFile_of {junk : Nat → K} {f : FitsFile K} (hn : (f.map Prod.fst).Nodup) {waves v ve e ee : List K}
    (h : ("VAR_FUNC", varTable waves v ve e ee) ∈ f) :
    noiseReadFile junk rtol atol (some f) = noiseRead junk rtol atol waves v e := by
  unfold noiseReadFile
  rw [fitsRead_of_mem hn h]
  rfl

omit [IsStrictOrderedRing K] [FloorRing K] in
theorem map_zero_one {l : List K} (h : (0 : K) ∉ l) : l.map (fun x => if x = 0 then 1 else x) = l := by
  refine (List.map_congr_left fun x hx => ?_).trans (List.map_id l)
  exact if_neg (fun e : x = 0 => h (e ▸ hx))

/-- **C99.** The attributes file of a run that fits the variance can be given to `--noise-calibration` and
`--flux-calibration` of another run, on any number of ranks. Whatever the iterations did: if a rank returned, then the
file that rank 0 wrote is read without error, and every rank of the other run gets
* for var_lss and eta the functions with which the first run ended (at every wavelength, not only at the bins), unless
  a bin of eta is exactly zero;
* for the flux the interpolator of the stack of the first run, with one in the bins that are zero because they had no
  pixels. -/
theorem C99_attributes (C : FullCfg K) (P : VarPart K Q) (stats : Q → FitsTable K) (q : Q) (hn : 4 ≤ P.n)
    (hP : ∀ a b q, (P.solve a b q).1.1.length = P.n ∧ (P.solve a b q).2.1.length = P.n) (hobs : 2 ≤ C.obs.n)
    (hr : 0 ≤ rtol) (ha : 0 ≤ atol) (c : FitterCodecs (StackSums K) Q V) {fname : String} (hname : fname ≠ "") {niter : Nat}
    (hpos : 0 < niter) (n : Nat) (specs : Nat → List (Spectrum K)) :
    let job := runJob n (fun r => (FitObjs.attrFns C P stats).iterate c fname niter true r (FitObjs.new C P none q) (specs r))
    ∀ x ∈ resultsOf job.1, ∀ log, job.2[0]? = some log → ∀ files : Nat → Option (FitsFile K),
      files 0 = some (writtenExts log) → ∀ (m : Nat) (called : W),
      ((0 : K) ∉ (x.1.obj x.1.fitter.eta).fp →
        ∀ (cc : Codec (Option (CubicInterp K × CubicInterp K)) V') (junk : Nat → K) (addVarlss noEta : Bool),
        (runJob m (noiseInit cc called junk rtol atol addVarlss noEta files)).1 = .done (List.replicate (m + 1) (.ok
          ⟨if noEta then fun _ => 1 else (x.1.obj x.1.fitter.eta).call,
            if addVarlss then some (x.1.obj x.1.fitter.var).call else none⟩))) ∧
      (∀ cc : Codec (Option (LinInterp K)) V',
        (runJob m (fluxInit cc called rtol atol files)).1 = .done (List.replicate (m + 1) (.ok
          { x.1.stack.interp with fp := x.1.stack.fp.map (fun y => if y = 0 then 1 else y) }))) := by
  intro job x hx log hlog files hfile m called
  obtain ⟨g, sp, conv, k, hI, hg0, hk, hxk, hext⟩ := iterate_ended c hname hpos hx hlog
  have hxk : x.1 = g k := hxk
  have inv : ∀ i, AttrInv C P (g i) := by
    intro i
    induction i with
    | zero => rw [hg0]; exact .new q
    | succ i ih =>
      obtain ⟨w, hw, e⟩ := hI.update i
      rw [if_pos rfl] at e
      rw [e, hw]
      exact (ih.meanUpd _).varUpd hP _
  have hst : (g k).stack.obs = C.obs := by
    obtain ⟨i, rfl⟩ : ∃ i, k = i + 1 := ⟨k - 1, by omega⟩
    obtain ⟨w, hw, e⟩ := hI.update i
    rw [if_pos rfl] at e
    have h1 : w.stack.obs = C.obs := by rw [hw]; rfl
    have h2 : ∀ q, (FitObjs.varUpd C P w q).stack = w.stack := by
      intro q
      unfold FitObjs.varUpd
      dsimp only
      split <;> rfl
    rw [e]
    exact (congrArg _ (h2 _)).trans h1
  have hnd : ((writtenExts log).map Prod.fst).Nodup := by
    rw [hext]; exact nodup_names true g k x.1
  obtain ⟨-, hmem, -, -⟩ := mem_allExts (F := FitObjs.attrFns C P stats) true g k x.1
  obtain ⟨-, m2, -, m4⟩ := mem_saveExts (F := FitObjs.attrFns C P stats) true "" (g k)
  rw [String.append_empty] at m2 m4
  have m2 := hmem _ m2
  have m4 := hmem _ (m4 rfl)
  rw [← hext] at m2 m4
  rw [hxk]
  constructor
  · intro h0 cc junk addVarlss noEta
    have hread := (noiseReadFile_of (rtol := rtol) (atol := atol) (junk := junk) hnd m4).trans
      ((read_evenGrid hr ha (by omega : 2 ≤ P.n)).2 junk _ _)
    rw [← hfile] at hread
    rw [noiseInit_ok cc called hread]
    have hi := inv k
    have e1 : (g k).fitter.var = 1 := by rw [hi.refs]
    have e2 : (g k).fitter.eta = 2 := by rw [hi.refs]
    rw [e2] at h0
    rw [e1, e2, map_zero_one h0]
    obtain ⟨v, ve, hv, hvl⟩ := hi.var
    obtain ⟨e, ee, he, hel⟩ := hi.eta
    rw [hv, he, C43_only_table junk C.junk (fp := (InterpObj.newCubic C.junk false P.x0 P.dx v ve).fp)
        (by change 4 ≤ v.length; omega),
      C43_only_table junk C.junk (fp := (InterpObj.newCubic C.junk false P.x0 P.dx e ee).fp) (by change 4 ≤ e.length; omega)]
    rfl
  · intro cc
    have hread := (fluxReadFile_of (rtol := rtol) (atol := atol) hnd m2).trans
      ((read_evenGrid hr ha hobs).1 _)
    rw [← hfile] at hread
    rw [fluxInit_ok cc called hread]
    unfold Stacker.interp
    rw [hst]

omit [IsStrictOrderedRing K] [FloorRing K] in
theorem noiseInit_missing [FloorRing K] (cc : Codec (Option (CubicInterp K × CubicInterp K)) V') (called : W) {junk : Nat → K}
    {files : Nat → Option (FitsFile K)} {f : FitsFile K} (hf : files 0 = some f) (h : "VAR_FUNC" ∉ f.map Prod.fst)
    (addVarlss noEta : Bool) (m : Nat) :
    (runJob m (noiseInit cc called junk rtol atol addVarlss noEta files)).1 =
      .done (List.replicate (m + 1) (.error .qsonic)) := by
  have h1 : noiseReadFile junk rtol atol (files 0) = .error .osError := by
    unfold noiseReadFile fitsRead
    rw [hf]
    dsimp only
    rw [lookup_none_iff.mpr h]
    rfl
  have hs : Sync m (noiseInit cc called junk rtol atol addVarlss noEta files) _ _ :=
    (sync_fncBcast_error m cc called (fun r => noiseReadFile junk rtol atol (files r)) h1 rfl).bind_error
      (fun _ r => .ret (NoiseCal.mk' r addVarlss noEta))
  rw [hs.job]
  simp [List.map_const']

/-- **C99.** Not so for the noise if the first run used `--fiducial-varlss`: the variance that it fit at the end is in the
extension VAR_FUNC-fit, and with such a file as `--noise-calibration` every rank raises `QsonicException`. The flux
calibration is read as before: it is the stack of the last iteration, not the one of the final fit. -/
theorem C99_fiducial (C : FullCfg K) (P : VarPart K Q) (stats : Q → FitsTable K) (q : Q) (fid : LinInterp K)
    (hobs : 2 ≤ C.obs.n) (hr : 0 ≤ rtol) (ha : 0 ≤ atol) (c : FitterCodecs (StackSums K) Q V) {fname : String}
    (hname : fname ≠ "") {niter : Nat} (hpos : 0 < niter) (n : Nat) (specs : Nat → List (Spectrum K)) :
    let job := runJob n (fun r => (FitObjs.attrFns C P stats).iterate c fname niter false r (FitObjs.new C P (some fid) q)
      (specs r))
    ∀ x ∈ resultsOf job.1, ∀ log, job.2[0]? = some log →
      (∃ t, ("VAR_FUNC-fit", t) ∈ writtenExts log ∧ ("var_lss", (x.1.obj x.1.fitter.var).fp) ∈ t ∧
        ("eta", (x.1.obj x.1.fitter.eta).fp) ∈ t) ∧
      ∀ files : Nat → Option (FitsFile K), files 0 = some (writtenExts log) → ∀ (m : Nat) (called : W),
        (∀ (cc : Codec (Option (CubicInterp K × CubicInterp K)) V') (junk : Nat → K) (addVarlss noEta : Bool),
          (runJob m (noiseInit cc called junk rtol atol addVarlss noEta files)).1 =
            .done (List.replicate (m + 1) (.error .qsonic))) ∧
        (∀ cc : Codec (Option (LinInterp K)) V', ∃ f, f.xp0 = C.obs.x0 ∧ f.dxp = C.obs.dx ∧
          (runJob m (fluxInit cc called rtol atol files)).1 = .done (List.replicate (m + 1) (.ok f))) := by
  intro job x hx log hlog
  obtain ⟨g, sp, conv, k, hI, hg0, hk, hxk, hext⟩ := iterate_ended c hname hpos hx hlog
  have hnd : ((writtenExts log).map Prod.fst).Nodup := by
    rw [hext]; exact nodup_names false g k x.1
  obtain ⟨-, hmem, hfit, -⟩ := mem_allExts (F := FitObjs.attrFns C P stats) false g k x.1
  obtain ⟨-, m2, -, -⟩ := mem_saveExts (F := FitObjs.attrFns C P stats) false "" (g k)
  obtain ⟨-, -, -, f4⟩ := mem_saveExts (F := FitObjs.attrFns C P stats) true "-fit" x.1
  rw [String.append_empty] at m2
  have m2 := hmem _ m2
  have f4 := hfit rfl _ (f4 rfl)
  rw [← hext] at m2 f4
  rw [show "VAR_FUNC" ++ "-fit" = "VAR_FUNC-fit" by decide] at f4
  refine ⟨⟨_, f4, .tail _ (.head _), .tail _ (.tail _ (.tail _ (.head _)))⟩, fun files hfile m called => ⟨?_, ?_⟩⟩
  · intro cc junk addVarlss noEta
    refine noiseInit_missing cc called hfile ?_ addVarlss noEta m
    rw [hext]
    exact not_varFunc g k x.1
  · intro cc
    have hread := (fluxReadFile_of (rtol := rtol) (atol := atol) hnd m2).trans ((read_evenGrid hr ha hobs).1 _)
    rw [← hfile] at hread
    exact ⟨_, rfl, rfl, fluxInit_ok cc called hread m⟩

omit [IsStrictOrderedRing K] in
/-- **C99.** The attributes file is not a file for `--fiducial-varlss` or `--fiducial-meanflux`, which want the extension
STATS: every rank raises `QsonicException`, whether or not the first run fit the variance. -/
theorem C99_not_fiducial (C : FullCfg K) (P : VarPart K Q) (stats : Q → FitsTable K) (q : Q) (fid : Option (LinInterp K))
    (c : FitterCodecs (StackSums K) Q V) {fname : String} (hname : fname ≠ "") {niter : Nat} (hpos : 0 < niter) (n : Nat)
    (specs : Nat → List (Spectrum K)) :
    let job := runJob n (fun r => (FitObjs.attrFns C P stats).iterate c fname niter fid.isNone r (FitObjs.new C P fid q)
      (specs r))
    ∀ x ∈ resultsOf job.1, ∀ log, job.2[0]? = some log → ∀ table : Nat → Option (Dict (List K)),
      table 0 = (writtenExts log).lookup "STATS" → ∀ (m : Nat) (called : W) (cc : Codec (Option (LinInterp K)) V') (w1 w2 : K),
      (runJob m (fiducialVarlss cc called rtol atol table)).1 = .done (List.replicate (m + 1) (.error .qsonic)) ∧
      (runJob m (meanfluxInterp cc called rtol atol w1 w2 true table)).1 =
        .done (List.replicate (m + 1) (.error .qsonic)) := by
  intro job x hx log hlog table ht m called cc w1 w2
  obtain ⟨g, sp, conv, k, hI, hg0, hk, hxk, hext⟩ := iterate_ended c hname hpos hx hlog
  rw [lookup_none_iff.mpr (by rw [hext]; exact not_stats _ g k x.1)] at ht
  have key : ∀ col, (runJob m (fiducialInterp cc called rtol atol table col)).1 =
      .done (List.replicate (m + 1) (.error .qsonic)) := by
    intro col
    have h1 : fiducialRead rtol atol (table 0) col = .error .osError := by rw [ht]; rfl
    have hs : Sync m (fiducialInterp cc called rtol atol table col) _ _ :=
      sync_fncBcast_error m cc called (fun r => fiducialRead rtol atol (table r) col) h1 rfl
    rw [hs.job]
    simp [List.map_const']
  exact ⟨key _, key _⟩

/-- The spline has the values of the table at the nodes. -/
theorem notaknot_node (junk : Nat → K) {x0 dx : K} (hd : 0 < dx) {fp : List K} (hn : 4 ≤ fp.length) {i : Nat} {y : K}
    (h : fp[i]? = some y) : asFun (CubicInterp.notaknot junk x0 dx fp).eval (x0 + (i : K) * dx) = y := by
  obtain ⟨hl, -⟩ := C43_system junk (xp0 := x0) (dxp := dx) hn
  have hi : i < fp.length := (List.getElem?_eq_some_iff.mp h).1
  have e : (x0 + (i : K) * dx - x0) / dx = i := by rw [add_sub_cancel_left, mul_div_cancel_right₀ _ hd.ne']
  have piece : ∀ k : Nat, k + 1 < fp.length → interpIdx fp.length ((x0 + (i : K) * dx - x0) / dx) = (k : Int) →
      ∃ y1 y2 z1 z2, fp[k]? = some y1 ∧ fp[k + 1]? = some y2 ∧
        asFun (CubicInterp.notaknot junk x0 dx fp).eval (x0 + (i : K) * dx) = cubicPiece dx y1 y2 z1 z2 ((i : K) - k) := by
    intro k hk hidx
    have := evalCubic_of_idx (y2p := (CubicInterp.notaknot junk x0 dx fp).y2p) hidx
      (List.getElem?_eq_getElem (by omega : k < fp.length)) (List.getElem?_eq_getElem hk)
      (List.getElem?_eq_getElem (by omega)) (List.getElem?_eq_getElem (by omega))
    rw [e] at this
    exact ⟨_, _, _, _, List.getElem?_eq_getElem (by omega : k < fp.length), List.getElem?_eq_getElem hk,
      congrArg (fun o : Option K => o.getD 0) this⟩
  by_cases hk : i + 1 < fp.length
  · obtain ⟨y1, y2, z1, z2, h1, -, h3⟩ := piece i hk (interpIdx_segment hk (by rw [e]) (by rw [e]; linarith))
    rw [h3, Option.some.inj (h.symm.trans h1)]
    unfold cubicPiece
    ring
  · obtain ⟨j, rfl⟩ : ∃ j, i = j + 1 := ⟨i - 1, by omega⟩
    obtain ⟨y1, y2, z1, z2, -, h2, h3⟩ := piece j hi (interpIdx_right (by omega) (by rw [e]; push_cast; linarith))
    rw [h3, Option.some.inj (h.symm.trans h2)]
    unfold cubicPiece
    push_cast
    ring

/-- **C99** for `qsonic-calib`: its file is read by both calibrators. At the centers of its wavelength bins the noise
calibrator has the fitted values of the variance (and of eta, where it is not zero); at the wavelengths of the stack the
flux calibrator has the stacked flux, or one where there is none. -/
theorem C99_calib (stats : FitsTable K) {x0 dx w1 w2 : K} (hdx : 0 < dx) (hw : w1 < w2) {nw ns : Nat} (hn : 4 ≤ nw)
    (hs : 2 ≤ ns) {v ve e ee flux : List K} (hv : v.length = nw) (he : e.length = nw) (hfl : flux.length = ns)
    (hr : 0 ≤ rtol) (ha : 0 ≤ atol) (files : Nat → Option (FitsFile K))
    (hfile : files 0 = some (calibTables stats x0 dx nw v ve e ee (linspace w1 w2 ns, flux))) (m : Nat) (called : W) :
    (∀ (cc : Codec (Option (CubicInterp K × CubicInterp K)) V') (junk : Nat → K), ∃ cal : NoiseCal K,
      (runJob m (noiseInit cc called junk rtol atol true false files)).1 = .done (List.replicate (m + 1) (.ok cal)) ∧
      ∃ vl, cal.varlss = some vl ∧ ∀ (i : Nat) (a b : K), v[i]? = some a → e[i]? = some b →
        vl (x0 + (i : K) * dx) = a ∧ cal.eta (x0 + (i : K) * dx) = if b = 0 then 1 else b) ∧
    (∀ cc : Codec (Option (LinInterp K)) V', ∃ f : LinInterp K,
      (runJob m (fluxInit cc called rtol atol files)).1 = .done (List.replicate (m + 1) (.ok f)) ∧
      ∀ (i : Nat) (w y : K), (linspace w1 w2 ns)[i]? = some w → flux[i]? = some y →
        f.eval w = some (if y = 0 then 1 else y)) := by
  have hnd : ((calibTables stats x0 dx nw v ve e ee (linspace w1 w2 ns, flux)).map Prod.fst).Nodup := by
    change (["VAR_STATS", "VAR_FUNC", "STACKED_FLUX"]).Nodup
    decide
  constructor
  · intro cc junk
    have hread := (noiseReadFile_of (rtol := rtol) (atol := atol) (junk := junk) hnd (.tail _ (.head _))).trans
      ((read_evenGrid hr ha (by omega : 2 ≤ nw)).2 junk _ _)
    rw [← hfile] at hread
    refine ⟨_, noiseInit_ok cc called hread true false m, _, rfl, ?_⟩
    intro i a b hia hib
    refine ⟨notaknot_node junk hdx (by omega) hia, ?_⟩
    exact notaknot_node junk hdx (by rw [List.length_map]; omega) (by rw [List.getElem?_map, hib]; rfl)
  · intro cc
    have hlin : linspace w1 w2 ns = evenGrid w1 ((w2 - w1) / ((ns - 1 : Nat) : K)) ns := rfl
    have hread := (fluxReadFile_of (rtol := rtol) (atol := atol) hnd (.tail _ (.tail _ (.head _)))).trans
      ((read_evenGrid hr ha hs).1 _)
    rw [← hfile] at hread
    refine ⟨_, fluxInit_ok cc called hread m, ?_⟩
    intro i w y hw' hy
    have hi : i < ns := by
      have := (List.getElem?_eq_some_iff.mp hy).1
      omega
    rw [hlin, evenGrid_get hi] at hw'
    cases hw'
    have hpos : (0 : K) < ((ns - 1 : Nat) : K) := by exact_mod_cast (by omega : 0 < ns - 1)
    exact C41_nodes (f := ⟨w1, (w2 - w1) / ((ns - 1 : Nat) : K), flux.map (fun x => if x = 0 then 1 else x)⟩)
      (div_pos (by linarith) hpos) (by simp; omega) (by rw [List.getElem?_map, hy]; rfl)

end

/-! ### Concrete cases -/

/-- Two iterations of a run that writes its attributes. -/
def c99Job (fid : Option (LinInterp ℚ)) :=
  runJob 0 (fun r => (FitObjs.attrFns c86Cfg (c91Var 2) (fun _ => [])).iterate c86Codecs "attributes.fits" 2
    fid.isNone r (FitObjs.new c86Cfg (c91Var 2) fid ()) [c86Spec2, c52Spec])

/-- The file. -/
def c99File (fid : Option (LinInterp ℚ)) : FitsFile ℚ := ((c99Job fid).2.map writtenExts).getD 0 []

/-- The hypotheses hold for it, and the run ends. -/
example : 4 ≤ (c91Var 2).n ∧ 2 ≤ c86Cfg.obs.n ∧ (resultsOf (c99Job none).1).length = 1 ∧
    (∀ x ∈ resultsOf (c99Job none).1, (0 : ℚ) ∉ (x.1.obj x.1.fitter.eta).fp) ∧
    (c99File none).map Prod.fst = ["CONT-1", "STACKED_FLUX-1", "STACKED_FLUX_RF-1", "VAR_FUNC-1", "CONT-2",
      "STACKED_FLUX-2", "STACKED_FLUX_RF-2", "VAR_FUNC-2", "CONT", "STACKED_FLUX", "STACKED_FLUX_RF", "VAR_FUNC",
      "VAR_STATS"] ∧
    ((noiseReadFile (fun _ => 5) 0 0 (some (c99File none))).toOption.map (fun r => (r.1.eval 3310, r.2.eval 3310))) =
      some (some 3, some 2) ∧
    ((fluxReadFile 0 0 (some (c99File none))).toOption.map (fun f => (f.fp.length, decide (f.fp = [1, 1, 1])))) =
      some (c86Cfg.obs.n, false) := by
  decide +kernel

/-- With a fiducial variance there is no calibration of the noise in the file. -/
example : (resultsOf (c99Job (some ⟨3300, 10, [1, 1, 1, 1]⟩)).1).length = 1 ∧
    (noiseReadFile (fun _ => 5) 0 0 (some (c99File (some ⟨3300, 10, [1, 1, 1, 1]⟩)))).toOption.isNone = true ∧
    ((c99File (some ⟨3300, 10, [1, 1, 1, 1]⟩)).lookup "VAR_FUNC-fit").bind (List.lookup "var_lss") = some [2, 2, 2, 2] := by
  decide +kernel

/-- A file of `qsonic-calib` with an empty bin in each table. -/
example : let f := calibTables ([] : FitsTable ℚ) 10 2 4 [1, 2, 3, 4] [] [1, 0, 1, 1] [] (linspace 10 14 3, [2, 0, 1])
    ((fluxReadFile 0 0 (some f)).toOption.map (fun f => [10, 12, 14].map f.eval)) = some [some 2, some 1, some 1] ∧
    ((noiseReadFile (fun _ => 5) 0 0 (some f)).toOption.map (fun r => (r.1.eval 12, r.2.eval 14))) =
      some (some 1, some 3) := by
  decide +kernel

end Verif.Props

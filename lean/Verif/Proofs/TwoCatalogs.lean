import Verif.Proofs.Restart

/-!
# Helper lemmas for C117: runs on two catalogs with the same usable spectra
-/

namespace Verif.Proofs
open Verif Verif.Np Verif.Model Verif.Model.Prog Verif.Spec Verif.Props

section
variable {Val K : Type} [LinearOrder Val] [Field K] [LinearOrder K] [IsStrictOrderedRing K] [FloorRing K]

/-- What follows the fit of a rank in `WholeCfg.run`. -/
def wholeEnd {V W : Type} (C : WholeCfg Val K) (night : Option Val) (r : Nat) (l : List (ReadSpec K))
    (s : List (Spectrum K)) (k : Nat) (b : Bool) : Prog V W (WholeOut Val K) :=
  (Prog.ofExcept (C.save r (C.finish (SelectCfg.setSpecs l s)))).bind fun fl =>
    .ret ⟨night, k, b, C.finish (SelectCfg.setSpecs l s), fl⟩

/-- The fit of a rank and what follows it. -/
def wholeFit {Q D V : Type} (C : WholeCfg Val K) (P : FitterFns (FullState K) (Spectrum K) (StackSums K) Q D)
    (fc : FitterCodecs (StackSums K) Q V) (fname : String) (g0 : FullState K) (night : Option Val) (r : Nat)
    (l : List (ReadSpec K)) : Prog V (SaverEv (String × D)) (WholeOut Val K) :=
  ((C.fit.fns P).iterate fc fname C.niter false r g0 (l.map (fun x : ReadSpec K => x.spec))).bind
    fun x => wholeEnd C night r l x.2.1 x.2.2.1 x.2.2.2

/-- A run from what its iterations give. -/
theorem run_of_fit {Q D V : Type} (C : WholeCfg Val K) {c : Catalog Val} {f : Val → List (ReadSpec K)}
    {dw dr : K} (hC : PlainRun C dw dr) (hr : ReadsPixels C c f) (hA : ∀ k, IsArgsort k (C.argsort k))
    (hbal : C.sel.bal = true → balCheckCatalog C.cols = .ok ())
    (P : FitterFns (FullState K) (Spectrum K) (StackSums K) Q D) (cs : Codec Bool V)
    (cq : Codec (List (List (Row Val))) V) (cn : Codec Val V) (fc : FitterCodecs (StackSums K) Q V)
    {ang2pix : Nat → Val → Val → Val} {file : Except Err (Catalog Val)} {isMock : Bool}
    {ks : Option (List Val)} {zmin zmax : Val}
    (h : readQuasarCatalog ang2pix file isMock C.tile ks zmin zmax = .ok c) (n : Nat)
    (hidle : IdleOk C ∨ n + 1 ≤ (catPixels C.tile c).length) (fname : String) (g0 : FullState K) :
    ∃ (sp : Nat → List (ReadSpec K)) (night : Option Val),
      ((List.range (n + 1)).flatMap sp).Perm
        ((((catPixels C.tile c).flatMap f).filter (fun x => decide (PassesCuts C.sel x))).map
          (fun x => prepOne C [x.row.targetid] x)) ∧
      (∀ s ∈ pooled n (fun r => (sp r).map (fun x : ReadSpec K => x.spec)),
        PixelsInForest C.sel.wave1 C.sel.wave2 C.sel.forestW1 C.sel.forestW2 s) ∧
      (∀ (gf : FullState K) (u : Spectrum K → Spectrum K) (k : Nat) (b : Bool) (M : Nat → List (SaverEv (String × D))),
        Sync n (fun r => (C.fit.fns P).iterate fc fname C.niter false r g0 ((sp r).map (fun x : ReadSpec K => x.spec)))
          (fun r => .ok (gf, ((sp r).map (fun x : ReadSpec K => x.spec)).map u, k, b)) M →
        ∃ files : Nat → List (DeltaName Val × List (SavedSpec Val (ReadSpec K))),
          Sync n (fun r => C.run P cs cq cn fc (.ok c) fname g0 (n + 1) r)
            (fun r => .ok ⟨night, k, b, ((sp r).map (endOne C u)).filter (fun x => x.spec.valid), files r⟩) M) ∧
      (∀ (M : Nat → List (SaverEv (String × D))),
        Sync n (fun r => (C.fit.fns P).iterate fc fname C.niter false r g0 ((sp r).map (fun x : ReadSpec K => x.spec)))
          (fun _ => .error .qsonic) M →
        Sync n (fun r => C.run P cs cq cn fc (.ok c) fname g0 (n + 1) r) (fun _ => .error .qsonic) M) := by
  obtain ⟨Q1, night, hP1, -, -, -, ns⟩ := sync_before (W := SaverEv (String × D)) (A := WholeOut Val K) C hC hr
    cs cq cn h n hidle
  have ns1 := ns (fun hb => hb.2 (hbal hb.1))
  clear ns
  have hmem : ∀ x ∈ ((catPixels C.tile c).flatMap f).filter (fun x => decide (PassesCuts C.sel x)),
      ReadOk x ∧ (C.sel.coaddBefore = true → CoaddReady C.sel x.spec) ∧ PassesCuts C.sel x ∧
      prepOne C (c.rows.map C.tid) x = prepOne C [x.row.targetid] x := by
    intro x hx
    obtain ⟨p, hpp, hxp⟩ := List.mem_flatMap.mp (List.mem_filter.mp hx).1
    obtain ⟨a1, a2, a3⟩ := hr.data p hpp x hxp
    obtain ⟨q, hq1, hq2, -⟩ := hr.row p hpp x hxp
    refine ⟨⟨a1, a2, a3⟩, fun hb => hr.coadd hb p hpp x hxp, of_decide_eq_true (List.mem_filter.mp hx).2, ?_⟩
    refine prepOne_ids C hC ⟨a1, a2, a3⟩ (fun hb => hr.coadd hb p hpp x hxp)
      (of_decide_eq_true (List.mem_filter.mp hx).2) ?_ (List.mem_singleton.mpr rfl)
    rw [← hq2]
    exact List.mem_map.mpr ⟨q, (List.mem_filter.mp hq1).1, rfl⟩
  have hperm : ((List.range (n + 1)).flatMap (fun r => prepQueue C c f (Q1 r))).Perm
      ((((catPixels C.tile c).flatMap f).filter (fun x => decide (PassesCuts C.sel x))).map
        (fun x => prepOne C [x.row.targetid] x)) :=
    hP1.perm.trans (List.Perm.of_eq (List.map_congr_left fun x hx => (hmem x hx).2.2.2))
  refine ⟨fun r => prepQueue C c f (Q1 r), night, hperm, ?_, ?_, ?_⟩
  · intro s hs
    unfold pooled at hs
    rw [← List.map_flatMap] at hs
    obtain ⟨y, hy, rfl⟩ := List.mem_map.mp hs
    obtain ⟨x, hx, rfl⟩ := List.mem_map.mp (hperm.mem_iff.mp hy)
    obtain ⟨a1, a2, a3, -⟩ := hmem x hx
    exact prepOne_inForest C hC _ a1 a2 a3
  · intro gf u k b M hs
    have hD : ∀ l : List (ReadSpec K), C.finish (SelectCfg.setSpecs l ((l.map (fun x : ReadSpec K => x.spec)).map u)) =
        (l.map (endOne C u)).filter (fun x => x.spec.valid) := finish_eq C u
    have hsv : ∀ (r : Nat) (l : List (ReadSpec K)), ∃ files, C.save r l = .ok files ∧ _ := fun r l => save_ok C hA r l
    choose files hfiles hfp using hsv
    have hs2 : Sync n (fun r => wholeFit C P fc fname g0 night r (prepQueue C c f (Q1 r)))
        (fun r => .ok ⟨night, k, b, ((prepQueue C c f (Q1 r)).map (endOne C u)).filter (fun x => x.spec.valid),
          files r (((prepQueue C c f (Q1 r)).map (endOne C u)).filter (fun x => x.spec.valid))⟩) (fun r => M r ++ []) := by
      refine Sync.bind (a := fun r => (gf, ((prepQueue C c f (Q1 r)).map (fun x : ReadSpec K => x.spec)).map u, k, b))
        (f := fun r w => wholeEnd C night r (prepQueue C c f (Q1 r)) w.2.1 w.2.2.1 w.2.2.2) hs ?_
      refine (sync_ret n (fun r => (⟨night, k, b, ((prepQueue C c f (Q1 r)).map (endOne C u)).filter (fun x => x.spec.valid),
          files r (((prepQueue C c f (Q1 r)).map (endOne C u)).filter (fun x => x.spec.valid))⟩ : WholeOut Val K))).congr
        (fun r _ => ?_) (fun _ _ => rfl) (fun _ _ => rfl)
      unfold wholeEnd
      dsimp only
      rw [hD, hfiles]
      rfl
    exact ⟨_, (ns1 (fun night r _ l => wholeFit C P fc fname g0 night r l) _ _ hs2).congr (fun _ _ => rfl) (fun _ _ => rfl)
      (fun _ _ => by simp)⟩
  · intro M hs
    exact ns1 (fun night r _ l => wholeFit C P fc fname g0 night r l) _ _ (hs.bind_error
      (fun r w => wholeEnd C night r (prepQueue C c f (Q1 r)) w.2.1 w.2.2.1 w.2.2.2))

/-- Two runs with the same cuts, treatment and fit, on catalogs with the same usable spectra. -/
theorem two_catalogs {Q D V : Type} (C C' : WholeCfg Val K) {c c' : Catalog Val} {f f' : Val → List (ReadSpec K)}
    {dw dr : K} (hC : PlainRun C dw dr) (hr : ReadsPixels C c f) (hr' : ReadsPixels C' c' f')
    (hA : ∀ k, IsArgsort k (C.argsort k)) (hA' : ∀ k, IsArgsort k (C'.argsort k))
    (hsel : C'.sel = C.sel) (hfit : C'.fit = C.fit) (hsm : C'.smoothing = C.smoothing) (hnit : C'.niter = C.niter)
    (hbal : C.sel.bal = true → balCheckCatalog C.cols = .ok () ∧ balCheckCatalog C'.cols = .ok ())
    (hperm : (((catPixels C.tile c).flatMap f).filter (fun x => decide (PassesCuts C.sel x))).Perm
      (((catPixels C'.tile c').flatMap f').filter (fun x => decide (PassesCuts C.sel x))))
    (P : FitterFns (FullState K) (Spectrum K) (StackSums K) Q D) (cs : Codec Bool V)
    (cq : Codec (List (List (Row Val))) V) (cn : Codec Val V) (fc : FitterCodecs (StackSums K) Q V)
    {ang2pix ang2pix' : Nat → Val → Val → Val} {file file' : Except Err (Catalog Val)} {isMock isMock' : Bool}
    {ks ks' : Option (List Val)} {zmin zmax zmin' zmax' : Val}
    (h : readQuasarCatalog ang2pix file isMock C.tile ks zmin zmax = .ok c)
    (h' : readQuasarCatalog ang2pix' file' isMock' C'.tile ks' zmin' zmax' = .ok c') (n n' : Nat)
    (hidle : IdleOk C ∨ n + 1 ≤ (catPixels C.tile c).length)
    (hidle' : IdleOk C' ∨ n' + 1 ≤ (catPixels C'.tile c').length) (fname : String) (g0 : FullState K) :
    (∃ (night night' : Option Val) (k : Nat) (b : Bool) (g : ReadSpec K → ReadSpec K) (D1 D2 : Nat → List (ReadSpec K))
      (F1 F2 : Nat → List (DeltaName Val × List (SavedSpec Val (ReadSpec K)))) (exts tail tail' : List (String × D)),
      Sync n (fun r => C.run P cs cq cn fc (.ok c) fname g0 (n + 1) r)
        (fun r => .ok ⟨night, k, b, D1 r, F1 r⟩)
        (fun r => if r = 0 ∧ fname ≠ "" then
          [.create fname] ++ (exts ++ tail).map (.write fname) ++ [.close fname] else []) ∧
      Sync n' (fun r => C'.run P cs cq cn fc (.ok c') fname g0 (n' + 1) r)
        (fun r => .ok ⟨night', k, b, D2 r, F2 r⟩)
        (fun r => if r = 0 ∧ fname ≠ "" then
          [.create fname] ++ (exts ++ tail').map (.write fname) ++ [.close fname] else []) ∧
      (∀ x, (g x).row = x.row) ∧
      ((List.range (n + 1)).flatMap D1).Perm
        (((((catPixels C.tile c).flatMap f).filter (fun x => decide (PassesCuts C.sel x))).map g).filter
          (fun x => x.spec.valid)) ∧
      ((List.range (n' + 1)).flatMap D2).Perm
        (((((catPixels C.tile c).flatMap f).filter (fun x => decide (PassesCuts C.sel x))).map g).filter
          (fun x => x.spec.valid)) ∧
      tail.map Prod.fst = ["CONT-fit", "STACKED_FLUX-fit", "STACKED_FLUX_RF-fit", "VAR_FUNC-fit", "VAR_STATS"] ∧
      tail'.map Prod.fst = tail.map Prod.fst) ∨
    (∃ ev : List (SaverEv (String × D)),
      Sync n (fun r => C.run P cs cq cn fc (.ok c) fname g0 (n + 1) r) (fun _ => .error .qsonic)
        (fun r => if r = 0 ∧ fname ≠ "" then ev else []) ∧
      Sync n' (fun r => C'.run P cs cq cn fc (.ok c') fname g0 (n' + 1) r) (fun _ => .error .qsonic)
        (fun r => if r = 0 ∧ fname ≠ "" then ev else [])) := by
  obtain ⟨sel', fit', mock', tile', cols', tid', pix', reader', smoothing', argsort', outdir', byHpx', niter'⟩ := C'
  dsimp only at hsel hfit hsm hnit hbal hperm hA' h'
  subst hsel hfit hsm hnit
  set C' : WholeCfg Val K := ⟨C.sel, C.fit, mock', tile', cols', tid', pix', reader', C.smoothing, argsort', outdir',
    byHpx', C.niter⟩ with hC'
  have hCC : PlainRun C' dw dr := ⟨hC.1, hC.2, hC.3, hC.4, hC.5, hC.6, hC.7⟩
  obtain ⟨sp, night, p1, q1, r1, e1⟩ := run_of_fit C hC hr hA (fun hb => (hbal hb).1) P cs cq cn fc h n hidle fname g0
  obtain ⟨sp', night', p2, -, r2, e2⟩ := run_of_fit C' hCC hr' hA' (fun hb => (hbal hb).2) P cs cq cn fc h' n' hidle'
    fname g0
  have hpp : ((List.range (n + 1)).flatMap sp).Perm ((List.range (n' + 1)).flatMap sp') :=
    p1.trans ((hperm.map _).trans p2.symm)
  have hpool : (pooled n (fun r => (sp r).map (fun x : ReadSpec K => x.spec))).Perm
      (pooled n' (fun r => (sp' r).map (fun x : ReadSpec K => x.spec))) := by
    unfold pooled
    rw [← List.map_flatMap, ← List.map_flatMap]
    exact hpp.map _
  have hfit := sync_pool (F := C.fit.fns P) (F' := C.fit.fns P)
    (P := PixelsInForest C.sel.wave1 C.sel.wave2 C.sel.forestW1 C.sel.forestW2)
    ⟨rfl, rfl, rfl, fun g s hs => by
      obtain ⟨e1, e2⟩ := fitOne_same C.fit g s
      change PixelsInForest C.sel.wave1 C.sel.wave2 C.sel.forestW1 C.sel.forestW2 (C.fit.fitOne g s)
      unfold PixelsInForest
      rw [e1, e2]
      exact hs, fun g m m' q q' hq hq' => addSums_pool C.fit hC.obs hC.obsPos hC.rf hC.rfPos m m' q q' hq hq'⟩
    rfl rfl ⟨rfl, rfl, rfl⟩ fc fc n n' g0 _ _ hpool q1 fname C.niter
  rcases hfit with ⟨k, b, u, gfin, gfin', exts, tail, tail', s1, s2, t1, t2⟩ | ⟨ev, s1, s2⟩
  · left
    obtain ⟨F1, w1⟩ := r1 gfin u k b _ s1
    obtain ⟨F2, w2⟩ := r2 gfin' u k b _ s2
    have hall : ((List.range (n + 1)).flatMap (fun r => ((sp r).map (endOne C u)).filter (fun x => x.spec.valid))).Perm
        (((((catPixels C.tile c).flatMap f).filter (fun x => decide (PassesCuts C.sel x))).map
          (fun x => endOne C u (prepOne C [x.row.targetid] x))).filter (fun x => x.spec.valid)) := by
      rw [← List.filter_flatMap, ← List.map_flatMap]
      refine ((p1.map _).filter _).trans (List.Perm.of_eq ?_)
      rw [List.map_map]
      rfl
    refine ⟨night, night', k, b, fun x => endOne C u (prepOne C [x.row.targetid] x), _, _, F1, F2, exts, tail, tail', w1,
      w2, fun x => prepOne_row C _ x, hall, List.Perm.trans ?_ hall, t1, t2⟩
    change ((List.range (n' + 1)).flatMap (fun r => ((sp' r).map (endOne C u)).filter (fun x => x.spec.valid))).Perm _
    rw [← List.filter_flatMap, ← List.map_flatMap, ← List.filter_flatMap, ← List.map_flatMap]
    exact ((hpp.symm.map _).filter _)
  · exact .inr ⟨ev, e1 _ s1, e2 _ s2⟩

end
end Verif.Proofs

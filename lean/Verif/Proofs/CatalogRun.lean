import Mathlib.Data.List.Perm.Basic
import Verif.Proofs.ExposureRun
import Verif.Props.FitParams
import Verif.Spec.CatalogRun

/-!
# Helper lemmas: a run with its chi square catalog
-/

namespace Verif.Proofs
open Verif Verif.Np Verif.Model Verif.Model.Prog Verif.Spec Verif.Props FitRec Spectrum

section
variable {Val K : Type} [LinearOrder Val] [Field K] [LinearOrder K] [IsStrictOrderedRing K] [FloorRing K]

/-! ### The fit on spectra with parameters -/

/-- A spectrum with parameters of the right shapes. -/
structure GoodRec (order : Nat) (y : FitRec K) : Prop where
  keeps : KeepsRec order y y
  nodup : y.spec.fwave.keys.Nodup

omit [IsStrictOrderedRing K] in
theorem fitRec_keeps {F : FullCfg K} {cov : (List K → K) → List K → List (List K)} (hC : Shapes F cov)
    (hn : 0 < F.rf.n) (g : FullState K) {y x : FitRec K} (hy : GoodRec F.order y) (h : KeepsRec F.order y x) :
    KeepsRec F.order y (F.fitRec cov g x) := by
  obtain ⟨h1, h2, h3, -, -, h6, h7, h8, h9, h10⟩ := C102_fit hC hn g x h.x h.xcov (by rw [h.fwave]; exact hy.nodup)
  obtain ⟨a1, a2⟩ := fitOne_same F g x.spec
  exact ⟨by rw [h1, a1, h.fwave], by rw [h1, a2, h.z], by rw [h1, fitOne_meanSnr, h.meanSnr], h2, h3,
    h6.trans h.method, h7.trans h.dof, h8.trans h.targetid, h9.trans h.hpxpixel, h10.trans h.rsnr⟩

omit [IsStrictOrderedRing K] in
theorem rec_normalize_keeps {Q D : Type} {F : FullCfg K} (cov : (List K → K) → List K → List (List K))
    (P : FitterFns (FullState K) (Spectrum K) (StackSums K) Q D) (g : FullState K) {y x : FitRec K}
    (hy : y.spec.fwave.keys.Nodup) (h : KeepsRec F.order y x) :
    KeepsRec F.order y ((F.recFns cov P).normalize g x) := by
  change KeepsRec F.order y { x with spec := if F.normalize then normSpec g.stack x.spec else x.spec }
  by_cases hn : F.normalize = true
  · rw [if_pos hn]
    obtain ⟨n1, -, -, -, n5, -⟩ := normSpec_foldl g.stack x.spec.fwave (by rw [h.fwave]; exact hy) x.spec
    exact ⟨n1.trans h.fwave, n5.trans h.z, (norm_keeps _ _).trans h.meanSnr, h.x, h.xcov, h.method, h.dof, h.targetid,
      h.hpxpixel, h.rsnr⟩
  · rw [if_neg hn]
    exact h

omit [IsStrictOrderedRing K] in
theorem rec_eta_keeps {Q D : Type} {F : FullCfg K} (cov : (List K → K) → List K → List (List K))
    (P : FitterFns (FullState K) (Spectrum K) (StackSums K) Q D) (g : FullState K) {y x : FitRec K}
    (h : KeepsRec F.order y x) : KeepsRec F.order y ((F.recFns cov P).etaCalib g x) := by
  change KeepsRec F.order y { x with spec := if F.etaCalib then etaCalibIvar g.eta x.spec else x.spec }
  by_cases hn : F.etaCalib = true
  · rw [if_pos hn]
    obtain ⟨e1, e2, e3, -⟩ := eta_keeps g.eta x.spec
    exact ⟨e1.trans h.fwave, e2.trans h.z, e3.trans h.meanSnr, h.x, h.xcov, h.method, h.dof, h.targetid,
      h.hpxpixel, h.rsnr⟩
  · rw [if_neg hn]
    exact h

/-- The fit of spectra with parameters, on two distributions of the spectra. -/
theorem rec_pool {Q D V : Type} {F : FullCfg K} {cov : (List K → K) → List K → List (List K)} (hC : Shapes F cov)
    (hn : 0 < F.rf.n) {w1 w2 dw r1 r2 dr : K} (ho : linGrid w1 w2 dw = .ok F.obs) (hw : w1 < w2)
    (hr : linGrid r1 r2 dr = .ok F.rf) (hrw : r1 < r2)
    (P : FitterFns (FullState K) (Spectrum K) (StackSums K) Q D) (c : FitterCodecs (StackSums K) Q V) (n n' : Nat)
    (g0 : FullState K) (sp sp' : Nat → List (FitRec K)) (hp : (pooled n sp).Perm (pooled n' sp'))
    (hP : ∀ y ∈ pooled n sp, PixelsInForest w1 w2 r1 r2 y.spec ∧ GoodRec F.order y) (fname : String) (niter : Nat) :
    (∃ (k : Nat) (b : Bool) (f : FitRec K → FitRec K) (gfin gfin' : FullState K) (exts tail tail' : List (String × D)),
      Sync n (fun r => (F.recFns cov P).iterate c fname niter false r g0 (sp r))
        (fun r => .ok (gfin, (sp r).map f, k, b))
        (fun r => if r = 0 ∧ fname ≠ "" then
          [.create fname] ++ (exts ++ tail).map (.write fname) ++ [.close fname] else []) ∧
      Sync n' (fun r => (F.recFns cov P).iterate c fname niter false r g0 (sp' r))
        (fun r => .ok (gfin', (sp' r).map f, k, b))
        (fun r => if r = 0 ∧ fname ≠ "" then
          [.create fname] ++ (exts ++ tail').map (.write fname) ++ [.close fname] else []) ∧
      tail.map Prod.fst = ["CONT-fit", "STACKED_FLUX-fit", "STACKED_FLUX_RF-fit", "VAR_FUNC-fit", "VAR_STATS"] ∧
      tail'.map Prod.fst = tail.map Prod.fst ∧
      (tail = (F.recFns cov P).saveExts true "-fit" gfin ++ [("VAR_STATS", (F.recFns cov P).dataStats gfin)] ∧
        tail' = (F.recFns cov P).saveExts true "-fit" gfin' ++ [("VAR_STATS", (F.recFns cov P).dataStats gfin')]) ∧
      ∀ y, GoodRec F.order y → KeepsRec F.order y (f y)) ∨
    (∃ ev : List (SaverEv (String × D)),
      Sync n (fun r => (F.recFns cov P).iterate c fname niter false r g0 (sp r)) (fun _ => .error .qsonic)
        (fun r => if r = 0 ∧ fname ≠ "" then ev else []) ∧
      Sync n' (fun r => (F.recFns cov P).iterate c fname niter false r g0 (sp' r)) (fun _ => .error .qsonic)
        (fun r => if r = 0 ∧ fname ≠ "" then ev else [])) := by
  have hv : ∀ (l : List (FitRec K)), (validOf (F.recFns cov P) l).map (·.spec) =
      (l.map (·.spec)).filter (fun s => s.valid) := by
    intro l
    unfold validOf
    rw [List.filter_map]
    rfl
  have hpm : ∀ (m : Nat) (q : Nat → List (FitRec K)), pooled m (fun r => (q r).map (·.spec)) =
      (pooled m q).map (·.spec) := by
    intro m q
    unfold pooled
    rw [List.map_flatMap]
  have hpools : Pools (F.recFns cov P) (F.recFns cov P)
      (fun y => PixelsInForest w1 w2 r1 r2 y.spec ∧ ∃ y0, GoodRec F.order y0 ∧ KeepsRec F.order y0 y) := by
    refine ⟨rfl, rfl, rfl, fun g y hy => ?_, fun g m m' q q' hq hq' => ?_⟩
    · obtain ⟨h1, y0, hy0, h2⟩ := hy
      change PixelsInForest w1 w2 r1 r2 (F.fitRec cov g y).spec ∧ _
      have hk := fitRec_keeps hC hn g hy0 h2
      refine ⟨?_, y0, hy0, hk⟩
      unfold PixelsInForest
      rw [hk.fwave, hk.z, ← h2.fwave, ← h2.z]
      exact h1
    · change F.addSums ((List.range (m + 1)).map (fun r => F.stackRank ((validOf (F.recFns cov P) (q r)).map (·.spec)))) =
        F.addSums ((List.range (m' + 1)).map (fun r => F.stackRank ((validOf (F.recFns cov P) (q' r)).map (·.spec))))
      simp only [hv]
      refine addSums_pool F ho hw hr hrw m m' (fun r => (q r).map (·.spec)) (fun r => (q' r).map (·.spec)) ?_ ?_
      · rw [hpm, hpm]
        exact hq.map _
      · rw [hpm]
        intro s hs
        obtain ⟨y, hy, rfl⟩ := List.mem_map.mp hs
        exact (hq' y hy).1
  rcases sync_pool_inv hpools rfl rfl ⟨rfl, rfl, rfl⟩ c c n n' g0 sp sp' hp
    (fun y hy => ⟨(hP y hy).1, y, (hP y hy).2, (hP y hy).2.keeps⟩) fname niter with
    ⟨k, b, f, gfin, gfin', exts, tail, tail', h1, h2, h3, h4, h4', h5⟩ | h
  · refine .inl ⟨k, b, f, gfin, gfin', exts, tail, tail', h1, h2, h3, h4, h4', ?_⟩
    exact h5 (fun y x => GoodRec F.order y → KeepsRec F.order y x) (fun y hy => hy.keeps)
      (fun g y x hx hy => fitRec_keeps hC hn g hy (hx hy)) (fun g y x hx hy => rec_normalize_keeps cov P g hy.nodup (hx hy))
      (fun g y x hx hy => rec_eta_keeps cov P g (hx hy))
  · exact .inr h

/-! ### Spectra before the fit -/

theorem prepOne_facts (C : WholeCfg Val K) {dw dr : K} (hC : PlainRun C dw dr) {ids : List Int} {x : ReadSpec K}
    (hx : ReadOk x) (hc : C.sel.coaddBefore = true → CoaddReady C.sel x.spec) (hid : x.row.targetid ∈ ids)
    (hp : PassesCuts C.sel x) :
    let t := (prepOne C ids x).spec
    t.z = x.spec.z ∧ t.meanSnr.map Prod.snd = inputSnrs C.sel x.spec ∧ t.fwave.keys.Nodup ∧
    t.realSize = ((inputGood C.sel x.spec).filter (fun p => decide (¬ IsMasked C.sel x p.1))).length ∧
    (prepOne C ids x).rsnr = x.rsnr := by
  obtain ⟨a1, -, a3, a4, a5⟩ := treat_same C.sel hx hc hid hC.sqrt hC.eta hC.stack hp.1
  have hA : Aligned (treatOne C.sel ids (prepRead C.sel x)).spec := by
    obtain ⟨-, a1, a2, -⟩ := prep_same C.sel hx hc hC.sqrt hp.1
    obtain ⟨b1, b2, -⟩ := etaOne_same C.sel hC.eta a1
    obtain ⟨c1, c2, -⟩ := fluxOne_same C.sel hC.stack b1
    exact masks_aligned C.sel.dlaFlux _ _ c1 (by rw [c2, b2, a2]; exact hx.zpos)
  have hsm : ∀ y : ReadSpec K, (C.smooth y).spec.meanSnr = y.spec.meanSnr ∧
      (C.smooth y).spec.fivar = y.spec.fivar ∧ (C.smooth y).rsnr = y.rsnr := by
    intro y
    unfold WholeCfg.smooth
    split
    · unfold Spectrum.setSmoothForestivar
      split <;> exact ⟨rfl, rfl, rfl⟩
    · exact ⟨rfl, rfl, rfl⟩
  obtain ⟨e1, e2, -⟩ := smooth_same C (treatOne C.sel ids (prepRead C.sel x))
  obtain ⟨e3, e4, e5⟩ := hsm (treatOne C.sel ids (prepRead C.sel x))
  refine ⟨e2.trans a1, ?_, ?_, ?_, ?_⟩
  · unfold prepOne
    rw [e3]
    exact a3
  · unfold prepOne
    rw [e1]
    exact hA.nodup
  · unfold prepOne Spectrum.realSize
    rw [e4]
    change (treatOne C.sel ids (prepRead C.sel x)).spec.realSize = _
    rw [a4, a5, List.length_map]
  · exact e5.trans (prepRead_row C.sel x).2

omit [IsStrictOrderedRing K] in
theorem start_keeps (order : Nat) (y : FitRec K) : KeepsRec order (piccaInit order y) (piccaInit order y) := by
  have h := init_keeps order y
  exact ⟨rfl, rfl, rfl, h.x, h.xcov, h.method, h.dof, rfl, rfl, rfl⟩

/-- A spectrum at the end, when `u` is what the fit does. -/
def endRec (C : CatalogCfg Val K) (u : FitRec K → FitRec K) (p : ReadSpec K) : ReadSpec K :=
  { p with spec := (u (C.start p)).spec.dropShortArms C.run.sel.forestW1 C.run.sel.forestW2 C.run.sel.skip }

omit [LinearOrder Val] in
theorem finish_rec (C : CatalogCfg Val K) (u : FitRec K → FitRec K) (l : List (ReadSpec K)) :
    C.run.finish (SelectCfg.setSpecs l (((l.map C.start).map u).map (·.spec))) =
      (l.map (endRec C u)).filter (fun x => x.spec.valid) := by
  have hset : SelectCfg.setSpecs l (((l.map C.start).map u).map (·.spec)) =
      l.map (fun x => { x with spec := (u (C.start x)).spec }) := by
    unfold SelectCfg.setSpecs
    induction l with
    | nil => rfl
    | cons x l ih => rw [List.map_cons, List.map_cons, List.map_cons, List.zipWith_cons_cons, ih, List.map_cons]
  rw [hset]
  unfold WholeCfg.finish
  rw [List.filter_map, List.filter_map, List.map_map]
  have e : ((fun x : ReadSpec K => x.spec.valid) ∘ endRec C u) =
      ((fun x => x.spec.valid) ∘ fun x : ReadSpec K => { x with spec := (u (C.start x)).spec }) := by
    funext x
    exact dropShort_valid _ _ _ _
  rw [e]
  rfl

/-- The row of a spectrum in the catalog. -/
def rowRec (C : CatalogCfg Val K) (u : FitRec K → FitRec K) (r : Nat) (p : ReadSpec K) : ChiRow K :=
  rowOf (C.run.fit.order + 1) r (u (C.start p)).chi

omit [IsStrictOrderedRing K] in
theorem sync_saveTable {V W : Type} (C : CatalogCfg Val K) (hout : C.run.outdir = true)
    (ck : Codec (List (ChiRow K)) V) (n : Nat) (L : Nat → List (FitRec K))
    (hL : ∀ r ≤ n, ∀ t ∈ L r, t.spec.meanSnr.length ≤ 3 ∧ t.x.length = C.run.fit.order + 1 ∧
      SquareMat (C.run.fit.order + 1) t.xcov) :
    Sync n (fun r => (C.saveTable ck r (L r) : Prog V W (Option (List (ChiRow K)))))
      (fun r => .ok (if r = 0 then some ((List.range (n + 1)).flatMap
        (fun q => (L q).map (fun t => rowOf (C.run.fit.order + 1) q t.chi))) else none)) (fun _ => []) := by
  have h1 : Sync n (fun r => (.gather (ck.enc ((L r).map (fun t => rowOf (C.run.fit.order + 1) r t.chi)))
      (fun o => .ret (chiTable ck o)) : Prog V W (Option (List (ChiRow K)))))
      (fun r => .ok (if r = 0 then some ((List.range (n + 1)).flatMap
        (fun q => (L q).map (fun t => rowOf (C.run.fit.order + 1) q t.chi))) else none)) (fun _ => []) := by
    refine sync_gather _ ?_
    refine (sync_ret n _).congr (fun r _ => ?_) (fun _ _ => rfl) (fun _ _ => rfl)
    by_cases h0 : r = 0
    · rw [if_pos h0, if_pos h0]
      unfold chiTable
      dsimp only
      rw [List.map_map, List.flatMap_def]
      have : (ck.dec ∘ fun r => ck.enc ((L r).map (fun t => rowOf (C.run.fit.order + 1) r t.chi))) =
          fun r => (L r).map (fun t => rowOf (C.run.fit.order + 1) r t.chi) := by
        funext q; exact ck.dec_enc _
      rw [this]
    · rw [if_neg h0, if_neg h0]
      rfl
  refine h1.congr (fun r hr => ?_) (fun _ _ => rfl) (fun _ _ => rfl)
  unfold CatalogCfg.saveTable
  rw [if_pos hout]
  have : (L r).mapM (fun s => chiRow (C.run.fit.order + 1) r s.chi) =
      .ok ((L r).map (fun t => rowOf (C.run.fit.order + 1) r t.chi)) := by
    refine mapM_eq_ok fun t ht => ?_
    obtain ⟨a, b, c⟩ := hL r hr t ht
    exact chiRow_ok _ _ _ a b (square_flatten c)
  rw [this]
  rfl

omit [IsStrictOrderedRing K] [FloorRing K] in
/-- The rows of one rank. -/
theorem rows_of_rank {n r : Nat} (hr : r ≤ n) {R : Nat → List (ChiRow K)} (hR : ∀ q, ∀ w ∈ R q, w.rank = q) :
    ((List.range (n + 1)).flatMap R).filter (fun w => w.valid && decide (w.rank = r)) =
      (R r).filter (fun w => w.valid) := by
  rw [List.filter_flatMap]
  rw [flatMap_single (a := r) List.nodup_range (List.mem_range.mpr (by omega))]
  · refine List.filter_congr fun w hw => ?_
    rw [hR r w hw]
    simp
  · intro q _ hq
    rw [List.filter_eq_nil_iff]
    intro w hw
    rw [hR q w hw]
    simp [hq]

/-- The row of a spectrum in terms of what was read. -/
theorem rowRec_isRow (C : CatalogCfg Val K) {dw dr : K} (hC : PlainRun C.run dw dr) {ids : List Int} {x : ReadSpec K}
    (hx : ReadOk x) (hc : C.run.sel.coaddBefore = true → CoaddReady C.run.sel x.spec) (hid : x.row.targetid ∈ ids)
    (hp : PassesCuts C.run.sel x) {u : FitRec K → FitRec K}
    (hu : ∀ y, GoodRec C.run.fit.order y → KeepsRec C.run.fit.order y (u y)) (r : Nat) :
    CatalogRow C x (rowRec C u r (prepOne C.run ids x)) := by
  obtain ⟨a1, a2, a3, a4, a5⟩ := prepOne_facts C.run hC hx hc hid hp
  have hrow := prepOne_row C.run ids x
  generalize hpq : prepOne C.run ids x = p at a1 a2 a3 a4 a5 hrow
  have hk := hu (C.start p) ⟨start_keeps _ _, a3⟩
  have e0 : (C.start p).spec = p.spec := rfl
  have e1 : (C.start p).targetid = p.row.targetid := rfl
  have e2 : (C.start p).hpxpixel = C.pixNum (C.run.pix p.row.targetid) := rfl
  have e3 : (C.start p).rsnr = p.rsnr := rfl
  unfold rowRec
  generalize C.start p = y at hk e0 e1 e2 e3 ⊢
  generalize u y = t at hk ⊢
  refine ⟨?_, ?_, ?_, ?_, ?_, ?_, hk.x, square_flatten hk.xcov⟩
  · change t.targetid = _
    rw [hk.targetid, e1, hrow]
  · change t.hpxpixel = _
    rw [hk.hpxpixel, e2, hrow]
  · change t.spec.z = _
    rw [hk.z, e0, a1]
  · change t.rsnr = _
    rw [hk.rsnr, e3, a5]
  · change t.spec.meanSnr.map Prod.snd ++ List.replicate (3 - (t.spec.meanSnr.map Prod.snd).length) 0 = _
    rw [hk.meanSnr, e0, a2]
  · change t.dof = _
    rw [hk.dof, e0, ← Verif.Props.realSize_eq, a4]

theorem forall₂_flatMap {α β : Type} {ι : Type} {R : α → β → Prop} {g : ι → List α} {h : ι → List β} (l : List ι)
    (H : ∀ i ∈ l, List.Forall₂ R (g i) (h i)) : List.Forall₂ R (l.flatMap g) (l.flatMap h) := by
  induction l with
  | nil => exact .nil
  | cons a l ih =>
    rw [List.flatMap_cons, List.flatMap_cons]
    exact List.rel_append (H a List.mem_cons_self) (ih fun i hi => H i (List.mem_cons_of_mem _ hi))

theorem forall₂_mapR {α β : Type} (R : α → β → Prop) (g : α → β) (l : List α) (H : ∀ x ∈ l, R x (g x)) :
    List.Forall₂ R l (l.map g) := by
  induction l with
  | nil => exact .nil
  | cons a l ih => exact .cons (H a List.mem_cons_self) (ih fun i hi => H i (List.mem_cons_of_mem _ hi))

theorem forall₂_comp_mem {α β γ : Type} {R : α → β → Prop} {S : β → γ → Prop} {T : α → γ → Prop}
    {l : List α} {m : List β} {k : List γ} (h1 : List.Forall₂ R l m) (h2 : List.Forall₂ S m k)
    (H : ∀ a ∈ l, ∀ b, R a b → ∀ c, S b c → T a c) : List.Forall₂ T l k := by
  induction h1 generalizing k with
  | nil => cases h2; exact .nil
  | cons hab _ ih =>
    cases h2 with
    | cons hbc h2 =>
      exact .cons (H _ List.mem_cons_self _ hab _ hbc) (ih h2 fun a ha => H a (List.mem_cons_of_mem _ ha))

/-- A permutation of an image is the image of a permutation. -/
theorem perm_of_map {α β : Type} {g : α → β} {A : List β} {S : List α} (h : A.Perm (S.map g)) :
    ∃ l, l.Perm S ∧ List.Forall₂ (fun x p => p = g x) l A := by
  have h1 : List.Forall₂ (fun x p => p = g x) S (S.map g) := forall₂_mapR _ _ _ fun _ _ => rfl
  have h2 : Relation.Comp (List.Forall₂ (fun x p => p = g x)) List.Perm S A := ⟨_, h1, h.symm⟩
  rw [List.forall₂_comp_perm_eq_perm_comp_forall₂] at h2
  obtain ⟨l, h3, h4⟩ := h2
  exact ⟨l, h3.symm, h4⟩

omit [IsStrictOrderedRing K] in
theorem dropShort_z (s : Spectrum K) (a b c : K) : (s.dropShortArms a b c).z = s.z := by
  change ((shortArms s a b c).foldl dropArm s).z = s.z
  generalize shortArms s a b c = l
  induction l generalizing s with
  | nil => rfl
  | cons k l ih => rw [List.foldl_cons, ih]; rfl

omit [IsStrictOrderedRing K] in
theorem dropShort_chi2 (s : Spectrum K) (a b c : K) : (s.dropShortArms a b c).chi2 = s.chi2 := by
  change ((shortArms s a b c).foldl dropArm s).chi2 = s.chi2
  generalize shortArms s a b c = l
  induction l generalizing s with
  | nil => rfl
  | cons k l ih => rw [List.foldl_cons, ih]; rfl

/-- The catalog of one layout. -/
theorem catalog_of (C : CatalogCfg Val K) {c : Catalog Val} {f : Val → List (ReadSpec K)} {dw dr : K}
    (hC : PlainRun C.run dw dr) (hr : ReadsPixels C.run c f) {n : Nat} {Q : Nat → List (List (Row Val))}
    (hP : Prepared C.run c f n Q) {u : FitRec K → FitRec K}
    (hu : ∀ y, GoodRec C.run.fit.order y → KeepsRec C.run.fit.order y (u y)) (out : Nat → WholeOut Val K)
    (hout : ∀ r, (out r).deltas = ((prepQueue C.run c f (Q r)).map (endRec C u)).filter (fun x => x.spec.valid)) :
    let rows := (List.range (n + 1)).flatMap (fun r => (prepQueue C.run c f (Q r)).map (rowRec C u r))
    CatalogOf C (((catPixels C.run.tile c).flatMap f).filter (fun x => decide (PassesCuts C.run.sel x)))
      ((List.range (n + 1)).map (fun r => ⟨out r, if r = 0 then some rows else none⟩)) rows := by
  intro rows
  have hsel : ∀ x ∈ ((catPixels C.run.tile c).flatMap f).filter (fun x => decide (PassesCuts C.run.sel x)),
      ReadOk x ∧ (C.run.sel.coaddBefore = true → CoaddReady C.run.sel x.spec) ∧
      x.row.targetid ∈ c.rows.map C.run.tid ∧ PassesCuts C.run.sel x := by
    intro x hx
    obtain ⟨p, hp, hxp⟩ := List.mem_flatMap.mp (List.mem_filter.mp hx).1
    obtain ⟨a1, a2, a3⟩ := hr.data p hp x hxp
    obtain ⟨w, hw, e, -⟩ := hr.row p hp x hxp
    exact ⟨⟨a1, a2, a3⟩, fun hb => hr.coadd hb p hp x hxp, List.mem_map.mpr ⟨w, (List.mem_filter.mp hw).1, e⟩,
      of_decide_eq_true (List.mem_filter.mp hx).2⟩
  refine ⟨?_, ?_, ?_, ?_⟩
  · rw [List.map_map, List.length_map, List.length_range, List.range_succ_eq_map, List.map_cons, List.map_map]
    congr 1
    rw [Nat.add_sub_cancel, List.eq_replicate_iff]
    refine ⟨by simp, fun b hb => ?_⟩
    obtain ⟨i, -, rfl⟩ := List.mem_map.mp hb
    rfl
  · obtain ⟨l, h1, h2⟩ := perm_of_map hP.perm
    refine ⟨l, h1, forall₂_comp_mem h2 (k := rows) (S := fun p w => ∃ r, w = rowRec C u r p) ?_ ?_⟩
    · exact forall₂_flatMap _ fun r _ => forall₂_mapR _ _ _ fun x _ => ⟨r, rfl⟩
    · rintro x hx p rfl w ⟨r, rfl⟩
      obtain ⟨a1, a2, a3, a4⟩ := hsel x (h1.mem_iff.mp hx)
      exact rowRec_isRow C hC a1 a2 a3 a4 hu r
  · intro r o ho
    have hrn : r < n + 1 := by
      by_contra hcon
      rw [List.getElem?_eq_none (by simp; omega)] at ho
      exact absurd ho (by simp)
    rw [List.getElem?_map, List.getElem?_range hrn] at ho
    obtain rfl := (Option.some.inj ho).symm
    dsimp only
    rw [hout, rows_of_rank (by omega) (fun q w hw => by
      obtain ⟨p, -, rfl⟩ := List.mem_map.mp hw
      rfl), List.filter_map, List.filter_map]
    have ev : ((fun x : ReadSpec K => x.spec.valid) ∘ endRec C u) = ((fun w : ChiRow K => w.valid) ∘ rowRec C u r) := by
      funext p
      exact dropShort_valid _ _ _ _
    rw [ev, List.forall₂_map_left_iff, List.forall₂_map_right_iff, List.forall₂_same]
    intro p hp
    obtain ⟨hp1, hp2⟩ := List.mem_filter.mp hp
    obtain ⟨x, hx, rfl⟩ := List.mem_map.mp
      (hP.perm.mem_iff.mp (List.mem_flatMap.mpr ⟨r, List.mem_range.mpr hrn, hp1⟩))
    obtain ⟨a1, a2, a3, a4⟩ := hsel x hx
    have hrow := rowRec_isRow C hC a1 a2 a3 a4 hu r
    have hrs := (prepOne_facts C.run hC a1 a2 a3 a4).2.2.2.2
    refine ⟨hrow.targetid.trans (congrArg MaskRow.targetid (prepOne_row C.run _ x).symm), ?_, hrow.rsnr.trans hrs.symm, ?_,
      (dropShort_valid _ _ _ _).trans hp2⟩
    · exact (dropShort_z _ _ _ _).symm
    · exact (dropShort_chi2 _ _ _ _).symm
  · intro w hw
    obtain ⟨r, hr', hw'⟩ := List.mem_flatMap.mp hw
    obtain ⟨p, -, rfl⟩ := List.mem_map.mp hw'
    rw [List.length_map, List.length_range]
    exact List.mem_range.mp hr'

/-- The deltas and the result. -/
def afterTable {V W : Type} (C : CatalogCfg Val K) (night : Option Val) (k : Nat) (b : Bool) (l : List (ReadSpec K))
    (r : Nat) (specs : List (FitRec K)) (t : Option (List (ChiRow K))) : Prog V W (CatalogOut Val K) :=
  (ofExcept (C.run.save r (C.run.finish (SelectCfg.setSpecs l (specs.map (·.spec)))))).bind fun fl =>
    .ret ⟨⟨night, k, b, C.run.finish (SelectCfg.setSpecs l (specs.map (·.spec))), fl⟩, t⟩

/-- The catalog, the deltas and the result. -/
def afterFit {V W : Type} (C : CatalogCfg Val K) (ck : Codec (List (ChiRow K)) V) (night : Option Val)
    (l : List (ReadSpec K)) (r : Nat) (w : FullState K × List (FitRec K) × Nat × Bool) : Prog V W (CatalogOut Val K) :=
  (C.saveTable ck r w.2.1).bind fun t => afterTable C night w.2.2.1 w.2.2.2 l r w.2.1 t

theorem fitSave_eq {Q D V : Type} (C : CatalogCfg Val K)
    (P : FitterFns (FullState K) (Spectrum K) (StackSums K) Q D) (fc : FitterCodecs (StackSums K) Q V)
    (ck : Codec (List (ChiRow K)) V) (fname : String) (g0 : FullState K) (night : Option Val) (r : Nat)
    (l : List (ReadSpec K)) : C.fitSave P fc ck fname g0 night r l =
      ((C.run.fit.recFns C.cov P).iterate fc fname C.run.niter false r g0 (l.map C.start)).bind
        fun w => afterFit C ck night l r w := rfl

/-- What a rank has at the end. -/
def outRec (C : CatalogCfg Val K) (files : Nat → List (ReadSpec K) → List (DeltaName Val × List (SavedSpec Val (ReadSpec K))))
    (night : Option Val) (k : Nat) (b : Bool) (u : FitRec K → FitRec K) (l : List (ReadSpec K)) (r : Nat)
    : WholeOut Val K :=
  ⟨night, k, b, (l.map (endRec C u)).filter (fun x => x.spec.valid),
    files r ((l.map (endRec C u)).filter (fun x => x.spec.valid))⟩

theorem afterTable_eq {V W : Type} (C : CatalogCfg Val K) (night : Option Val) (k : Nat) (b : Bool)
    (files : Nat → List (ReadSpec K) → List (DeltaName Val × List (SavedSpec Val (ReadSpec K))))
    (hfiles : ∀ r l, C.run.save r l = .ok (files r l)) (l : List (ReadSpec K)) (r : Nat) (u : FitRec K → FitRec K)
    (t : Option (List (ChiRow K))) : (afterTable C night k b l r ((l.map C.start).map u) t : Prog V W (CatalogOut Val K)) =
      .ret ⟨outRec C files night k b u l r, t⟩ := by
  unfold afterTable outRec
  rw [finish_rec, hfiles]
  rfl

/-- What comes after the fit. -/
theorem sync_fitSave {Q D V : Type} (C : CatalogCfg Val K) {c : Catalog Val} {f : Val → List (ReadSpec K)} {dw dr : K}
    (hC : PlainRun C.run dw dr) (hr : ReadsPixels C.run c f) (hout : C.run.outdir = true)
    (harm : ∀ p ∈ catPixels C.run.tile c, ∀ x ∈ f p, PassesCuts C.run.sel x →
      (inputSnrs C.run.sel x.spec).length ≤ 3)
    (P : FitterFns (FullState K) (Spectrum K) (StackSums K) Q D) (fc : FitterCodecs (StackSums K) Q V)
    (ck : Codec (List (ChiRow K)) V) (fname : String) (g0 : FullState K) (night : Option Val) {n : Nat}
    {Qu : Nat → List (List (Row Val))} (hP : Prepared C.run c f n Qu) {u : FitRec K → FitRec K}
    (hu : ∀ y, GoodRec C.run.fit.order y → KeepsRec C.run.fit.order y (u y)) {gf : FullState K} {k : Nat} {b : Bool}
    {M : Nat → List (SaverEv (String × D))}
    (files : Nat → List (ReadSpec K) → List (DeltaName Val × List (SavedSpec Val (ReadSpec K))))
    (hfiles : ∀ r l, C.run.save r l = .ok (files r l))
    (hs : Sync n (fun r => (C.run.fit.recFns C.cov P).iterate fc fname C.run.niter false r g0
      ((prepQueue C.run c f (Qu r)).map C.start))
      (fun r => .ok (gf, ((prepQueue C.run c f (Qu r)).map C.start).map u, k, b)) M) :
    Sync n (fun r => C.fitSave P fc ck fname g0 night r (prepQueue C.run c f (Qu r)))
      (fun r => .ok ⟨outRec C files night k b u (prepQueue C.run c f (Qu r)) r,
        if r = 0 then some ((List.range (n + 1)).flatMap (fun q => (prepQueue C.run c f (Qu q)).map (rowRec C u q)))
        else none⟩) M := by
  have htab := sync_saveTable (W := SaverEv (String × D)) C hout ck n
    (fun r => ((prepQueue C.run c f (Qu r)).map C.start).map u) (by
      intro r hrn t ht
      obtain ⟨y, hy, rfl⟩ := List.mem_map.mp ht
      obtain ⟨p, hp, rfl⟩ := List.mem_map.mp hy
      obtain ⟨x, hx, rfl⟩ := List.mem_map.mp
        (hP.perm.mem_iff.mp (List.mem_flatMap.mpr ⟨r, List.mem_range.mpr (by omega), hp⟩))
      obtain ⟨q, hq, hxq⟩ := List.mem_flatMap.mp (List.mem_filter.mp hx).1
      obtain ⟨a1, a2, a3⟩ := hr.data q hq x hxq
      obtain ⟨w, hw, e, -⟩ := hr.row q hq x hxq
      have hcut := of_decide_eq_true (List.mem_filter.mp hx).2
      obtain ⟨b1, b2, b3, -⟩ := prepOne_facts C.run hC ⟨a1, a2, a3⟩ (fun hb => hr.coadd hb q hq x hxq)
        (ids := c.rows.map C.run.tid) (List.mem_map.mpr ⟨w, (List.mem_filter.mp hw).1, e⟩) hcut
      have hk := hu (C.start (prepOne C.run (c.rows.map C.run.tid) x)) ⟨start_keeps _ _, b3⟩
      refine ⟨?_, hk.x, hk.xcov⟩
      rw [hk.meanSnr]
      change (prepOne C.run (c.rows.map C.run.tid) x).spec.meanSnr.length ≤ 3
      rw [← List.length_map (f := Prod.snd), b2]
      exact harm q hq x hxq hcut)
  have hrows : (List.range (n + 1)).flatMap (fun q => (((prepQueue C.run c f (Qu q)).map C.start).map u).map
      (fun t => rowOf (C.run.fit.order + 1) q t.chi)) =
      (List.range (n + 1)).flatMap (fun q => (prepQueue C.run c f (Qu q)).map (rowRec C u q)) := by
    refine List.flatMap_congr fun q _ => ?_
    rw [List.map_map, List.map_map]
    rfl
  rw [hrows] at htab
  simp only [fitSave_eq]
  generalize ((List.range (n + 1)).flatMap (fun q => (prepQueue C.run c f (Qu q)).map (rowRec C u q))) = rows at htab ⊢
  have h1 := htab.bind (f := fun r (t : Option (List (ChiRow K))) =>
      afterTable C night k b (prepQueue C.run c f (Qu r)) r (((prepQueue C.run c f (Qu r)).map C.start).map u) t)
    (N := fun _ => []) (y := fun r => .ok ⟨outRec C files night k b u (prepQueue C.run c f (Qu r)) r,
        if r = 0 then some rows else none⟩) (by
      refine (sync_ret n _).congr (fun r _ => ?_) (fun _ _ => rfl) (fun _ _ => rfl)
      exact afterTable_eq C night k b files hfiles _ r u _)
  have h2 := hs.bind (f := fun r (w : FullState K × List (FitRec K) × Nat × Bool) =>
      afterFit C ck night (prepQueue C.run c f (Qu r)) r w) h1
  exact h2.congr (fun _ _ => rfl) (fun _ _ => rfl) (fun _ _ => by simp)

end
end Verif.Proofs

import Verif.Proofs.ArmOrderCoadd
import Verif.Proofs.SelectCoadd

/-!
# Lemmas: the order of the arms in the whole run
-/

namespace Verif.Proofs
open Verif Verif.Np Verif.Model Verif.Model.Spectrum Verif.Model.Prog Verif.Spec

variable {K : Type} [Field K] [LinearOrder K] [FloorRing K]

/-! ### Coadded before the fit -/

theorem setForest_reso (C : SelectCfg K) {x x' : ReadSpec K} (h : ReadOther x x') :
    (C.setForest x).spec.cont = [] ∧
      ∀ a ∈ (C.setForest x).spec.freso, ∀ b ∈ (C.setForest x).spec.freso, a.2.length % 2 = b.2.length % 2 := by
  obtain ⟨-, hct⟩ := region_foldl_rest (max C.wave1 ((1 + x.spec.z) * C.forestW1))
    (min C.wave2 ((1 + x.spec.z) * C.forestW2)) x.spec.wave x.spec
  obtain ⟨hre, -⟩ := region_foldl_reso (max C.wave1 ((1 + x.spec.z) * C.forestW1))
    (min C.wave2 ((1 + x.spec.z) * C.forestW2)) x.spec.wave x.spec
    (fun arm rows => arm ∈ x.spec.wave.keys ∧ rows.length = (x.spec.reso.arr arm).length)
    (by rw [h.fresh.freso]; simp) (by rw [h.fresh.freso]; simp [Dict.keys])
    (fun y hy => ⟨List.mem_map.mpr ⟨y, hy, rfl⟩, by simp⟩)
  have e4 : (C.setForest x).spec.cont = [] := by
    refine Eq.trans ?_ h.cont
    exact hct
  have hre' : ∀ r ∈ (C.setForest x).spec.freso, r.1 ∈ (C.setForest x).spec.fwave.keys ∧
      r.1 ∈ x.spec.wave.keys ∧ r.2.length = (x.spec.reso.arr r.1).length := hre
  refine ⟨e4, fun a ha b hb => ?_⟩
  obtain ⟨-, ha1, ha2⟩ := hre' a ha
  obtain ⟨-, hb1, hb2⟩ := hre' b hb
  obtain ⟨y, hy, ey⟩ := List.mem_map.mp ha1
  obtain ⟨u, hu, eu⟩ := List.mem_map.mp hb1
  rw [ha2, hb2, ← ey, ← eu]
  exact h.parity y hy u hu

theorem coadd_order (C : SelectCfg K) {x x' : ReadSpec K} (h : ReadOther x x') :
    C.coadd (C.setForest x) = C.coadd (C.setForest x') := by
  have h1 := setForest_order C h.order
  obtain ⟨h2, h3⟩ := setForest_reso C h
  unfold SelectCfg.coadd
  rw [coaddArmsForest_order C.sqrt C.smooth C.junk C.nan C.eps8 h1.spec rfl rfl rfl rfl h2 h3]
  congr 1
  funext s
  have hr : (C.setForest x).row = (C.setForest x').row := h1.row
  have hs : (C.setForest x).rsnr = (C.setForest x').rsnr := h1.rsnr
  generalize C.setForest x = a at hr hs ⊢
  generalize C.setForest x' = a' at hr hs ⊢
  cases a
  cases a'
  dsimp only at hr hs
  subst hr hs
  rfl

theorem forall₂_eq_map {α β γ : Type} {R : α → β → Prop} {f : α → γ} {g : β → γ} (h : ∀ a b, R a b → f a = g b)
    {l : List α} {l' : List β} (hl : List.Forall₂ R l l') : l.map f = l'.map g := by
  induction hl with
  | nil => rfl
  | cons hab _ ih => rw [List.map_cons, List.map_cons, h _ _ hab, ih]

theorem mapM_forall₂_eq {α β γ : Type} {R : α → β → Prop} {f : α → Except Err γ} {g : β → Except Err γ}
    (h : ∀ a b, R a b → f a = g b) {l : List α} {l' : List β} (hl : List.Forall₂ R l l') : l.mapM f = l'.mapM g := by
  induction hl with
  | nil => rfl
  | cons hab _ ih => rw [List.mapM_cons, List.mapM_cons, h _ _ hab, ih]

theorem readLocal_forall {Cat : Type} (C : SelectCfg K) {a b : List (List (ReadSpec K))}
    (hab : List.Forall₂ (List.Forall₂ ReadOther) a b) :
    List.Forall₂ (fun x x' => ∃ z z', ReadOther z z' ∧ x = C.setForest z ∧ x' = C.setForest z')
      (a.flatMap (fun specs => (specs.map C.setForest).filter C.keepRead))
      (b.flatMap (fun specs => (specs.map C.setForest).filter C.keepRead)) := by
  refine flatMap_forall₂ (fun l l' hl => ?_) hab
  refine filter_rel ?_ (forall₂_map_rel (fun x x' hx => ⟨x, x', hx, rfl, rfl⟩) hl)
  rintro _ _ ⟨z, z', hz, rfl, rfl⟩
  exact keepRead_order C (setForest_order C hz.order)

theorem readLocal_coadded {Cat : Type} (C : SelectCfg K) (hc : C.coaddBefore = true)
    {reader reader' : Cat → Except Err (List (ReadSpec K))} {queue : List Cat}
    (h : ∀ q ∈ queue, SameResult (List.Forall₂ ReadOther) (reader q) (reader' q)) :
    C.readLocal reader queue = C.readLocal reader' queue := by
  have hd : ∀ rd : Cat → Except Err (List (ReadSpec K)), C.readLocal rd queue = (queue.mapM rd).bind
      (fun l => if C.coaddBefore then (l.flatMap (fun specs => (specs.map C.setForest).filter C.keepRead)).mapM C.coadd
        else .ok (l.flatMap (fun specs => (specs.map C.setForest).filter C.keepRead))) := fun rd => rfl
  rw [hd, hd]
  have h0 := mapM_except_rel h
  generalize queue.mapM reader = u at h0 ⊢
  generalize queue.mapM reader' = u' at h0 ⊢
  cases u with
  | error e =>
    cases u' with
    | error e' => cases h0; rfl
    | ok b => exact h0.elim
  | ok a =>
    cases u' with
    | error e' => exact h0.elim
    | ok b =>
      change (if C.coaddBefore = true then _ else _) = (if C.coaddBefore = true then _ else _)
      rw [if_pos hc, if_pos hc]
      refine mapM_forall₂_eq ?_ (readLocal_forall (Cat := Cat) C h0)
      rintro _ _ ⟨z, z', hz, rfl, rfl⟩
      exact coadd_order C hz

variable {Val : Type} [LinearOrder Val]

omit [LinearOrder Val] in
theorem prepare_coadded (C : WholeCfg Val K) (hc : C.sel.coaddBefore = true)
    {reader' : List (Row Val) → Except Err (List (ReadSpec K))}
    (h : ∀ q, SameResult (List.Forall₂ ReadOther) (C.reader q) (reader' q)) (q : List (List (Row Val))) :
    ({ C with reader := reader' } : WholeCfg Val K).prepare q = C.prepare q := by
  have e : ∀ D : WholeCfg Val K, D.prepare q = (D.maskIds q).bind (fun ids => (D.sel.select D.reader ids q).bind
      (fun l => .ok (l.map D.smooth))) := fun D => rfl
  rw [e, e]
  change ((C.maskIds q).bind (fun ids => (C.sel.select reader' ids q).bind (fun l => .ok (l.map C.smooth)))) = _
  congr 1
  funext ids
  rw [select_eq, select_eq, readLocal_coadded C.sel hc (fun b _ => h b)]

/-! ### Not coadded before the fit -/

/-- The spectra as the fit gets them. -/
def OrderSel (F : FullCfg K) (x x' : ReadSpec K) : Prop := ReadOrder x x' ∧ InBins F x.spec

variable [IsStrictOrderedRing K]

theorem select_order {Cat : Type} (C : SelectCfg K) (hc : C.coaddBefore = false) (F : FullCfg K) {dw dr : K}
    (ho : linGrid C.wave1 C.wave2 dw = .ok F.obs) (hw : C.wave1 < C.wave2)
    (hr : linGrid C.forestW1 C.forestW2 dr = .ok F.rf) (hf : C.forestW1 < C.forestW2)
    {reader reader' : Cat → Except Err (List (ReadSpec K))} {queue : List Cat} (ids : List Int)
    (h : ∀ q ∈ queue, SameResult (List.Forall₂ ReadOther) (reader q) (reader' q)) :
    SameResult (List.Forall₂ (OrderSel F)) (C.select reader ids queue) (C.select reader' ids queue) := by
  rw [select_eq, select_eq]
  have hd : ∀ rd : Cat → Except Err (List (ReadSpec K)), C.readLocal rd queue = (queue.mapM rd).bind
      (fun l => if C.coaddBefore then (l.flatMap (fun specs => (specs.map C.setForest).filter C.keepRead)).mapM C.coadd
        else .ok (l.flatMap (fun specs => (specs.map C.setForest).filter C.keepRead))) := fun rd => rfl
  rw [hd, hd]
  have hc' : ¬ C.coaddBefore = true := by rw [hc]; simp
  refine sameResult_bind (R := List.Forall₂ (OrderSel F)) (sameResult_bind (mapM_except_rel h) fun a b hab => ?_) fun l l' hl => ?_
  · simp only [if_neg hc']
    refine (readLocal_forall (Cat := Cat) C hab).imp ?_
    rintro _ _ ⟨z, z', hz, rfl, rfl⟩
    exact ⟨setForest_order C hz.order, setForest_inBins C F hw hf ho hr ⟨hz.data, hz.fresh, hz.zpos⟩⟩
  · have h1 : List.Forall₂ (OrderSel F) (l.map (treatOne C ids)) (l'.map (treatOne C ids)) := by
      refine forall₂_map_rel (fun x x' hx => ?_) hl
      exact ⟨treatOne_order C ids hx.1, hx.2.mono (treatOne_sub C ids x)⟩
    exact filter_rel (fun x x' hx => keepTreated_order C hx.1) h1

theorem prepare_order (C : WholeCfg Val K) (hc : C.sel.coaddBefore = false) {dw dr : K}
    (ho : linGrid C.sel.wave1 C.sel.wave2 dw = .ok C.fit.obs) (hw : C.sel.wave1 < C.sel.wave2)
    (hr : linGrid C.sel.forestW1 C.sel.forestW2 dr = .ok C.fit.rf) (hf : C.sel.forestW1 < C.sel.forestW2)
    {reader' : List (Row Val) → Except Err (List (ReadSpec K))}
    (h : ∀ q, SameResult (List.Forall₂ ReadOther) (C.reader q) (reader' q)) (q : List (List (Row Val))) :
    SameResult (List.Forall₂ (OrderSel C.fit)) (C.prepare q) (({ C with reader := reader' } : WholeCfg Val K).prepare q) := by
  have e : ∀ D : WholeCfg Val K, D.prepare q = (D.maskIds q).bind (fun ids => (D.sel.select D.reader ids q).bind
      (fun l => .ok (l.map D.smooth))) := fun D => rfl
  rw [e, e]
  change SameResult _ _ ((C.maskIds q).bind (fun ids => (C.sel.select reader' ids q).bind (fun l => .ok (l.map C.smooth))))
  cases C.maskIds q with
  | error e => exact rfl
  | ok ids =>
    change SameResult _ ((C.sel.select C.reader ids q).bind _) ((C.sel.select reader' ids q).bind _)
    refine sameResult_bind (select_order C.sel hc C.fit ho hw hr hf ids (fun b _ => h b)) fun l l' hl => ?_
    refine forall₂_map_rel (fun x x' hx => ?_) hl
    unfold WholeCfg.smooth
    split
    · exact ⟨⟨hx.1.row, hx.1.rsnr, setSmooth_order _ hx.1.spec _⟩, hx.2.mono (setSmooth_sub _ _ _)⟩
    · exact hx

omit [IsStrictOrderedRing K] in
theorem setSpecs_order {F : FullCfg K} {l l' : List (ReadSpec K)} {t t' : List (Spectrum K)}
    (h : List.Forall₂ (OrderSel F) l l') (ht : List.Forall₂ (OrderFit F) t t') :
    List.Forall₂ ReadOrder (SelectCfg.setSpecs l t) (SelectCfg.setSpecs l' t') := by
  unfold SelectCfg.setSpecs
  induction h generalizing t t' with
  | nil => exact .nil
  | cons hab _ ih =>
    cases ht with
    | nil => exact .nil
    | cons h1 h2 => exact .cons ⟨hab.1.row, hab.1.rsnr, h1.1⟩ (ih h2)

omit [IsStrictOrderedRing K] [LinearOrder Val] in
theorem finish_order (C : WholeCfg Val K) {l l' : List (ReadSpec K)} (h : List.Forall₂ ReadOrder l l') :
    List.Forall₂ ReadOrder (C.finish l) (C.finish l') := by
  unfold WholeCfg.finish
  refine forall₂_map_rel (T := ReadOrder) ?_ (filter_rel (fun x x' hx => hx.spec.valid) h)
  intro x x' hx
  exact ⟨hx.row, hx.rsnr, dropShortArms_order hx.spec _ _ _⟩

omit [IsStrictOrderedRing K] in
theorem save_order (C : WholeCfg Val K) (rank : Nat) {l l' : List (ReadSpec K)} (h : List.Forall₂ ReadOrder l l') :
    SameResult (List.Forall₂ FileOrder) (C.save rank l) (C.save rank l') := by
  obtain ⟨m, rfl, rfl⟩ := forall₂_pairs h
  unfold WholeCfg.save
  rw [List.map_map, List.map_map]
  have e1 : m.map ((fun x : ReadSpec K => (⟨C.pix x.row.targetid, x.spec.valid, x⟩ : SavedSpec Val (ReadSpec K))) ∘
      fun p => p.1.1) =
      (m.map (fun p => (⟨C.pix p.1.1.row.targetid, p.1.1.spec.valid, p⟩ :
        SavedSpec Val { p : ReadSpec K × ReadSpec K // ReadOrder p.1 p.2 }))).map (mapData (fun p => p.1.1)) := by
    rw [List.map_map]
    rfl
  have e2 : m.map ((fun x : ReadSpec K => (⟨C.pix x.row.targetid, x.spec.valid, x⟩ : SavedSpec Val (ReadSpec K))) ∘
      fun p => p.1.2) =
      (m.map (fun p => (⟨C.pix p.1.1.row.targetid, p.1.1.spec.valid, p⟩ :
        SavedSpec Val { p : ReadSpec K × ReadSpec K // ReadOrder p.1 p.2 }))).map (mapData (fun p => p.1.2)) := by
    rw [List.map_map]
    refine List.map_congr_left fun p _ => ?_
    simp only [Function.comp_apply, mapData]
    rw [← p.2.spec.valid, ← p.2.row]
  rw [e1, e2, saveDeltas_map, saveDeltas_map]
  generalize saveDeltas C.argsort true _ C.outdir C.byHpx (some rank) = files
  cases files with
  | error e => exact rfl
  | ok files =>
    change List.Forall₂ FileOrder (List.map _ files) (List.map _ files)
    refine forall₂_map_any (fun f => ⟨rfl, ?_⟩) files
    exact forall₂_map_any (fun p => ⟨rfl, rfl, p.data.2⟩) f.2

theorem whole_order (C : WholeCfg Val K) {Q D V : Type} {P : FitterFns (FullState K) (Spectrum K) (StackSums K) Q D}
    (hc : C.sel.coaddBefore = false) {dw dr : K}
    (ho : linGrid C.sel.wave1 C.sel.wave2 dw = .ok C.fit.obs) (hw : C.sel.wave1 < C.sel.wave2)
    (hr : linGrid C.sel.forestW1 C.sel.forestW2 dr = .ok C.fit.rf) (hf : C.sel.forestW1 < C.sel.forestW2)
    (hP : VarSym P)
    (cs : Codec Bool V) (cq : Codec (List (List (Row Val))) V) (cn : Codec Val V)
    (c : FitterCodecs (StackSums K) Q V) (read : Except Err (Catalog Val)) (fname : String) (g0 : FullState K)
    (size rank : Nat) {reader' : List (Row Val) → Except Err (List (ReadSpec K))}
    (h : ∀ q, SameResult (List.Forall₂ ReadOther) (C.reader q) (reader' q)) :
    RelP OutOrder (C.run P cs cq cn c read fname g0 size rank)
      (({ C with reader := reader' } : WholeCfg Val K).run P cs cq cn c read fname g0 size rank) := by
  unfold WholeCfg.run
  refine (RelP.refl _).bind ?_
  rintro q _ rfl
  refine RelP.bind (R := fun x y => x = y) (RelP.refl (C.blinding cn q)) ?_
  rintro night _ rfl
  refine (RelP.ofExcept (prepare_order C hc ho hw hr hf h q)).bind ?_
  intro l l' hl
  have hl' : List.Forall₂ (OrderFit C.fit) (l.map (·.spec)) (l'.map (·.spec)) :=
    forall₂_map_rel (fun x x' hx => ⟨hx.1.spec, hx.2⟩) hl
  refine RelP.bind (iterate_order (C := C.fit) c hP fname C.niter rank false g0 hl') ?_
  rintro ⟨g1, s1, k1⟩ ⟨g1', s1', k1'⟩ ⟨-, h2, h3⟩
  dsimp only at h2 h3 ⊢
  subst h3
  have he := finish_order C (setSpecs_order hl h2)
  refine (RelP.ofExcept (save_order C rank he)).bind ?_
  intro files files' hf
  exact .ret ⟨rfl, rfl, rfl, he, hf⟩

end Verif.Proofs

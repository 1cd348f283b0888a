import Verif.Spec.ExposureRun
import Verif.Proofs.WholeRun
import Verif.Proofs.FitRun
import Verif.Proofs.Exposures
import Verif.Proofs.CoaddDeltas

/-!
# Lemmas: the run with `--exposures after`
-/

set_option linter.unusedSectionVars false

namespace Verif.Proofs
open Verif Verif.Np Verif.Model Verif.Model.Prog Verif.Spec Verif.Props

section
variable {Val K : Type} [LinearOrder Val] [Field K] [LinearOrder K] [FloorRing K] [IsStrictOrderedRing K]

/-- The fit, with what follows. -/
def fitThen {Q D V A : Type} (C : WholeCfg Val K) (P : FitterFns (FullState K) (Spectrum K) (StackSums K) Q D)
    (fc : FitterCodecs (StackSums K) Q V) (fname : String) (g0 : FullState K)
    (k : Option Val → Nat → List (List (Row Val)) → List (ReadSpec K) →
      FullState K × List (Spectrum K) × Nat × Bool → Prog V (SaverEv (String × D)) A)
    (night : Option Val) (r : Nat) (q : List (List (Row Val))) (l : List (ReadSpec K)) :
    Prog V (SaverEv (String × D)) A :=
  ((C.fit.fns P).iterate fc fname C.niter false r g0 (l.map (fun x => x.spec))).bind fun w => k night r q l w

/-- A run up to the end of the fit, with what follows. -/
def upToFit {Q D V A : Type} (C : WholeCfg Val K) (P : FitterFns (FullState K) (Spectrum K) (StackSums K) Q D)
    (cs : Codec Bool V) (cq : Codec (List (List (Row Val))) V) (cn : Codec Val V)
    (fc : FitterCodecs (StackSums K) Q V) (c : Catalog Val) (fname : String) (g0 : FullState K)
    (k : Option Val → Nat → List (List (Row Val)) → List (ReadSpec K) →
      FullState K × List (Spectrum K) × Nat × Bool → Prog V (SaverEv (String × D)) A) (size r : Nat) :
    Prog V (SaverEv (String × D)) A :=
  (mpiGetLocalQueue cs cq (.ok c) C.tile size r).bind fun q =>
  (C.blinding cn q).bind fun night =>
  (ofExcept (C.prepare q)).bind fun l => fitThen C P fc fname g0 k night r q l

/-- Two layouts up to the end of the fit: the same function of the spectra. -/
theorem fitted_sync {Q D V A : Type} (C : WholeCfg Val K) {c : Catalog Val} {f : Val → List (ReadSpec K)}
    {dw dr : K} (hC : PlainRun C dw dr) (hr : ReadsPixels C c f)
    (P : FitterFns (FullState K) (Spectrum K) (StackSums K) Q D) (cs : Codec Bool V)
    (cq : Codec (List (List (Row Val))) V) (cn : Codec Val V) (fc : FitterCodecs (StackSums K) Q V)
    {ang2pix : Nat → Val → Val → Val} {file : Except Err (Catalog Val)} {isMock : Bool}
    {ks : Option (List Val)} {zmin zmax : Val}
    (h : readQuasarCatalog ang2pix file isMock C.tile ks zmin zmax = .ok c) (n n' : Nat)
    (hidle : IdleOk C ∨ (n + 1 ≤ (catPixels C.tile c).length ∧ n' + 1 ≤ (catPixels C.tile c).length))
    (fname : String) (g0 : FullState K) :
    ∃ (Q1 Q2 : Nat → List (List (Row Val))) (night : Option Val), Prepared C c f n Q1 ∧ Prepared C c f n' Q2 ∧
      ((∃ (j : Nat) (b : Bool) (u : Spectrum K → Spectrum K) (gf gf' : FullState K)
        (ev ev' : Nat → List (SaverEv (String × D))), EndsWith P fname (ev 0) gf ∧ EndsWith P fname (ev' 0) gf' ∧ ∀
        (k : Option Val → Nat → List (List (Row Val)) → List (ReadSpec K) →
          FullState K × List (Spectrum K) × Nat × Bool → Prog V (SaverEv (String × D)) A)
        (y : Nat → Except Err A) (M : Nat → List (SaverEv (String × D))),
        (Sync n (fun r => k night r (Q1 r) (prepQueue C c f (Q1 r))
            (gf, ((prepQueue C c f (Q1 r)).map (·.spec)).map u, j, b)) y M →
          Sync n (fun r => upToFit C P cs cq cn fc c fname g0 k (n + 1) r) y (fun r => ev r ++ M r)) ∧
        (Sync n' (fun r => k night r (Q2 r) (prepQueue C c f (Q2 r))
            (gf', ((prepQueue C c f (Q2 r)).map (·.spec)).map u, j, b)) y M →
          Sync n' (fun r => upToFit C P cs cq cn fc c fname g0 k (n' + 1) r) y (fun r => ev' r ++ M r))) ∨
      (∃ ev : Nat → List (SaverEv (String × D)), ∀
        (k : Option Val → Nat → List (List (Row Val)) → List (ReadSpec K) →
          FullState K × List (Spectrum K) × Nat × Bool → Prog V (SaverEv (String × D)) A),
        Sync n (fun r => upToFit C P cs cq cn fc c fname g0 k (n + 1) r) (fun _ => .error .qsonic) ev ∧
        Sync n' (fun r => upToFit C P cs cq cn fc c fname g0 k (n' + 1) r) (fun _ => .error .qsonic) ev)) := by
  obtain ⟨Q1, night, hP1, na1, na2, ne, ns⟩ := sync_before (W := SaverEv (String × D)) (A := A) C hC hr
    cs cq cn h n (hidle.imp id And.left)
  obtain ⟨Q2, night', hP2, nb1, nb2, ne', ns'⟩ := sync_before (W := SaverEv (String × D)) (A := A) C hC hr
    cs cq cn h n' (hidle.imp id And.right)
  have hnn : night' = night := by
    by_cases hm : C.mock = true
    · rw [na1 hm, nb1 hm]
    · have hm : C.mock = false := by simpa using hm
      obtain ⟨m, rfl, hm1⟩ := na2 hm
      obtain ⟨m', rfl, hm2⟩ := nb2 hm
      rw [lastNight_unique hm1 hm2]
  subst hnn
  refine ⟨Q1, Q2, night', hP1, hP2, ?_⟩
  by_cases hbad : C.sel.bal = true ∧ balCheckCatalog C.cols ≠ .ok ()
  · exact .inr ⟨fun _ => [], fun k => ⟨ne hbad (fitThen C P fc fname g0 k), ne' hbad (fitThen C P fc fname g0 k)⟩⟩
  have ns1 := ns hbad
  have ns2 := ns' hbad
  clear ne ne' ns ns'
  set cat := ((catPixels C.tile c).flatMap f).filter (fun x => decide (PassesCuts C.sel x)) with hcat
  set ids := c.rows.map C.tid with hids
  have hpool : ∀ (m : Nat) (Q : Nat → List (List (Row Val))), Prepared C c f m Q →
      (pooled m (fun r => (prepQueue C c f (Q r)).map (·.spec))).Perm ((cat.map (prepOne C ids)).map (·.spec)) := by
    intro m Q hP
    unfold pooled
    rw [← List.map_flatMap]
    exact hP.perm.map _
  have hforest : ∀ s ∈ pooled n (fun r => (prepQueue C c f (Q1 r)).map (·.spec)),
      PixelsInForest C.sel.wave1 C.sel.wave2 C.sel.forestW1 C.sel.forestW2 s := by
    intro s hs
    obtain ⟨y, hy, rfl⟩ := List.mem_map.mp ((hpool n Q1 hP1).mem_iff.mp hs)
    obtain ⟨x, hx, rfl⟩ := List.mem_map.mp hy
    obtain ⟨p, hp, hxp⟩ := List.mem_flatMap.mp (List.mem_filter.mp hx).1
    obtain ⟨a1, a2, a3⟩ := hr.data p hp x hxp
    exact prepOne_inForest C hC ids ⟨a1, a2, a3⟩ (fun hb => hr.coadd hb p hp x hxp)
      (of_decide_eq_true (List.mem_filter.mp hx).2)
  have hfit := sync_pool_inv (F := C.fit.fns P) (F' := C.fit.fns P)
    (P := PixelsInForest C.sel.wave1 C.sel.wave2 C.sel.forestW1 C.sel.forestW2)
    ⟨rfl, rfl, rfl, fun g s hs => by
      obtain ⟨e1, e2⟩ := fitOne_same C.fit g s
      change PixelsInForest C.sel.wave1 C.sel.wave2 C.sel.forestW1 C.sel.forestW2 (C.fit.fitOne g s)
      unfold PixelsInForest
      rw [e1, e2]
      exact hs, fun g m m' q q' hq hq' => addSums_pool C.fit hC.obs hC.obsPos hC.rf hC.rfPos m m' q q' hq hq'⟩
    rfl rfl ⟨rfl, rfl, rfl⟩ fc fc n n' g0 _ _ ((hpool n Q1 hP1).trans (hpool n' Q2 hP2).symm) hforest fname C.niter
  rcases hfit with ⟨j, b, u, gfin, gfin', exts, tail, tail', s1, s2, -, -, ⟨rfl, rfl⟩, -⟩ | ⟨ev, s1, s2⟩
  · have hend : ∀ g : FullState K, ∃ ev : Nat → List (SaverEv (String × D)), EndsWith P fname (ev 0) g ∧ ev = (fun r => if r = 0 ∧ fname ≠ "" then
        [.create fname] ++ (exts ++ ((C.fit.fns P).saveExts true "-fit" g ++
          [("VAR_STATS", (C.fit.fns P).dataStats g)])).map (.write fname) ++ [.close fname] else []) := by
      refine fun g => ⟨_, fun hne => ?_, rfl⟩
      exact ⟨.create fname :: (exts.map (.write fname) ++ [.write fname ("CONT-fit", P.dataCont g),
        .write fname ("STACKED_FLUX-fit", P.dataFlux g), .write fname ("STACKED_FLUX_RF-fit", P.dataFluxRf g)]),
        by simp [FitterFns.saveExts, FullCfg.fns, hne]⟩
    obtain ⟨ev1, e1, hev1⟩ := hend gfin
    obtain ⟨ev2, e2, hev2⟩ := hend gfin'
    rw [← hev1] at s1
    rw [← hev2] at s2
    refine .inl ⟨j, b, u, gfin, gfin', ev1, ev2, e1, e2, fun k y M => ⟨fun hk => ?_, fun hk => ?_⟩⟩
    · exact ns1 (fitThen C P fc fname g0 k) y _ (s1.bind (f := fun r w => k night' r (Q1 r) (prepQueue C c f (Q1 r)) w) hk)
    · exact ns2 (fitThen C P fc fname g0 k) y _ (s2.bind (f := fun r w => k night' r (Q2 r) (prepQueue C c f (Q2 r)) w) hk)
  · refine .inr ⟨fun r => if r = 0 ∧ fname ≠ "" then ev else [], fun k => ⟨?_, ?_⟩⟩
    · exact ns1 (fitThen C P fc fname g0 k) _ _ (s1.bind_error fun r w => k night' r (Q1 r) (prepQueue C c f (Q1 r)) w)
    · exact ns2 (fitThen C P fc fname g0 k) _ _ (s2.bind_error fun r w => k night' r (Q2 r) (prepQueue C c f (Q2 r)) w)

/-! ### The local catalog -/

/-- The fitted spectra `F` of all ranks: no target twice, each with its row. -/
structure FittedSpectra (C : ExposureCfg Val K) (c : Catalog Val) (F : List (ReadSpec K)) : Prop where
  nodup : (F.map (fun x => x.row.targetid)).Nodup
  row : ∀ x ∈ F, C.catrow x.row.targetid ∈ c.rows ∧ C.run.tid (C.catrow x.row.targetid) = x.row.targetid ∧
    C.run.pix x.row.targetid = C.catrow x.row.targetid "HPXPIXEL"

/-- Those of one rank. -/
structure RankPart (C : ExposureCfg Val K) (F l : List (ReadSpec K)) : Prop where
  sub : ∀ x ∈ l, x ∈ F
  nodup : (l.map (fun x => x.row.targetid)).Nodup
  closed : ∀ x ∈ l, ∀ y ∈ F, C.run.pix x.row.targetid = C.run.pix y.row.targetid → y ∈ l

omit [FloorRing K] [LinearOrder K] [Field K] [IsStrictOrderedRing K] in
theorem mem_targetRows {tid : Row Val → Int} {c : Catalog Val} {ids : List Int} {p : Val} {r : Row Val} :
    r ∈ targetRows tid c ids p ↔ r ∈ c.rows ∧ r "HPXPIXEL" = p ∧ tid r ∈ ids := by
  unfold targetRows
  rw [(List.perm_insertionSort _ _).mem_iff]
  unfold catPixelRows splitCol
  simp only [Bool.false_eq_true, if_false, List.mem_filter, decide_eq_true_eq, and_assoc]

omit [IsStrictOrderedRing K] in
theorem rank_queue (C : ExposureCfg Val K) {c : Catalog Val} {F l : List (ReadSpec K)}
    (hcr : ∀ r ∈ c.rows, C.catrow (C.run.tid r) = r)
    (hti : ∀ r ∈ c.rows, ∀ s ∈ c.rows, r "TARGETID" = s "TARGETID" → C.run.tid r = C.run.tid s)
    (hrows : c.rows.Nodup) (hF : FittedSpectra C c F) (hl : RankPart C F l) (hne : l ≠ []) :
    ∃ s, C.sorted l = .ok s ∧ s.Perm l ∧ (C.queue s).Nodup ∧ ∀ ch, ch ∈ C.queue s ↔ ∃ x ∈ l,
      ch = targetRows C.run.tid c (F.map (fun x => x.row.targetid)) (C.run.pix x.row.targetid) := by
  let le : ReadSpec K → ReadSpec K → Prop := fun x y =>
    rowLe C.sortFields (C.catrow x.row.targetid) (C.catrow y.row.targetid) = true
  obtain ⟨s, hs⟩ : ∃ s, s = l.insertionSort le := ⟨_, rfl⟩
  have : Std.Total le := ⟨fun a b => rowLe_total _ _ _⟩
  have : IsTrans (ReadSpec K) le := ⟨fun a b d => rowLe_trans _ _ _ _⟩
  have hp : s.Perm l := by rw [hs]; exact List.perm_insertionSort _ _
  have hsort : s.Pairwise le := by rw [hs]; exact List.pairwise_insertionSort _ _
  have hsne : s ≠ [] := fun e => hne (by simpa [e] using hp)
  obtain ⟨R, hR⟩ : ∃ R, R = s.map (fun x => C.catrow x.row.targetid) := ⟨_, rfl⟩
  have hRne : R ≠ [] := by rw [hR]; simpa using hsne
  have hmemR : ∀ r, r ∈ R ↔ ∃ x ∈ l, C.catrow x.row.targetid = r := by
    intro r
    rw [hR, List.mem_map]
    simp only [hp.mem_iff]
  have hRsort : R.Pairwise (fun r t => rowLe C.sortFields r t = true) := by
    rw [hR, List.pairwise_map]
    exact hsort
  have hG := splitByKey_isGrouping (fun r : Row Val => r "HPXPIXEL") R hRne (hRsort.imp fun h => rowLe_le h)
  have hRnd : R.Nodup := by
    rw [hR]
    refine List.Nodup.map_on ?_ ((hp.nodup_iff).mpr hl.nodup.of_map)
    intro x hx y hy e
    have hx := hp.mem_iff.mp hx
    have hy := hp.mem_iff.mp hy
    have := congrArg C.run.tid e
    rw [(hF.row x (hl.sub x hx)).2.1, (hF.row y (hl.sub y hy)).2.1] at this
    exact List.inj_on_of_nodup_map hl.nodup hx hy this
  have core : ∀ x ∈ l, R.filter (fun r => decide (r "HPXPIXEL" = C.catrow x.row.targetid "HPXPIXEL")) =
      targetRows C.run.tid c (F.map (fun x => x.row.targetid)) (C.run.pix x.row.targetid) := by
    intro x hx
    have hmem : ∀ r, r ∈ R.filter (fun r => decide (r "HPXPIXEL" = C.catrow x.row.targetid "HPXPIXEL")) ↔
        r ∈ targetRows C.run.tid c (F.map (fun x => x.row.targetid)) (C.run.pix x.row.targetid) := by
      intro r
      rw [mem_targetRows, List.mem_filter, hmemR, decide_eq_true_eq, (hF.row x (hl.sub x hx)).2.2]
      constructor
      · rintro ⟨⟨y, hy, rfl⟩, e⟩
        obtain ⟨a1, a2, -⟩ := hF.row y (hl.sub y hy)
        exact ⟨a1, e, by rw [a2]; exact List.mem_map.mpr ⟨y, hl.sub y hy, rfl⟩⟩
      · rintro ⟨a1, a2, a3⟩
        obtain ⟨y, hy, e⟩ := List.mem_map.mp a3
        have hcy : C.catrow y.row.targetid = r := by rw [e]; exact hcr r a1
        refine ⟨⟨y, hl.closed x hx y hy ?_, hcy⟩, a2⟩
        rw [(hF.row x (hl.sub x hx)).2.2, (hF.row y hy).2.2, hcy, a2]
    refine List.Perm.eq_of_pairwise (le := fun r t : Row Val => r "TARGETID" ≤ t "TARGETID") ?_ ?_ ?_ ?_
    · intro a b ha hb h1 h2
      have hb := (mem_targetRows.mp hb).1
      have ha := (mem_targetRows.mp ((hmem a).mp ha)).1
      have := hti a ha b hb (le_antisymm h1 h2)
      rw [← hcr a ha, ← hcr b hb, this]
    · refine (hRsort.filter _).imp_of_mem ?_
      intro a b ha hb h
      have ha := (List.mem_filter.mp ha).2
      have hb := (List.mem_filter.mp hb).2
      rw [decide_eq_true_eq] at ha hb
      unfold ExposureCfg.sortFields at h
      rcases rowLe_head h with h | ⟨-, h⟩
      · rw [ha, hb] at h
        exact absurd h (lt_irrefl _)
      · exact rowLe_le h
    · unfold targetRows
      have : Std.Total (fun r t : Row Val => r "TARGETID" ≤ t "TARGETID") := ⟨fun a b => le_total _ _⟩
      have : IsTrans (Row Val) (fun r t : Row Val => r "TARGETID" ≤ t "TARGETID") := ⟨fun a b d => le_trans⟩
      exact List.pairwise_insertionSort _ _
    · rw [List.perm_ext_iff_of_nodup (hRnd.filter _) ?_]
      · exact hmem
      · unfold targetRows
        rw [(List.perm_insertionSort _ _).nodup_iff]
        exact (hrows.filter _).filter _
  have hmemQ : ∀ ch, ch ∈ splitByKey (fun r : Row Val => r "HPXPIXEL") R ↔ ∃ x ∈ l,
      ch = targetRows C.run.tid c (F.map (fun x => x.row.targetid)) (C.run.pix x.row.targetid) := by
    intro ch
    constructor
    · intro hch
      obtain ⟨r, hr⟩ := List.exists_mem_of_ne_nil _ (hG.nonempty ch hch)
      have hrR : r ∈ R := by rw [← hG.flatten]; exact List.mem_flatten.mpr ⟨ch, hch, hr⟩
      obtain ⟨x, hx, rfl⟩ := (hmemR r).mp hrR
      exact ⟨x, hx, (isGrouping_eq_filter hG hch hr).trans (core x hx)⟩
    · rintro ⟨x, hx, rfl⟩
      have hrR : C.catrow x.row.targetid ∈ R := (hmemR _).mpr ⟨x, hx, rfl⟩
      rw [← hG.flatten] at hrR
      obtain ⟨ch, hch, hr⟩ := List.mem_flatten.mp hrR
      rw [← core x hx, ← isGrouping_eq_filter hG hch hr]
      exact hch
  refine ⟨s, ?_, hp, ?_, ?_⟩
  · unfold ExposureCfg.sorted
    rw [if_neg (by simpa using hne), hs]
  · unfold ExposureCfg.queue
    rw [← hR]
    refine (hG.distinct.imp_of_mem ?_)
    intro a b ha hb h e
    subst e
    obtain ⟨x, hx⟩ := List.exists_mem_of_ne_nil _ (hG.nonempty a ha)
    exact absurd (h x hx x hx) (lt_irrefl _)
  · unfold ExposureCfg.queue
    rw [← hR]
    exact hmemQ

/-- The queues of all ranks. -/
theorem pooled_queue (C : ExposureCfg Val K) {c : Catalog Val} {F : List (ReadSpec K)} {n : Nat}
    {l : Nat → List (ReadSpec K)} {q : Nat → List (List (Row Val))}
    (hcr : ∀ r ∈ c.rows, C.catrow (C.run.tid r) = r) (hF : FittedSpectra C c F)
    (hpool : ((List.range (n + 1)).flatMap l).Perm F)
    (hpix : ∀ i ≤ n, ∀ j ≤ n, i ≠ j → ∀ x ∈ l i, ∀ y ∈ l j,
      C.run.pix x.row.targetid ≠ C.run.pix y.row.targetid)
    (hq : ∀ r ≤ n, (q r).Nodup ∧ ∀ ch, ch ∈ q r ↔ ∃ x ∈ l r,
      ch = targetRows C.run.tid c (F.map (fun x => x.row.targetid)) (C.run.pix x.row.targetid)) :
    ((List.range (n + 1)).flatMap q).Perm (((catPixels false c).filter
      (fun p => decide (targetRows C.run.tid c (F.map (fun x => x.row.targetid)) p ≠ []))).map
        (targetRows C.run.tid c (F.map (fun x => x.row.targetid)))) := by
  set T := targetRows C.run.tid c (F.map (fun x => x.row.targetid)) with hT
  have hrange : ∀ r, r ∈ List.range (n + 1) ↔ r ≤ n := fun r => by simp
  have hmemF : ∀ r ≤ n, ∀ x ∈ l r, x ∈ F := fun r hr x hx =>
    hpool.mem_iff.mp (List.mem_flatMap.mpr ⟨r, (hrange r).mpr hr, hx⟩)
  have hself : ∀ x ∈ F, C.catrow x.row.targetid ∈ T (C.run.pix x.row.targetid) := by
    intro x hx
    obtain ⟨a1, a2, a3⟩ := hF.row x hx
    exact mem_targetRows.mpr ⟨a1, a3.symm, by rw [a2]; exact List.mem_map.mpr ⟨x, hx, rfl⟩⟩
  have hinj : ∀ p p', T p ≠ [] → T p = T p' → p = p' := by
    intro p p' hne e
    obtain ⟨r, hr⟩ := List.exists_mem_of_ne_nil _ hne
    have h1 := (mem_targetRows.mp hr).2.1
    rw [e] at hr
    exact h1.symm.trans (mem_targetRows.mp hr).2.1
  rw [List.perm_ext_iff_of_nodup]
  · intro ch
    rw [List.mem_flatMap, List.mem_map]
    constructor
    · rintro ⟨r, hr, hch⟩
      obtain ⟨x, hx, rfl⟩ := ((hq r ((hrange r).mp hr)).2 ch).mp hch
      have hxF := hmemF r ((hrange r).mp hr) x hx
      refine ⟨_, List.mem_filter.mpr ⟨?_, ?_⟩, rfl⟩
      · obtain ⟨a1, -, a3⟩ := hF.row x hxF
        unfold catPixels splitCol
        rw [List.mem_dedup, a3]
        exact List.mem_map.mpr ⟨_, a1, rfl⟩
      · exact decide_eq_true (List.ne_nil_of_mem (hself x hxF))
    · rintro ⟨p, hp, rfl⟩
      have hne := of_decide_eq_true (List.mem_filter.mp hp).2
      obtain ⟨r, hr⟩ := List.exists_mem_of_ne_nil _ hne
      obtain ⟨a1, a2, a3⟩ := mem_targetRows.mp hr
      obtain ⟨x, hx, e⟩ := List.mem_map.mp a3
      obtain ⟨i, hi, hxi⟩ := List.mem_flatMap.mp (hpool.mem_iff.mpr hx)
      refine ⟨i, hi, ((hq i ((hrange i).mp hi)).2 _).mpr ⟨x, hxi, ?_⟩⟩
      have h3 := (hF.row x hx).2.2
      rw [e, hcr r a1, a2] at h3
      rw [e, h3]
  · rw [List.nodup_flatMap]
    refine ⟨fun r hr => (hq r ((hrange r).mp hr)).1, ?_⟩
    refine (List.nodup_range (n := n + 1)).imp_of_mem ?_
    intro i j hi hj hij ch h1 h2
    obtain ⟨x, hx, rfl⟩ := ((hq i ((hrange i).mp hi)).2 ch).mp h1
    obtain ⟨y, hy, e⟩ := ((hq j ((hrange j).mp hj)).2 _).mp h2
    have hxF := hmemF i ((hrange i).mp hi) x hx
    exact hpix i ((hrange i).mp hi) j ((hrange j).mp hj) hij x hx y hy
      (hinj _ _ (List.ne_nil_of_mem (hself x hxF)) e)
  · refine List.Nodup.map_on ?_ ((List.nodup_dedup _).filter _)
    intro p hp p' _ e
    exact hinj p p' (of_decide_eq_true (List.mem_filter.mp hp).2) e

/-! ### Selection and continua of the exposures -/

theorem select_chunks {Cat : Type} (S : SelectCfg K) (h0 : ∀ v, v ≤ 0 → S.sqrt v = 0)
    (heta : ∀ eta, S.eta = some eta → ∀ w, 0 < eta w) (hst : ∀ st, S.stack = some st → ∀ w, st w ≠ 0)
    {reader : Cat → Except Err (List (ReadSpec K))} {queue : List Cat} {f : Cat → List (ReadSpec K)}
    (hr : ∀ c ∈ queue, reader c = .ok (f c)) {ids ids' : List Int}
    (hx : ∀ c ∈ queue, ∀ x ∈ f c, x.row.targetid ∈ ids ∧ x.row.targetid ∈ ids' ∧ Spec.DataOk x.spec ∧ Fresh x.spec ∧
      0 < 1 + x.spec.z) (hc : S.coaddBefore = true → ∀ c ∈ queue, ∀ x ∈ f c, CoaddReady S x.spec) :
    S.select reader ids queue = .ok (((queue.flatMap f).filter (fun x => decide (PassesCuts S x))).map
      (fun x => treatOne S ids' (prepRead S x))) := by
  have hall : ∀ x ∈ queue.flatMap f, x.row.targetid ∈ ids' ∧ ReadOk x ∧
      (S.coaddBefore = true → CoaddReady S x.spec) := by
    intro x hm
    obtain ⟨ch, hch, hxc⟩ := List.mem_flatMap.mp hm
    obtain ⟨-, a1, a2, a3, a4⟩ := hx ch hch x hxc
    exact ⟨a1, ⟨a2, a3, a4⟩, fun hb => hc hb ch hch x hxc⟩
  rw [C87_ids S h0 heta hst hr (ids' := ids') hx hc, select_eq, readLocal_ok S h0 hr (fun x hm => (hall x hm).2)]
  change Except.ok _ = Except.ok _
  congr 1
  generalize queue.flatMap f = l at hall
  rw [List.map_map, List.filter_map, List.filter_filter]
  have e : l.filter (fun a => ((keepTreated S) ∘ (treatOne S ids' ∘ prepRead S)) a &&
      S.keepRead (S.setForest a)) = l.filter (fun x => decide (PassesCuts S x)) := by
    refine List.filter_congr fun x hm => ?_
    rw [← keep_iff S (hall x hm).2.1 (hall x hm).2.2 (hall x hm).1 h0 heta hst, Bool.and_comm]
    rfl
  rw [e]
  rfl

/-- The continuum of one exposure from the fitted spectra `F`. -/
def matchRead (F : List (ReadSpec K)) (x : ReadSpec K) : Except Err (ReadSpec K) := do
  let c ← coaddOf (F.map (fun x => (x.row.targetid, x.spec))) x.row.targetid
  let s ← matchExposure c x.spec
  .ok { x with spec := s }

theorem assign_eq (l e : List (ReadSpec K)) : assignConts l e = e.mapM (matchRead l) := by
  unfold assignConts matchExposures
  induction e with
  | nil => rfl
  | cons x e ih =>
    rw [List.mapM_cons, ← ih, List.map_cons, List.mapM_cons]
    unfold matchRead
    dsimp only
    cases coaddOf (l.map (fun x => (x.row.targetid, x.spec))) x.row.targetid with
    | error err => rfl
    | ok c =>
      simp only [except_bind_ok]
      cases matchExposure c x.spec with
      | error err => rfl
      | ok s =>
        simp only [except_bind_ok]
        generalize (e.map (fun x => (x.row.targetid, x.spec))).mapM (m := Except Err) _ = m
        cases m with
        | error err => rfl
        | ok m => rfl

theorem matchRead_eq {F l : List (ReadSpec K)} (hF : (F.map (fun x => x.row.targetid)).Nodup)
    (hl : (l.map (fun x => x.row.targetid)).Nodup) (hsub : ∀ x ∈ l, x ∈ F) {x : ReadSpec K}
    (hx : x.row.targetid ∈ l.map (fun x => x.row.targetid)) : matchRead l x = matchRead F x := by
  obtain ⟨y, hy, e⟩ := List.mem_map.mp hx
  have key : ∀ G : List (ReadSpec K), (G.map (fun x => x.row.targetid)).Nodup → y ∈ G →
      coaddOf (G.map (fun x => (x.row.targetid, x.spec))) x.row.targetid = .ok y.spec := by
    intro G hG hyG
    unfold coaddOf
    rw [lookup_of_mem' (k := x.row.targetid) (v := y.spec) (by rw [List.map_map]; exact hG)
      (List.mem_map.mpr ⟨y, hyG, by rw [e]⟩)]
  unfold matchRead
  rw [key l hl hy, key F hF (hsub y hy)]

theorem foldlM_error {α β : Type} {R : Err → Prop} {f : β → α → Except Err β}
    (h : ∀ b a e, f b a = .error e → R e) (l : List α) (b : β) {e : Err} (he : l.foldlM f b = .error e) : R e := by
  induction l generalizing b with
  | nil => cases he
  | cons a l ih =>
    rw [List.foldlM_cons] at he
    cases hb : f b a with
    | error e' =>
      rw [hb] at he
      cases he
      exact h b a _ hb
    | ok b' =>
      rw [hb] at he
      exact ih b' he

theorem mapM_error_inv {α β : Type} {f : α → Except Err β} {l : List α} {e : Err} (he : l.mapM f = .error e) :
    ∃ a ∈ l, f a = .error e := by
  induction l with
  | nil => cases he
  | cons a l ih =>
    rw [List.mapM_cons] at he
    cases hb : f a with
    | error e' =>
      rw [hb] at he
      cases he
      exact ⟨a, .head _, hb⟩
    | ok b =>
      rw [hb, except_bind_ok] at he
      cases hl : l.mapM f with
      | error e' =>
        rw [hl] at he
        cases he
        obtain ⟨x, hx, h⟩ := ih hl
        exact ⟨x, .tail _ hx, h⟩
      | ok bs =>
        rw [hl] at he
        cases he

theorem matchExposure_error {c s : Spectrum K} {e : Err} (h : matchExposure c s = .error e) : Unexpected e := by
  refine foldlM_error (R := Unexpected) ?_ _ _ h
  intro t x e h
  unfold matchArm at h
  split at h
  · cases h
    exact ⟨rfl, by simp⟩
  · have hfirst : ∀ (l : List K) e, firstElem l = .error e → Unexpected e := by
      intro l e h
      unfold firstElem at h
      split at h
      · cases h
      · cases h
        exact ⟨rfl, by simp⟩
    have hlast : ∀ (l : List K) e, lastElem l = .error e → Unexpected e := by
      intro l e h
      unfold lastElem at h
      split at h
      · cases h
      · cases h
        exact ⟨rfl, by simp⟩
    have hget : ∀ (d : Dict (List K)) (k : String) e, dictGet d k = .error e → Unexpected e := by
      intro d k e h
      unfold dictGet at h
      split at h
      · cases h
      · cases h
        exact ⟨rfl, by simp⟩
    have hbind : ∀ {α β : Type} (x : Except Err α) (f : α → Except Err β) e, (x >>= f) = .error e →
        x = .error e ∨ ∃ a, f a = .error e := by
      intro α β x f e h
      cases x with
      | error e' => cases h; exact .inl rfl
      | ok a => exact .inr ⟨a, h⟩
    rcases hbind _ _ _ h with h | ⟨_, h⟩
    · unfold matchIdx at h
      rcases hbind _ _ _ h with h | ⟨_, h⟩
      · exact hfirst _ _ h
      rcases hbind _ _ _ h with h | ⟨_, h⟩
      · exact hfirst _ _ h
      rcases hbind _ _ _ h with h | ⟨_, h⟩
      · exact hlast _ _ h
      rcases hbind _ _ _ h with h | ⟨_, h⟩
      · exact hlast _ _ h
      cases h
    · rcases hbind _ _ _ h with h | ⟨_, h⟩
      · exact hget _ _ _ h
      · cases h

/-- What is done to one exposure. -/
def expOne (C : ExposureCfg Val K) (c : Catalog Val) (F : List (ReadSpec K)) (x : ReadSpec K) :
    Except Err (ReadSpec K) :=
  matchRead F (treatOne C.run.sel (c.rows.map C.run.tid) (prepRead C.run.sel x))

theorem matchRead_cases {F : List (ReadSpec K)} (hF : (F.map (fun x => x.row.targetid)).Nodup) {x : ReadSpec K}
    (hx : x.row.targetid ∈ F.map (fun x => x.row.targetid)) :
    ∃ s ∈ F, s.row.targetid = x.row.targetid ∧
      ((∃ e, Unexpected e ∧ matchExposure s.spec x.spec = .error e ∧ matchRead F x = .error e) ∨
      ∃ m, matchExposure s.spec x.spec = .ok m ∧ matchRead F x = .ok { x with spec := m }) := by
  obtain ⟨s, hs, e⟩ := List.mem_map.mp hx
  refine ⟨s, hs, e, ?_⟩
  have hc : coaddOf (F.map (fun x => (x.row.targetid, x.spec))) x.row.targetid = .ok s.spec := by
    unfold coaddOf
    rw [lookup_of_mem' (k := x.row.targetid) (v := s.spec) (by rw [List.map_map]; exact hF)
      (List.mem_map.mpr ⟨s, hs, by rw [e]⟩)]
  unfold matchRead
  rw [hc, except_bind_ok]
  cases h : matchExposure s.spec x.spec with
  | error e => exact .inl ⟨e, matchExposure_error h, rfl, rfl⟩
  | ok m => exact .inr ⟨m, rfl, rfl⟩

/-- One rank. -/
theorem after_rank (C : ExposureCfg Val K) {c : Catalog Val} {f : Val → List (ReadSpec K)}
    {fe : List (Row Val) → List (ReadSpec K)} {dw dr : K} (hC : PlainRun C.run dw dr)
    (he : ReadsExposures C c f fe) (hrows : c.rows.Nodup) {F l : List (ReadSpec K)} (hF : FittedSpectra C c F)
    (hl : RankPart C F l) (hne : l ≠ []) {ids : List Int}
    (hids : ∀ x ∈ l, ∀ r ∈ catPixelRows false c (C.run.pix x.row.targetid), C.run.tid r ∈ ids) :
    ∃ q : List (List (Row Val)), (q.Nodup ∧ ∀ ch, ch ∈ q ↔ ∃ x ∈ l,
        ch = targetRows C.run.tid c (F.map (fun x => x.row.targetid)) (C.run.pix x.row.targetid)) ∧
      (∀ y ∈ q.flatMap fe, y.row.targetid ∈ l.map (fun x => x.row.targetid)) ∧
      (∀ y ∈ q.flatMap fe, ReadOk y ∧ (C.run.sel.coaddBefore = true → CoaddReady C.run.sel y.spec) ∧
        y.row.targetid ∈ c.rows.map C.run.tid) ∧
      C.exposuresAfter ids l =
        ((q.flatMap fe).filter (fun x => decide (PassesCuts C.run.sel x))).mapM (expOne C c F) := by
  obtain ⟨s, h1, h2, h3, h4⟩ := rank_queue C he.catrow he.tid hrows hF hl hne
  have hch : ∀ ch ∈ C.queue s, ∃ x ∈ l, ch ≠ [] ∧ (∀ r ∈ ch, r ∈ catPixelRows false c (C.run.pix x.row.targetid)) ∧
      ∀ r ∈ ch, C.run.tid r ∈ l.map (fun x => x.row.targetid) := by
    intro ch hch
    obtain ⟨x, hx, rfl⟩ := (h4 ch).mp hch
    obtain ⟨a1, a2, a3⟩ := hF.row x (hl.sub x hx)
    refine ⟨x, hx, List.ne_nil_of_mem (a := C.catrow x.row.targetid) (mem_targetRows.mpr
      ⟨a1, a3.symm, by rw [a2]; exact List.mem_map.mpr ⟨x, hl.sub x hx, rfl⟩⟩), ?_, ?_⟩
    · intro r hr
      obtain ⟨b1, b2, -⟩ := mem_targetRows.mp hr
      exact List.mem_filter.mpr ⟨b1, decide_eq_true b2⟩
    · intro r hr
      obtain ⟨b1, b2, b3⟩ := mem_targetRows.mp hr
      obtain ⟨y, hy, e⟩ := List.mem_map.mp b3
      refine List.mem_map.mpr ⟨y, hl.closed x hx y hy ?_, e⟩
      rw [(hF.row y hy).2.2, e, he.catrow r b1, b2]
  have htid : ∀ ch ∈ C.queue s, ∀ y ∈ fe ch, y.row.targetid ∈ l.map (fun x => x.row.targetid) ∧
      y.row.targetid ∈ ids ∧ y.row.targetid ∈ c.rows.map C.run.tid := by
    intro ch hc y hy
    obtain ⟨x, hx, b1, b2, b3⟩ := hch ch hc
    obtain ⟨r, hr, e⟩ := he.row _ ch b1 b2 y hy
    rw [← e]
    exact ⟨b3 r hr, hids x hx r (b2 r hr), List.mem_map.mpr ⟨r, (List.mem_filter.mp (b2 r hr)).1, rfl⟩⟩
  have hdata : ∀ ch ∈ C.queue s, ∀ y ∈ fe ch, Spec.DataOk y.spec ∧ Fresh y.spec ∧ 0 < 1 + y.spec.z := by
    intro ch hc y hy
    obtain ⟨x, hx, b1, b2, -⟩ := hch ch hc
    exact he.data _ ch b1 b2 y hy
  have hco : C.run.sel.coaddBefore = true → ∀ ch ∈ C.queue s, ∀ y ∈ fe ch, CoaddReady C.run.sel y.spec := by
    intro hb ch hc y hy
    obtain ⟨x, hx, b1, b2, -⟩ := hch ch hc
    exact he.coadd hb _ ch b1 b2 y hy
  have hsel := select_chunks C.run.sel hC.sqrt hC.eta hC.stack (reader := C.expReader) (queue := C.queue s) (f := fe)
    (ids := ids) (ids' := c.rows.map C.run.tid)
    (fun ch hc => by
      obtain ⟨x, hx, b1, b2, -⟩ := hch ch hc
      exact he.ok _ ch b1 b2)
    (fun ch hc y hy => ⟨(htid ch hc y hy).2.1, (htid ch hc y hy).2.2, hdata ch hc y hy⟩) hco
  have hall : ∀ y ∈ (C.queue s).flatMap fe, ∃ ch ∈ C.queue s, y ∈ fe ch := fun y hy => by
    simpa [List.mem_flatMap] using hy
  refine ⟨C.queue s, ⟨h3, h4⟩, ?_, ?_, ?_⟩
  · intro y hy
    obtain ⟨ch, hc, hy⟩ := hall y hy
    exact (htid ch hc y hy).1
  · intro y hy
    obtain ⟨ch, hc, hy⟩ := hall y hy
    obtain ⟨d1, d2, d3⟩ := hdata ch hc y hy
    exact ⟨⟨d1, d2, d3⟩, fun hb => hco hb ch hc y hy, (htid ch hc y hy).2.2⟩
  · unfold ExposureCfg.exposuresAfter
    rw [h1, except_bind_ok, hsel, except_bind_ok, assign_eq]
    generalize hE : ((C.queue s).flatMap fe).filter (fun x => decide (PassesCuts C.run.sel x)) = E
    have hmem : ∀ x ∈ E, x.row.targetid ∈ s.map (fun x => x.row.targetid) := by
      intro x hx
      rw [← hE] at hx
      obtain ⟨ch, hc, hy⟩ := hall x (List.mem_filter.mp hx).1
      exact (h2.map _).mem_iff.mpr (htid ch hc x hy).1
    clear hE
    induction E with
    | nil => rfl
    | cons x E ih =>
      rw [List.map_cons, List.mapM_cons, List.mapM_cons, ih (fun y hy => hmem y (.tail _ hy))]
      have : matchRead s (treatOne C.run.sel (c.rows.map C.run.tid) (prepRead C.run.sel x)) = expOne C c F x := by
        refine matchRead_eq hF.nodup (((h2.map _).nodup_iff).mpr hl.nodup)
          (fun y hy => hl.sub y (h2.mem_iff.mp hy)) ?_
        have := hmem x (.head _)
        change (prepRead C.run.sel x).row.targetid ∈ _
        rw [(prepRead_row C.run.sel x).1]
        exact this
      rw [this]

/-- The exposures of all ranks. -/
theorem pooled_exposures (C : ExposureCfg Val K) {c : Catalog Val} {F : List (ReadSpec K)}
    {fe : List (Row Val) → List (ReadSpec K)} {n : Nat}
    {q : Nat → List (List (Row Val))} (hq : ((List.range (n + 1)).flatMap q).Perm (((catPixels false c).filter
      (fun p => decide (targetRows C.run.tid c (F.map (fun x => x.row.targetid)) p ≠ []))).map
        (targetRows C.run.tid c (F.map (fun x => x.row.targetid))))) :
    ((List.range (n + 1)).flatMap (fun r => ((q r).flatMap fe).filter (fun x => decide (PassesCuts C.run.sel x)))).Perm
      (exposuresOf C c fe (F.map (fun x => x.row.targetid))) := by
  rw [← List.filter_flatMap, ← List.flatMap_assoc]
  unfold exposuresOf
  refine List.Perm.filter _ ((hq.flatMap_right fe).trans (List.Perm.of_eq ?_))
  generalize targetRows C.run.tid c (F.map (fun x => x.row.targetid)) = T
  induction catPixels false c with
  | nil => rfl
  | cons p l ih =>
    rw [List.flatMap_cons, ← ih]
    by_cases h : T p = []
    · rw [List.filter_cons_of_neg (by simpa using h), if_pos h, List.nil_append]
    · rw [List.filter_cons_of_pos (by simpa using h), if_neg h, List.map_cons, List.flatMap_cons]

/-! ### The end of the job -/

theorem main_ok {V W A : Type} {n : Nat} {P : Nat → Prog V W A} {a : Nat → A} {M : Nat → List W}
    (h : Sync n P (fun r => .ok (a r)) M) :
    runJob n (fun r => mainProg (P r)) = (.done ((List.range (n + 1)).map (fun r => .ok (a r))),
      (List.range (n + 1)).map M) := by
  have : Sync n (fun r => mainProg (P r)) (fun r => .ok (a r)) M := by
    intro B k L
    unfold mainProg
    simp only [catch_eq_seqE, seqE_assoc]
    rw [h B (fun r x => seqE (onErr mainHandler x) (k r)) L]
    rfl
  exact this.job

theorem main_abort {V W A : Type} {n : Nat} {P : Nat → Prog V W A} {x : Nat → Except Err A} {M : Nat → List W}
    (h : Sync n P x M) {r : Nat} (hr : r ≤ n) {e : Err} (he : Unexpected e) (hx : x r = .error e) :
    (runJob n (fun r => mainProg (P r))).1 = .aborted := by
  rw [runJob_eq_runFam]
  unfold mainProg
  simp only [catch_eq_seqE]
  rw [h A (fun _ x => onErr mainHandler x)]
  refine runFam_abort n _ _ ⟨r, hr, ?_⟩
  rw [hx]
  change (peel (mainHandler e)).2 = _
  rw [handler_abort he]
  rfl

/-! ### The spectra after the fit -/

/-- The spectra of the catalog after the fit `u`. -/
def fittedOf (C : WholeCfg Val K) (c : Catalog Val) (f : Val → List (ReadSpec K)) (u : Spectrum K → Spectrum K) :
    List (ReadSpec K) :=
  ((((((catPixels C.tile c).flatMap f).filter (fun x => decide (PassesCuts C.sel x))).map
      (prepOne C (c.rows.map C.tid))).map (fun x => { x with spec := u x.spec })).filter (fun x => x.spec.valid))

/-- Those of a rank. -/
def fittedRank (C : WholeCfg Val K) (c : Catalog Val) (f : Val → List (ReadSpec K)) (u : Spectrum K → Spectrum K)
    (Q : List (List (Row Val))) : List (ReadSpec K) :=
  ((prepQueue C c f Q).map (fun x => { x with spec := u x.spec })).filter (fun x => x.spec.valid)

theorem fitted_ok (C : ExposureCfg Val K) {c : Catalog Val} {f : Val → List (ReadSpec K)}
    {fe : List (Row Val) → List (ReadSpec K)} (ht : C.run.tile = false) (hr : ReadsPixels C.run c f)
    (he : ReadsExposures C c f fe) (u : Spectrum K → Spectrum K) : FittedSpectra C c (fittedOf C.run c f u) := by
  have hrow : ∀ p ∈ catPixels false c, ∀ x ∈ f p, C.catrow x.row.targetid ∈ c.rows ∧
      C.run.tid (C.catrow x.row.targetid) = x.row.targetid ∧ C.run.pix x.row.targetid = C.catrow x.row.targetid "HPXPIXEL" ∧
      C.run.pix x.row.targetid = p := by
    intro p hp x hx
    obtain ⟨r, h1, h2, h3⟩ := hr.row p (by rw [ht]; exact hp) x hx
    rw [ht] at h1
    obtain ⟨h1, h4⟩ := List.mem_filter.mp h1
    have h4 : r "HPXPIXEL" = p := of_decide_eq_true h4
    have := he.catrow r h1
    rw [h2] at this
    rw [this]
    exact ⟨h1, h2, h3, h3.trans h4⟩
  have hmem : ∀ x ∈ fittedOf C.run c f u, ∃ p ∈ catPixels false c, ∃ y ∈ f p, y.row = x.row := by
    intro x hx
    unfold fittedOf at hx
    obtain ⟨y, hy, rfl⟩ := List.mem_map.mp (List.mem_filter.mp hx).1
    obtain ⟨z, hz, rfl⟩ := List.mem_map.mp hy
    obtain ⟨p, hp, hz⟩ := List.mem_flatMap.mp (List.mem_filter.mp hz).1
    rw [ht] at hp
    exact ⟨p, hp, z, hz, (prepOne_row C.run _ z).symm⟩
  refine ⟨?_, ?_⟩
  · have hall : (((catPixels false c).flatMap f).map (fun x => x.row.targetid)).Nodup := by
      rw [List.map_flatMap, List.nodup_flatMap]
      refine ⟨fun p hp => he.one p hp, ?_⟩
      refine (List.nodup_dedup (c.rows.map (fun r => r (splitCol false)))).imp_of_mem ?_
      intro p p' hp hp' hne t h1 h2
      obtain ⟨x, hx, rfl⟩ := List.mem_map.mp h1
      obtain ⟨y, hy, e⟩ := List.mem_map.mp h2
      have h1 := (hrow p hp x hx).2.2.2
      have h2 := (hrow p' hp' y hy).2.2.2
      rw [← e] at h1
      exact hne (h1.symm.trans h2)
    unfold fittedOf
    rw [ht]
    refine List.Nodup.sublist (List.filter_sublist.map _) ?_
    rw [List.map_map, List.map_map]
    have : ((fun x : ReadSpec K => x.row.targetid) ∘ (fun x : ReadSpec K => { x with spec := u x.spec })) ∘
        prepOne C.run (c.rows.map C.run.tid) = fun x => x.row.targetid := by
      funext x
      change (prepOne C.run (c.rows.map C.run.tid) x).row.targetid = _
      rw [prepOne_row]
    rw [this]
    exact hall.sublist (List.filter_sublist.map _)
  · intro x hx
    obtain ⟨p, hp, y, hy, e⟩ := hmem x hx
    obtain ⟨a1, a2, a3, -⟩ := hrow p hp y hy
    rw [← e]
    exact ⟨a1, a2, a3⟩

theorem fitted_perm (C : WholeCfg Val K) {c : Catalog Val} {f : Val → List (ReadSpec K)} {n : Nat}
    {Q : Nat → List (List (Row Val))} (hP : Prepared C c f n Q) (u : Spectrum K → Spectrum K) :
    ((List.range (n + 1)).flatMap (fun r => fittedRank C c f u (Q r))).Perm (fittedOf C c f u) := by
  unfold fittedRank fittedOf
  rw [← List.filter_flatMap, ← List.map_flatMap]
  exact (hP.perm.map _).filter _

theorem fitted_pix (C : WholeCfg Val K) {c : Catalog Val} {f : Val → List (ReadSpec K)} {n : Nat}
    {Q : Nat → List (List (Row Val))} (hP : Prepared C c f n Q) (ht : C.tile = false) (u : Spectrum K → Spectrum K) :
    ∀ i ≤ n, ∀ j ≤ n, i ≠ j → ∀ x ∈ fittedRank C c f u (Q i), ∀ y ∈ fittedRank C c f u (Q j),
      C.pix x.row.targetid ≠ C.pix y.row.targetid := by
  intro i hi j hj hij x hx y hy
  obtain ⟨x', hx', rfl⟩ := List.mem_map.mp (List.mem_filter.mp hx).1
  obtain ⟨y', hy', rfl⟩ := List.mem_map.mp (List.mem_filter.mp hy).1
  exact hP.pix ht i hi j hj hij x' hx' y' hy'

theorem fitted_part (C : ExposureCfg Val K) {c : Catalog Val} {f : Val → List (ReadSpec K)} {n : Nat}
    {Q : Nat → List (List (Row Val))} (hP : Prepared C.run c f n Q) (ht : C.run.tile = false)
    (u : Spectrum K → Spectrum K) (hF : FittedSpectra C c (fittedOf C.run c f u)) {r : Nat} (hr : r ≤ n) :
    RankPart C (fittedOf C.run c f u) (fittedRank C.run c f u (Q r)) := by
  have hp := fitted_perm C.run hP u
  have hrange : r ∈ List.range (n + 1) := by simp; omega
  refine ⟨fun x hx => hp.mem_iff.mp (List.mem_flatMap.mpr ⟨r, hrange, hx⟩), ?_, ?_⟩
  · have := ((hp.map (fun x => x.row.targetid)).nodup_iff).mpr hF.nodup
    rw [List.map_flatMap, List.nodup_flatMap] at this
    exact this.1 r hrange
  · intro x hx y hy e
    obtain ⟨i, hi, hyi⟩ := List.mem_flatMap.mp (hp.mem_iff.mpr hy)
    by_cases h : r = i
    · rw [h]
      exact hyi
    · exact absurd e (fitted_pix C.run hP ht u r hr i (by simp at hi; omega) h x hx y hyi)

theorem fitted_ids (C : WholeCfg Val K) {c : Catalog Val} {f : Val → List (ReadSpec K)} {n : Nat}
    {Q : Nat → List (List (Row Val))} (hP : Prepared C c f n Q) (ht : C.tile = false) (hr : ReadsPixels C c f)
    (u : Spectrum K → Spectrum K) {r : Nat} (hrn : r ≤ n) : ∀ x ∈ fittedRank C c f u (Q r),
    ∀ t ∈ catPixelRows false c (C.pix x.row.targetid), C.tid t ∈ (Q r).flatten.map C.tid := by
  intro x hx t htm
  obtain ⟨y, hy, rfl⟩ := List.mem_map.mp (List.mem_filter.mp hx).1
  obtain ⟨z, hz, rfl⟩ := List.mem_map.mp hy
  obtain ⟨ch, hch, hz⟩ := List.mem_flatMap.mp (List.mem_filter.mp hz).1
  obtain ⟨p, hp, rfl⟩ := hP.chunk r hrn ch hch
  rw [chunkSpectra_eq f hp] at hz
  obtain ⟨s, hs, -, h3⟩ := hr.row p hp z hz
  have h4 : s (splitCol C.tile) = p := of_decide_eq_true (List.mem_filter.mp hs).2
  rw [ht] at h4
  have hpz : C.pix z.row.targetid = p := h3.trans h4
  change t ∈ catPixelRows false c (C.pix (prepOne C (c.rows.map C.tid) z).row.targetid) at htm
  rw [prepOne_row, hpz, ← ht] at htm
  exact List.mem_map.mpr ⟨t, List.mem_flatten.mpr ⟨_, hch, htm⟩, rfl⟩

/-- What follows the fit without exposures. -/
def plainEnd {V W : Type} (C : WholeCfg Val K) (night : Option Val) (r : Nat) (_q : List (List (Row Val)))
    (l : List (ReadSpec K)) (w : FullState K × List (Spectrum K) × Nat × Bool) : Prog V W (WholeOut Val K) :=
  (Prog.ofExcept (C.save r (C.finish (SelectCfg.setSpecs l w.2.1)))).bind fun fl =>
    .ret ⟨night, w.2.2.1, w.2.2.2, C.finish (SelectCfg.setSpecs l w.2.1), fl⟩

/-- What follows the fit with exposures. -/
def exposureEnd {V W : Type} (C : ExposureCfg Val K) (night : Option Val) (r : Nat) (q : List (List (Row Val)))
    (l : List (ReadSpec K)) (w : FullState K × List (Spectrum K) × Nat × Bool) : Prog V W (WholeOut Val K) :=
  (ofExcept (C.exposuresAfter (q.flatten.map C.run.tid)
    ((SelectCfg.setSpecs l w.2.1).filter (fun x => x.spec.valid)))).bind fun e =>
  (ofExcept (C.run.save r (C.clean e))).bind fun files =>
  .ret ⟨night, w.2.2.1, w.2.2.2, C.clean e, files⟩

theorem plainEnd_eq {V W : Type} (C : WholeCfg Val K) {c : Catalog Val} {f : Val → List (ReadSpec K)}
    {u : Spectrum K → Spectrum K} {night : Option Val} {r j : Nat} {b : Bool} {gf : FullState K}
    {q : List (List (Row Val))} {files : List (DeltaName Val × List (SavedSpec Val (ReadSpec K)))}
    (D : List (ReadSpec K)) (hD : D = (fittedRank C c f u q).map
      (fun x => { x with spec := x.spec.dropShortArms C.sel.forestW1 C.sel.forestW2 C.sel.skip }))
    (hf : C.save r D = .ok files) :
    (plainEnd C night r q (prepQueue C c f q) (gf, ((prepQueue C c f q).map (·.spec)).map u, j, b) :
      Prog V W (WholeOut Val K)) = .ret ⟨night, j, b, D, files⟩ := by
  unfold plainEnd
  dsimp only
  have e : C.finish (SelectCfg.setSpecs (prepQueue C c f q) (((prepQueue C c f q).map (·.spec)).map u)) = D := by
    rw [setSpecs_map, hD]
    rfl
  rw [e, hf]
  rfl

theorem exposureEnd_eq {V W : Type} (C : ExposureCfg Val K) {c : Catalog Val} {f : Val → List (ReadSpec K)}
    {u : Spectrum K → Spectrum K} {night : Option Val} {r j : Nat} {b : Bool} {gf : FullState K}
    {q : List (List (Row Val))} :
    (exposureEnd C night r q (prepQueue C.run c f q) (gf, ((prepQueue C.run c f q).map (·.spec)).map u, j, b) :
      Prog V W (WholeOut Val K)) =
    fin ((C.exposuresAfter (q.flatten.map C.run.tid) (fittedRank C.run c f u q)).bind fun e =>
      (C.run.save r (C.clean e)).bind fun files => .ok ⟨night, j, b, C.clean e, files⟩) := by
  unfold exposureEnd
  dsimp only
  rw [setSpecs_map]
  change (ofExcept (C.exposuresAfter (q.flatten.map C.run.tid) (fittedRank C.run c f u q))).bind _ = _
  cases C.exposuresAfter (q.flatten.map C.run.tid) (fittedRank C.run c f u q) with
  | error e => rfl
  | ok e =>
    change (ofExcept (C.run.save r (C.clean e))).bind _ = fin ((C.run.save r (C.clean e)).bind _)
    cases C.run.save r (C.clean e) with
    | error e => rfl
    | ok fl => rfl

theorem done_ok_inv {A W : Type} {outs : List A} {m : Nat} {a : Nat → A} {w w' : W}
    (e : (Outcome.done (outs.map (Except.ok (ε := Err))), w) = (Outcome.done ((List.range (m + 1)).map (fun r =>
      Except.ok (a r))), w')) : outs = (List.range (m + 1)).map a ∧ w = w' := by
  injection e with e1 e2
  injection e1 with e1
  refine ⟨?_, e2⟩
  have : (List.range (m + 1)).map (fun r => Except.ok (ε := Err) (a r)) = ((List.range (m + 1)).map a).map .ok := by
    rw [List.map_map]
    rfl
  rw [this] at e1
  exact List.map_injective_iff.mpr (fun a b h => by injection h) e1

end
end Verif.Proofs

import Verif.Proofs.CatalogRun
import Verif.Proofs.TailRun
import Verif.Spec.AllRun

/-!
# Lemmas: a run with all steps after the fit
-/

set_option linter.unusedSectionVars false

namespace Verif.Proofs
open Verif Verif.Np Verif.Model Verif.Model.Prog Verif.Spec Verif.Props FitRec Spectrum

section
variable {Val K : Type} [LinearOrder Val] [Field K] [LinearOrder K] [IsStrictOrderedRing K] [FloorRing K]

/-! ### The fit -/

/-- What a rank has before the fit. -/
abbrev Before (Val K : Type) : Type := Option Val × List (List (Row Val)) × List (ReadSpec K)

/-- What a rank has after the fit. -/
abbrev Fitted (Val K : Type) : Type := Before Val K × FullState K × List (FitRec K) × Nat × Bool

/-- A run up to the fit. -/
def beforeFit {V W : Type} (C : WholeCfg Val K) (cs : Codec Bool V) (cq : Codec (List (List (Row Val))) V)
    (cn : Codec Val V) (c : Catalog Val) (size r : Nat) : Prog V W (Before Val K) :=
  (mpiGetLocalQueue cs cq (.ok c) C.tile size r).bind fun q =>
  (C.blinding cn q).bind fun night =>
  (ofExcept (C.prepare q)).bind fun l => .ret (night, q, l)

/-- The fit. -/
def recFit {Q D V : Type} (C : CatalogCfg Val K) (P : FitterFns (FullState K) (Spectrum K) (StackSums K) Q D)
    (fc : FitterCodecs (StackSums K) Q V) (fname : String) (g0 : FullState K) (r : Nat) (x : Before Val K) :
    Prog V (SaverEv (String × D)) (Fitted Val K) :=
  ((C.run.fit.recFns C.cov P).iterate fc fname C.run.niter false r g0 (x.2.2.map C.start)).bind fun w => .ret (x, w)

/-- A run up to the end of the fit. -/
def fitPart {Q D V : Type} (C : CatalogCfg Val K) (P : FitterFns (FullState K) (Spectrum K) (StackSums K) Q D)
    (cs : Codec Bool V) (cq : Codec (List (List (Row Val))) V) (cn : Codec Val V) (fc : FitterCodecs (StackSums K) Q V)
    (c : Catalog Val) (fname : String) (g0 : FullState K) (size r : Nat) :
    Prog V (SaverEv (String × D)) (Fitted Val K) :=
  (beforeFit C.run cs cq cn c size r).bind (recFit C P fc fname g0 r)

omit [LinearOrder Val] [Field K] [LinearOrder K] [IsStrictOrderedRing K] [FloorRing K] in
theorem prog_bind_assoc {V W A B E : Type} (p : Prog V W A) (f : A → Prog V W B) (g : B → Prog V W E) :
    (p.bind f).bind g = p.bind (fun a => (f a).bind g) := by
  rw [bind_eq_seqE, bind_eq_seqE, seqE_assoc, bind_eq_seqE]
  congr 1
  funext x
  cases x with
  | ok a => exact (bind_eq_seqE _ _).symm
  | error e => rfl

theorem all_eq {Q D V : Type} (C : AllCfg Val K) (P : FitterFns (FullState K) (Spectrum K) (StackSums K) Q D)
    (cs : Codec Bool V) (cq : Codec (List (List (Row Val))) V) (cn : Codec Val V) (fc : FitterCodecs (StackSums K) Q V)
    (ck : Codec (List (ChiRow K)) V) (c : Catalog Val) (fname : String) (g0 : FullState K) (size r : Nat) :
    C.runAll P cs cq cn fc ck (.ok c) fname g0 size r =
      (fitPart C.cat P cs cq cn fc c fname g0 size r).bind
        (fun x : Fitted Val K => C.ending ck x.1.1 r x.1.2.1 x.1.2.2 x.2) := by
  unfold AllCfg.runAll fitPart beforeFit recFit
  simp only [prog_bind_assoc]
  rfl

theorem cat_eq {Q D V : Type} (C : CatalogCfg Val K) (P : FitterFns (FullState K) (Spectrum K) (StackSums K) Q D)
    (cs : Codec Bool V) (cq : Codec (List (List (Row Val))) V) (cn : Codec Val V) (fc : FitterCodecs (StackSums K) Q V)
    (ck : Codec (List (ChiRow K)) V) (c : Catalog Val) (fname : String) (g0 : FullState K) (size r : Nat) :
    C.runAll P cs cq cn fc ck (.ok c) fname g0 size r =
      (fitPart C P cs cq cn fc c fname g0 size r).bind
        (fun x : Fitted Val K => afterFit C ck x.1.1 x.1.2.2 r x.2) := by
  unfold CatalogCfg.runAll fitPart beforeFit recFit
  simp only [prog_bind_assoc, fitSave_eq]
  rfl

/-- Two layouts up to the end of the fit: the same function of the spectra with parameters. -/
theorem fitPart_sync {Q D V : Type} (C : CatalogCfg Val K) {c : Catalog Val} {f : Val → List (ReadSpec K)}
    {dw dr : K} (hC : PlainRun C.run dw dr) (hr : ReadsPixels C.run c f)
    (hS : Shapes C.run.fit C.cov) (hn0 : 0 < C.run.fit.rf.n)
    (P : FitterFns (FullState K) (Spectrum K) (StackSums K) Q D) (cs : Codec Bool V)
    (cq : Codec (List (List (Row Val))) V) (cn : Codec Val V) (fc : FitterCodecs (StackSums K) Q V)
    {ang2pix : Nat → Val → Val → Val} {file : Except Err (Catalog Val)} {isMock : Bool}
    {ks : Option (List Val)} {zmin zmax : Val}
    (h : readQuasarCatalog ang2pix file isMock C.run.tile ks zmin zmax = .ok c) (n n' : Nat)
    (hidle : IdleOk C.run ∨ (n + 1 ≤ (catPixels C.run.tile c).length ∧ n' + 1 ≤ (catPixels C.run.tile c).length))
    (fname : String) (g0 : FullState K) :
    ∃ (Q1 Q2 : Nat → List (List (Row Val))) (night : Option Val), Prepared C.run c f n Q1 ∧ Prepared C.run c f n' Q2 ∧
      ((∃ (j : Nat) (b : Bool) (u : FitRec K → FitRec K) (gf gf' : FullState K)
        (ev ev' : Nat → List (SaverEv (String × D))),
        (∀ y, GoodRec C.run.fit.order y → KeepsRec C.run.fit.order y (u y)) ∧
        Sync n (fun r => fitPart C P cs cq cn fc c fname g0 (n + 1) r)
          (fun r => .ok ((night, Q1 r, prepQueue C.run c f (Q1 r)),
            gf, ((prepQueue C.run c f (Q1 r)).map C.start).map u, j, b)) ev ∧
        Sync n' (fun r => fitPart C P cs cq cn fc c fname g0 (n' + 1) r)
          (fun r => .ok ((night, Q2 r, prepQueue C.run c f (Q2 r)),
            gf', ((prepQueue C.run c f (Q2 r)).map C.start).map u, j, b)) ev' ∧
        EndsWith P fname (ev 0) gf ∧ EndsWith P fname (ev' 0) gf') ∨
      (∃ ev : Nat → List (SaverEv (String × D)),
        Sync n (fun r => fitPart C P cs cq cn fc c fname g0 (n + 1) r) (fun _ => .error .qsonic) ev ∧
        Sync n' (fun r => fitPart C P cs cq cn fc c fname g0 (n' + 1) r) (fun _ => .error .qsonic) ev)) := by
  obtain ⟨Q1, night, hP1, na1, na2, ne, ns⟩ := sync_before (W := SaverEv (String × D)) (A := Before Val K) C.run hC
    hr cs cq cn h n (hidle.imp id And.left)
  obtain ⟨Q2, night', hP2, nb1, nb2, ne', ns'⟩ := sync_before (W := SaverEv (String × D)) (A := Before Val K) C.run
    hC hr cs cq cn h n' (hidle.imp id And.right)
  have hnn : night' = night := by
    by_cases hm : C.run.mock = true
    · rw [na1 hm, nb1 hm]
    · have hm : C.run.mock = false := by simpa using hm
      obtain ⟨m, rfl, hm1⟩ := na2 hm
      obtain ⟨m', rfl, hm2⟩ := nb2 hm
      rw [lastNight_unique hm1 hm2]
  subst hnn
  refine ⟨Q1, Q2, night', hP1, hP2, ?_⟩
  by_cases hbad : C.run.sel.bal = true ∧ balCheckCatalog C.run.cols ≠ .ok ()
  · refine .inr ⟨fun _ => [], ?_, ?_⟩
    · exact (ne hbad (fun night _ q l => .ret (night, q, l))).bind_error (fun r => recFit C P fc fname g0 r)
    · exact (ne' hbad (fun night _ q l => .ret (night, q, l))).bind_error (fun r => recFit C P fc fname g0 r)
  have ns1 := ns hbad (fun night _ q l => .ret (night, q, l)) _ _ (sync_ret n _)
  have ns2 := ns' hbad (fun night _ q l => .ret (night, q, l)) _ _ (sync_ret n' _)
  clear ne ne' ns ns'
  have hpool : ∀ (m : Nat) (Q : Nat → List (List (Row Val))), Prepared C.run c f m Q →
      (pooled m (fun r => (prepQueue C.run c f (Q r)).map C.start)).Perm
        (((((catPixels C.run.tile c).flatMap f).filter (fun x => decide (PassesCuts C.run.sel x))).map
          (prepOne C.run (c.rows.map C.run.tid))).map C.start) := by
    intro m Q hP
    unfold pooled
    rw [← List.map_flatMap]
    exact hP.perm.map _
  have hgood : ∀ y ∈ pooled n (fun r => (prepQueue C.run c f (Q1 r)).map C.start),
      PixelsInForest C.run.sel.wave1 C.run.sel.wave2 C.run.sel.forestW1 C.run.sel.forestW2 y.spec ∧
      GoodRec C.run.fit.order y := by
    intro y hy
    obtain ⟨p, hp, rfl⟩ := List.mem_map.mp ((hpool n Q1 hP1).mem_iff.mp hy)
    obtain ⟨x, hx, rfl⟩ := List.mem_map.mp hp
    obtain ⟨q, hq, hxq⟩ := List.mem_flatMap.mp (List.mem_filter.mp hx).1
    obtain ⟨a1, a2, a3⟩ := hr.data q hq x hxq
    obtain ⟨w, hw, e, -⟩ := hr.row q hq x hxq
    have hcut := of_decide_eq_true (List.mem_filter.mp hx).2
    have hb := fun hb => hr.coadd hb q hq x hxq
    obtain ⟨-, -, b3, -⟩ := prepOne_facts C.run hC ⟨a1, a2, a3⟩ hb
      (ids := c.rows.map C.run.tid) (List.mem_map.mpr ⟨w, (List.mem_filter.mp hw).1, e⟩) hcut
    exact ⟨prepOne_inForest C.run hC _ ⟨a1, a2, a3⟩ hb hcut, start_keeps _ _, b3⟩
  rcases rec_pool hS hn0 hC.obs hC.obsPos hC.rf hC.rfPos P fc n n' g0 _ _
    ((hpool n Q1 hP1).trans (hpool n' Q2 hP2).symm) hgood fname C.run.niter with
    ⟨k, b, u, gf, gf', exts, tail, tail', s1, s2, -, -, ⟨ht, ht'⟩, hu⟩ | ⟨e, s1, s2⟩
  · have h1 := ns1.bind (f := fun r => recFit C P fc fname g0 r)
        (s1.bind (f := fun r w => .ret ((night', Q1 r, prepQueue C.run c f (Q1 r)), w)) (sync_ret n _))
    have h2 := ns2.bind (f := fun r => recFit C P fc fname g0 r)
        (s2.bind (f := fun r w => .ret ((night', Q2 r, prepQueue C.run c f (Q2 r)), w)) (sync_ret n' _))
    have hend : ∀ g : FullState K,
        EndsWith P fname ([] ++ ((if 0 = 0 ∧ fname ≠ "" then [.create fname] ++
          (exts ++ ((C.run.fit.recFns C.cov P).saveExts true "-fit" g ++
            [("VAR_STATS", (C.run.fit.recFns C.cov P).dataStats g)])).map (.write fname) ++ [.close fname] else []) ++ [])) g := by
      intro g hne
      rw [if_pos ⟨rfl, hne⟩]
      exact ⟨.create fname :: (exts.map (.write fname) ++ [.write fname ("CONT-fit", P.dataCont g),
        .write fname ("STACKED_FLUX-fit", P.dataFlux g), .write fname ("STACKED_FLUX_RF-fit", P.dataFluxRf g)]),
        by simp [FitterFns.saveExts, FullCfg.recFns]⟩
    subst ht ht'
    exact .inl ⟨k, b, u, gf, gf', _, _, hu, h1, h2, hend gf, hend gf'⟩
  · refine .inr ⟨fun r => [] ++ (if r = 0 ∧ fname ≠ "" then e else []), ?_, ?_⟩
    · exact ns1.bind (f := fun r => recFit C P fc fname g0 r)
        (s1.bind_error (fun r w => .ret ((night', Q1 r, prepQueue C.run c f (Q1 r)), w)))
    · exact ns2.bind (f := fun r => recFit C P fc fname g0 r)
        (s2.bind_error (fun r w => .ret ((night', Q2 r, prepQueue C.run c f (Q2 r)), w)))

omit [LinearOrder Val] [Field K] [LinearOrder K] [IsStrictOrderedRing K] [FloorRing K] in
/-- A rank that raises after a part in which all ranks take part. -/
theorem main_abort_at {V W A B : Type} {n : Nat} {P : Nat → Prog V W A} {a : Nat → A} {M : Nat → List W}
    (h : Sync n P (fun r => .ok (a r)) M) (f : Nat → A → Prog V W B) {r : Nat} (hr : r ≤ n) {e : Err}
    (he : Unexpected e) (hf : f r (a r) = .raise e) :
    (runJob n (fun r => mainProg ((P r).bind (f r)))).1 = .aborted := by
  rw [runJob_eq_runFam]
  unfold mainProg
  simp only [catch_eq_seqE, bind_eq_seqE, seqE_assoc]
  rw [h B (fun r x => seqE (onOk (f r) x) (onErr mainHandler))]
  refine runFam_abort n _ _ ⟨r, hr, ?_⟩
  change (peel (seqE (f r (a r)) (onErr mainHandler))).2 = _
  rw [hf]
  change (peel (mainHandler e)).2 = _
  rw [handler_abort he]
  rfl

/-! ### The spectra after the fit -/

/-- The spectra of the catalog after the fit `U`. -/
def recFitted (C : WholeCfg Val K) (c : Catalog Val) (f : Val → List (ReadSpec K)) (U : ReadSpec K → Spectrum K) :
    List (ReadSpec K) :=
  ((((((catPixels C.tile c).flatMap f).filter (fun x => decide (PassesCuts C.sel x))).map
      (prepOne C (c.rows.map C.tid))).map (fun x => { x with spec := U x })).filter (fun x => x.spec.valid))

/-- Those of a rank. -/
def recRank (C : WholeCfg Val K) (c : Catalog Val) (f : Val → List (ReadSpec K)) (U : ReadSpec K → Spectrum K)
    (Q : List (List (Row Val))) : List (ReadSpec K) :=
  ((prepQueue C c f Q).map (fun x => { x with spec := U x })).filter (fun x => x.spec.valid)

theorem recFitted_ok (C : WholeCfg Val K) (S : SelectCfg K) (rd : List (Row Val) → Except Err (List (ReadSpec K)))
    (cr : Int → Row Val) {c : Catalog Val} {f : Val → List (ReadSpec K)}
    {fe : List (Row Val) → List (ReadSpec K)} (ht : C.tile = false) (hr : ReadsPixels C c f)
    (he : ReadsExposures ⟨{ C with sel := S }, rd, cr⟩ c f fe) (U : ReadSpec K → Spectrum K) :
    FittedSpectra ⟨{ C with sel := S }, rd, cr⟩ c (recFitted C c f U) := by
  have hrow : ∀ p ∈ catPixels false c, ∀ x ∈ f p, cr x.row.targetid ∈ c.rows ∧
      C.tid (cr x.row.targetid) = x.row.targetid ∧ C.pix x.row.targetid = cr x.row.targetid "HPXPIXEL" ∧
      C.pix x.row.targetid = p := by
    intro p hp x hx
    obtain ⟨r, h1, h2, h3⟩ := hr.row p (by rw [ht]; exact hp) x hx
    rw [ht] at h1
    obtain ⟨h1, h4⟩ := List.mem_filter.mp h1
    have h4 : r "HPXPIXEL" = p := of_decide_eq_true h4
    have : cr (C.tid r) = r := he.catrow r h1
    rw [h2] at this
    rw [this]
    exact ⟨h1, h2, h3, h3.trans h4⟩
  have hmem : ∀ x ∈ recFitted C c f U, ∃ p ∈ catPixels false c, ∃ y ∈ f p, y.row = x.row := by
    intro x hx
    unfold recFitted at hx
    obtain ⟨y, hy, rfl⟩ := List.mem_map.mp (List.mem_filter.mp hx).1
    obtain ⟨z, hz, rfl⟩ := List.mem_map.mp hy
    obtain ⟨p, hp, hz⟩ := List.mem_flatMap.mp (List.mem_filter.mp hz).1
    rw [ht] at hp
    exact ⟨p, hp, z, hz, (prepOne_row C _ z).symm⟩
  refine ⟨?_, ?_⟩
  · have hall : (((catPixels false c).flatMap f).map (fun x => x.row.targetid)).Nodup := by
      rw [List.map_flatMap, List.nodup_flatMap]
      refine ⟨fun p hp => he.one p hp, ?_⟩
      refine (List.nodup_dedup (c.rows.map (fun r => r (splitCol false)))).imp_of_mem ?_
      intro p p' hp hp' hne t h1 h2
      obtain ⟨x, hx, rfl⟩ := List.mem_map.mp h1
      obtain ⟨y, hy, e⟩ := List.mem_map.mp h2
      have h1 := (hrow p hp x hx).2.2.2
      have h2 := (hrow p' hp' y hy).2.2.2
      rw [← e] at h1
      exact hne (h1.symm.trans h2)
    unfold recFitted
    rw [ht]
    refine List.Nodup.sublist (List.filter_sublist.map _) ?_
    rw [List.map_map, List.map_map]
    have : ((fun x : ReadSpec K => x.row.targetid) ∘ (fun x : ReadSpec K => { x with spec := U x })) ∘
        prepOne C (c.rows.map C.tid) = fun x => x.row.targetid := by
      funext x
      change (prepOne C (c.rows.map C.tid) x).row.targetid = _
      rw [prepOne_row]
    rw [this]
    exact hall.sublist (List.filter_sublist.map _)
  · intro x hx
    obtain ⟨p, hp, y, hy, e⟩ := hmem x hx
    obtain ⟨a1, a2, a3, -⟩ := hrow p hp y hy
    rw [← e]
    exact ⟨a1, a2, a3⟩

theorem recRank_perm (C : WholeCfg Val K) {c : Catalog Val} {f : Val → List (ReadSpec K)} {n : Nat}
    {Q : Nat → List (List (Row Val))} (hP : Prepared C c f n Q) (U : ReadSpec K → Spectrum K) :
    ((List.range (n + 1)).flatMap (fun r => recRank C c f U (Q r))).Perm (recFitted C c f U) := by
  unfold recRank recFitted
  rw [← List.filter_flatMap, ← List.map_flatMap]
  exact (hP.perm.map _).filter _

theorem recRank_pix (C : WholeCfg Val K) {c : Catalog Val} {f : Val → List (ReadSpec K)} {n : Nat}
    {Q : Nat → List (List (Row Val))} (hP : Prepared C c f n Q) (ht : C.tile = false) (U : ReadSpec K → Spectrum K) :
    ∀ i ≤ n, ∀ j ≤ n, i ≠ j → ∀ x ∈ recRank C c f U (Q i), ∀ y ∈ recRank C c f U (Q j),
      C.pix x.row.targetid ≠ C.pix y.row.targetid := by
  intro i hi j hj hij x hx y hy
  obtain ⟨x', hx', rfl⟩ := List.mem_map.mp (List.mem_filter.mp hx).1
  obtain ⟨y', hy', rfl⟩ := List.mem_map.mp (List.mem_filter.mp hy).1
  exact hP.pix ht i hi j hj hij x' hx' y' hy'

theorem recRank_part (C : WholeCfg Val K) (S : SelectCfg K) (rd : List (Row Val) → Except Err (List (ReadSpec K)))
    (cr : Int → Row Val) {c : Catalog Val} {f : Val → List (ReadSpec K)} {n : Nat}
    {Q : Nat → List (List (Row Val))} (hP : Prepared C c f n Q) (ht : C.tile = false)
    (U : ReadSpec K → Spectrum K) (hF : FittedSpectra ⟨{ C with sel := S }, rd, cr⟩ c (recFitted C c f U)) {r : Nat}
    (hr : r ≤ n) : RankPart ⟨{ C with sel := S }, rd, cr⟩ (recFitted C c f U) (recRank C c f U (Q r)) := by
  have hp := recRank_perm C hP U
  have hrange : r ∈ List.range (n + 1) := by simp; omega
  refine ⟨fun x hx => hp.mem_iff.mp (List.mem_flatMap.mpr ⟨r, hrange, hx⟩), ?_, ?_⟩
  · have := ((hp.map (fun x => x.row.targetid)).nodup_iff).mpr hF.nodup
    rw [List.map_flatMap, List.nodup_flatMap] at this
    exact this.1 r hrange
  · intro x hx y hy e
    obtain ⟨i, hi, hyi⟩ := List.mem_flatMap.mp (hp.mem_iff.mpr hy)
    by_cases h : r = i
    · rw [h]
      exact hyi
    · exact absurd e (recRank_pix C hP ht U r hr i (by simp at hi; omega) h x hx y hyi)

theorem recRank_ids (C : WholeCfg Val K) {c : Catalog Val} {f : Val → List (ReadSpec K)} {n : Nat}
    {Q : Nat → List (List (Row Val))} (hP : Prepared C c f n Q) (ht : C.tile = false) (hr : ReadsPixels C c f)
    (U : ReadSpec K → Spectrum K) {r : Nat} (hrn : r ≤ n) : ∀ x ∈ recRank C c f U (Q r),
    ∀ t ∈ catPixelRows false c (C.pix x.row.targetid), C.tid t ∈ (Q r).flatten.map C.tid := by
  intro x hx t htm
  obtain ⟨y, hy, rfl⟩ := List.mem_map.mp (List.mem_filter.mp hx).1
  obtain ⟨z, hz, rfl⟩ := List.mem_map.mp hy
  obtain ⟨ch, hch, hz⟩ := List.mem_flatMap.mp (List.mem_filter.mp hz).1
  obtain ⟨p, hp, rfl⟩ := hP.chunk r hrn ch hch
  rw [chunkSpectra_eq f hp] at hz
  obtain ⟨s, hs, -, h3⟩ := hr.row p hp z hz
  have h4 : s (splitCol C.tile) = p := of_decide_eq_true (List.mem_filter.mp hs).2
  rw [ht] at h4
  have hpz : C.pix z.row.targetid = p := h3.trans h4
  change t ∈ catPixelRows false c (C.pix (prepOne C (c.rows.map C.tid) z).row.targetid) at htm
  rw [prepOne_row, hpz, ← ht] at htm
  exact List.mem_map.mpr ⟨t, List.mem_flatten.mpr ⟨_, hch, htm⟩, rfl⟩

/-! ### Other spectra of the same targets -/

/-- The spectra with other forests. -/
def withSpec (t : Spectrum K → Spectrum K) (x : ReadSpec K) : ReadSpec K := { x with spec := t x.spec }

theorem withSpec_ids (t : Spectrum K → Spectrum K) (F : List (ReadSpec K)) :
    (F.map (withSpec t)).map (fun x => x.row.targetid) = F.map (fun x => x.row.targetid) := by
  rw [List.map_map]
  rfl

theorem FittedSpectra.with {E : ExposureCfg Val K} {c : Catalog Val} {F : List (ReadSpec K)}
    (h : FittedSpectra E c F) (t : Spectrum K → Spectrum K) : FittedSpectra E c (F.map (withSpec t)) := by
  refine ⟨by rw [withSpec_ids]; exact h.nodup, fun x hx => ?_⟩
  obtain ⟨y, hy, rfl⟩ := List.mem_map.mp hx
  exact h.row y hy

theorem RankPart.with {E : ExposureCfg Val K} {F l : List (ReadSpec K)} (h : RankPart E F l)
    (t : Spectrum K → Spectrum K) : RankPart E (F.map (withSpec t)) (l.map (withSpec t)) := by
  refine ⟨fun x hx => ?_, by rw [withSpec_ids]; exact h.nodup, fun x hx y hy e => ?_⟩
  · obtain ⟨y, hy, rfl⟩ := List.mem_map.mp hx
    exact List.mem_map.mpr ⟨y, h.sub y hy, rfl⟩
  · obtain ⟨x', hx', rfl⟩ := List.mem_map.mp hx
    obtain ⟨y', hy', rfl⟩ := List.mem_map.mp hy
    exact List.mem_map.mpr ⟨y', h.closed x' hx' y' hy' e, rfl⟩

/-! ### The list of all spectra -/

/-- What the steps do to one spectrum with parameters. -/
def recTail (t : Spectrum K → Spectrum K) (y : FitRec K) : FitRec K :=
  if y.spec.valid then { y with spec := t y.spec } else y

theorem putBack_map (t : Spectrum K → Spectrum K) (l : List (FitRec K)) :
    putBack l (((l.filter (fun x => x.spec.valid)).map (·.spec)).map t) = l.map (recTail t) := by
  induction l with
  | nil => rfl
  | cons x l ih =>
    by_cases h : x.spec.valid = true
    · rw [List.filter_cons_of_pos (by simpa using h), List.map_cons, List.map_cons, List.map_cons]
      unfold putBack
      rw [if_pos h, ih]
      unfold recTail
      rw [if_pos h]
    · rw [List.filter_cons_of_neg (by simpa using h), List.map_cons]
      have : putBack (x :: l) (((l.filter (fun x => x.spec.valid)).map (·.spec)).map t) =
          x :: putBack l (((l.filter (fun x => x.spec.valid)).map (·.spec)).map t) := by
        generalize ((l.filter (fun x => x.spec.valid)).map (·.spec)).map t = ts
        cases ts with
        | nil => rfl
        | cons a ts => rw [putBack, if_neg h]
      rw [this, ih]
      congr 1
      unfold recTail
      rw [if_neg h]

theorem valid_specs (C : CatalogCfg Val K) {c : Catalog Val} {f : Val → List (ReadSpec K)} (u : FitRec K → FitRec K)
    (q : List (List (Row Val))) :
    ((((prepQueue C.run c f q).map C.start).map u).filter (fun x => x.spec.valid)).map (·.spec) =
      (recRank C.run c f (fun p => (u (C.start p)).spec) q).map (·.spec) := by
  unfold recRank
  rw [List.map_map, List.filter_map, List.filter_map, List.map_map, List.map_map]
  rfl

theorem keptTail_eq (C : CatalogCfg Val K) {c : Catalog Val} {f : Val → List (ReadSpec K)} (u : FitRec K → FitRec K)
    (t : Spectrum K → Spectrum K) (q : List (List (Row Val))) :
    AllCfg.kept (prepQueue C.run c f q) (((prepQueue C.run c f q).map C.start).map u)
      (((recRank C.run c f (fun p => (u (C.start p)).spec) q).map (·.spec)).map t) =
      (recRank C.run c f (fun p => (u (C.start p)).spec) q).map (withSpec t) := by
  have hset : ∀ l : List (ReadSpec K), SelectCfg.setSpecs l (((l.map C.start).map u).map (·.spec)) =
      l.map (fun x => { x with spec := (u (C.start x)).spec }) := by
    intro l
    unfold SelectCfg.setSpecs
    induction l with
    | nil => rfl
    | cons x l ih => rw [List.map_cons, List.map_cons, List.map_cons, List.zipWith_cons_cons, ih, List.map_cons]
  unfold AllCfg.kept
  rw [hset]
  exact setSpecs_map _ t


/-! ### Fields after the steps -/

/-- The fields that the noise calibration does not change. -/
def plainOf (s : Spectrum K) : Bool × K × Dict K × K := (s.valid, s.z, s.meanSnr, s.chi2)

theorem additive_plain (eta varlss : K → K) (l : List (String × List K)) :
    ∀ {s t : Spectrum K}, l.foldlM (additiveArm eta varlss) s = .ok t → plainOf t = plainOf s := by
  induction l with
  | nil =>
    intro s t h
    obtain rfl := Except.ok.inj h
    rfl
  | cons x l ih =>
    intro s t h
    rw [List.foldlM_cons] at h
    unfold additiveArm at h
    cases hc : s.cont.lookup x.1 with
    | none => rw [hc] at h; cases h
    | some a =>
      rw [hc] at h
      exact (ih h).trans rfl

theorem eta_plain (eta : K → K) (l : List (String × List K)) (s : Spectrum K) :
    plainOf (l.foldl (etaArm eta) s) = plainOf s := by
  induction l generalizing s with
  | nil => rfl
  | cons x l ih => exact (ih _).trans rfl

theorem reweigh_plain (T : TailFns K) (v e : K → K) (s : Spectrum K) : plainOf (reweigh T v e s) = plainOf s := by
  have h1 : ∀ x : Spectrum K, plainOf (x.setForestWeight v e) = plainOf x := by
    intro x
    unfold Spectrum.setForestWeight
    split <;> rfl
  have h2 : ∀ x : Spectrum K, plainOf (x.setSmoothForestivar T.smooth s.smoothing) = plainOf x := by
    intro x
    unfold Spectrum.setSmoothForestivar
    split <;> rfl
  unfold reweigh
  rw [h1, h2]

theorem noise_plain {T : TailFns K} {v e : K → K} {ncal : Option (NoiseCal K)} {s t : Spectrum K}
    (h : noiseTail T v e ncal s = .ok t) : plainOf t = plainOf s := by
  unfold noiseTail at h
  cases ncal with
  | none =>
    obtain rfl := Except.ok.inj h
    rfl
  | some c =>
    dsimp only at h
    cases hn : noiseOne c s with
    | error e => rw [hn] at h; cases h
    | ok a =>
      rw [hn] at h
      obtain rfl := Except.ok.inj h
      rw [reweigh_plain]
      unfold noiseOne at hn
      split at hn
      · split at hn
        · cases hn
        · exact additive_plain _ _ _ hn
      · obtain rfl := Except.ok.inj hn
        exact eta_plain _ _ _

theorem coadd_plain {T : TailFns K} {v e : K → K} {s t : Spectrum K} (h : tailCoaddOne T v e s = .ok t) :
    t.valid = s.valid ∧ t.z = s.z ∧ ∃ y, t.meanSnr = [("brz", y)] := by
  unfold tailCoaddOne at h
  cases hc : s.coaddArmsForest T.sqrt T.smooth T.junk T.nan T.eps v e with
  | error e => rw [hc] at h; cases h
  | ok u =>
    rw [hc] at h
    obtain rfl := Except.ok.inj h
    obtain ⟨w, fl, iv, co, re, x, rfl⟩ := coadd_shape hc
    have h0 : ∀ x : Spectrum K, x.calcContinuumChi2.valid = x.valid ∧ x.calcContinuumChi2.z = x.z ∧
        x.calcContinuumChi2.meanSnr = x.meanSnr := by
      intro x
      unfold Spectrum.calcContinuumChi2
      split <;> exact ⟨rfl, rfl, rfl⟩
    obtain ⟨a1, a2, a3⟩ := h0 ((((s.replaceForest w fl iv co re).setSmoothForestivar T.smooth
        s.smoothing).setForestWeight v e).withSnr x)
    have h1 : ∀ y : Spectrum K, plainOf (y.setForestWeight v e) = plainOf y := by
      intro x
      unfold Spectrum.setForestWeight
      split <;> rfl
    have h2 : ∀ y : Spectrum K, plainOf (y.setSmoothForestivar T.smooth s.smoothing) = plainOf y := by
      intro x
      unfold Spectrum.setSmoothForestivar
      split <;> rfl
    have h3 : plainOf (((s.replaceForest w fl iv co re).setSmoothForestivar T.smooth s.smoothing).setForestWeight v e) =
        plainOf s := by
      rw [h1, h2]
      rfl
    refine ⟨a1.trans ?_, a2.trans ?_, x, a3⟩
    · exact congrArg (fun p : Bool × K × Dict K × K => p.1) h3
    · exact congrArg (fun p : Bool × K × Dict K × K => p.2.1) h3

/-- The fields of a spectrum after the steps. -/
theorem tail_fields {T : TailFns K} {ncal : Option (NoiseCal K)} {after : Bool} {v e : K → K} {s t : Spectrum K}
    (h : tailOne T ncal after v e s = .ok t) : t.valid = s.valid ∧ t.z = s.z ∧
      (after = false → t.meanSnr = s.meanSnr ∧ t.chi2 = s.chi2) ∧
      (after = true → ∃ y, t.meanSnr = [("brz", y)]) := by
  unfold tailOne at h
  cases hn : noiseTail T v e ncal s with
  | error e => rw [hn] at h; cases h
  | ok m =>
    rw [hn] at h
    have hp := noise_plain hn
    have p1 : m.valid = s.valid := congrArg (fun p : Bool × K × Dict K × K => p.1) hp
    have p2 : m.z = s.z := congrArg (fun p : Bool × K × Dict K × K => p.2.1) hp
    have p3 : m.meanSnr = s.meanSnr := congrArg (fun p : Bool × K × Dict K × K => p.2.2.1) hp
    have p4 : m.chi2 = s.chi2 := congrArg (fun p : Bool × K × Dict K × K => p.2.2.2) hp
    change coaddTail T v e after m = .ok t at h
    cases after with
    | false =>
      obtain rfl := Except.ok.inj h
      exact ⟨p1, p2, fun _ => ⟨p3, p4⟩, fun h => nomatch h⟩
    | true =>
      obtain ⟨q1, q2, q3⟩ := coadd_plain (h : tailCoaddOne T v e m = .ok t)
      exact ⟨q1.trans p1, q2.trans p2, (fun h => nomatch h), fun _ => q3⟩

/-! ### Exposures -/

/-- A spectrum with another chi square. -/
def setChi2 (k : K) (s : Spectrum K) : Spectrum K := { s with chi2 := k }

theorem assign_chi2 (arm : String) (i1 : Nat) (i2 : Int) (cont : List K) (k : K) (s : Spectrum K) :
    assignCont arm i1 i2 cont (setChi2 k s) = setChi2 k (assignCont arm i1 i2 cont s) := by
  have hsl : ∀ i j, (setChi2 k s).slice' arm i j = setChi2 k (s.slice' arm i j) := by
    intro i j
    unfold Spectrum.slice'
    by_cases hc : i = 0 ∧ j = (s.fwave.arr arm).length
    · rw [if_pos hc, if_pos (show i = 0 ∧ j = ((setChi2 k s).fwave.arr arm).length from hc)]
    · rw [if_neg hc, if_neg (show ¬(i = 0 ∧ j = ((setChi2 k s).fwave.arr arm).length) from hc)]
      have h1 : ∀ x : Spectrum K, (setChi2 k x).sliceSm arm i j = setChi2 k (x.sliceSm arm i j) := by
        intro x
        unfold Spectrum.sliceSm
        cases hx : x.ivarSm <;> simp [setChi2, hx]
      have h2 : ∀ x : Spectrum K, (setChi2 k x).sliceWeight arm i j = setChi2 k (x.sliceWeight arm i j) := by
        intro x
        unfold Spectrum.sliceWeight
        change (match x.weight with | none => (setChi2 k x).sliceSm arm i j | some d => _) = _
        cases x.weight with
        | none => exact h1 x
        | some d => rfl
      have h3 := h1 (((s.sliceWave arm i j).sliceFlux arm i j).sliceIvar arm i j)
      have h4 := h2 ((((s.sliceWave arm i j).sliceFlux arm i j).sliceIvar arm i j).sliceSm arm i j)
      rw [← h3] at h4
      change Spectrum.sliceCont (Spectrum.sliceReso (((setChi2 k (((s.sliceWave arm i j).sliceFlux arm i j).sliceIvar arm i
        j)).sliceSm arm i j).sliceWeight arm i j) arm i j) arm i j = _
      rw [h4]
      rfl
  have gen : ∀ a b : Spectrum K, a = setChi2 k b → ({ a with
      cont := a.cont.set arm cont
      valid := a.valid && decide ((a.fwave.arr arm).length = cont.length) } : Spectrum K) = setChi2 k { b with
      cont := b.cont.set arm cont
      valid := b.valid && decide ((b.fwave.arr arm).length = cont.length) } := by
    rintro _ b rfl
    rfl
  exact gen _ _ (hsl _ _)

/-- The continuum put on an exposure depends on nothing of the fitted spectrum that depends on the variance functions,
but its chi square. -/
theorem match_same {a b : Spectrum K} (h : SameCore a b) (s : Spectrum K) :
    SameResult (fun x y => y = setChi2 b.chi2 x) (matchExposure a s) (matchExposure b s) := by
  unfold matchExposure
  refine foldlM_same (R := Eq) (fun x y p p' hxy hp => ?_) (List.forall₂_same.mpr fun _ _ => rfl) ?_
  · subst hxy hp
    unfold matchArm
    rw [← h.fwave, ← h.cont]
    cases a.fwave.lookup p.1 with
    | none => exact rfl
    | some w =>
      dsimp only
      refine sameResult_bind (SameResult.refl_eq _) ?_
      rintro i _ rfl
      refine sameResult_bind (SameResult.refl_eq _) ?_
      rintro k _ rfl
      exact assign_chi2 _ _ _ _ _ _
  · rw [← h.valid, ← h.x0]
    rfl

theorem drop_setChi2 (k : K) (s : Spectrum K) (a b c : K) :
    (setChi2 k s).dropShortArms a b c = setChi2 k (s.dropShortArms a b c) := by
  change (shortArms s a b c).foldl Spectrum.dropArm (setChi2 k s) = setChi2 k ((shortArms s a b c).foldl Spectrum.dropArm s)
  generalize shortArms s a b c = l
  induction l generalizing s with
  | nil => rfl
  | cons k' l ih => exact ih (s.dropArm k')

theorem match_chi2 (a s t : Spectrum K) (h : matchExposure a s = .ok t) : t.chi2 = a.chi2 := by
  unfold matchExposure at h
  have key : ∀ (l : List (String × List K)) (x y : Spectrum K),
      l.foldlM (fun t x => matchArm a t x.1 x.2) x = .ok y → y.chi2 = x.chi2 := by
    intro l
    induction l with
    | nil =>
      intro x y h
      obtain rfl := Except.ok.inj h
      rfl
    | cons p l ih =>
      intro x y h
      rw [List.foldlM_cons] at h
      cases hm : matchArm a x p.1 p.2 with
      | error e => rw [hm] at h; cases h
      | ok z =>
        rw [hm] at h
        refine (ih z y h).trans ?_
        unfold matchArm at hm
        split at hm
        · cases hm
        · cases h1 : matchIdx x.dwave p.2 (by assumption) with
          | error e => rw [h1] at hm; cases hm
          | ok i =>
            rw [h1] at hm
            cases h2 : dictGet a.cont p.1 with
            | error e => rw [h2] at hm; cases hm
            | ok k =>
              rw [h2] at hm
              obtain rfl := Except.ok.inj hm
              have := assign_chi2 p.1 i.1 i.2.1 (slice k i.2.2.1 (pyStop k.length i.2.2.2)) x.chi2 x
              exact (congrArg Spectrum.chi2 this).trans rfl
  exact (key _ _ _ h).trans rfl

/-! ### What follows the fit -/

/-- The catalog of a job. -/
def tailTable (C : CatalogCfg Val K) (c : Catalog Val) (f : Val → List (ReadSpec K)) (u : FitRec K → FitRec K)
    (t : Spectrum K → Spectrum K) (n : Nat) (Q : Nat → List (List (Row Val))) : List (ChiRow K) :=
  (List.range (n + 1)).flatMap (fun q => (prepQueue C.run c f (Q q)).map
    (fun p => rowOf (C.run.fit.order + 1) q (recTail t (u (C.start p))).chi))

/-- What a rank gives at the end. -/
def endOf (C : AllCfg Val K) (night : Option Val) (j : Nat) (b : Bool) (table : Option (List (ChiRow K))) (r : Nat)
    (e : Except Err (List (ReadSpec K))) : Except Err (CatalogOut Val K) :=
  e.bind fun e => (C.cat.run.save r (C.clean e)).bind fun files => .ok ⟨⟨night, j, b, C.clean e, files⟩, table⟩

theorem good_start (C : CatalogCfg Val K) {c : Catalog Val} {f : Val → List (ReadSpec K)} {dw dr : K}
    (hC : PlainRun C.run dw dr) (hr : ReadsPixels C.run c f) {n : Nat} {Q : Nat → List (List (Row Val))}
    (hP : Prepared C.run c f n Q)
    (harm : ∀ p ∈ catPixels C.run.tile c, ∀ x ∈ f p, PassesCuts C.run.sel x →
      (inputSnrs C.run.sel x.spec).length ≤ 3) {r : Nat} (hrn : r ≤ n) {p : ReadSpec K}
    (hp : p ∈ prepQueue C.run c f (Q r)) :
    GoodRec C.run.fit.order (C.start p) ∧ p.spec.meanSnr.length ≤ 3 := by
  obtain ⟨x, hx, rfl⟩ := List.mem_map.mp
    (hP.perm.mem_iff.mp (List.mem_flatMap.mpr ⟨r, List.mem_range.mpr (by omega), hp⟩))
  obtain ⟨q, hq, hxq⟩ := List.mem_flatMap.mp (List.mem_filter.mp hx).1
  obtain ⟨a1, a2, a3⟩ := hr.data q hq x hxq
  obtain ⟨w, hw, e, -⟩ := hr.row q hq x hxq
  have hcut := of_decide_eq_true (List.mem_filter.mp hx).2
  obtain ⟨b1, b2, b3, -⟩ := prepOne_facts C.run hC ⟨a1, a2, a3⟩ (fun hb => hr.coadd hb q hq x hxq)
    (ids := c.rows.map C.run.tid) (List.mem_map.mpr ⟨w, (List.mem_filter.mp hw).1, e⟩) hcut
  refine ⟨⟨start_keeps _ _, b3⟩, ?_⟩
  rw [← List.length_map (f := Prod.snd), b2]
  exact harm q hq x hxq hcut

theorem rank_mem (C : WholeCfg Val K) {c : Catalog Val} {f : Val → List (ReadSpec K)} {n : Nat}
    {Q : Nat → List (List (Row Val))} (hP : Prepared C c f n Q) (U : ReadSpec K → Spectrum K) {r : Nat} (hr : r ≤ n) :
    ∀ x ∈ recRank C c f U (Q r), x ∈ recFitted C c f U := fun x hx =>
  (recRank_perm C hP U).mem_iff.mp (List.mem_flatMap.mpr ⟨r, by simp; omega, hx⟩)

theorem mem_rank (C : WholeCfg Val K) {c : Catalog Val} {f : Val → List (ReadSpec K)} (U : ReadSpec K → Spectrum K)
    {q : List (List (Row Val))} {p : ReadSpec K} (hp : p ∈ prepQueue C c f q) (hv : (U p).valid = true) :
    ({ p with spec := U p } : ReadSpec K) ∈ recRank C c f U q :=
  List.mem_filter.mpr ⟨List.mem_map.mpr ⟨p, hp, rfl⟩, hv⟩

/-- What follows the fit, if the steps raise for no spectrum. -/
theorem sync_ending {V W : Type} (C : AllCfg Val K) {c : Catalog Val} {f : Val → List (ReadSpec K)} {dw dr : K}
    (hC : PlainRun C.cat.run dw dr) (hr : ReadsPixels C.cat.run c f) (hout : C.cat.run.outdir = true)
    (harm : ∀ p ∈ catPixels C.cat.run.tile c, ∀ x ∈ f p, PassesCuts C.cat.run.sel x →
      (inputSnrs C.cat.run.sel x.spec).length ≤ 3)
    (ck : Codec (List (ChiRow K)) V) {n : Nat} {Q : Nat → List (List (Row Val))} (hP : Prepared C.cat.run c f n Q)
    {u : FitRec K → FitRec K} (hu : ∀ y, GoodRec C.cat.run.fit.order y → KeepsRec C.cat.run.fit.order y (u y))
    {gf : FullState K} {t : Spectrum K → Spectrum K}
    (ht : ∀ x ∈ recFitted C.cat.run c f (fun p => (u (C.cat.start p)).spec),
      tailOne C.fns C.ncal C.after gf.varlss gf.eta x.spec = .ok (t x.spec))
    (night : Option Val) (j : Nat) (b : Bool) :
    Sync n (fun r => (C.ending ck night r (Q r) (prepQueue C.cat.run c f (Q r))
        (gf, ((prepQueue C.cat.run c f (Q r)).map C.cat.start).map u, j, b) : Prog V W (CatalogOut Val K)))
      (fun r => endOf C night j b (if r = 0 then some (tailTable C.cat c f u t n Q) else none) r
        (C.exposures (Q r) ((recRank C.cat.run c f (fun p => (u (C.cat.start p)).spec) (Q r)).map (withSpec t))))
      (fun _ => []) := by
  have htl : ∀ r ≤ n, C.tail gf (((prepQueue C.cat.run c f (Q r)).map C.cat.start).map u) =
      .ok (((recRank C.cat.run c f (fun p => (u (C.cat.start p)).spec) (Q r)).map (·.spec)).map t) := by
    intro r hrn
    unfold AllCfg.tail
    rw [valid_specs]
    refine fitTail_ok C.fns C.ncal C.after gf.varlss gf.eta (t := t) (fun s hs => ?_)
    obtain ⟨x, hx, rfl⟩ := List.mem_map.mp hs
    exact ht x (rank_mem C.cat.run hP _ hrn x hx)
  have htab := sync_saveTable (W := W) C.cat hout ck n
    (fun r => (((prepQueue C.cat.run c f (Q r)).map C.cat.start).map u).map (recTail t)) (by
      intro r hrn y hy
      rw [List.map_map, List.map_map] at hy
      obtain ⟨p, hp, rfl⟩ := List.mem_map.mp hy
      change List.length (recTail t (u (C.cat.start p))).spec.meanSnr ≤ 3 ∧ (recTail t (u (C.cat.start p))).x.length = _ ∧
        SquareMat _ (recTail t (u (C.cat.start p))).xcov
      obtain ⟨g1, g2⟩ := good_start C.cat hC hr hP harm hrn hp
      have hk := hu _ g1
      have h3 : (u (C.cat.start p)).spec.meanSnr.length ≤ 3 := by
        rw [hk.meanSnr]
        exact g2
      unfold recTail
      split
      · rename_i hv
        refine ⟨?_, hk.x, hk.xcov⟩
        obtain ⟨-, -, f3, f4⟩ := tail_fields (ht _ (rank_mem C.cat.run hP _ hrn _
          (mem_rank C.cat.run (fun p => (u (C.cat.start p)).spec) hp hv)))
        change (t (u (C.cat.start p)).spec).meanSnr.length ≤ 3
        cases ha : C.after with
        | false =>
          have := (f3 ha).1
          change (t (u (C.cat.start p)).spec).meanSnr = (u (C.cat.start p)).spec.meanSnr at this
          rw [this]
          exact h3
        | true =>
          obtain ⟨y, hy⟩ := f4 ha
          change (t (u (C.cat.start p)).spec).meanSnr = _ at hy
          rw [hy]
          simp
      · exact ⟨h3, hk.x, hk.xcov⟩)
  have hrows : (List.range (n + 1)).flatMap (fun q => ((((prepQueue C.cat.run c f (Q q)).map C.cat.start).map u).map
      (recTail t)).map (fun t => rowOf (C.cat.run.fit.order + 1) q t.chi)) = tailTable C.cat c f u t n Q := by
    unfold tailTable
    refine List.flatMap_congr fun q _ => ?_
    rw [List.map_map, List.map_map, List.map_map]
    rfl
  rw [hrows] at htab
  generalize tailTable C.cat c f u t n Q = rows at htab ⊢
  have h1 := htab.bind (f := fun r (table : Option (List (ChiRow K))) =>
      (Prog.ofExcept (C.exposures (Q r) ((recRank C.cat.run c f (fun p => (u (C.cat.start p)).spec) (Q r)).map
        (withSpec t)))).bind fun e => C.saveAll night r j b table e)
    (N := fun _ => []) (y := fun r => endOf C night j b (if r = 0 then some rows else none) r
      (C.exposures (Q r) ((recRank C.cat.run c f (fun p => (u (C.cat.start p)).spec) (Q r)).map (withSpec t)))) (by
      refine (sync_fin n _).congr (fun r _ => ?_) (fun _ _ => rfl) (fun _ _ => rfl)
      unfold endOf
      cases C.exposures (Q r) ((recRank C.cat.run c f (fun p => (u (C.cat.start p)).spec) (Q r)).map (withSpec t)) with
      | error e => rfl
      | ok e =>
        change C.saveAll night r j b _ e = _
        unfold AllCfg.saveAll
        change _ = fin ((C.cat.run.save r (C.clean e)).bind _)
        cases C.cat.run.save r (C.clean e) with
        | error e => rfl
        | ok fl => rfl)
  refine h1.congr (fun r hrn => ?_) (fun _ _ => rfl) (fun _ _ => by simp)
  unfold AllCfg.ending
  dsimp only
  rw [htl r hrn]
  change C.afterTail ck night r (Q r) (prepQueue C.cat.run c f (Q r))
        (gf, ((prepQueue C.cat.run c f (Q r)).map C.cat.start).map u, j, b) _ = _
  unfold AllCfg.afterTail
  dsimp only
  rw [keptTail_eq, ← valid_specs, putBack_map]

/-- The rows of the catalog with and without the steps. -/
theorem tail_rows (C : AllCfg Val K) {c : Catalog Val} {f : Val → List (ReadSpec K)} {n : Nat}
    {Q : Nat → List (List (Row Val))} (hP : Prepared C.cat.run c f n Q) {dw dr : K}
    (hC : PlainRun C.cat.run dw dr) (hr : ReadsPixels C.cat.run c f)
    (harm : ∀ p ∈ catPixels C.cat.run.tile c, ∀ x ∈ f p, PassesCuts C.cat.run.sel x →
      (inputSnrs C.cat.run.sel x.spec).length ≤ 3)
    {u : FitRec K → FitRec K} (hu : ∀ y, GoodRec C.cat.run.fit.order y → KeepsRec C.cat.run.fit.order y (u y))
    {v η : K → K} {t : Spectrum K → Spectrum K}
    (ht : ∀ x ∈ recFitted C.cat.run c f (fun p => (u (C.cat.start p)).spec),
      tailOne C.fns C.ncal C.after v η x.spec = .ok (t x.spec)) :
    List.Forall₂ (TailRow C v η (recFitted C.cat.run c f (fun p => (u (C.cat.start p)).spec)))
      (tailTable C.cat c f u id n Q) (tailTable C.cat c f u t n Q) := by
  unfold tailTable
  refine forall₂_flatMap _ fun q hq => ?_
  have hq : q ≤ n := by simp at hq; omega
  rw [List.forall₂_map_left_iff, List.forall₂_map_right_iff, List.forall₂_same]
  intro p hp
  have hid : recTail id (u (C.cat.start p)) = u (C.cat.start p) := by
    unfold recTail
    split <;> rfl
  rw [hid]
  unfold TailRow
  by_cases hv : (u (C.cat.start p)).spec.valid = true
  · have hx := mem_rank C.cat.run (fun p => (u (C.cat.start p)).spec) hp hv
    have hxF := rank_mem C.cat.run hP _ hq _ hx
    have hone := ht _ hxF
    obtain ⟨f1, f2, f3, f4⟩ := tail_fields hone
    change (t (u (C.cat.start p)).spec).valid = (u (C.cat.start p)).spec.valid at f1
    change (t (u (C.cat.start p)).spec).z = (u (C.cat.start p)).spec.z at f2
    have hrec : recTail t (u (C.cat.start p)) = { u (C.cat.start p) with spec := t (u (C.cat.start p)).spec } := by
      unfold recTail
      rw [if_pos hv]
    rw [hrec]
    by_cases ha : C.after = true
    · rw [if_pos ⟨ha, hv⟩]
      obtain ⟨y, hy⟩ := f4 ha
      change (t (u (C.cat.start p)).spec).meanSnr = _ at hy
      refine ⟨_, hxF, ?_, t (u (C.cat.start p)).spec, y, ?_, hy, ?_⟩
      · obtain ⟨g1, -⟩ := good_start C.cat hC hr hP harm hq hp
        exact (hu _ g1).targetid.symm
      · exact fitTail_ok C.fns C.ncal C.after v η (l := [(u (C.cat.start p)).spec]) (t := t) (fun s hs => by
          obtain rfl := List.mem_singleton.mp hs
          exact hone)
      · unfold rowOf FitRec.chi
        dsimp only
        rw [f1, f2, hy, show String.ofList ((",".intercalate (([("brz", y)] : Dict K).map Prod.fst)).toList.take 5) = "brz"
          from by rw [show ([("brz", y)] : Dict K).map Prod.fst = ["brz"] from rfl]; decide]
        rfl
    · rw [if_neg (fun h => ha h.1)]
      obtain ⟨m1, m2⟩ := f3 (by simpa using ha)
      change (t (u (C.cat.start p)).spec).meanSnr = (u (C.cat.start p)).spec.meanSnr at m1
      change (t (u (C.cat.start p)).spec).chi2 = (u (C.cat.start p)).spec.chi2 at m2
      unfold rowOf FitRec.chi
      dsimp only
      rw [f1, f2, m1, m2]
  · have hrec : recTail t (u (C.cat.start p)) = u (C.cat.start p) := by
      unfold recTail
      rw [if_neg hv]
    rw [hrec, if_neg (fun h => hv h.2)]


/-! ### Without options -/

theorem kept_id (l : List (ReadSpec K)) (s : List (FitRec K)) :
    AllCfg.kept l s ((s.filter (fun x => x.spec.valid)).map (·.spec)) =
      (SelectCfg.setSpecs l (s.map (·.spec))).filter (fun x => x.spec.valid) := by
  unfold AllCfg.kept SelectCfg.setSpecs
  induction l generalizing s with
  | nil => simp
  | cons x l ih =>
    cases s with
    | nil => simp
    | cons y s =>
      rw [List.map_cons, List.zipWith_cons_cons]
      by_cases hv : y.spec.valid = true
      · rw [List.filter_cons_of_pos (by simpa using hv), List.filter_cons_of_pos (by simpa using hv), List.map_cons,
          List.zipWith_cons_cons, ih]
      · rw [List.filter_cons_of_neg (by simpa using hv), List.filter_cons_of_neg (by simpa using hv), ih]

theorem ending_plain {V W : Type} (C : AllCfg Val K) (h1 : C.ncal = none) (h2 : C.after = false) (h3 : C.exps = none)
    (ck : Codec (List (ChiRow K)) V) (night : Option Val) (rank : Nat) (q : List (List (Row Val)))
    (l : List (ReadSpec K)) (r : FullState K × List (FitRec K) × Nat × Bool) :
    (C.ending ck night rank q l r : Prog V W (CatalogOut Val K)) = afterFit C.cat ck night l rank r := by
  have ht : C.tail r.1 r.2.1 = .ok ((r.2.1.filter (fun x => x.spec.valid)).map (·.spec)) := by
    unfold AllCfg.tail fitTail tailNoise tailCoadd
    rw [h1, h2]
    rfl
  have hid : ∀ l : List (FitRec K), l.map (recTail id) = l := by
    intro l
    conv_rhs => rw [← List.map_id l]
    refine List.map_congr_left fun x _ => ?_
    unfold recTail
    split <;> rfl
  have hp : putBack r.2.1 ((r.2.1.filter (fun x => x.spec.valid)).map (·.spec)) = r.2.1 := by
    have := putBack_map id r.2.1
    rw [List.map_id, hid] at this
    exact this
  unfold AllCfg.ending
  rw [ht]
  change C.afterTail ck night rank q l r _ = _
  unfold AllCfg.afterTail afterFit
  rw [hp, kept_id]
  congr 1
  funext t
  unfold AllCfg.exposures
  rw [h3]
  rfl

theorem noChi2_inj {a b : ReadSpec K} (h : noChi2 a = noChi2 b) : a.spec.valid = b.spec.valid ∧ a.row = b.row := by
  have h1 : (noChi2 a).spec.valid = (noChi2 b).spec.valid := by rw [h]
  have h2 : (noChi2 a).row = (noChi2 b).row := by rw [h]
  exact ⟨h1, h2⟩

end
end Verif.Proofs

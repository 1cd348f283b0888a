import Verif.Proofs.CatalogRun
import Verif.Props.WholeRun

/-!
# C110: the chi square catalog of a run and its deltas

`mpi_run_all` with `save_contchi2_catalog`, on `n + 1` and on `n' + 1` processes. The model is in
`Verif.Model.CatalogRun`, the vocabulary in `Verif.Spec.CatalogRun`.
-/

namespace Verif.Props
open Verif Verif.Np Verif.Model Verif.Model.Prog Verif.Spec Verif.Proofs

section
variable {Val K : Type} [LinearOrder Val] [Field K] [LinearOrder K] [IsStrictOrderedRing K] [FloorRing K]

/-- **C110**. Full claim: a run with an output directory writes one row for every quasar that passes the cuts; the rows
which are valid are the quasars with deltas; and the catalog does not depend on the number of processes.

Proved: the runs on `n + 1` and `n' + 1` processes either both finish on all ranks, or both raise the same exception on
all ranks after the same writes. If they finish, rank 0 of either run writes a catalog, no other rank does, and the
catalogs are the same but for the order of the rows and the column `MPI_RANK`. They have one row for each spectrum that
passes the cuts, with the identity, the redshift, the signal-to-noise and the degrees of freedom of what was read. The
deltas of rank `r` are those of the rows which are valid and have `MPI_RANK` equal to `r`, in this order, with the chi
square of the row. The deltas and the files by pixel are the same in both runs.

Missing: as in `C88_partial`. A quasar with a valid row may have no pixels in the deltas, see `C110_no_pixels_refuted`. -/
theorem C110_partial {Q D V : Type} (C : CatalogCfg Val K) {c : Catalog Val} {f : Val → List (ReadSpec K)}
    {dw dr : K} (hC : PlainRun C.run dw dr) (hr : ReadsPixels C.run c f) (hA : ∀ k, IsArgsort k (C.run.argsort k))
    (hS : Shapes C.run.fit C.cov) (hn0 : 0 < C.run.fit.rf.n) (hout : C.run.outdir = true)
    (harm : ∀ p ∈ catPixels C.run.tile c, ∀ x ∈ f p, PassesCuts C.run.sel x →
      (inputSnrs C.run.sel x.spec).length ≤ 3)
    (P : FitterFns (FullState K) (Spectrum K) (StackSums K) Q D) (cs : Codec Bool V)
    (cq : Codec (List (List (Row Val))) V) (cn : Codec Val V) (fc : FitterCodecs (StackSums K) Q V)
    (ck : Codec (List (ChiRow K)) V)
    {ang2pix : Nat → Val → Val → Val} {file : Except Err (Catalog Val)} {isMock : Bool}
    {ks : Option (List Val)} {zmin zmax : Val}
    (h : readQuasarCatalog ang2pix file isMock C.run.tile ks zmin zmax = .ok c) (n n' : Nat)
    (hidle : IdleOk C.run ∨ (n + 1 ≤ (catPixels C.run.tile c).length ∧ n' + 1 ≤ (catPixels C.run.tile c).length))
    (fname : String) (g0 : FullState K) :
    let prog := fun size rank => C.runAll P cs cq cn fc ck (.ok c) fname g0 size rank
    let sel := ((catPixels C.run.tile c).flatMap f).filter (fun x => decide (PassesCuts C.run.sel x))
    (∃ (outs outs' : List (CatalogOut Val K)) (rows rows' : List (ChiRow K)) (ev ev' : List (SaverEv (String × D))),
      runJob n (prog (n + 1)) = (.done (outs.map .ok), ev :: List.replicate n []) ∧
      runJob n' (prog (n' + 1)) = (.done (outs'.map .ok), ev' :: List.replicate n' []) ∧
      outs.length = n + 1 ∧ outs'.length = n' + 1 ∧
      CatalogOf C sel outs rows ∧ CatalogOf C sel outs' rows' ∧
      (rows.map (fun w => { w with rank := 0 })).Perm (rows'.map (fun w => { w with rank := 0 })) ∧
      (outs.flatMap (·.out.deltas)).Perm (outs'.flatMap (·.out.deltas)) ∧
      (C.run.byHpx = true → C.run.tile = false →
        SameFiles (outs.flatMap (·.out.files)) (outs'.flatMap (·.out.files)))) ∨
    (∃ ev : List (SaverEv (String × D)), ∀ m ∈ [n, n'],
      runJob m (prog (m + 1)) = (.done (List.replicate (m + 1) (.error .qsonic)), ev :: List.replicate m [])) := by
  intro prog sel
  obtain ⟨Q1, night, hP1, na1, na2, ne, ns⟩ := sync_before (W := SaverEv (String × D)) (A := CatalogOut Val K) C.run hC
    hr cs cq cn h n (hidle.imp id And.left)
  obtain ⟨Q2, night', hP2, nb1, nb2, ne', ns'⟩ := sync_before (W := SaverEv (String × D)) (A := CatalogOut Val K) C.run
    hC hr cs cq cn h n' (hidle.imp id And.right)
  have hlog : ∀ (m : Nat) (e : List (SaverEv (String × D))),
      (List.range (m + 1)).map (fun r => if r = 0 ∧ fname ≠ "" then e else []) =
        (if fname ≠ "" then e else []) :: List.replicate m [] := by
    intro m e
    rw [List.range_succ_eq_map, List.map_cons, List.map_map]
    congr 1
    · simp
    · rw [List.eq_replicate_iff]
      refine ⟨by simp, fun b hb => ?_⟩
      obtain ⟨i, -, rfl⟩ := List.mem_map.mp hb
      simp
  have herr : ∀ (e : List (SaverEv (String × D))), (∀ m ∈ [n, n'],
      Sync m (fun r => prog (m + 1) r) (fun _ => .error .qsonic) (fun r => if r = 0 ∧ fname ≠ "" then e else [])) →
      ∃ ev : List (SaverEv (String × D)), ∀ m ∈ [n, n'],
      runJob m (prog (m + 1)) = (.done (List.replicate (m + 1) (.error .qsonic)), ev :: List.replicate m []) := by
    intro e he
    refine ⟨if fname ≠ "" then e else [], fun m hm => (he m hm).job.trans ?_⟩
    rw [hlog, List.map_const', List.length_range]
  by_cases hbad : C.run.sel.bal = true ∧ balCheckCatalog C.run.cols ≠ .ok ()
  · refine .inr (herr [] fun m hm => ?_)
    rcases List.mem_cons.mp hm with rfl | hm
    · exact (ne hbad fun night r _ l => C.fitSave P fc ck fname g0 night r l).congr (fun _ _ => rfl) (fun _ _ => rfl)
        (fun _ _ => by simp)
    · obtain rfl := List.mem_singleton.mp hm
      exact (ne' hbad fun night r _ l => C.fitSave P fc ck fname g0 night r l).congr (fun _ _ => rfl) (fun _ _ => rfl)
        (fun _ _ => by simp)
  have ns1 := ns hbad fun night r _ l => C.fitSave P fc ck fname g0 night r l
  have ns2 := ns' hbad fun night r _ l => C.fitSave P fc ck fname g0 night r l
  clear ne ne' ns ns'
  have hpool : ∀ (m : Nat) (Q : Nat → List (List (Row Val))), Prepared C.run c f m Q →
      (pooled m (fun r => (prepQueue C.run c f (Q r)).map C.start)).Perm
        ((sel.map (prepOne C.run (c.rows.map C.run.tid))).map C.start) := by
    intro m Q hP
    unfold pooled
    rw [← List.map_flatMap]
    exact hP.perm.map _
  have hgood : ∀ y ∈ pooled n (fun r => (prepQueue C.run c f (Q1 r)).map C.start),
      PixelsInForest C.run.sel.wave1 C.run.sel.wave2 C.run.sel.forestW1 C.run.sel.forestW2 y.spec ∧
      GoodRec C.run.fit.order y := by
    intro y hy
    obtain ⟨p, hp, rfl⟩ := List.mem_map.mp ((hpool n Q1 hP1).mem_iff.mp hy)
    obtain ⟨x, hx, rfl⟩ := List.mem_map.mp hp
    obtain ⟨q, hq, hxq⟩ := List.mem_flatMap.mp (List.mem_filter.mp hx).1
    obtain ⟨a1, a2, a3⟩ := hr.data q hq x hxq
    obtain ⟨w, hw, e, -⟩ := hr.row q hq x hxq
    have hcut := of_decide_eq_true (List.mem_filter.mp hx).2
    have hb := fun hb => hr.coadd hb q hq x hxq
    obtain ⟨-, -, b3, -⟩ := prepOne_facts C.run hC ⟨a1, a2, a3⟩ hb
      (ids := c.rows.map C.run.tid) (List.mem_map.mpr ⟨w, (List.mem_filter.mp hw).1, e⟩) hcut
    exact ⟨prepOne_inForest C.run hC _ ⟨a1, a2, a3⟩ hb hcut, start_keeps _ _, b3⟩
  rcases rec_pool hS hn0 hC.obs hC.obsPos hC.rf hC.rfPos P fc n n' g0 _ _
    ((hpool n Q1 hP1).trans (hpool n' Q2 hP2).symm) hgood fname C.run.niter with
    ⟨k, b, u, gf, gf', exts, tail, tail', s1, s2, -, -, -, hu⟩ | ⟨e, s1, s2⟩
  · have hsv : ∀ (r : Nat) (l : List (ReadSpec K)), ∃ files, C.run.save r l = .ok files ∧ _ :=
      fun r l => save_ok C.run hA r l
    choose files hfiles hfp using hsv
    have t1 := (ns1 _ _ (sync_fitSave C hC hr hout harm P fc ck fname g0 night hP1 hu files hfiles s1)).job
    have t2 := (ns2 _ _ (sync_fitSave C hC hr hout harm P fc ck fname g0 night' hP2 hu files hfiles s2)).job
    rw [hlog] at t1 t2
    generalize (if fname ≠ "" then [SaverEv.create fname] ++ (exts ++ tail).map (.write fname) ++ [.close fname]
      else []) = ev1 at t1
    generalize (if fname ≠ "" then [SaverEv.create fname] ++ (exts ++ tail').map (.write fname) ++ [.close fname]
      else []) = ev2 at t2
    refine .inl ⟨(List.range (n + 1)).map _, (List.range (n' + 1)).map _, _, _, ev1, ev2, Eq.trans t1 ?_,
      Eq.trans t2 ?_,
      by simp, by simp,
      catalog_of C hC hr hP1 hu (fun r => outRec C files night k b u (prepQueue C.run c f (Q1 r)) r) fun r => rfl,
      catalog_of C hC hr hP2 hu (fun r => outRec C files night' k b u (prepQueue C.run c f (Q2 r)) r) fun r => rfl, ?_, ?_, ?_⟩
    · rw [List.map_map]
      rfl
    · rw [List.map_map]
      rfl
    · have hz : ∀ (m : Nat) (Q : Nat → List (List (Row Val))),
          ((List.range (m + 1)).flatMap (fun r => (prepQueue C.run c f (Q r)).map (rowRec C u r))).map
            (fun w => { w with rank := 0 }) =
          ((List.range (m + 1)).flatMap (fun r => prepQueue C.run c f (Q r))).map (rowRec C u 0) := by
        intro m Q
        rw [List.map_flatMap, List.map_flatMap]
        refine List.flatMap_congr fun r _ => ?_
        rw [List.map_map]
        rfl
      rw [hz, hz]
      exact (hP1.perm.trans hP2.perm.symm).map _
    · rw [List.flatMap_map, List.flatMap_map]
      unfold outRec
      dsimp only
      rw [← List.filter_flatMap, ← List.map_flatMap, ← List.filter_flatMap, ← List.map_flatMap]
      exact ((hP1.perm.trans hP2.perm.symm).map _).filter _
    · intro hb ht
      rw [List.flatMap_map, List.flatMap_map]
      unfold outRec
      dsimp only
      have hfp' : ∀ (m : Nat) (Q : Nat → List (List (Row Val))), Prepared C.run c f m Q → _ := fun m Q hP =>
        files_pooled C.run (n := m)
          (D := fun r => ((prepQueue C.run c f (Q r)).map (endRec C u)).filter (fun x => x.spec.valid))
          (files := fun r => files r (((prepQueue C.run c f (Q r)).map (endRec C u)).filter (fun x => x.spec.valid)))
          (fun r => hfp r _ hout hb) (fun i hi j hj hij x hx y hy => by
            obtain ⟨x', hx', rfl⟩ := List.mem_map.mp (List.mem_filter.mp hx).1
            obtain ⟨y', hy', rfl⟩ := List.mem_map.mp (List.mem_filter.mp hy).1
            exact hP.pix ht i hi j hj hij x' hx' y' hy')
      refine sameFiles_of (C := C.run) (hfp' n Q1 hP1) (hfp' n' Q2 hP2) ?_
      unfold savedOf
      refine List.Perm.map _ ?_
      rw [← List.filter_flatMap, ← List.map_flatMap, ← List.filter_flatMap, ← List.map_flatMap]
      exact ((hP1.perm.trans hP2.perm.symm).map _).filter _
  · refine .inr (herr e fun m hm => ?_)
    rcases List.mem_cons.mp hm with rfl | hm
    · exact ns1 _ _ (s1.bind_error fun r w => afterFit C ck night (prepQueue C.run c f (Q1 r)) r w)
    · obtain rfl := List.mem_singleton.mp hm
      exact ns2 _ _ (s2.bind_error fun r w => afterFit C ck night' (prepQueue C.run c f (Q2 r)) r w)

end

/-! ### Examples -/

/-- Messages of the example: those of `c88Codec`, and rows. -/
abbrev C110Msg : Type := (StackSums ℚ × Nat × Bool × List (List (Row Nat))) × List (ChiRow ℚ)

def c110Lift {A : Type} (c : Codec A (StackSums ℚ × Nat × Bool × List (List (Row Nat)))) : Codec A C110Msg :=
  ⟨fun a => (c.enc a, []), fun v => c.dec v.1, fun a => c.dec_enc a⟩

def c110Rows : Codec (List (ChiRow ℚ)) C110Msg := ⟨fun l => ((⟨[], [], [], []⟩, 0, true, []), l), Prod.snd, fun _ => rfl⟩

def c110Fit : FitterCodecs (StackSums ℚ) Unit C110Msg :=
  ⟨c110Lift c88Codec.2.2.2.nat, c110Lift c88Codec.2.2.2.stack, c110Lift c88Codec.2.2.2.var⟩

/-- The run of the example of C88, with the catalog. -/
def c110Cfg : CatalogCfg Nat ℚ := ⟨c88Cfg false, fun _ x => eye x.length, fun p => (p : Int)⟩

def c110Run (C : CatalogCfg Nat ℚ) (size rank : Nat) : Prog C110Msg (SaverEv (String × List ℚ)) (CatalogOut Nat ℚ) :=
  C.runAll c86Var (c110Lift c88Codec.1) (c110Lift c88Codec.2.1) (c110Lift c88Codec.2.2.1) c110Fit c110Rows c88Cat ""
    c86Start size rank

/-- What is seen of a job: targets of the deltas with their arms; target, pixel, arms, rank, validity and degrees of
freedom of the rows. -/
def c110See : Outcome (CatalogOut Nat ℚ) →
    Option (List (List (Int × List String) × Option (List (Int × Int × String × Nat × Bool × Int))))
  | .done l => l.mapM (fun
      | .ok o => some (o.out.deltas.map (fun x => (x.row.targetid, x.spec.fwave.keys)),
          o.table.map (fun t => t.map (fun w => (w.targetid, w.hpxpixel, w.arms, w.rank, w.valid, w.dof))))
      | .error _ => none)
  | _ => none

set_option synthInstance.maxSize 4000 in
/-- One process and two. -/
example : c110See (runJob 0 (c110Run c110Cfg 1)).1 = some [([(20, ["b"]), (30, ["b"])],
      some [(20, 5, "b", 0, true, 2), (30, 4, "b", 0, true, 2)])] ∧
    c110See (runJob 1 (c110Run c110Cfg 2)).1 = some [([(20, ["b"])],
      some [(20, 5, "b", 0, true, 2), (30, 4, "b", 1, true, 2)]), ([(30, ["b"])], none)] := by
  decide +kernel

/-- The run of the example with two arms, of which both are shorter than the minimum, but not the forest. -/
def c110Short : CatalogCfg Nat ℚ := { c110Cfg with
  run := { c88Cfg false with
    sel := { (c88Cfg false).sel with skip := 1 / 20 }
    reader := fun l => .ok (l.map (fun r => c87Arms (r "TARGETID" : Nat) (if r "TARGETID" = 40 then 1 / 100 else 3))) } }

theorem c110_shapes : Shapes c110Cfg.run.fit c110Cfg.cov := ⟨fun _ _ => rfl, fun _ _ => eye_square _⟩

/-- The hypotheses of `C110_partial` are met by the example. -/
example : ∃ (c : Catalog Nat) (f : Nat → List (ReadSpec ℚ)), PlainRun c110Cfg.run 8 10 ∧ ReadsPixels c110Cfg.run c f ∧
    (∀ k, IsArgsort k (c110Cfg.run.argsort k)) ∧ Shapes c110Cfg.run.fit c110Cfg.cov ∧ 0 < c110Cfg.run.fit.rf.n ∧
    c110Cfg.run.outdir = true ∧
    (∀ p ∈ catPixels c110Cfg.run.tile c, ∀ x ∈ f p, PassesCuts c110Cfg.run.sel x →
      (inputSnrs c110Cfg.run.sel x.spec).length ≤ 3) ∧
    readQuasarCatalog exPix (.ok exFile) false c110Cfg.run.tile (some [1, 2]) 2 3 = .ok c ∧
    (0 + 1 ≤ (catPixels c110Cfg.run.tile c).length ∧ 1 + 1 ≤ (catPixels c110Cfg.run.tile c).length) := by
  obtain ⟨c, h, hp⟩ := c88_cat
  refine ⟨c, _, c88_plain false, c88_reads false h, fun k => argsortStable_isArgsort k, c110_shapes, by decide, rfl, ?_, h,
    ?_⟩
  · have key : ∃ d, c88Cat = .ok d ∧ ∀ p ∈ catPixels false d, ∀ x ∈ (catPixelRows false d p).map
        (fun r => c87Spec (r "TARGETID" : Nat) (if r "TARGETID" = 40 then 1 / 100 else 3)),
        (inputSnrs c110Cfg.run.sel x.spec).length ≤ 3 := ⟨_, rfl, by decide +kernel⟩
    obtain ⟨d, hd, hk⟩ := key
    rw [h] at hd
    obtain rfl := Except.ok.inj hd
    exact fun p hp x hx _ => hk p hp x hx
  · change 0 + 1 ≤ (catPixels false c).length ∧ 1 + 1 ≤ (catPixels false c).length
    rw [hp]
    decide

set_option synthInstance.maxSize 4000 in
/-- **C110**, a part that does not hold: a quasar with a valid row need not have pixels in the deltas. The cut before the
fit counts the pixels of all arms together, the cut after the fit those of each arm. Here all arms of both quasars are
removed after the fit, so that the delta files have no tables; both quasars were in the mean continuum, and have valid
rows which name the arms. -/
theorem C110_no_pixels_refuted : ∃ C : CatalogCfg Nat ℚ,
    c110See (runJob 1 (c110Run C 2)).1 = some [([(20, [])], some [(20, 5, "b,r", 0, true, 3), (30, 4, "b,r", 1, true, 3)]),
      ([(30, [])], none)] :=
  ⟨c110Short, by decide +kernel⟩

end Verif.Props

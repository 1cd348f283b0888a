import Mathlib.Data.List.GetD
import Verif.Spec.FitParams
import Verif.Props.Failed
import Verif.Props.Fitter
import Verif.Props.NormFlux
import Verif.Props.ContFit
import Verif.Props.Dof

/-!
# C102: parameters of the continuum fit in the chi square catalog
-/

namespace Verif.Props
open Verif Verif.Np Verif.Model Verif.Model.Prog Verif.Model.FitRec Verif.Spec Verif.Proofs

section
variable {K : Type} [Field K]

theorem mypoly1d_sum (a : List K) (t : K) :
    mypoly1d a t = ∑ k ∈ Finset.range a.length, a.getD k 0 * t ^ k := by
  unfold mypoly1d
  induction a using List.reverseRecOn with
  | nil => simp
  | append_singleton l y ih =>
    rw [List.zipIdx_append, List.map_append, List.sum_append, ih]
    simp only [List.length_append, List.length_cons, List.length_nil, Nat.zero_add, List.zipIdx_singleton, List.map_cons,
      List.map_nil, List.sum_cons, List.sum_nil, add_zero]
    rw [Finset.sum_range_succ]
    congr 1
    · refine Finset.sum_congr rfl fun k hk => ?_
      rw [List.getD_append _ _ _ _ (by simpa using hk)]
    · simp [List.getD_eq_getElem?_getD]

theorem eye_square (n : Nat) : SquareMat (K := K) n (eye n) := by
  unfold SquareMat eye
  simp

theorem square_flatten {n : Nat} {m : List (List K)} (h : SquareMat n m) : m.flatten.length = n ^ 2 := by
  rw [List.length_flatten, List.map_congr_left (g := fun _ => n) h.2, List.map_const', List.sum_replicate, h.1,
    smul_eq_mul, sq]

end

variable {K : Type} [Field K] [LinearOrder K] [FloorRing K] {C : FullCfg K}
  {cov : (List K → K) → List K → List (List K)}

/-- First and last bin of the mean continuum. -/
theorem rfwave_first_last (C : FullCfg K) (hn : 0 < C.rf.n) : C.rfwave.getD 0 0 = C.rf.x0 ∧
    C.rfwave.getD (C.rfwave.length - 1) 0 = C.rf.x0 + ((C.rf.n : K) - 1) * C.rf.dx := by
  have hl : C.rfwave.length = C.rf.n := by simp [FullCfg.rfwave]
  constructor
  · rw [List.getD_eq_getElem _ _ (by omega)]
    simp [FullCfg.rfwave]
  · rw [List.getD_eq_getElem _ _ (by omega)]
    simp only [FullCfg.rfwave, List.getElem_map, List.getElem_range]
    simp only [List.length_map, List.length_range]
    rw [Nat.cast_sub hn, Nat.cast_one]

/-- **C102**, one fit of a spectrum whose `x` has `C.order + 1` elements: the spectrum is that of `fit_continuum`
without parameters. After a valid fit the continuum is that of the new `x`; an invalid fit leaves `x` and `xcov` as
they are. Nothing else changes. -/
theorem C102_fit (hC : Shapes C cov) (hn : 0 < C.rf.n) (g : FullState K) (r : FitRec K)
    (hx : r.x.length = C.order + 1) (hc : SquareMat (C.order + 1) r.xcov) (hk : r.spec.fwave.keys.Nodup) :
    (C.fitRec cov g r).spec = C.fitOne g r.spec ∧
    (C.fitRec cov g r).x.length = C.order + 1 ∧ SquareMat (C.order + 1) (C.fitRec cov g r).xcov ∧
    ((C.fitRec cov g r).spec.valid = true → ∀ arm w, r.spec.fwave.lookup arm = some w →
      (C.fitRec cov g r).spec.cont.lookup arm = some (w.map (contFrom C.log (C.meancont g) C.meanflux C.rf.x0
        (C.rf.x0 + ((C.rf.n : K) - 1) * C.rf.dx) r.spec.z (C.fitRec cov g r).x))) ∧
    ((C.fitRec cov g r).spec.valid = false → (C.fitRec cov g r).x = r.x ∧ (C.fitRec cov g r).xcov = r.xcov) ∧
    (C.fitRec cov g r).method = r.method ∧ (C.fitRec cov g r).dof = r.dof ∧
    (C.fitRec cov g r).targetid = r.targetid ∧ (C.fitRec cov g r).hpxpixel = r.hpxpixel ∧
    (C.fitRec cov g r).rsnr = r.rsnr := by
  obtain ⟨e0, e1⟩ := rfwave_first_last C hn
  have hx1 : r.x.length - 1 = C.order := by omega
  have hd : C.denom = C.log ((C.rf.x0 + ((C.rf.n : K) - 1) * C.rf.dx) / C.rf.x0) := by
    unfold FullCfg.denom
    rw [e0, e1]
  unfold FullCfg.fitRec
  dsimp only
  rw [hx1]
  have hspec : Spectrum.piccaFit C.log (C.meancont g) C.meanflux g.varlss g.eta (C.rfwave.getD 0 0) C.denom
      (C.minimize (Spectrum.piccaCost C.log (C.meancont g) C.meanflux g.varlss g.eta (C.rfwave.getD 0 0) C.denom r.spec)
        (startA0 r.spec :: List.replicate C.order 0)) r.spec = C.fitOne g r.spec := rfl
  generalize hm : C.minimize (Spectrum.piccaCost C.log (C.meancont g) C.meanflux g.varlss g.eta (C.rfwave.getD 0 0)
    C.denom r.spec) (startA0 r.spec :: List.replicate C.order 0) = m at hspec ⊢
  rw [hspec]
  obtain ⟨ok, a⟩ := m
  have hlen : a.length = C.order + 1 := by
    have := hC.x (Spectrum.piccaCost C.log (C.meancont g) C.meanflux g.varlss g.eta (C.rfwave.getD 0 0)
      C.denom r.spec) (startA0 r.spec :: List.replicate C.order 0)
    rw [hm] at this
    simpa using this
  have hcov := hC.xcov (Spectrum.piccaCost C.log (C.meancont g) C.meanflux g.varlss g.eta (C.rfwave.getD 0 0)
      C.denom r.spec) (startA0 r.spec :: List.replicate C.order 0)
  simp only [List.length_cons, List.length_replicate] at hcov
  by_cases hv : (C.fitOne g r.spec).valid = true
  · rw [if_pos hv]
    refine ⟨rfl, hlen, hcov, fun _ arm w hw => ?_, fun h => absurd (hv.symm.trans h) (by simp), rfl, rfl, rfl, rfl, rfl⟩
    obtain ⟨-, h2⟩ := C53_picca_values C.log (C.meancont g) C.meanflux g.varlss g.eta (C.rfwave.getD 0 0) C.denom
      ok a hk
    rw [hspec] at h2
    change (C.fitOne g r.spec).cont.lookup arm = _
    rw [h2 hv arm w hw]
    congr 1
    refine List.map_congr_left fun v _ => ?_
    unfold piccaModel contFrom
    rw [mypoly1d_sum, e0, hd]
  · rw [if_neg hv]
    exact ⟨rfl, hx, hc, fun h => absurd h hv, fun _ => ⟨rfl, rfl⟩, rfl, rfl, rfl, rfl, rfl⟩

/-- What the iterations and the steps after them keep of a spectrum `y`. -/
structure KeepsRec (order : Nat) (y t : FitRec K) : Prop where
  fwave : t.spec.fwave = y.spec.fwave
  z : t.spec.z = y.spec.z
  meanSnr : t.spec.meanSnr = y.spec.meanSnr
  x : t.x.length = order + 1
  xcov : SquareMat (order + 1) t.xcov
  method : t.method = "picca"
  dof : t.dof = (goodPixels y.spec : Int) - (order + 1)
  targetid : t.targetid = y.targetid
  hpxpixel : t.hpxpixel = y.hpxpixel
  rsnr : t.rsnr = y.rsnr

theorem init_keeps (order : Nat) (y : FitRec K) : KeepsRec order y (piccaInit order y) := by
  refine ⟨rfl, rfl, rfl, ?_, eye_square _, rfl, ?_, rfl, rfl, rfl⟩
  · simp [piccaInit]
  · change Spectrum.initDof (order + 1) y.spec = _
    unfold Spectrum.initDof
    rw [realSize_eq]
    push_cast
    ring

theorem fitOne_meanSnr (g : FullState K) (s : Spectrum K) : (C.fitOne g s).meanSnr = s.meanSnr := by
  have e : ∀ t : Spectrum K, (Spectrum.endFit g.varlss g.eta t).meanSnr = t.meanSnr := by
    intro t
    have a : (t.setForestWeight g.varlss g.eta).meanSnr = t.meanSnr := by
      unfold Spectrum.setForestWeight
      split <;> rfl
    have b : (t.setForestWeight g.varlss g.eta).calcContinuumChi2.meanSnr = (t.setForestWeight g.varlss g.eta).meanSnr := by
      unfold Spectrum.calcContinuumChi2
      split <;> rfl
    unfold Spectrum.endFit
    dsimp only
    split
    · exact b.trans a
    · exact b.trans a
  unfold FullCfg.fitOne Spectrum.piccaFit
  rw [e]
  split <;> rfl

theorem eta_keeps (eta : K → K) (s : Spectrum K) : (etaCalibIvar eta s).fwave = s.fwave ∧
    (etaCalibIvar eta s).z = s.z ∧ (etaCalibIvar eta s).meanSnr = s.meanSnr ∧ (etaCalibIvar eta s).cont = s.cont ∧
    (etaCalibIvar eta s).valid = s.valid := by
  unfold etaCalibIvar
  have : ∀ (l : Dict (List K)) (t : Spectrum K), (l.foldl (etaArm eta) t).fwave = t.fwave ∧
      (l.foldl (etaArm eta) t).z = t.z ∧ (l.foldl (etaArm eta) t).meanSnr = t.meanSnr ∧
      (l.foldl (etaArm eta) t).cont = t.cont ∧ (l.foldl (etaArm eta) t).valid = t.valid := by
    intro l
    induction l with
    | nil => exact fun _ => ⟨rfl, rfl, rfl, rfl, rfl⟩
    | cons a l ih =>
      intro t
      obtain ⟨h1, h2, h3, h4, h5⟩ := ih (etaArm eta t a)
      exact ⟨h1.trans rfl, h2.trans rfl, h3.trans rfl, h4.trans rfl, h5.trans rfl⟩
  exact this _ _

theorem norm_keeps (st : Stacker K) (s : Spectrum K) : (normSpec st s).meanSnr = s.meanSnr := by
  unfold normSpec
  generalize s.fwave = l
  induction l generalizing s with
  | nil => rfl
  | cons a l ih => rw [List.foldl_cons, ih]

/-- The steps after the iterations. -/
theorem tweak_keeps {Q D : Type} (P : FitterFns (FullState K) (Spectrum K) (StackSums K) Q D) (g : FullState K)
    {y t : FitRec K} (h : KeepsRec C.order y t) (hk : y.spec.fwave.keys.Nodup) :
    KeepsRec C.order y (tweakOne (C.recFns cov P) g t) ∧
    (tweakOne (C.recFns cov P) g t).x = t.x ∧
    (tweakOne (C.recFns cov P) g t).spec.valid = t.spec.valid ∧
    (t.spec.valid = true → ∀ a ∈ y.spec.fwave, (tweakOne (C.recFns cov P) g t).spec.cont.arr a.1 =
      if C.normalize then normArm g.stack a.2 (t.spec.cont.arr a.1) else t.spec.cont.arr a.1) := by
  -- normalisation
  have hN : ∃ u : Spectrum K, (if t.spec.valid = true then (C.recFns cov P).normalize g t else t) = { t with spec := u } ∧
      u.fwave = t.spec.fwave ∧ u.z = t.spec.z ∧ u.meanSnr = t.spec.meanSnr ∧ u.valid = t.spec.valid ∧
      (t.spec.valid = true → ∀ a ∈ y.spec.fwave, u.cont.arr a.1 =
        if C.normalize then normArm g.stack a.2 (t.spec.cont.arr a.1) else t.spec.cont.arr a.1) := by
    by_cases hv : t.spec.valid = true
    · rw [if_pos hv]
      by_cases hnrm : C.normalize = true
      · obtain ⟨n1, -, -, n4, n5, -, n7⟩ := normSpec_foldl g.stack t.spec.fwave (by rw [h.fwave]; exact hk) t.spec
        refine ⟨normSpec g.stack t.spec, ?_, n1, n5, norm_keeps _ _, n4, fun _ a ha => ?_⟩
        · change ({ t with spec := if C.normalize then normSpec g.stack t.spec else t.spec } : FitRec K) = _
          rw [if_pos hnrm]
        · rw [if_pos hnrm]
          exact n7 a.1 a.2 (by rw [h.fwave]; exact ha)
      · refine ⟨t.spec, ?_, rfl, rfl, rfl, rfl, fun _ a _ => by rw [if_neg hnrm]⟩
        change ({ t with spec := if C.normalize then normSpec g.stack t.spec else t.spec } : FitRec K) = _
        rw [if_neg hnrm]
    · rw [if_neg hv]
      exact ⟨t.spec, rfl, rfl, rfl, rfl, rfl, fun h' => absurd h' hv⟩
  obtain ⟨u, hu, u1, u2, u3, u4, u5⟩ := hN
  have hE : ∃ v : Spectrum K, tweakOne (C.recFns cov P) g t = { t with spec := v } ∧
      v.fwave = u.fwave ∧ v.z = u.z ∧ v.meanSnr = u.meanSnr ∧ v.cont = u.cont ∧ v.valid = u.valid := by
    unfold tweakOne
    change ∃ v : Spectrum K, (C.recFns cov P).etaCalib g
      (if t.spec.valid = true then (C.recFns cov P).normalize g t else t) = { t with spec := v } ∧ _
    rw [hu]
    by_cases he : C.etaCalib = true
    · obtain ⟨e1, e2, e3, e4, e5⟩ := eta_keeps g.eta u
      refine ⟨etaCalibIvar g.eta u, ?_, e1, e2, e3, e4, e5⟩
      change ({ t with spec := if C.etaCalib then etaCalibIvar g.eta u else u } : FitRec K) = _
      rw [if_pos he]
    · refine ⟨u, ?_, rfl, rfl, rfl, rfl, rfl⟩
      change ({ t with spec := if C.etaCalib then etaCalibIvar g.eta u else u } : FitRec K) = _
      rw [if_neg he]
  obtain ⟨v, hv, v1, v2, v3, v4, v5⟩ := hE
  rw [hv]
  refine ⟨⟨v1.trans (u1.trans h.fwave), v2.trans (u2.trans h.z), v3.trans (u3.trans h.meanSnr), h.x, h.xcov, h.method,
    h.dof, h.targetid, h.hpxpixel, h.rsnr⟩, rfl, v5.trans u4, fun hval a ha => ?_⟩
  change v.cont.arr a.1 = _
  rw [v4]
  exact u5 hval a ha

theorem after_keeps {Q D : Type} (hC : Shapes C cov) (hn : 0 < C.rf.n)
    (P : FitterFns (FullState K) (Spectrum K) (StackSums K) Q D) (g : Nat → FullState K) (y : FitRec K)
    (hk : y.spec.fwave.keys.Nodup) (i : Nat) :
    KeepsRec C.order y (afterFits (C.recFns cov P) g i (piccaInit C.order y)) := by
  induction i with
  | zero => exact init_keeps _ y
  | succ i ih =>
    change KeepsRec C.order y (C.fitRec cov (g i) (afterFits (C.recFns cov P) g i (piccaInit C.order y)))
    generalize afterFits (C.recFns cov P) g i (piccaInit C.order y) = t at ih
    obtain ⟨h1, h2, h3, -, -, h6, h7, h8, h9, h10⟩ := C102_fit hC hn (g i) t ih.x ih.xcov (by rw [ih.fwave]; exact hk)
    obtain ⟨a1, a2⟩ := fitOne_same C (g i) t.spec
    exact ⟨by rw [h1, a1, ih.fwave], by rw [h1, a2, ih.z], by rw [h1, fitOne_meanSnr, ih.meanSnr], h2, h3,
      h6.trans ih.method, h7.trans ih.dof, h8.trans ih.targetid, h9.trans ih.hpxpixel, h10.trans ih.rsnr⟩

/-- **C102.** A run without exception, with at least one iteration. `gfit` are the functions of the last iteration
(extension `CONT-k` of the attributes file), `gend` those after it (extension `CONT`). Every spectrum is still there,
with parameters of the right shapes, so that the chi square catalog can be written; for a valid one the continuum is
that of its `x` with the mean continuum of the last iteration, not that in `CONT`, and multiplied with the stacked
flux if this was requested. -/
theorem C102_run {Q D V : Type} (hC : Shapes C cov) (hn : 0 < C.rf.n)
    (P : FitterFns (FullState K) (Spectrum K) (StackSums K) Q D) (c : FitterCodecs (StackSums K) Q V)
    (n niter : Nat) (hasFitter : Bool) (fname : String) (h0 : 0 < niter) (g0 : FullState K)
    (sp : Nat → List (FitRec K)) (hk : ∀ r ≤ n, ∀ y ∈ sp r, y.spec.fwave.keys.Nodup)
    {gfin : FullState K} {out : Nat → List (FitRec K)} {k : Nat} {b : Bool}
    {ev : List (List (SaverEv (String × D)))}
    (h : runJob n (fun r => (C.recFns cov P).iterate c fname niter hasFitter r g0 ((sp r).map (piccaInit C.order))) =
      (.done ((List.range (n + 1)).map (fun r => .ok (gfin, out r, k, b))), ev)) :
    ∃ gfit gend : FullState K,
      (fname ≠ "" → ∃ e, ev[0]? = some e ∧ .write fname ("CONT-" ++ Nat.repr k, P.dataCont gfit) ∈ e ∧
        .write fname ("CONT", P.dataCont gend) ∈ e) ∧
      ∀ r ≤ n, List.Forall₂ (fun y t => KeepsRec C.order y t ∧
        (t.spec.valid = true → ∀ a ∈ y.spec.fwave, t.spec.cont.arr a.1 = a.2.map (fun w =>
          contFrom C.log (C.meancont gfit) C.meanflux C.rf.x0 (C.rf.x0 + ((C.rf.n : K) - 1) * C.rf.dx) y.spec.z t.x w *
            if C.normalize then normAt gend.stack w else 1))) (sp r) (out r) := by
  obtain ⟨g, s, conv, hit, rfl, hs0⟩ := exists_iterations (C.recFns cov P) n hasFitter g0
    (fun r => (sp r).map (piccaInit C.order))
  have hs : ∀ r, s 0 r = (sp r).map (piccaInit C.order) := fun r => congrFun hs0 r
  by_cases hv : ∀ j < niter, (∀ l, 0 < l → l ≤ j → conv l = false) → SomeValid (C.recFns cov P) n (s (j + 1))
  · obtain ⟨k', gfin', final, exts, k1, -, -, -, -, hfinal, hjob, -, hexts, hcont, -⟩ :=
      C54_iterate (C.recFns cov P) c n hasFitter g s conv hit fname niter h0 hv
    simp only [hs] at hjob
    rw [h] at hjob
    obtain ⟨j1, j2⟩ := Prod.mk.inj hjob
    have j3 : ∀ r ≤ n, (gfin, out r, k, b) = (gfin', final r, k', conv k') := by
      intro r hr
      have := List.map_inj_left.mp (Outcome.done.inj j1) r (List.mem_range.mpr (by omega))
      exact Except.ok.inj this
    obtain rfl : k = k' := congrArg (fun q : _ × _ × _ × _ => q.2.2.1) (j3 0 (by omega))
    refine ⟨g (k - 1), g k, fun hf => ?_, fun r hr => ?_⟩
    · refine ⟨[.create fname] ++ exts.map (.write fname) ++ [.close fname], ?_, ?_, ?_⟩
      · rw [j2]
        simp [hf]
      · have := (hexts (k - 1) (by omega)).1
        rw [show k - 1 + 1 = k by omega] at this
        simp only [List.mem_append, List.mem_map]
        exact .inl (.inr ⟨_, this, rfl⟩)
      · simp only [List.mem_append, List.mem_map]
        exact .inl (.inr ⟨_, hcont, rfl⟩)
    · have ho : out r = final r := congrArg (fun q : _ × _ × _ × _ => q.2.1) (j3 r hr)
      rw [ho, hfinal r, iterations_after hit k r, hs r, List.map_map, List.map_map, List.forall₂_map_right_iff]
      refine List.forall₂_same.mpr fun y hy => ?_
      have hky := hk r hr y hy
      obtain ⟨m, rfl⟩ : ∃ m, k = m + 1 := ⟨k - 1, by omega⟩
      have a1 := after_keeps hC hn P g y hky m
      have a2 := after_keeps hC hn P g y hky (m + 1)
      obtain ⟨t1, t2, t3, t4⟩ := tweak_keeps (cov := cov) P (g (m + 1)) a2 hky
      refine ⟨t1, fun hval a ha => ?_⟩
      change (tweakOne (C.recFns cov P) (g (m + 1))
        (afterFits (C.recFns cov P) g (m + 1) (piccaInit C.order y))).spec.valid = true at hval
      change (tweakOne (C.recFns cov P) (g (m + 1))
        (afterFits (C.recFns cov P) g (m + 1) (piccaInit C.order y))).spec.cont.arr a.1 = _
      rw [t3] at hval
      rw [t4 hval a ha]
      change _ = a.2.map (fun w => contFrom C.log (C.meancont (g (m + 1 - 1))) C.meanflux C.rf.x0
        (C.rf.x0 + ((C.rf.n : K) - 1) * C.rf.dx) y.spec.z (tweakOne (C.recFns cov P) (g (m + 1))
        (afterFits (C.recFns cov P) g (m + 1) (piccaInit C.order y))).x w *
          if C.normalize then normAt (g (m + 1)).stack w else 1)
      rw [t2, Nat.add_sub_cancel]
      change (C.fitRec cov (g m) (afterFits (C.recFns cov P) g m (piccaInit C.order y))).spec.valid = true at hval
      change (if C.normalize = true then normArm _ _
        ((C.fitRec cov (g m) (afterFits (C.recFns cov P) g m (piccaInit C.order y))).spec.cont.arr a.1) else
        ((C.fitRec cov (g m) (afterFits (C.recFns cov P) g m (piccaInit C.order y))).spec.cont.arr a.1)) =
        a.2.map (fun w => contFrom C.log (C.meancont (g m)) C.meanflux C.rf.x0
        (C.rf.x0 + ((C.rf.n : K) - 1) * C.rf.dx) y.spec.z
          (C.fitRec cov (g m) (afterFits (C.recFns cov P) g m (piccaInit C.order y))).x w *
          if C.normalize then normAt (g (m + 1)).stack w else 1)
      generalize afterFits (C.recFns cov P) g m (piccaInit C.order y) = T at a1 hval
      obtain ⟨-, -, -, c4, -⟩ := C102_fit hC hn (g m) T a1.x a1.xcov (by rw [a1.fwave]; exact hky)
      have hlook : T.spec.fwave.lookup a.1 = some a.2 := by
        rw [a1.fwave]
        exact lookup_of_mem hky ha
      have harr : (C.fitRec cov (g m) T).spec.cont.arr a.1 = a.2.map (contFrom C.log (C.meancont (g m)) C.meanflux
          C.rf.x0 (C.rf.x0 + ((C.rf.n : K) - 1) * C.rf.dx) y.spec.z (C.fitRec cov (g m) T).x) := by
        unfold Dict.arr
        rw [c4 hval a.1 a.2 hlook, a1.z]
        rfl
      rw [harr]
      split
      · unfold normArm mulFlux
        rw [List.zipWith_map_right, List.zipWith_self]
        rfl
      · simp
  · exfalso
    have hex : ∃ j, j < niter ∧ (∀ l, 0 < l → l ≤ j → conv l = false) ∧
        ¬ SomeValid (C.recFns cov P) n (s (j + 1)) := by
      push Not at hv
      obtain ⟨j, h1, h2, h3⟩ := hv
      exact ⟨j, h1, h2, h3⟩
    classical
    obtain ⟨h1, h2, h3⟩ := Nat.find_spec hex
    have hmin : ∀ l < Nat.find hex, SomeValid (C.recFns cov P) n (s (l + 1)) := by
      intro l hl
      by_contra hbad
      exact Nat.find_min hex hl ⟨by omega, fun q q1 q2 => h2 q q1 (by omega), hbad⟩
    have r1 := (sync_iterate_fail (c := c) hit fname niter (Nat.find hex) h1 hmin
      (fun l hl => h2 (l + 1) (by omega) (by omega)) h3).job
    simp only [hs] at r1
    rw [h] at r1
    have := List.map_inj_left.mp (Outcome.done.inj (Prod.mk.inj r1).1) 0 (List.mem_range.mpr (by omega))
    cases this

/-- **C102.** The chi square catalog after such a run: it is written, with a row for every spectrum, whose columns
`CONT_x` and `CONT_xcov` are the `x` and `xcov` above. -/
theorem C102_catalog {V : Type} (c : Codec (List (ChiRow K)) V) (outdir : String) (hout : outdir ≠ "")
    (order n : Nat) (sp out : Nat → List (FitRec K)) (harm : ∀ r ≤ n, ∀ y ∈ sp r, y.spec.meanSnr.length ≤ 3)
    (h : ∀ r ≤ n, List.Forall₂ (KeepsRec order) (sp r) (out r)) :
    ∃ rows : List (ChiRow K),
      runJob n (fun r => saveContchi2 c outdir (order + 1) r ((out r).map FitRec.chi)) =
        (.done ((List.range (n + 1)).map (fun _ => .ok ())),
         (List.range (n + 1)).map (fun r =>
          if r = 0 then [.file (outdir ++ "/continuum_chi2_catalog.fits") "CHI2_CAT" rows] else [])) ∧
      List.Forall₂ (fun p row => IsRow p.1 p.2.chi row ∧ row.x = p.2.x ∧ row.xcov = p.2.xcov.flatten)
        ((List.range (n + 1)).flatMap (fun r => (out r).map (fun t => (r, t)))) rows := by
  have hmem : ∀ r ≤ n, ∀ t ∈ out r, ∃ y ∈ sp r, KeepsRec order y t := by
    intro r hr t ht
    have := h r hr
    generalize sp r = l, out r = m at this ht
    induction this with
    | nil => cases ht
    | cons hab _ ih =>
      rcases List.mem_cons.mp ht with rfl | ht
      · exact ⟨_, List.mem_cons_self, hab⟩
      · obtain ⟨y, hy, hky⟩ := ih ht
        exact ⟨y, List.mem_cons_of_mem _ hy, hky⟩
  obtain ⟨rows, h1, h2⟩ := C57_catalog c outdir hout (order + 1) n (fun r => (out r).map FitRec.chi)
    (fun r hr s hs => by
      obtain ⟨t, ht, rfl⟩ := List.mem_map.mp hs
      obtain ⟨y, hy, hky⟩ := hmem r hr t ht
      change t.spec.meanSnr.length ≤ 3
      rw [hky.meanSnr]
      exact harm r hr y hy)
    (fun r hr s hs => by
      obtain ⟨t, ht, rfl⟩ := List.mem_map.mp hs
      obtain ⟨y, hy, hky⟩ := hmem r hr t ht
      exact ⟨hky.x, square_flatten hky.xcov⟩)
  refine ⟨rows, h1, ?_⟩
  have e : (List.range (n + 1)).flatMap (fun r => ((out r).map FitRec.chi).map (fun s => (r, s))) =
      ((List.range (n + 1)).flatMap (fun r => (out r).map (fun t => (r, t)))).map (fun p => (p.1, p.2.chi)) := by
    rw [List.map_flatMap]
    refine List.flatMap_congr fun r _ => ?_
    rw [List.map_map, List.map_map]
    rfl
  rw [e, List.forall₂_map_left_iff] at h2
  exact h2.imp fun p row hr => ⟨hr, hr.x, hr.xcov⟩

/-- **C102**, true and input continuum. There is nothing to fit: all pixels are degrees of freedom, `CONT_x` is zero.
`np.eye(1)` is spread over the column `CONT_xcov`, which is the matrix of ones for any `--cont-order`. -/
theorem C102_fixed (order rank : Nat) (y : FitRec K) (harm : y.spec.meanSnr.length ≤ 3) (t : FitRec K)
    (ht : t = trueInit y ∨ t = inputInit y) :
    ∃ row, chiRow (order + 1) rank t.chi = .ok row ∧ row.x = List.replicate (order + 1) 0 ∧
      row.xcov = List.replicate ((order + 1) ^ 2) 1 ∧ row.dof = (goodPixels y.spec : Int) ∧
      row.valid = decide (t.method = "true") := by
  have hv1 : ∀ m : Nat, assignVec (m + 1) [(0 : K)] = .ok (List.replicate (m + 1) 0) := by
    intro m
    unfold assignVec
    split
    · next h => simp only [List.length_singleton] at h; rw [← h]; rfl
    · rfl
  have hv2 : ∀ m : Nat, 0 < m → assignVec m [(1 : K)] = .ok (List.replicate m 1) := by
    intro m hm
    unfold assignVec
    split
    · next h => simp only [List.length_singleton] at h; rw [← h]; rfl
    · rfl
  have he : (eye (K := K) 1).flatten = [1] := by simp [eye]
  have hd : (y.spec.initDof 0 : Int) = goodPixels y.spec := by
    unfold Spectrum.initDof
    rw [realSize_eq]
    simp
  have hsnr : ∀ u : FitRec K, u.spec.meanSnr = y.spec.meanSnr → ∃ v, snrVec (u.chi.meanSnr.map Prod.snd) = .ok v := by
    intro u hu
    change ∃ v, snrVec (u.spec.meanSnr.map Prod.snd) = .ok v
    unfold snrVec
    rw [hu, if_pos (by rw [List.length_map]; exact harm)]
    exact ⟨_, rfl⟩
  have key : ∀ u : FitRec K, u.spec.meanSnr = y.spec.meanSnr → u.x = [0] → u.xcov = eye 1 →
      ∃ row, chiRow (order + 1) rank u.chi = .ok row ∧ row.x = List.replicate (order + 1) 0 ∧
        row.xcov = List.replicate ((order + 1) ^ 2) 1 ∧ row.dof = u.dof ∧ row.valid = u.spec.valid := by
    intro u h1 h2 h3
    obtain ⟨v, hv⟩ := hsnr u h1
    have e1 : assignVec (order + 1) u.chi.x = .ok (List.replicate (order + 1) 0) := by
      change assignVec (order + 1) u.x = _
      rw [h2]
      exact hv1 order
    have e2 : assignVec ((order + 1) ^ 2) u.chi.xcov = .ok (List.replicate ((order + 1) ^ 2) 1) := by
      change assignVec _ u.xcov.flatten = _
      rw [h3, he]
      exact hv2 _ (by positivity)
    unfold chiRow
    rw [hv, e1, e2]
    exact ⟨_, rfl, rfl, rfl, rfl, rfl⟩
  rcases ht with rfl | rfl
  · obtain ⟨row, r1, r2, r3, r4, r5⟩ := key (trueInit y) rfl rfl rfl
    exact ⟨row, r1, r2, r3, r4.trans hd, r5⟩
  · obtain ⟨row, r1, r2, r3, r4, r5⟩ := key (inputInit y) rfl rfl rfl
    exact ⟨row, r1, r2, r3, r4.trans hd, r5⟩

/-! ### Examples -/

/-- A covariance for the minimizer of the examples. -/
def c102Cov (_ : List ℚ → ℚ) (x : List ℚ) : List (List ℚ) := List.replicate x.length (List.replicate x.length 5)

/-- A linear polynomial. The minimizer fails when it starts at zero. -/
def c102Cfg : FullCfg ℚ := { c101Cfg with order := 1 }

example : Shapes c102Cfg c102Cov := by
  refine ⟨fun _ _ => rfl, fun _ _ => ⟨?_, ?_⟩⟩
  · simp [c102Cov]
  · intro row hr
    rw [(List.mem_replicate.mp hr).2]
    simp

/-- Two spectra, the second without flux. -/
def c102Recs : List (FitRec ℚ) := [.new 7 3 2 c86Spec2, .new 8 3 2 c101Bad]

example : 0 < c102Cfg.rf.n ∧ (∀ y ∈ c102Recs, y.spec.fwave.keys.Nodup) ∧ ∀ y ∈ c102Recs, y.spec.meanSnr.length ≤ 3 := by
  decide +kernel

/-- The spectra of the ranks that end without exception. -/
def c102See : Outcome (FullState ℚ × List (FitRec ℚ) × Nat × Bool) → List (List (FitRec ℚ))
  | .done l => l.filterMap (fun
    | .ok r => some r.2.1
    | .error _ => none)
  | _ => []

/-- The run ends without exception; the fit of the second spectrum fails and it keeps the parameters of the start. -/
example :
    let l := c102See (runJob 0 (fun r => (c102Cfg.recFns c102Cov c86Var).iterate c86Codecs "f" 1 false r c86Start
      (c102Recs.map (piccaInit c102Cfg.order)))).1
    l.map (fun m => m.map (fun t => t.x)) = [[[4000000 / 2000001, 0], [1, 0]]] ∧
    l.map (fun m => m.map (fun t => t.xcov)) = [[[[5, 5], [5, 5]], [[1, 0], [0, 1]]]] ∧
    l.map (fun m => m.map (fun t => t.spec.valid)) = [[true, false]] := by
  decide +kernel

-- true continuum with a linear polynomial
example : (chiRow 2 0 (trueInit (c102Recs.headD (.new 7 3 2 c86Spec2))).chi).map (fun r => (r.x, r.xcov, r.dof)) =
    .ok ([0, 0], [1, 1, 1, 1], 2) := by
  decide +kernel

end Verif.Props

import Verif.Spec.ChiDeltas
import Verif.Props.FitWeights
import Verif.Props.FitParams
import Verif.Props.DeltaFiles
import Verif.Props.ReadImage
import Verif.Proofs.Calib

/-!
# C106: the chi square of the catalog and the deltas
-/

namespace Verif.Props
open Verif Verif.Np Verif.Model Verif.Model.Prog Verif.Spec Verif.Proofs

section
variable {K : Type} [Field K] [LinearOrder K] [FloorRing K]

omit [FloorRing K] in
theorem calcChi2_eq {u : Spectrum K} (hv : u.valid = true) (hc : u.cont ≠ []) :
    u.calcContinuumChi2.chi2 = chi2Of u.calcContinuumChi2 := by
  obtain ⟨-, q2, q3, q4, q5, q6, -, q8⟩ := chi2_same u
  unfold chi2Of
  have hfwt : u.calcContinuumChi2.fweight = u.fweight := by
    unfold Spectrum.fweight Spectrum.fivarSm
    rw [q5, q6, q8]
  rw [q3, q4, q2, hfwt]
  unfold Spectrum.calcContinuumChi2
  rw [if_neg (by simp [hv, hc])]
  refine congrArg List.sum (List.map_congr_left fun a _ => ?_)
  unfold Spectrum.armChi2 dot
  rw [zipWith_sq]

omit [FloorRing K] in
/-- The term of one arm. -/
theorem deltaChi2_arm {id : Ident K} {s : Spectrum K} {blind : Bool} {x : String × List K} {d : Delta K}
    (h : ReadBack id s blind x d) (hx : x ∈ s.fwave) (hs : ChiReady s) :
    deltaChi2 d = (List.zipWith (fun p fc => p * (fc.1 - fc.2) ^ 2) (s.fweight.arr x.1)
      ((s.fflux.arr x.1).zip (s.cont.arr x.1))).sum := by
  have l1 := hs.flux x hx
  have l2 := hs.ivar x hx
  have l3 := hs.weight x hx
  have l4 := hs.cont x hx
  obtain ⟨z1, -, z3⟩ := h.size l1 l2 l3 l4
  unfold deltaChi2
  congr 1
  apply List.ext_getElem
  · simp [z1, z3, l1, l3, l4]
  intro i i1 i2
  have hi : i < x.2.length := by
    simp only [List.length_zipWith, z1, z3] at i1
    omega
  have e1 := List.getElem?_eq_getElem (l := s.fflux.arr x.1) (i := i) (by omega)
  have e2 := List.getElem?_eq_getElem (l := s.fivar.arr x.1) (i := i) (by omega)
  have e3 := List.getElem?_eq_getElem (l := s.fweight.arr x.1) (i := i) (by omega)
  have e4 := List.getElem?_eq_getElem (l := s.cont.arr x.1) (i := i) (by omega)
  obtain ⟨-, p2, p3, p4⟩ := h.pixel i _ _ _ _ e1 e2 e3 e4
  have hc : (s.cont.arr x.1)[i] ≠ 0 := hs.nonzero x hx _ (List.getElem_mem _)
  simp only [List.getElem_zipWith, List.getElem_zip]
  rw [List.getElem?_eq_getElem (by omega)] at p2
  rw [Option.some.inj p2]
  by_cases hv : (s.fivar.arr x.1)[i] = 0
  · have h0 := hs.masked x hx i _ (by rw [e2, hv]) e3
    rw [h0]
    simp
  · have p3 := p3 (mul_ne_zero hv (pow_ne_zero _ hc))
    rw [List.getElem?_eq_getElem (by omega)] at p3
    rw [Option.some.inj p3]
    field_simp

omit [FloorRing K] in
/-- **C106**, the files: the sum of weight times delta squared over all tables that are written for a spectrum is the
weighted sum of the squared differences of flux and continuum. -/
theorem C106_written (lya : K) (maxlastnight : Nat) (a : BlindArgs K)
    {pick : List String → Option String} (hp : IsPick pick) (pow10 : K → K) (id : Ident K)
    (meanReso : String → K) (rsnr : K) {s : Spectrum K} (hw : Writable s) (hs : ChiReady s)
    (hskip : a.skipResomat = true ↔ s.freso = [])
    (hextra : ∀ k ∈ id.extra.keys, k ∈ ["TILEID", "FIBER", "PETAL_LOC", "EXPID", "NIGHT"]) :
    ∃ hdus ds, s.write (setBlinding lya ClassState.init maxlastnight a) id meanReso rsnr = .ok hdus ∧
      List.Forall₂ (fun h d => Delta.read pick pow10 h = .ok d) hdus ds ∧
      (ds.map deltaChi2).sum = chi2Of s := by
  obtain ⟨hdus, h1, h2⟩ := C30_spectrum_roundtrip lya maxlastnight a hp pow10 id meanReso rsnr hw hskip hextra
  have key : ∀ l : Dict (List K), (∀ x ∈ l, x ∈ s.fwave) → ∀ hdus, List.Forall₂ (fun x h => h.extname = extName id x.1 ∧
      ∃ d, Delta.read pick pow10 h = .ok d ∧ ReadBack id s (decide (MustBlind lya maxlastnight a)) x d)
      (l.filter (fun x => decide (s.meanSnr.lookup x.1 ≠ some 0))) hdus →
      ∃ ds, List.Forall₂ (fun h d => Delta.read pick pow10 h = .ok d) hdus ds ∧
      (ds.map deltaChi2).sum = (l.map (fun a => (List.zipWith (fun p fc => p * (fc.1 - fc.2) ^ 2) (s.fweight.arr a.1)
        ((s.fflux.arr a.1).zip (s.cont.arr a.1))).sum)).sum := by
    intro l
    induction l with
    | nil =>
      intro _ hdus h
      rw [List.filter_nil, List.forall₂_nil_left_iff] at h
      subst h
      exact ⟨[], .nil, rfl⟩
    | cons x l ih =>
      intro hl hdus h
      have hx := hl x List.mem_cons_self
      by_cases h0 : s.meanSnr.lookup x.1 = some 0
      · rw [List.filter_cons, if_neg (by simp [h0])] at h
        obtain ⟨ds, d1, d2⟩ := ih (fun y hy => hl y (List.mem_cons_of_mem _ hy)) hdus h
        refine ⟨ds, d1, ?_⟩
        rw [List.map_cons, List.sum_cons, d2]
        have hz : (List.zipWith (fun p fc => p * (fc.1 - fc.2) ^ 2) (s.fweight.arr x.1)
            ((s.fflux.arr x.1).zip (s.cont.arr x.1))).sum = 0 := by
          refine List.sum_eq_zero fun y hy => ?_
          obtain ⟨i, hi, rfl⟩ := List.getElem_of_mem hy
          rw [List.getElem_zipWith, hs.noise x hx h0 _ (List.getElem_mem _), zero_mul]
        rw [hz, zero_add]
      · rw [List.filter_cons, if_pos (by simp [h0])] at h
        cases h with
        | cons ha ht =>
          obtain ⟨-, d, hr, hb⟩ := ha
          obtain ⟨ds, d1, d2⟩ := ih (fun y hy => hl y (List.mem_cons_of_mem _ hy)) _ ht
          refine ⟨d :: ds, .cons hr d1, ?_⟩
          rw [List.map_cons, List.map_cons, List.sum_cons, List.sum_cons, d2, deltaChi2_arm hb hx hs]
  obtain ⟨ds, d1, d2⟩ := key s.fwave (fun _ h => h) hdus h2
  exact ⟨hdus, ds, h1, d1, d2⟩

end

section
variable {K : Type} [Field K] [LinearOrder K] [FloorRing K] {C : FullCfg K}

/-- One fit. -/
theorem fitOne_chi2 (g : FullState K) (s : Spectrum K) (hn : s.fwave.keys.Nodup) (hne : s.fwave ≠ [])
    (hv : (C.fitOne g s).valid = true) :
    (C.fitOne g s).chi2 = chi2Of (C.fitOne g s) ∧ (C.fitOne g s).weight ≠ none ∧ (C.fitOne g s).cont ≠ [] := by
  obtain ⟨x, l, hx⟩ := List.exists_cons_of_ne_nil hne
  have hc : (C.fitOne g s).cont ≠ [] := by
    intro h0
    obtain ⟨-, h2⟩ := C53_picca_values C.log (C.meancont g) C.meanflux g.varlss g.eta (C.rfwave.getD 0 0) C.denom
      (C.minimize (Spectrum.piccaCost C.log (C.meancont g) C.meanflux g.varlss g.eta (C.rfwave.getD 0 0) C.denom s)
      (startA0 s :: List.replicate C.order 0)).1 _ hn
    have := h2 hv x.1 x.2 (by rw [hx]; simp [List.lookup])
    change (C.fitOne g s).cont.lookup x.1 = _ at this
    rw [h0] at this
    cases this
  have key : ∀ u : Spectrum K, (Spectrum.endFit g.varlss g.eta u).valid = true →
      (Spectrum.endFit g.varlss g.eta u).cont ≠ [] →
      (Spectrum.endFit g.varlss g.eta u).chi2 = chi2Of (Spectrum.endFit g.varlss g.eta u) ∧
      (Spectrum.endFit g.varlss g.eta u).weight ≠ none := by
    intro u hv hc
    obtain ⟨e1, e2, -⟩ := endFit_cases g.varlss g.eta u
    rw [e1] at hv
    obtain ⟨e3, e4⟩ := e2 hv
    rw [e4] at hc
    rw [e3]
    refine ⟨calcChi2_eq ((sfw_same _ _ _).1.trans hv) (by rw [(sfw_same _ _ _).2.1]; exact hc), ?_⟩
    rw [(chi2_same _).2.2.2.2.2.2.2]
    unfold Spectrum.setForestWeight
    rw [if_neg (by simp [hv, hc])]
    simp
  obtain ⟨k1, k2⟩ := key _ hv hc
  exact ⟨k1, k2, hc⟩

omit [LinearOrder K] [FloorRing K] in
theorem eta_chi2 (eta : K → K) {s : Spectrum K} (hw : s.weight ≠ none) (h : s.chi2 = chi2Of s) :
    (etaCalibIvar eta s).chi2 = chi2Of (etaCalibIvar eta s) := by
  unfold etaCalibIvar
  have : ∀ (l : Dict (List K)) (t : Spectrum K), (l.foldl (etaArm eta) t).fwave = t.fwave ∧
      (l.foldl (etaArm eta) t).chi2 = t.chi2 ∧ (l.foldl (etaArm eta) t).fflux = t.fflux ∧
      (l.foldl (etaArm eta) t).cont = t.cont ∧ (l.foldl (etaArm eta) t).weight = t.weight := by
    intro l
    induction l with
    | nil => exact fun _ => ⟨rfl, rfl, rfl, rfl, rfl⟩
    | cons a l ih =>
      intro t
      obtain ⟨h1, h2, h3, h4, h5⟩ := ih (etaArm eta t a)
      exact ⟨h1.trans rfl, h2.trans rfl, h3.trans rfl, h4.trans rfl, h5.trans rfl⟩
  obtain ⟨h1, h2, h3, h4, h5⟩ := this s.fwave s
  generalize s.fwave.foldl (etaArm eta) s = t at h1 h2 h3 h4 h5
  obtain ⟨d, hd⟩ := Option.ne_none_iff_exists'.mp hw
  have h6 : t.fweight = s.fweight := by
    unfold Spectrum.fweight
    rw [h5, hd]
    rfl
  unfold chi2Of
  rw [h2, h, h1, h3, h4, h6]
  rfl

theorem after_arms {Q D : Type} (P : FitterFns (FullState K) (Spectrum K) (StackSums K) Q D) (g : Nat → FullState K)
    (y : Spectrum K) (i : Nat) : (afterFits (C.fns P) g i y).fwave = y.fwave := by
  induction i with
  | zero => rfl
  | succ i ih => exact ((fitOne_same C (g i) _).1).trans ih

theorem coadd_cont {sqrt : K → K} {smooth : List K → K → List K} {junk : Nat → K} {nan eps : K} {s u : Spectrum K}
    {varlss eta : K → K} (h : s.coaddArmsForest sqrt smooth junk nan eps varlss eta = .ok u) (hc : s.cont ≠ []) :
    u.cont ≠ [] := by
  unfold Spectrum.coaddArmsForest at h
  obtain ⟨g, -, h⟩ := except_bind_eq_ok.mp h
  obtain ⟨fi, -, h⟩ := except_bind_eq_ok.mp h
  obtain ⟨co, h3, h⟩ := except_bind_eq_ok.mp h
  obtain ⟨re, -, h⟩ := except_bind_eq_ok.mp h
  have hco : co ≠ [] := by
    unfold Spectrum.newCont at h3
    rw [if_neg hc] at h3
    obtain ⟨l, -, h3⟩ := except_bind_eq_ok.mp h3
    rw [← Except.ok.inj h3]
    simp
  rw [← Except.ok.inj h]
  intro h0
  apply hco
  refine Eq.trans ?_ h0
  refine Eq.trans ?_ (sfw_same _ _ _).2.1.symm
  unfold Spectrum.setSmoothForestivar
  split <;> rfl

theorem norm_cont (st : Stacker K) {s : Spectrum K} (hc : s.cont ≠ []) : (normSpec st s).cont ≠ [] := by
  unfold normSpec
  generalize s.fwave = l
  induction l generalizing s with
  | nil => exact hc
  | cons a l ih =>
    rw [List.foldl_cons]
    refine ih ?_
    change s.cont.set a.1 _ ≠ []
    intro h0
    have := lookup_set s.cont a.1 (normArm st a.2 (s.cont.arr a.1)) a.1
    rw [h0, if_pos rfl] at this
    cases this

theorem tweak_chi2 {Q D : Type} (P : FitterFns (FullState K) (Spectrum K) (StackSums K) Q D) (g : FullState K)
    {u : Spectrum K} (hu : u.valid = true → u.chi2 = chi2Of u ∧ u.weight ≠ none ∧ u.cont ≠ [])
    (hv : (tweakOne (C.fns P) g u).valid = true) : (tweakOne (C.fns P) g u).valid = true ∧
      (tweakOne (C.fns P) g u).cont ≠ [] ∧
      (C.normalize = false → (tweakOne (C.fns P) g u).chi2 = chi2Of (tweakOne (C.fns P) g u)) := by
  refine ⟨hv, ?_⟩
  have e1 : ∀ v : Spectrum K, (C.fns P).etaCalib g v = if C.etaCalib then etaCalibIvar g.eta v else v := fun _ => rfl
  have e2 : ∀ v : Spectrum K, (C.fns P).normalize g v = if C.normalize then normSpec g.stack v else v := fun _ => rfl
  have e3 : ∀ v : Spectrum K, (C.fns P).valid v = v.valid := fun _ => rfl
  unfold tweakOne at hv ⊢
  rw [e1, e2, e3] at hv ⊢
  have hval : u.valid = true := by
    by_contra h0
    rw [if_neg h0] at hv
    split at hv
    · exact h0 ((eta_keeps _ _).2.2.2.2.symm.trans hv)
    · exact h0 hv
  obtain ⟨f1, f2, f3⟩ := hu hval
  rw [if_pos hval]
  constructor
  · have : (if C.normalize then normSpec g.stack u else u).cont ≠ [] := by
      split
      · exact norm_cont _ f3
      · exact f3
    split
    · rw [(eta_keeps _ _).2.2.2.1]
      exact this
    · exact this
  · intro hnorm
    have : (if C.normalize then normSpec g.stack u else u) = u := by rw [hnorm]; rfl
    rw [this]
    split
    · exact eta_chi2 _ f2 f1
    · exact f1

/-- The spectra after the iterations, if there was no exception. -/
theorem sync_iterate_cases {G Sp R Q D V : Type} (F : FitterFns G Sp R Q D) (c : FitterCodecs R Q V) (n : Nat)
    (hf : Bool) (fname : String) (niter : Nat) (h0 : 0 < niter) (g0 : G) (sp : Nat → List Sp) :
    (∃ M, Sync n (fun r => F.iterate c fname niter hf r g0 (sp r)) (fun _ => .error .qsonic) M) ∨
    ∃ (g : Nat → G) (gfin : G) (k : Nat) (b : Bool) (M : _), 0 < k ∧
      Sync n (fun r => F.iterate c fname niter hf r g0 (sp r))
        (fun r => .ok (gfin, (sp r).map (fun y => tweakOne F (g k) (afterFits F g k y)), k, b)) M := by
  obtain ⟨g, s, conv, hit, rfl, rfl⟩ := exists_iterations F n hf g0 sp
  by_cases hv : ∀ j < niter, (∀ l, 0 < l → l ≤ j → conv l = false) → SomeValid F n (s (j + 1))
  · obtain ⟨k, -, k1, -, -, hs⟩ := sync_iterate (c := c) hit fname niter hv
    refine .inr ⟨g, finalG F n hf (g k) (fun r => F.tweak (g k) (s k r)), k, if k = 0 then false else conv k,
      fun r => Saver.session fname r (allExts F hf g k (finalG F n hf (g k) (fun r => F.tweak (g k) (s k r)))), k1 h0,
      hs.congr (fun _ _ => rfl) (fun r _ => ?_) (fun _ _ => rfl)⟩
    rw [tweak_eq F (g k) (s k r), iterations_after hit k r, List.map_map]
    rfl
  · refine .inl ?_
    have hex : ∃ j, j < niter ∧ (∀ l, 0 < l → l ≤ j → conv l = false) ∧ ¬ SomeValid F n (s (j + 1)) := by
      push Not at hv
      obtain ⟨j, h1, h2, h3⟩ := hv
      exact ⟨j, h1, h2, h3⟩
    classical
    obtain ⟨h1, h2, h3⟩ := Nat.find_spec hex
    have hmin : ∀ l < Nat.find hex, SomeValid F n (s (l + 1)) := by
      intro l hl
      by_contra hbad
      exact Nat.find_min hex hl ⟨by omega, fun q q1 q2 => h2 q q1 (by omega), hbad⟩
    exact ⟨_, sync_iterate_fail (c := c) hit fname niter (Nat.find hex) h1 hmin
      (fun l hl => h2 (l + 1) (by omega) (by omega)) h3⟩

/-- The spectra that a run without exception returns. -/
theorem contFit_done {G R Q D V : Type} (F : FitterFns G (Spectrum K) R Q D) (c : FitterCodecs R Q V)
    (interps : G → (K → K) × (K → K)) (T : TailFns K) (ncal : Option (NoiseCal K)) (after : Bool) (n : Nat)
    (hf : Bool) (fname : String) (niter : Nat) (h0 : 0 < niter) (g0 : G) (sp : Nat → List (Spectrum K))
    {out : Nat → List (Spectrum K)} {ev : List (List (SaverEv (String × D)))}
    (h : runJob n (fun r => continuumFitting F c interps T ncal after fname niter hf r g0 (sp r)) =
      (.done ((List.range (n + 1)).map (fun r => .ok (out r))), ev)) :
    ∃ (g : Nat → G) (gfin : G) (k : Nat), 0 < k ∧ ∀ r ≤ n, fitTail T ncal after (interps gfin).1 (interps gfin).2
      (((sp r).map (fun y => tweakOne F (g k) (afterFits F g k y))).filter (fun s => F.valid s)) = .ok (out r) := by
  have hout : ∀ {x : Nat → Except Err (List (Spectrum K))} {M}, Sync n (fun r => continuumFitting F c interps T ncal
      after fname niter hf r g0 (sp r)) x M → ∀ r ≤ n, x r = .ok (out r) := by
    intro x M hs r hr
    have := hs.job
    rw [h] at this
    exact (List.map_inj_left.mp (Outcome.done.inj (Prod.mk.inj this).1) r (List.mem_range.mpr (by omega))).symm
  rcases sync_iterate_cases F c n hf fname niter h0 g0 sp with ⟨M, hs⟩ | ⟨g, gfin, k, b, M, k0, hs⟩
  · have := hout (hs.bind_error (fun r q => ofExcept (fitTail T ncal after (interps q.1).1 (interps q.1).2
      (q.2.1.filter (fun s => F.valid s))))) 0 (by omega)
    cases this
  · exact ⟨g, gfin, k, k0, hout (hs.bind (f := fun (_ : Nat) (q : G × List (Spectrum K) × Nat × Bool) => ofExcept (fitTail T ncal after (interps q.1).1 (interps q.1).2
      (q.2.1.filter (fun s => F.valid s)))) (sync_ofExcept n _))⟩

/-- **C106**, the part of the claim that holds. Full claim: `CONT_chi2` of a valid quasar in the chi square catalog is
the sum of `WEIGHT` times `DELTA` squared over its deltas. Proved: after a run of the fitter without exception, the
chi square of every valid spectrum is its weighted sum of squared differences of flux and continuum, which is the sum
over the deltas by `C106_written`, if arms are coadded at the end, or if there is neither normalisation of the stacked
flux nor additive noise calibration; `--eta-calib-ivar` may be given. Missing: the two other options without coadding
(`C106_normalize_refuted`, `C106_additive_refuted`), and arms that are dropped before saving (`C106_short_refuted`) or
have mean signal-to-noise zero (`C106_noise_refuted`). -/
theorem C106_partial {Q D V : Type} (P : FitterFns (FullState K) (Spectrum K) (StackSums K) Q D)
    (c : FitterCodecs (StackSums K) Q V) (interps : FullState K → (K → K) × (K → K)) (T : TailFns K)
    (after : Bool) (hopt : after = true ∨ C.normalize = false) (fname : String) (niter n : Nat) (h0 : 0 < niter)
    (hf : Bool) (g0 : FullState K) (sp : Nat → List (Spectrum K))
    (hk : ∀ r ≤ n, ∀ y ∈ sp r, y.fwave.keys.Nodup ∧ y.fwave ≠ [])
    {out : Nat → List (Spectrum K)} {ev : List (List (SaverEv (String × D)))}
    (h : runJob n (fun r => continuumFitting (C.fns P) c interps T none after fname niter hf r g0 (sp r)) =
      (.done ((List.range (n + 1)).map (fun r => .ok (out r))), ev)) :
    ∀ r ≤ n, ∀ t ∈ out r, t.valid = true ∧ t.cont ≠ [] ∧ t.chi2 = chi2Of t := by
  obtain ⟨g, gfin, k, k0, this⟩ := contFit_done (C.fns P) c interps T none after n hf fname niter h0 g0 sp h
  · intro r hr t ht
    have hr' := this r hr
    -- before the tail
    obtain ⟨m, rfl⟩ : ∃ m, k = m + 1 := ⟨k - 1, by omega⟩
    have main : ∀ s ∈ List.filter (fun s => (C.fns P).valid s)
        ((sp r).map (fun y => tweakOne (C.fns P) (g (m + 1)) (afterFits (C.fns P) g (m + 1) y))),
        s.valid = true ∧ s.cont ≠ [] ∧ (C.normalize = false → s.chi2 = chi2Of s) := by
      intro s hs
      obtain ⟨h1, h2⟩ := List.mem_filter.mp hs
      obtain ⟨y, hy, rfl⟩ := List.mem_map.mp h1
      obtain ⟨y1, y2⟩ := hk r hr y hy
      have hfw := after_arms (C := C) P g y m
      have hfit := fitOne_chi2 (C := C) (g m) (afterFits (C.fns P) g m y) (by rw [hfw]; exact y1)
        (by rw [hfw]; exact y2)
      exact tweak_chi2 (C := C) P (g (m + 1)) hfit h2
    cases ha : after with
    | true =>
      rw [ha] at hr'
      obtain ⟨s, hs1, hs2, -, hs3⟩ := forall₂_right (C75_coadd T _ _ hr') ht
      obtain ⟨m1, m2, -⟩ := main s hs1
      have hr2 : List.mapM (tailCoaddOne T (interps gfin).1 (interps gfin).2) _ = .ok (out r) := hr'
      obtain ⟨s', hs1', hs2'⟩ := forall₂_right (mapM_ok_inv hr2) ht
      have hc : t.cont ≠ [] := by
        unfold tailCoaddOne at hs2'
        cases hco : s'.coaddArmsForest T.sqrt T.smooth T.junk T.nan T.eps (interps gfin).1 (interps gfin).2 with
        | error e => rw [hco] at hs2'; cases hs2'
        | ok u =>
          rw [hco] at hs2'
          rw [← Except.ok.inj hs2', (chi2_same u).2.1]
          exact coadd_cont hco (main s' hs1').2.1
      have hval : t.valid = true := hs2.trans m1
      exact ⟨hval, hc, (hs3 hval hc).2⟩
    | false =>
      rw [ha] at hr'
      have e := Except.ok.inj hr'
      rw [← e] at ht
      obtain ⟨m1, m2, m3⟩ := main t ht
      exact ⟨m1, m2, m3 (hopt.resolve_left (by simp [ha]))⟩

end
/-! ### Where the claim is false, and examples -/

/-- The sum over the deltas that are written for a spectrum. -/
def c106Sum (s : Spectrum ℚ) : Option ℚ :=
  ((s.write (setBlinding 1215 ClassState.init 0 ⟨true, 1040, true⟩) c30Id (fun _ => 0) 0).toOption.bind fun l =>
    (l.mapM (Delta.read List.head? id)).toOption).map fun ds => (ds.map deltaChi2).sum

/-- A spectrum with two pixels and one with two arms, the second short. -/
def c106Spec : Spectrum ℚ := { c86Spec2 with meanSnr := [("B", 2)] }

def c106Arms (snr : ℚ) : Spectrum ℚ :=
  Spectrum.endFit (fun _ => 0) (fun _ => 1) { c30Spec with
    fwave := [("B", [100, 101]), ("R", [102])], fflux := [("B", [3, 5]), ("R", [0])], fivar := [("B", [2, 1]), ("R", [1])]
    weight := none, meanSnr := [("B", 3), ("R", snr)], cont := [("B", [2, 4]), ("R", [1])] }

/-- What a run of one rank returns: chi square and the sum over the deltas. -/
def c106Run (norm : Bool) (after : Bool) : List (ℚ × Option ℚ) :=
  match (runJob 0 (fun r => continuumFitting (({ c86Cfg with normalize := norm } : FullCfg ℚ).fns c86Var) c86Codecs
    (fun g => (g.varlss, g.eta)) demoTailFns none after "f" 1 false r c86Start [c106Spec])).1 with
  | .done [.ok l] => l.map (fun t => (t.chi2, c106Sum t))
  | _ => []

/-- **C106** is false with `--normalize-stacked-flux`: the continuum is multiplied after the chi square was computed.
Without it the two agree. -/
theorem C106_normalize_refuted : ∃ a b, c106Run true false = [(a, some b)] ∧ a ≠ b ∧
    ∃ d, c106Run false false = [(d, some d)] ∧ 0 < d := by
  refine ⟨8000008000010 / 20000004000001, 180000180000045 / 1280000256000064, ?_, by norm_num,
    8000008000010 / 20000004000001, ?_, by norm_num⟩ <;> decide +kernel

/-- **C106** is false with additive noise calibration and without coadding: the weights are set again, the chi square is
not. -/
theorem C106_additive_refuted :
    (fitTail demoTailFns (some ⟨fun _ => 1, some (fun _ => 1)⟩) false (fun _ => 0) (fun _ => 1) [c106Arms 1]).toOption.map
      (List.map fun t => (t.chi2, c106Sum t)) = some [(4, some (239 / 306))] := by
  decide +kernel

/-- **C106** is false for a spectrum of which an arm is dropped before saving: its pixels are in the chi square. -/
theorem C106_short_refuted :
    ((c106Arms 1).chi2, c106Sum (c106Arms 1), c106Sum ((c106Arms 1).dropShortArms 1 2 (1 / 3))) = (4, some 4, some 3) := by
  decide +kernel

/-- **C106** is false for a spectrum with an arm of mean signal-to-noise zero, that is not written. -/
theorem C106_noise_refuted : ((c106Arms 0).chi2, c106Sum (c106Arms 0)) = (4, some 3) := by
  decide +kernel

-- the hypotheses: masked pixel, arm without signal
example : Writable c30Spec ∧ ChiReady c30Spec ∧ chi2Of c30Spec = 1 ∧ c106Sum c30Spec = some 1 := by
  refine ⟨⟨by decide +kernel, by decide +kernel, fun h => absurd rfl h⟩, ⟨by decide +kernel, by decide +kernel,
    by decide +kernel, by decide +kernel, by decide +kernel, ?_, by decide +kernel⟩, by decide +kernel, by decide +kernel⟩
  intro x hx i p h1 h2
  have hx : x ∈ [("B", [(100 : ℚ), 101]), ("R", [102])] := hx
  simp only [List.mem_cons, List.not_mem_nil, or_false] at hx
  rcases hx with rfl | rfl
  · have h1 : [(2 : ℚ), 0][i]? = some 0 := h1
    have h2 : [(1 : ℚ), 0][i]? = some p := h2
    match i with
    | 0 => simp at h1
    | 1 => simpa using h2.symm
    | j + 2 => simp at h1
  · have h2 : [(0 : ℚ)][i]? = some p := h2
    match i with
    | 0 => simpa using h2.symm
    | j + 1 => simp at h2
-- a run with coadding, and with normalisation
example : c106Run true true = [(2538 / 17945, some (2538 / 17945))] := by decide +kernel
example : c106Spec.fwave.keys.Nodup ∧ c106Spec.fwave ≠ [] := by decide +kernel

end Verif.Props

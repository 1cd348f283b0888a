import Verif.Model.FixedRun
import Verif.Spec.FixedRun
import Verif.Proofs.TwoCatalogs
import Verif.Proofs.ArmOrderFit
import Verif.Props.InputCont
import Verif.Props.Failed

/-!
# Helper lemmas for C118: runs with continua that are not fitted
-/

namespace Verif.Proofs
open Verif Verif.Np Verif.Model Verif.Model.Prog Verif.Spec Verif.Model.Spectrum

/-! ### Fits after fits -/

section
variable {K : Type}

theorem set_same {α : Type} {d : Dict α} (hn : d.keys.Nodup) {k : String} {v : α} (h : d.lookup k = some v) :
    d.set k v = d := by
  refine eq_of_keys_of_lookup (nodup_keys_set hn k v) ?_ fun a _ => ?_
  · rw [keys_set, if_pos (mem_keys_of_lookup h)]
  · rw [lookup_set]
    split
    · next e => rw [e, h]
    · rfl

/-- The loop over the arms, again. -/
theorem contLoop_again {C : Type} (reject : List C → Bool) (est : List K → List C) (mul : List K → List C → List C)
    (fw : Dict (List K)) {d : Dict (List C)} (hd : d.keys.Nodup) (hr : ∀ a ∈ fw, reject (est a.2) = false)
    (hl : ∀ a ∈ fw, d.lookup a.1 = some (mul a.2 (est a.2))) : contLoop reject est mul fw d = (true, d) := by
  induction fw with
  | nil => rfl
  | cons a fw ih =>
    obtain ⟨k, w⟩ := a
    unfold contLoop
    rw [if_neg (by rw [hr (k, w) List.mem_cons_self]; exact Bool.false_ne_true), set_same hd (hl (k, w) List.mem_cons_self)]
    exact ih (fun a ha => hr a (List.mem_cons_of_mem _ ha)) (fun a ha => hl a (List.mem_cons_of_mem _ ha))

variable [Field K] [LinearOrder K] [FloorRing K]

omit [FloorRing K] in
/-- A fit with an input continuum does not remember earlier ones. -/
theorem inputFit_history (interp meanflux v e v' e' : K → K) {s : Spectrum K} (hn : s.fwave.keys.Nodup)
    (hc : s.cont = []) : inputFit interp meanflux v' e' (inputFit interp meanflux v e s) =
      inputFit interp meanflux v' e' s := by
  cases hv : s.valid with
  | false =>
    have e1 : ∀ v e : K → K, inputFit interp meanflux v e s = s.clearCont := by
      intro v e
      unfold inputFit
      rw [hv, if_neg Bool.false_ne_true]
    rw [e1, e1]
    unfold inputFit
    rw [show s.clearCont.valid = false from hv, if_neg Bool.false_ne_true]
    rfl
  | true =>
    have e1 : ∀ v e : K → K, inputFit interp meanflux v e s = endFit v e (s.setCont (contLoop inputRejects
        (fun w => w.map (fun x => interp (x / (1 + s.z)))) (mulFlux meanflux) s.fwave [])) := by
      intro v e
      unfold inputFit
      rw [hv, if_pos rfl, hc]
    rw [e1, e1]
    obtain ⟨h1, h2⟩ := contLoop_spec inputRejects (fun w => w.map (fun x => interp (x / (1 + s.z)))) (mulFlux meanflux)
      s.fwave hn []
    have hnd := contLoop_nodup inputRejects (fun w => w.map (fun x => interp (x / (1 + s.z)))) (mulFlux meanflux)
      s.fwave (d := []) List.nodup_nil
    generalize hr : contLoop inputRejects (fun w => w.map (fun x => interp (x / (1 + s.z)))) (mulFlux meanflux)
      s.fwave [] = r at h1 h2 hnd
    obtain ⟨b, d⟩ := r
    obtain ⟨f1, f2, f3⟩ := endFit_cases v e (s.setCont (b, d))
    obtain ⟨v1, c1, w1, x1, e2⟩ := endFit_form v e s (b, d)
    cases b with
    | false =>
      have e3 : endFit v e (s.setCont (false, d)) = withFit s false [] none (-1) := (endFit_withFit v e s s.valid d s.weight s.chi2).1
      have e4 : endFit v' e' (s.setCont (false, d)) = withFit s false [] none (-1) :=
        (endFit_withFit v' e' s s.valid d s.weight s.chi2).1
      rw [e3, e4]
      rfl
    | true =>
      have g1 : (withFit s v1 c1 w1 x1).valid = true := by rw [← e2, f1]; rfl
      have g2 : (withFit s v1 c1 w1 x1).cont = d := by rw [← e2, (f2 rfl).2]; rfl
      have g1 : v1 = true := g1
      have g2 : c1 = d := g2
      subst g1 g2
      rw [e2]
      unfold inputFit
      rw [if_pos (show (withFit s true c1 w1 x1).valid = true from rfl)]
      have : contLoop inputRejects (fun w => w.map (fun x => interp (x / (1 + (withFit s true c1 w1 x1).z))))
          (mulFlux meanflux) (withFit s true c1 w1 x1).fwave (withFit s true c1 w1 x1).cont = (true, c1) := by
        refine contLoop_again _ _ _ _ hnd (h1.mp rfl) fun a ha => ?_
        have := h2 rfl a.1
        rw [lookup_of_mem hn ha] at this
        exact this
      rw [this]
      exact (endFit_withFit v' e' s true c1 w1 x1).2 _

end

/-! ### Iterations -/

section
variable {G Sp R Q D V : Type}

/-- If a fit does not remember earlier fits and its success does not depend on the functions. -/
theorem sync_fixed (F : FitterFns G Sp R Q D) (c : FitterCodecs R Q V) (n : Nat) (hf : Bool) (g0 : G)
    (sp : Nat → List Sp) (fname : String) {niter : Nat} (h0 : 0 < niter)
    (hh : niter = 1 ∨ ∀ r ≤ n, ∀ x ∈ sp r, ∀ g g', F.fitOne g (F.fitOne g' x) = F.fitOne g x)
    (hv : ∀ g g' x, F.valid (F.fitOne g x) = F.valid (F.fitOne g' x)) :
    (SomeValid F n (fun r => (sp r).map (F.fitOne g0)) → ∃ (k : Nat) (b : Bool) (g1 g2 gfin : G)
      (M : Nat → List (SaverEv (String × D))), 0 < k ∧ k ≤ niter ∧
      Sync n (fun r => F.iterate c fname niter hf r g0 (sp r))
        (fun r => .ok (gfin, F.tweak g2 ((sp r).map (F.fitOne g1)), k, b)) M ∧
      ∀ I : G → Prop, I g0 → (∀ g s, I g → I (F.meanUpd g s).1) → hf = false → I g1 ∧ I g2) ∧
    (¬ SomeValid F n (fun r => (sp r).map (F.fitOne g0)) → ∃ M : Nat → List (SaverEv (String × D)),
      Sync n (fun r => F.iterate c fname niter hf r g0 (sp r)) (fun _ => .error .qsonic) M) := by
  obtain ⟨g, s, conv, h, rfl, rfl⟩ := exists_iterations F n hf g0 sp
  have hmap : ∀ i < niter, ∀ r ≤ n, s (i + 1) r = (s 0 r).map (F.fitOne (g i)) := by
    intro i
    induction i with
    | zero => exact fun _ r _ => h.fit 0 r
    | succ i ih =>
      intro hi r hr
      rw [h.fit (i + 1) r, ih (by omega) r hr, List.map_map]
      exact List.map_congr_left fun x hx => (hh.resolve_left (by omega)) r hr x hx _ _
  have hsome : ∀ i < niter, SomeValid F n (s (i + 1)) ↔ SomeValid F n (fun r => (s 0 r).map (F.fitOne (g 0))) := by
    intro i hi
    constructor
    · rintro ⟨r, hr, x, hx, hx2⟩
      rw [hmap i hi r hr] at hx
      obtain ⟨y, hy, rfl⟩ := List.mem_map.mp hx
      exact ⟨r, hr, _, List.mem_map.mpr ⟨y, hy, rfl⟩, (hv _ _ y).trans hx2⟩
    · rintro ⟨r, hr, x, hx, hx2⟩
      obtain ⟨y, hy, rfl⟩ := List.mem_map.mp hx
      refine ⟨r, hr, F.fitOne (g i) y, ?_, (hv _ _ y).trans hx2⟩
      rw [hmap i hi r hr]
      exact List.mem_map.mpr ⟨y, hy, rfl⟩
  refine ⟨fun hs => ?_, fun hs => ⟨_, sync_iterate_fail (c := c) h fname niter 0 h0 (fun l hl => absurd hl (by omega))
    (fun l hl => absurd hl (by omega)) (fun q => hs ((hsome 0 h0).mp q))⟩⟩
  obtain ⟨k, k1, k2, -, -, k4⟩ := sync_iterate (c := c) h fname niter (fun j hj _ => (hsome j hj).mpr hs)
  obtain ⟨k, rfl⟩ : ∃ j, k = j + 1 := ⟨k - 1, by have := k2 h0; omega⟩
  refine ⟨k + 1, conv (k + 1), g k, g (k + 1), finalG F n hf (g (k + 1)) (fun r => F.tweak (g (k + 1)) (s (k + 1) r)), _,
    by omega, k1, k4.congr (fun _ _ => rfl) (fun r hr => ?_) (fun _ _ => rfl), ?_⟩
  · rw [hmap k (by omega) r hr]
    rfl
  · rintro I i0 i1 rfl
    have hI : ∀ i, I (g i) := by
      intro i
      induction i with
      | zero => exact i0
      | succ i ih =>
        obtain ⟨m, hm, q⟩ := h.update i
        simp only [Bool.false_eq_true, if_false] at q
        rw [q, hm]
        exact i1 _ _ ih
    exact ⟨hI _, hI _⟩

end

/-! ### The continua given -/

section
variable {Val K : Type} [LinearOrder Val] [Field K] [LinearOrder K] [FloorRing K]

/-- `init_spectra` of one spectrum. -/
def initOne (source : ContSource K) (x : ReadSpec K) : FixedSpec K :=
  match source with
  | .input hpx files _ => ⟨found files ⟨x.row.targetid, hpx x.row.targetid⟩,
      x.spec.setCont ((found files ⟨x.row.targetid, hpx x.row.targetid⟩).isSome, [])⟩
  | .truth data => ⟨some (data x.row.targetid), x.spec.setCont (true, [])⟩

omit [FloorRing K] in
theorem given_iff {source : ContSource K} (hs : SourceOk source) (x : ReadSpec K) (d : K × K × List K) :
    GivenContinuum source x.row.targetid d ↔ (initOne source x).data = some d := by
  cases source with
  | truth data =>
    change d = data x.row.targetid ↔ some (data x.row.targetid) = some d
    rw [Option.some.injEq, eq_comm]
  | input hpx files argsort =>
    change (∃ (F : ContFile Int K) (k : Nat) (c : List K), files (hpx x.row.targetid) = some F ∧ F.wave1 ≠ 0 ∧
      F.ids[k]? = some x.row.targetid ∧ (∀ j < k, F.ids[j]? ≠ some x.row.targetid) ∧ F.continua[k]? = some c ∧
      d = (F.wave1, F.dwave, c)) ↔ found files ⟨x.row.targetid, hpx x.row.targetid⟩ = some d
    unfold found
    dsimp only
    constructor
    · rintro ⟨F, k, c, h1, h2, h3, h4, h5, rfl⟩
      rw [h1]
      dsimp only
      rw [if_neg (by push Not; exact ⟨h2, List.mem_of_getElem? h3⟩), Props.idxOf_first h3 h4, h5]
      rfl
    · intro h
      cases hF : files (hpx x.row.targetid) with
      | none => rw [hF] at h; cases h
      | some F =>
        rw [hF] at h
        dsimp only at h
        split at h
        · cases h
        next hb =>
          push Not at hb
          have hlt := List.idxOf_lt_length_iff.mpr hb.2
          have hlt' : F.ids.idxOf x.row.targetid < F.continua.length := by rw [← hs.1 _ F hF]; exact hlt
          rw [List.getElem?_eq_getElem hlt', Option.getD_some, Option.some.injEq] at h
          refine ⟨F, F.ids.idxOf x.row.targetid, _, rfl, hb.1, ?_, fun j hj => ?_, List.getElem?_eq_getElem hlt', h.symm⟩
          · rw [List.getElem?_eq_getElem hlt, List.getElem_idxOf]
          · have := List.not_of_lt_findIdx (xs := F.ids) (p := fun t => t == x.row.targetid) (i := j) hj
            have hjl : j < F.ids.length := hj.trans hlt
            rw [List.getElem?_eq_getElem hjl]
            simpa using this

theorem init_ok (C : FixedCfg Val K) (hs : SourceOk C.source) {l : List (ReadSpec K)}
    (hne : (∃ d, C.source = .truth d) ∨ l ≠ []) : C.initSpectra l = .ok (l.map (initOne C.source)) := by
  unfold FixedCfg.initSpectra
  cases e : C.source with
  | truth data => rfl
  | input hpx files argsort =>
    rw [e] at hs
    have hne : l ≠ [] := hne.resolve_left (by rintro ⟨d, h⟩; rw [e] at h; cases h)
    dsimp only
    set specs : List (ContSpec Int) := l.map (fun x => ⟨x.row.targetid, hpx x.row.targetid⟩) with hsp
    have hspne : specs ≠ [] := by simpa [hsp] using hne
    obtain ⟨hgr, m1, m2⟩ := sorted_groups hs.2 hspne
    obtain ⟨st, h1, h2⟩ := groups_ok (files := files) (specs := specs) _ hgr.nonempty hgr.homogeneous
      (fun g hg x hx => m1 x (by rw [← hgr.flatten]; exact List.mem_flatten.mpr ⟨g, hg, hx⟩))
      (fun g hg x hx f hf => hs.1 _ f hf) (fun _ => ⟨false, none⟩)
    have hread : readContinua argsort files specs = .ok st := by
      unfold readContinua
      obtain ⟨a, l, h⟩ := List.exists_cons_of_ne_nil hspne
      rw [h] at h1 ⊢
      exact h1
    rw [hread]
    refine congrArg Except.ok (List.ext_getElem? fun i => ?_)
    rw [List.getElem?_map, List.getElem?_map, List.getElem?_zipIdx]
    cases hi : l[i]? with
    | none => rfl
    | some x =>
      have hsi : specs[i]? = some ⟨x.row.targetid, hpx x.row.targetid⟩ := by
        rw [hsp, List.getElem?_map, hi]
        rfl
      have hst : st i = after files specs i ⟨false, none⟩ := by
        rw [h2 i, if_pos]
        rw [hgr.flatten]
        exact List.mem_map.mpr ⟨(i, _), m2 i _ hsi, rfl⟩
      unfold after at hst
      rw [hsi, Option.bind_some] at hst
      simp only [Option.map_some, Nat.zero_add, Option.some.injEq]
      rw [hst]
      change _ = FixedSpec.mk (found files ⟨x.row.targetid, hpx x.row.targetid⟩)
        (x.spec.setCont ((found files ⟨x.row.targetid, hpx x.row.targetid⟩).isSome, []))
      cases found files ⟨x.row.targetid, hpx x.row.targetid⟩ <;> rfl

/-! ### One spectrum -/

theorem fixed_data (C : FixedCfg Val K) (g : FullState K) (x : FixedSpec K) : (C.fitOne g x).data = x.data := by
  unfold FixedCfg.fitOne
  split <;> rfl

/-- The fit of a spectrum depends on the variance and eta alone. -/
theorem fixed_same (C : FixedCfg Val K) {g g' : FullState K} (h : g.varlss = g'.varlss ∧ g.eta = g'.eta)
    (x : FixedSpec K) : C.fitOne g x = C.fitOne g' x := by
  unfold FixedCfg.fitOne
  rw [h.1, h.2]

theorem fixed_valid (C : FixedCfg Val K) (g g' : FullState K) (x : FixedSpec K) :
    (C.fitOne g x).spec.valid = (C.fitOne g' x).spec.valid := by
  unfold FixedCfg.fitOne
  split
  · change (inputFit _ _ _ _ _).valid = (inputFit _ _ _ _ _).valid
    unfold inputFit
    split
    · rw [(endFit_cases _ _ _).1, (endFit_cases _ _ _).1]
    · rfl
  · change (trueFit _ _ _ _).valid = (trueFit _ _ _ _).valid
    unfold trueFit
    rw [(chi2_same _).1, (chi2_same _).1, (sfw_same _ _ _).1, (sfw_same _ _ _).1]

theorem fixed_history (C : FixedCfg Val K) {hpx : Int → Int} {files : Int → Option (ContFile Int K)}
    {argsort : List (Lex (Int × Int)) → List Nat} (he : C.source = .input hpx files argsort) (g g' : FullState K)
    {x : FixedSpec K} (hn : x.spec.fwave.keys.Nodup) (hc : x.spec.cont = []) :
    C.fitOne g (C.fitOne g' x) = C.fitOne g x := by
  obtain ⟨d, s⟩ := x
  unfold FixedCfg.fitOne
  rw [he]
  dsimp only
  exact congrArg (FixedSpec.mk d) (inputFit_history _ _ _ _ _ _ hn hc)

theorem init_same (source : ContSource K) (x : ReadSpec K) : (initOne source x).spec.fwave = x.spec.fwave ∧
    (initOne source x).spec.cont = [] ∧ (initOne source x).spec.z = x.spec.z := by
  cases source <;> exact ⟨rfl, rfl, rfl⟩

theorem etaCalib_cont (eta : K → K) (s : Spectrum K) : (etaCalibIvar eta s).cont = s.cont ∧
    (etaCalibIvar eta s).fwave = s.fwave := by
  unfold etaCalibIvar
  have : ∀ (l : Dict (List K)) (t : Spectrum K), (l.foldl (etaArm eta) t).cont = t.cont ∧
      (l.foldl (etaArm eta) t).fwave = t.fwave := by
    intro l
    induction l with
    | nil => exact fun _ => ⟨rfl, rfl⟩
    | cons a l ih => exact fun t => ih (etaArm eta t a)
  exact this _ _

/-- What is left of the arms after the short ones are dropped. -/
theorem dropShort_cont (s : Spectrum K) (a b k : K) {arm : String} {w : List K}
    (h : (s.dropShortArms a b k).fwave.lookup arm = some w) :
    s.fwave.lookup arm = some w ∧ (s.dropShortArms a b k).cont.lookup arm = s.cont.lookup arm := by
  unfold dropShortArms at h ⊢
  dsimp only at h ⊢
  revert h
  generalize (List.map Prod.fst (List.filter (fun x => decide ((numGood x.2 : Int) < s.minPixels a b k)) s.fivar)) = l
  intro h
  induction l generalizing s with
  | nil => exact ⟨h, rfl⟩
  | cons e l ih =>
    obtain ⟨h1, h2⟩ := ih (s.dropArm e) h
    have h1 : (s.fwave.pop e).lookup arm = some w := h1
    rw [List.foldl_cons, h2]
    change _ ∧ (s.cont.pop e).lookup arm = _
    rw [lookup_pop] at h1 ⊢
    split at h1
    · cases h1
    next he =>
      rw [if_neg he]
      exact ⟨h1, rfl⟩

/-- The spectrum after the fit and the calibrations. -/
def fixedEnd (C : FixedCfg Val K) (g1 g2 : FullState K) (x : ReadSpec K) : Spectrum K :=
  let s := (C.fitOne g1 (initOne C.source x)).spec
  let t := if s.valid then (if C.run.fit.normalize then normSpec g2.stack s else s) else s
  if C.run.fit.etaCalib then etaCalibIvar g2.eta t else t

/-- What becomes of a spectrum. -/
def fixedOne (C : FixedCfg Val K) (g1 g2 : FullState K) (x : ReadSpec K) : ReadSpec K :=
  { x with spec := (fixedEnd C g1 g2 x).dropShortArms C.run.sel.forestW1 C.run.sel.forestW2 C.run.sel.skip }

theorem normSpec_valid (st : Stacker K) (s : Spectrum K) : (normSpec st s).valid = s.valid := by
  unfold normSpec
  have : ∀ (l : Dict (List K)) (t : Spectrum K), (List.foldl (fun (t : Spectrum K) (a : String × List K) =>
      { t with cont := t.cont.set a.1 (normArm st a.2 (t.cont.arr a.1)) }) t l).valid = t.valid := by
    intro l
    induction l with
    | nil => exact fun _ => rfl
    | cons a l ih => exact fun t => ih _
  exact this _ _

theorem fixedOne_valid (C : FixedCfg Val K) (g1 g2 : FullState K) (x : ReadSpec K) :
    (fixedOne C g1 g2 x).spec.valid = (C.fitOne g1 (initOne C.source x)).spec.valid := by
  unfold fixedOne
  rw [dropShort_valid]
  unfold fixedEnd
  dsimp only
  generalize (C.fitOne g1 (initOne C.source x)).spec = s
  have h1 : (if s.valid = true then (if C.run.fit.normalize = true then normSpec g2.stack s else s) else s).valid = s.valid := by
    split
    · split
      · exact normSpec_valid _ _
      · rfl
    · rfl
  split
  · rw [Props.etaCalibIvar_valid, h1]
  · exact h1

theorem fixed_finish (C : FixedCfg Val K) (g1 g2 : FullState K) {Q D : Type}
    (P : FitterFns (FullState K) (Spectrum K) (StackSums K) Q D) (l : List (ReadSpec K)) :
    C.run.finish (SelectCfg.setSpecs l (((C.fns P).tweak g2 ((l.map (initOne C.source)).map ((C.fns P).fitOne g1))).map
      (fun x : FixedSpec K => x.spec))) = (l.map (fixedOne C g1 g2)).filter (fun x => x.spec.valid) := by
  have e1 : ((C.fns P).tweak g2 ((l.map (initOne C.source)).map ((C.fns P).fitOne g1))).map
      (fun x : FixedSpec K => x.spec) = l.map (fixedEnd C g1 g2) := by
    unfold FitterFns.tweak
    rw [List.map_map, List.map_map, List.map_map, List.map_map]
    refine List.map_congr_left fun x _ => ?_
    change (if C.run.fit.etaCalib then etaCalibIvar g2.eta (if (C.fitOne g1 (initOne C.source x)).spec.valid = true then _ else _ : FixedSpec K).spec
      else (if (C.fitOne g1 (initOne C.source x)).spec.valid = true then _ else _ : FixedSpec K).spec) = _
    unfold fixedEnd
    dsimp only
    split <;> split <;> rfl
  rw [e1]
  have e2 : SelectCfg.setSpecs l (l.map (fixedEnd C g1 g2)) = l.map (fun x => { x with spec := fixedEnd C g1 g2 x }) := by
    clear e1
    unfold SelectCfg.setSpecs
    induction l with
    | nil => rfl
    | cons a l ih => rw [List.map_cons, List.zipWith_cons_cons, ih, List.map_cons]
  rw [e2]
  unfold WholeCfg.finish
  rw [List.filter_map, List.filter_map, List.map_map]
  have e : ((fun x : ReadSpec K => x.spec.valid) ∘ fixedOne C g1 g2) =
      ((fun x => x.spec.valid) ∘ fun x : ReadSpec K => { x with spec := fixedEnd C g1 g2 x }) := by
    funext x
    exact dropShort_valid _ _ _ _
  rw [e]
  rfl

end

/-! ### The run -/

section
variable {Val K : Type} [LinearOrder Val] [Field K] [LinearOrder K] [IsStrictOrderedRing K] [FloorRing K]

theorem prepOne_z (C : WholeCfg Val K) {dw dr : K} (hC : PlainRun C dw dr) (ids : List Int)
    {x : ReadSpec K} (hx : ReadOk x) (hc : C.sel.coaddBefore = true → CoaddReady C.sel x.spec) (hp : PassesCuts C.sel x) :
    (prepOne C ids x).spec.z = x.spec.z := by
  obtain ⟨-, a1, a2, -⟩ := prep_same C.sel hx hc hC.sqrt hp.1
  obtain ⟨b1, b2, -⟩ := etaOne_same C.sel hC.eta a1
  obtain ⟨c1, c2, -⟩ := fluxOne_same C.sel hC.stack b1
  have hz : (fluxOne C.sel (etaOne C.sel (prepRead C.sel x).spec)).z = x.spec.z := by rw [c2, b2, a2]
  have hz0 : 0 < 1 + (fluxOne C.sel (etaOne C.sel (prepRead C.sel x).spec)).z := by rw [hz]; exact hx.zpos
  obtain ⟨-, d2, -⟩ := masks_same C.sel.dlaFlux (prepRead C.sel x).row (C.sel.maskers ids) c1 hz0
  exact (smooth_same C (treatOne C.sel ids (prepRead C.sel x))).2.1.trans (d2.trans hz)

theorem prepOne_nodup (C : WholeCfg Val K) {dw dr : K} (hC : PlainRun C dw dr) (ids : List Int)
    {x : ReadSpec K} (hx : ReadOk x) (hc : C.sel.coaddBefore = true → CoaddReady C.sel x.spec) (hp : PassesCuts C.sel x) :
    (prepOne C ids x).spec.fwave.keys.Nodup := by
  obtain ⟨-, a1, a2, -⟩ := prep_same C.sel hx hc hC.sqrt hp.1
  obtain ⟨b1, b2, -⟩ := etaOne_same C.sel hC.eta a1
  obtain ⟨c1, c2, -⟩ := fluxOne_same C.sel hC.stack b1
  have hA : Aligned (treatOne C.sel ids (prepRead C.sel x)).spec :=
    masks_aligned C.sel.dlaFlux _ _ c1 (by rw [c2, b2, a2]; exact hx.zpos)
  unfold prepOne
  rw [(smooth_same C _).1]
  exact hA.nodup

/-- The delta of a quasar by itself. -/
def aloneFixed (C : FixedCfg Val K) (g1 g2 : FullState K) (x : ReadSpec K) : ReadSpec K :=
  fixedOne C g1 g2 (prepOne C.run [x.row.targetid] x)

/-- The run, whatever the variance and the normalizations: the deltas are those of the spectra that pass, treated one
by one with functions that are the same for all. -/
theorem fixed_run {Q D V : Type} (C : FixedCfg Val K) {c : Catalog Val} {f : Val → List (ReadSpec K)} {dw dr : K}
    (hC : PlainRun C.run dw dr) (hr : ReadsPixels C.run c f) (hA : ∀ k, IsArgsort k (C.run.argsort k))
    (hs : SourceOk C.source) (h0 : 0 < C.run.niter)
    (P : FitterFns (FullState K) (Spectrum K) (StackSums K) Q D) (cs : Codec Bool V)
    (cq : Codec (List (List (Row Val))) V) (cn : Codec Val V) (fc : FitterCodecs (StackSums K) Q V)
    {ang2pix : Nat → Val → Val → Val} {file : Except Err (Catalog Val)} {isMock : Bool}
    {ks : Option (List Val)} {zmin zmax : Val}
    (h : readQuasarCatalog ang2pix file isMock C.run.tile ks zmin zmax = .ok c) (n : Nat)
    (hidle : FixedIdleOk C c f (n + 1)) (fname : String) (g0 : FullState K) :
    let L := ((catPixels C.run.tile c).flatMap f).filter (fun x => decide (PassesCuts C.run.sel x))
    ((C.run.sel.bal = true ∧ balCheckCatalog C.run.cols ≠ .ok ()) ∨ (∀ x ∈ L, (aloneFixed C g0 g0 x).spec.valid = false) →
      ∃ M : Nat → List (SaverEv (String × D)),
        Sync n (fun r => C.runAll P cs cq cn fc (.ok c) fname g0 (n + 1) r) (fun _ => .error .qsonic) M) ∧
    (¬ (C.run.sel.bal = true ∧ balCheckCatalog C.run.cols ≠ .ok ()) → (∃ x ∈ L, (aloneFixed C g0 g0 x).spec.valid = true) →
      ∃ (o : Nat → WholeOut Val K) (M : Nat → List (SaverEv (String × D))) (g1 g2 : FullState K) (k : Nat),
        Sync n (fun r => C.runAll P cs cq cn fc (.ok c) fname g0 (n + 1) r) (fun r => .ok (o r)) M ∧
        0 < k ∧ k ≤ C.niter ∧ (∀ r, (o r).iterations = k) ∧
        ((List.range (n + 1)).flatMap (fun r => (o r).deltas)).Perm
          ((L.map (aloneFixed C g1 g2)).filter (fun x => x.spec.valid)) ∧
        (C.fitVar = false → (g1.varlss = g0.varlss ∧ g1.eta = g0.eta) ∧ g2.varlss = g0.varlss ∧ g2.eta = g0.eta)) := by
  intro L
  have hidle' : IdleOk C.run ∨ n + 1 ≤ (catPixels C.run.tile c).length := by
    unfold FixedIdleOk at hidle
    split at hidle
    · exact .inr hidle.1
    · exact hidle
  obtain ⟨Q1, night, hP1, -, -, ne, ns⟩ := sync_before (W := SaverEv (String × D)) (A := WholeOut Val K) C.run hC hr
    cs cq cn h n hidle'
  have hmem : ∀ x ∈ L, ReadOk x ∧ (C.run.sel.coaddBefore = true → CoaddReady C.run.sel x.spec) ∧
      PassesCuts C.run.sel x ∧ prepOne C.run (c.rows.map C.run.tid) x = prepOne C.run [x.row.targetid] x := by
    intro x hx
    obtain ⟨p, hpp, hxp⟩ := List.mem_flatMap.mp (List.mem_filter.mp hx).1
    obtain ⟨a1, a2, a3⟩ := hr.data p hpp x hxp
    obtain ⟨q, hq1, hq2, -⟩ := hr.row p hpp x hxp
    refine ⟨⟨a1, a2, a3⟩, fun hb => hr.coadd hb p hpp x hxp, of_decide_eq_true (List.mem_filter.mp hx).2, ?_⟩
    refine prepOne_ids C.run hC ⟨a1, a2, a3⟩ (fun hb => hr.coadd hb p hpp x hxp)
      (of_decide_eq_true (List.mem_filter.mp hx).2) ?_ (List.mem_singleton.mpr rfl)
    rw [← hq2]
    exact List.mem_map.mpr ⟨q, (List.mem_filter.mp hq1).1, rfl⟩
  have hall : ∀ g1 g2 : FullState K, ((List.range (n + 1)).flatMap (fun r =>
      ((prepQueue C.run c f (Q1 r)).map (fixedOne C g1 g2)).filter (fun x => x.spec.valid))).Perm
      ((L.map (aloneFixed C g1 g2)).filter (fun x => x.spec.valid)) := by
    intro g1 g2
    rw [← List.filter_flatMap, ← List.map_flatMap]
    refine ((hP1.perm.map _).filter _).trans ?_
    rw [List.map_map]
    refine List.Perm.of_eq (congrArg _ (List.map_congr_left fun x hx => ?_))
    change fixedOne C g1 g2 (prepOne C.run _ x) = fixedOne C g1 g2 (prepOne C.run _ x)
    rw [(hmem x hx).2.2.2]
  have hin : ∀ r ≤ n, ∀ y ∈ prepQueue C.run c f (Q1 r), ∃ x ∈ L, y = prepOne C.run [x.row.targetid] x := by
    intro r hrn y hy
    obtain ⟨x, hx, rfl⟩ := List.mem_map.mp (hP1.perm.mem_iff.mp (List.mem_flatMap.mpr
      ⟨r, List.mem_range.mpr (by omega), hy⟩))
    exact ⟨x, hx, (hmem x hx).2.2.2⟩
  have hne : ∀ r ≤ n, (∃ d, C.source = .truth d) ∨ prepQueue C.run c f (Q1 r) ≠ [] := by
    intro r hrn
    unfold FixedIdleOk at hidle
    cases e : C.source with
    | truth d => exact .inl ⟨d, rfl⟩
    | input hpx files argsort =>
      rw [e] at hidle
      refine .inr ?_
      obtain ⟨ch, Q', hQ⟩ := List.exists_cons_of_ne_nil (hP1.full hidle.1 r hrn)
      obtain ⟨p, hp, rfl⟩ := hP1.chunk r hrn ch (by rw [hQ]; exact List.mem_cons_self)
      obtain ⟨x, hx, hpx⟩ := hidle.2 p hp
      refine List.ne_nil_of_mem (a := prepOne C.run (c.rows.map C.run.tid) x) (List.mem_map.mpr ⟨x, List.mem_filter.mpr
        ⟨List.mem_flatMap.mpr ⟨_, (by rw [hQ]; exact List.mem_cons_self), ?_⟩, decide_eq_true hpx⟩, rfl⟩)
      rw [chunkSpectra_eq f hp]
      exact hx
  have hn0 : 0 < C.niter := by
    unfold FixedCfg.niter
    split
    · exact h0
    · exact one_pos
  have hhist : C.niter = 1 ∨ ∀ r ≤ n, ∀ x ∈ (prepQueue C.run c f (Q1 r)).map (initOne C.source), ∀ g g',
      (C.fns P).fitOne g ((C.fns P).fitOne g' x) = (C.fns P).fitOne g x := by
    cases e : C.source with
    | truth d =>
      left
      unfold FixedCfg.niter
      rw [e]
    | input hpx files argsort =>
      refine .inr fun r hrn x hx g g' => ?_
      obtain ⟨y, hy, rfl⟩ := List.mem_map.mp hx
      obtain ⟨z, hz, rfl⟩ := hin r hrn y hy
      obtain ⟨a1, a2, a3, -⟩ := hmem z hz
      exact fixed_history C e g g' (by rw [(init_same _ _).1]; exact prepOne_nodup C.run hC _ a1 a2 a3) (init_same _ _).2.1
  obtain ⟨i1, i2⟩ := sync_fixed (C.fns P) fc n C.fitVar g0
    (fun r => (prepQueue C.run c f (Q1 r)).map (initOne C.source)) fname hn0 hhist (fixed_valid C)
  have hsome : SomeValid (C.fns P) n (fun r => ((prepQueue C.run c f (Q1 r)).map (initOne C.source)).map ((C.fns P).fitOne g0)) ↔
      ∃ x ∈ L, (aloneFixed C g0 g0 x).spec.valid = true := by
    constructor
    · rintro ⟨r, hrn, s, hs, hv⟩
      obtain ⟨s', hs', rfl⟩ := List.mem_map.mp hs
      obtain ⟨y, hy, rfl⟩ := List.mem_map.mp hs'
      obtain ⟨x, hx, rfl⟩ := hin r hrn y hy
      exact ⟨x, hx, (fixedOne_valid C g0 g0 _).trans hv⟩
    · rintro ⟨x, hx, hv⟩
      obtain ⟨r, hrr, hy⟩ := List.mem_flatMap.mp (hP1.perm.mem_iff.mpr (List.mem_map.mpr ⟨x, hx, rfl⟩))
      rw [(hmem x hx).2.2.2] at hy
      exact ⟨r, Nat.lt_succ_iff.mp (List.mem_range.mp hrr), _,
        List.mem_map.mpr ⟨_, List.mem_map.mpr ⟨_, hy, rfl⟩, rfl⟩, (fixedOne_valid C g0 g0 _).symm.trans hv⟩
  have hinit : Sync n (fun r => (Prog.ofExcept (C.initSpectra (prepQueue C.run c f (Q1 r))) :
      Prog V (SaverEv (String × D)) (List (FixedSpec K))))
      (fun r => .ok ((prepQueue C.run c f (Q1 r)).map (initOne C.source))) (fun _ => []) :=
    sync_ofExcept_eq fun r hrn => init_ok C hs (hne r hrn)
  refine ⟨fun hb => ?_, fun hb hex => ?_⟩
  · by_cases hbad : C.run.sel.bal = true ∧ balCheckCatalog C.run.cols ≠ .ok ()
    · exact ⟨_, ne hbad _⟩
    have hbe := hb.resolve_left hbad
    obtain ⟨M, s1⟩ := i2 (fun q => by
      obtain ⟨x, hx, hv⟩ := hsome.mp q
      rw [hbe x hx] at hv
      cases hv)
    have s2 := s1.bind_error (fun r (x : FullState K × List (FixedSpec K) × Nat × Bool) =>
      C.saveFixed night r (prepQueue C.run c f (Q1 r)) x.2.1 x.2.2.1 x.2.2.2)
    have s3 := hinit.bind (f := fun r s => ((C.fns P).iterate fc fname C.niter C.fitVar r g0 s).bind
      fun x => C.saveFixed night r (prepQueue C.run c f (Q1 r)) x.2.1 x.2.2.1 x.2.2.2) s2
    exact ⟨_, ns hbad (fun night r _ l => C.fitFixed P fc fname g0 night r l) _ _ s3⟩
  · obtain ⟨k, b, g1, g2, gfin, M, k1, k2, s1, hI⟩ := i1 (hsome.mpr hex)
    have hsv : ∀ (r : Nat) (l : List (ReadSpec K)), ∃ files, C.run.save r l = .ok files ∧ _ := fun r l => save_ok C.run hA r l
    choose files hfiles hfp using hsv
    set o : Nat → WholeOut Val K := fun r => ⟨night, k, b,
      ((prepQueue C.run c f (Q1 r)).map (fixedOne C g1 g2)).filter (fun x => x.spec.valid),
      files r (((prepQueue C.run c f (Q1 r)).map (fixedOne C g1 g2)).filter (fun x => x.spec.valid))⟩ with ho
    have s2 : Sync n (fun r => ((C.fns P).iterate fc fname C.niter C.fitVar r g0
        ((prepQueue C.run c f (Q1 r)).map (initOne C.source))).bind
        fun x => C.saveFixed night r (prepQueue C.run c f (Q1 r)) x.2.1 x.2.2.1 x.2.2.2) (fun r => .ok (o r))
        (fun r => M r ++ []) := by
      refine Sync.bind (a := fun r => (gfin, (C.fns P).tweak g2 (((prepQueue C.run c f (Q1 r)).map (initOne C.source)).map
        ((C.fns P).fitOne g1)), k, b)) (f := fun r x => C.saveFixed night r (prepQueue C.run c f (Q1 r)) x.2.1 x.2.2.1 x.2.2.2)
        s1 ?_
      refine (sync_ret n o).congr (fun r _ => ?_) (fun _ _ => rfl) (fun _ _ => rfl)
      unfold FixedCfg.saveFixed
      dsimp only
      rw [fixed_finish, hfiles]
      rfl
    have s3 := hinit.bind (f := fun r s => ((C.fns P).iterate fc fname C.niter C.fitVar r g0 s).bind
      fun x => C.saveFixed night r (prepQueue C.run c f (Q1 r)) x.2.1 x.2.2.1 x.2.2.2) s2
    refine ⟨o, _, g1, g2, k, ns hb (fun night r _ l => C.fitFixed P fc fname g0 night r l) _ _ s3, k1, k2, fun _ => rfl,
      hall g1 g2, fun hf => ?_⟩
    exact hI (fun g => g.varlss = g0.varlss ∧ g.eta = g0.eta) ⟨rfl, rfl⟩ (fun g s hg => hg) hf

/-- The continuum of a quasar by itself. -/
theorem alone_cont (C : FixedCfg Val K) {dw dr : K} (hC : PlainRun C.run dw dr) (hs : SourceOk C.source)
    (hno : C.run.fit.normalize = false) (g1 g2 : FullState K) {x : ReadSpec K} (hx : ReadOk x)
    (hc : C.run.sel.coaddBefore = true → CoaddReady C.run.sel x.spec) (hp : PassesCuts C.run.sel x) :
    let y := aloneFixed C g1 g2 x
    (y.spec.valid = true → ∃ d, GivenContinuum C.source x.row.targetid d ∧ ∀ arm w, y.spec.fwave.lookup arm = some w →
      y.spec.cont.lookup arm = some (w.map (fun v => dataInterp C.run.fit.junk d (contWave C.source x.spec.z v) *
        C.run.fit.meanflux v)) ∧
      ((∀ t, C.source ≠ .truth t) → ∀ v ∈ w, 0 < dataInterp C.run.fit.junk d (contWave C.source x.spec.z v))) ∧
    (∀ d, GivenContinuum C.source x.row.targetid d →
      ((∃ t, C.source = .truth t) ∨ ∀ v, 0 < dataInterp C.run.fit.junk d v) → y.spec.valid = true) := by
  intro y
  set p := prepOne C.run [x.row.targetid] x with hpd
  have hn : p.spec.fwave.keys.Nodup := prepOne_nodup C.run hC _ hx hc hp
  have hz : p.spec.z = x.spec.z := prepOne_z C.run hC _ hx hc hp
  have hrow : p.row = x.row := prepOne_row C.run _ x
  have hv : y.spec.valid = (C.fitOne g1 (initOne C.source p)).spec.valid := fixedOne_valid C g1 g2 p
  have hend : (fixedEnd C g1 g2 p).cont = (C.fitOne g1 (initOne C.source p)).spec.cont ∧
      (fixedEnd C g1 g2 p).fwave = (C.fitOne g1 (initOne C.source p)).spec.fwave := by
    unfold fixedEnd
    dsimp only
    rw [hno, if_neg Bool.false_ne_true]
    have : ∀ s : Spectrum K, (if s.valid = true then s else s) = s := fun s => by split <;> rfl
    rw [this]
    split
    · exact etaCalib_cont _ _
    · exact ⟨rfl, rfl⟩
  have hcont : ∀ arm w, y.spec.fwave.lookup arm = some w →
      (C.fitOne g1 (initOne C.source p)).spec.fwave.lookup arm = some w ∧
      y.spec.cont.lookup arm = (C.fitOne g1 (initOne C.source p)).spec.cont.lookup arm := by
    intro arm w hw
    obtain ⟨h1, h2⟩ := dropShort_cont _ _ _ _ hw
    rw [hend.2] at h1
    rw [hend.1] at h2
    exact ⟨h1, h2⟩
  rw [hv]
  have hg := given_iff hs p
  rw [hrow] at hg
  simp only [hg]
  unfold FixedCfg.fitOne FixedCfg.interp at hcont ⊢
  cases e : C.source with
  | truth data =>
    rw [e] at hcont
    dsimp only [initOne] at hcont ⊢
    have hn' : (p.spec.setCont (true, [])).fwave.keys.Nodup := hn
    obtain ⟨t1, t2⟩ := Props.C53_true_partial (dataInterp C.run.fit.junk (data p.row.targetid)) C.run.fit.meanflux g1.varlss hn'
    have hfw : (trueFit (dataInterp C.run.fit.junk (data p.row.targetid)) C.run.fit.meanflux g1.varlss
        (p.spec.setCont (true, []))).fwave = p.spec.fwave := by
      unfold trueFit
      rw [(chi2_same _).2.2.1, (sfw_same _ _ _).2.2.1]
      rfl
    refine ⟨fun _ => ⟨_, rfl, fun arm w hw => ⟨?_, fun h => absurd rfl (h data)⟩⟩, fun _ _ _ => t1⟩
    obtain ⟨h1, h2⟩ := hcont arm w hw
    rw [hfw] at h1
    rw [h2]
    exact t2 arm w h1
  | input hpx files argsort =>
    rw [e] at hcont
    dsimp only [initOne] at hcont ⊢
    cases hf : found files ⟨p.row.targetid, hpx p.row.targetid⟩ with
    | none =>
      refine ⟨fun h => ?_, fun d hd => nomatch hd⟩
      exact absurd h (by
        change ¬ (inputFit _ _ _ _ (p.spec.setCont (false, []))).valid = true
        unfold inputFit
        rw [if_neg (show ¬ (p.spec.setCont (false, [])).valid = true from Bool.false_ne_true)]
        exact Bool.false_ne_true)
    | some d =>
      rw [hf] at hcont
      dsimp only [Option.isSome_some] at hcont ⊢
      have hn' : (p.spec.setCont (true, [])).fwave.keys.Nodup := hn
      obtain ⟨t1, t2⟩ := Props.C53_input_values (dataInterp C.run.fit.junk d) C.run.fit.meanflux g1.varlss g1.eta hn'
      have hfw : (inputFit (dataInterp C.run.fit.junk d) C.run.fit.meanflux g1.varlss g1.eta
          (p.spec.setCont (true, []))).fwave = p.spec.fwave := by
        unfold inputFit
        rw [if_pos (show (p.spec.setCont (true, [])).valid = true from rfl), (endFit_same _ _ _).1]
        rfl
      refine ⟨fun h => ⟨d, rfl, fun arm w hw => ?_⟩, fun d' hd' hpos => ?_⟩
      · obtain ⟨h1, h2⟩ := hcont arm w hw
        rw [hfw] at h1
        have hpos := (t1.mp h).2 (arm, w) (mem_of_lookup h1)
        have hval := t2 h arm w h1
        have hz' : (p.spec.setCont (true, [])).z = x.spec.z := hz
        rw [hz'] at hpos hval
        rw [h2]
        exact ⟨hval, fun _ => hpos⟩
      · cases hd'
        rcases hpos with ⟨t, ht⟩ | hpos
        · cases ht
        · exact t1.mpr ⟨rfl, fun a _ v _ => hpos _⟩

end
end Verif.Proofs

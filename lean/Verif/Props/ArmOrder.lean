import Verif.Proofs.ArmOrderWhole
import Verif.Proofs.ArmOrderWrite
import Verif.Props.VarFit
import Verif.Props.WholeRun

/-!
# C96: the order of the arms

`args.arms = list(set(args.arms))` (py/qsonic/scripts/qsonic_fit.py:61): strings are hashed with a new seed in every process,
so the same command reads the arms in another order the next time.
-/

namespace Verif.Props
open Verif Verif.Np Verif.Model Verif.Model.Prog Verif.Spec Verif.Proofs Spectrum

/-- **C96.** All readers give the same spectra with the arms in another order if the arms are asked for in another order, or
all raise. -/
theorem C96_readers {Val Wv Im Re Co : Type} [LinearOrder Val] (argsort : List Val → List Nat) {arms arms' : List String}
    (h : arms.Perm arms') (skip tc : Bool) (cols : List String) (cat : List (Row Val))
    (hpx : Val → Val → Option (SpecFile Val Wv Im Re)) (tiles : Val → Val → Val → Option (SpecFile Val Wv Im Re))
    (mocks : Val → Option (SpecFile Val Wv Im Re)) (truths : Val → Option (TruthFile Val Re Co)) :
    ReadsSame (readHealpixCoadd (Co := Co) argsort hpx arms skip cat) (readHealpixCoadd argsort hpx arms' skip cat) ∧
    ReadsSame (readHealpixUncoadd (Co := Co) argsort cols hpx arms skip cat)
      (readHealpixUncoadd argsort cols hpx arms' skip cat) ∧
    ReadsSame (readTile (Co := Co) argsort tiles arms skip cat) (readTile argsort tiles arms' skip cat) ∧
    ReadsSame (readMock argsort mocks truths arms skip tc cat) (readMock argsort mocks truths arms' skip tc cat) :=
  ⟨readsSame_of (healpixCoadd_perm argsort hpx h skip cat) (healpixCoadd_perm argsort hpx h.symm skip cat),
    readsSame_of (healpixUncoadd_perm argsort cols hpx h skip cat) (healpixUncoadd_perm argsort cols hpx h.symm skip cat),
    readsSame_of (tile_perm argsort tiles h skip cat) (tile_perm argsort tiles h.symm skip cat),
    readsSame_of (mock_perm argsort mocks truths h skip tc cat) (mock_perm argsort mocks truths h.symm skip tc cat)⟩

section
variable {K : Type} [Field K] [LinearOrder K]

/-- **C96.** The S/N used by `--min-rsnr` is the same. -/
theorem C96_rsnr (sqrt : K → K) (eps lya z : K) {wave wave' flux flux' ivar ivar' : Dict (List K)}
    (hw : SameItems wave wave') (hf : SameItems flux flux') (hi : SameItems ivar ivar') :
    rsnr sqrt eps lya z wave flux ivar = rsnr sqrt eps lya z wave' flux' ivar' :=
  rsnr_order sqrt eps lya z hw hf hi

/-- **C96.** Spectra that differ in the order of their arms have the same tables in the files, perhaps in another order, or
`write` raises for both. -/
theorem C96_written {s s' : Spectrum K} (h : ArmOrder s s') (st : ClassState) (id : Ident K) (m : String → K) (rs : K) :
    (∀ l, s.write st id m rs = .ok l → ∃ l', s'.write st id m rs = .ok l' ∧ l.Perm l') ∧
      ((∃ l, s.write st id m rs = .ok l) ↔ ∃ l, s'.write st id m rs = .ok l) := by
  refine ⟨write_order h st id m rs, ?_, ?_⟩
  · rintro ⟨l, hl⟩
    obtain ⟨l', hl', -⟩ := write_order h st id m rs l hl
    exact ⟨l', hl'⟩
  · rintro ⟨l, hl⟩
    obtain ⟨l', hl', -⟩ := write_order h.symm' st id m rs l hl
    exact ⟨l', hl'⟩

variable [FloorRing K]

/-- **C96.** `coadd_arms_forest` gives the same spectrum, or the same exception, whatever the order of the arms is; the
wavelength grid, the values and the resolution matrix included. There is no condition on the contents of the arrays. -/
theorem C96_coadd (sqrt : K → K) (smooth : List K → K → List K) (junk : Nat → K) (nan eps : K) {varlss eta : K → K}
    {s s' : Spectrum K} (h : ArmOrder s s') (hw : s.wave = s'.wave) (hf : s.flux = s'.flux) (hi : s.ivar = s'.ivar)
    (hr : s.reso = s'.reso) (hc : s.cont = [])
    (hodd : ∀ a ∈ s.freso, ∀ b ∈ s.freso, a.2.length % 2 = b.2.length % 2) :
    s.coaddArmsForest sqrt smooth junk nan eps varlss eta = s'.coaddArmsForest sqrt smooth junk nan eps varlss eta :=
  coaddArmsForest_order sqrt smooth junk nan eps h hw hf hi hr hc hodd varlss eta

variable {Val : Type} [LinearOrder Val]

/-- **C96.** With `--coadd-arms before`, two runs that read the arms of their spectra in different orders are the same in
everything: results on all ranks, files, exceptions and messages. -/
theorem C96_coadded {Q D V : Type} (C : WholeCfg Val K) (P : FitterFns (FullState K) (Spectrum K) (StackSums K) Q D)
    (hc : C.sel.coaddBefore = true)
    (cs : Codec Bool V) (cq : Codec (List (List (Row Val))) V) (cn : Codec Val V)
    (c : FitterCodecs (StackSums K) Q V) (read : Except Err (Catalog Val)) (fname : String) (g0 : FullState K)
    (n : Nat) (reader' : List (Row Val) → Except Err (List (ReadSpec K)))
    (hread : ∀ q, SameResult (List.Forall₂ ReadOther) (C.reader q) (reader' q)) :
    let job := fun (C : WholeCfg Val K) => runJob n (fun r => C.run P cs cq cn c read fname g0 (n + 1) r)
    job { C with reader := reader' } = job C := by
  dsimp only
  congr 1
  funext r
  have e : ({ C with reader := reader' } : WholeCfg Val K).prepare = C.prepare :=
    funext fun q => prepare_coadded C hc hread q
  unfold WholeCfg.run
  rw [e]
  rfl

variable [IsStrictOrderedRing K]

/-- **C96**, the part of the claim that holds without coadding. Full claim: two runs that read the arms of their spectra in
different orders have the same results. This is so, up to the order of the arms in the spectra and files, if what the
variance fitter adds up does not depend on the order of the arms. But the errors of its statistics do:
`C96_errors_refuted`. -/
theorem C96_partial {Q D V : Type} (C : WholeCfg Val K) {P : FitterFns (FullState K) (Spectrum K) (StackSums K) Q D}
    (hc : C.sel.coaddBefore = false) {dw dr : K} (hrun : PlainRun C dw dr) (hP : VarSym P)
    (cs : Codec Bool V) (cq : Codec (List (List (Row Val))) V) (cn : Codec Val V)
    (c : FitterCodecs (StackSums K) Q V) (read : Except Err (Catalog Val)) (fname : String) (g0 : FullState K)
    (n : Nat) (reader' : List (Row Val) → Except Err (List (ReadSpec K)))
    (hread : ∀ q, SameResult (List.Forall₂ ReadOther) (C.reader q) (reader' q)) :
    let job := fun (C : WholeCfg Val K) => runJob n (fun r => C.run P cs cq cn c read fname g0 (n + 1) r)
    SameOutcome OutOrder (job C).1 (job { C with reader := reader' }).1 ∧
      (job C).2 = (job { C with reader := reader' }).2 :=
  runJob_rel fun r _ => whole_order C hc hrun.obs hrun.obsPos hrun.rf hrun.rfPos hP cs cq cn c read fname g0 (n + 1) r hread

open VarLss in
/-- **C96.** The statistics of the variance fitter themselves (counts, mean deltas, variances and mean pipeline variances)
do not depend on the order of the arms. -/
theorem C96_statistics {cf : VarCfg K} {m : Nat} (hc : GoodBins cf) (h : 0 < m) (eps : K) (uc : Bool)
    {ranks ranks' : List (List (List (List (VPix K))))} (hp : List.Forall₂ (List.Forall₂ List.Perm) ranks ranks') (r r')
    (hr : r ∈ calculate eps uc (rankObjs cf h (ranks.map List.flatten)))
    (hr' : r' ∈ calculate eps uc (rankObjs cf h (ranks'.map List.flatten))) :
    r.1.numPixels = r'.1.numPixels ∧ r.1.numQsos = r'.1.numQsos ∧ ∀ j, r.1.meanRow j = r'.1.meanRow j := by
  refine C50_distribution hc h h eps eps uc uc ?_ r r' hr hr'
  have key : ∀ {α : Type} {l l' : List (List α)}, List.Forall₂ List.Perm l l' → l.flatten.Perm l'.flatten := by
    intro α l l' hl
    induction hl with
    | nil => exact .refl _
    | cons hab _ ih => exact hab.append ih
  refine key ?_
  exact forall₂_map_rel (fun a b hab => key hab) hp
end

/-- **C96**, for the catalog of chi2. Full claim: the row is the same whatever the order of the arms is. All columns but two
are; `MEANSNR` has the same values in another order, that of the names in `ARMS`. -/
theorem C96_catalog_partial {K : Type} [Zero K] (corder rank : Nat) {s s' : ChiSpec K} (hp : s.meanSnr.Perm s'.meanSnr)
    (h : s' = { s with meanSnr := s'.meanSnr }) {row : ChiRow K} (hr : chiRow corder rank s = .ok row) :
    ∃ row', chiRow corder rank s' = .ok row' ∧ row.meanSnr.Perm row'.meanSnr ∧
      row' = { row with meanSnr := row'.meanSnr, arms := row'.arms } := by
  have hl : (s.meanSnr.map Prod.snd).length = (s'.meanSnr.map Prod.snd).length := (hp.map _).length_eq
  have hs : OkRel List.Perm (snrVec (s.meanSnr.map Prod.snd)) (snrVec (s'.meanSnr.map Prod.snd)) := by
    intro x hx
    unfold snrVec at hx ⊢
    rw [← hl]
    split at hx
    next hle =>
      cases hx
      exact ⟨_, if_pos hle, (hp.map _).append_right _⟩
    next => cases hx
  have ex : s'.x = s.x := by rw [h]
  have ec : s'.xcov = s.xcov := by rw [h]
  unfold chiRow at hr ⊢
  obtain ⟨snr, h1, hr⟩ := except_bind_eq_ok.mp hr
  obtain ⟨x, h2, hr⟩ := except_bind_eq_ok.mp hr
  obtain ⟨xc, h3, hr⟩ := except_bind_eq_ok.mp hr
  cases hr
  obtain ⟨snr', h1', hperm⟩ := hs snr h1
  rw [h1', ex, ec, h2, h3]
  refine ⟨_, rfl, hperm, ?_⟩
  rw [h]

/-- The columns `ARMS` and `MEANSNR` depend on the order of the arms. -/
theorem C96_catalog_refuted : ∃ s s' : ChiSpec ℚ, s.meanSnr.Perm s'.meanSnr ∧ s' = { s with meanSnr := s'.meanSnr } ∧
    ∃ row row', chiRow 1 0 s = .ok row ∧ chiRow 1 0 s' = .ok row' ∧ row.arms = "b,r" ∧ row'.arms = "r,b" ∧
      row.meanSnr = [1, 2, 0] ∧ row'.meanSnr = [2, 1, 0] := by
  refine ⟨⟨1, 2, 3, [("b", 1), ("r", 2)], 5, true, 1, 1, [1], [1]⟩, ⟨1, 2, 3, [("r", 2), ("b", 1)], 5, true, 1, 1, [1], [1]⟩,
    .swap _ _ _, rfl, _, _, rfl, rfl, ?_⟩
  decide +kernel

/-! ### Concrete cases -/

/-- A spectrum with its arms in the opposite order. -/
def c96Swap (x : ReadSpec ℚ) : ReadSpec ℚ :=
  ⟨x.row, x.rsnr, Spectrum.blank x.spec.z x.spec.dwave x.spec.wave.reverse x.spec.flux.reverse x.spec.ivar.reverse
    x.spec.reso.reverse⟩

theorem c96_other (id : Int) (flux : ℚ) : ReadOther (c87Arms id flux) (c96Swap (c87Arms id flux)) where
  order :=
    { row := rfl, rsnr := rfl
      spec :=
        { z := rfl, dwave := rfl, wave := ⟨by simp [c87Arms, blank], (List.reverse_perm _).symm⟩
          flux := ⟨by simp [c87Arms, blank], (List.reverse_perm _).symm⟩
          ivar := ⟨by simp [c87Arms, blank], (List.reverse_perm _).symm⟩
          reso := ⟨by simp [c87Arms, blank], (List.reverse_perm _).symm⟩
          fwave := .nil, fflux := .nil, fivar := .nil, freso := .nil, ivarSm := SameItems.nil, weight := SameItems.nil
          smoothing := rfl, meanSnr := .nil, cont := .nil, valid := rfl, chi2 := rfl, x0 := rfl } }
  data := (c87Arms_ok id flux).1
  fresh := (c87Arms_ok id flux).2.1
  zpos := (c87Arms_ok id flux).2.2
  cont := rfl
  parity := (c87Arms_ready c87Cfg id flux).parity

/-- The same run without coadding, on spectra of two arms. -/
def c96Cfg (coadd : Bool) : WholeCfg Nat ℚ := { c88Coadd with sel := { c88Coadd.sel with coaddBefore := coadd } }

/-- Readers of the arms in the opposite order. -/
def c96Reader (l : List (Row Nat)) : Except Err (List (ReadSpec ℚ)) :=
  .ok (l.map (fun r => c96Swap (c87Arms (r "TARGETID" : Nat) (if r "TARGETID" = 40 then 1 / 100 else 3))))

/-- The hypotheses of `C96_coadded` and `C96_partial`. -/
example : (c96Cfg true).sel.coaddBefore = true ∧ (c96Cfg false).sel.coaddBefore = false ∧ PlainRun (c96Cfg false) 8 10 ∧
    VarSym c86Var ∧ (∀ b q, SameResult (List.Forall₂ ReadOther) ((c96Cfg b).reader q) (c96Reader q)) :=
  ⟨rfl, rfl, ⟨c88Coadd_plain.sqrt, c88Coadd_plain.eta, c88Coadd_plain.stack, c88Coadd_plain.obs, c88Coadd_plain.obsPos,
    c88Coadd_plain.rf, c88Coadd_plain.rfPos⟩, fun _ _ _ _ _ => rfl,
    fun _ q => forall₂_map_any (fun _ => c96_other _ _) q⟩

set_option synthInstance.maxSize 4000 in
/-- Two processes with the arms in the opposite order: without coadding the arms are in another order, with the same
continua. -/
example :
    let job := fun (C : WholeCfg Nat ℚ) => c88See (runJob 1 (fun r => C.run c86Var c88Codec.1 c88Codec.2.1 c88Codec.2.2.1
      c88Codec.2.2.2 c88Cat "" c86Start 2 r)).1
    ∃ b r b' r' : List ℚ, b.length = 4 ∧ r.length = 3 ∧
      job (c96Cfg false) = some [(some 0, 1, [(20, [("b", b), ("r", r)])], [.pix 5]),
        (some 0, 1, [(30, [("b", b'), ("r", r')])], [.pix 4])] ∧
      job { c96Cfg false with reader := c96Reader } = some [(some 0, 1, [(20, [("r", r), ("b", b)])], [.pix 5]),
        (some 0, 1, [(30, [("r", r'), ("b", b')])], [.pix 4])] := by
  let o := ((c88See (runJob 1 (fun r => (c96Cfg false).run c86Var c88Codec.1 c88Codec.2.1 c88Codec.2.2.1
    c88Codec.2.2.2 c88Cat "" c86Start 2 r)).1)).getD []
  let a := (o.getD 0 (none, 0, [], [])).2.2.1.getD 0 (0, [])
  let a' := (o.getD 1 (none, 0, [], [])).2.2.1.getD 0 (0, [])
  refine ⟨(a.2.getD 0 ("", [])).2, (a.2.getD 1 ("", [])).2, (a'.2.getD 0 ("", [])).2, (a'.2.getD 1 ("", [])).2, ?_⟩
  decide +kernel

/-- The hypotheses of `C96_coadd` with resolution matrices. -/
example :
    let s : Spectrum ℚ := { Spectrum.blank 2 1 [] [] [] [] with
      fwave := [("b", [3600, 3601]), ("r", [3601, 3602])], fflux := [("b", [6, 3]), ("r", [5, 4])]
      fivar := [("b", [1, 4]), ("r", [4, 1])], freso := [("b", [[1, 2]]), ("r", [[3, 4], [5, 6], [7, 8]])]
      ivarSm := none, weight := none }
    let s' : Spectrum ℚ := { s with fwave := s.fwave.reverse, fflux := s.fflux.reverse, fivar := s.fivar.reverse }
    ArmOrder s s' ∧ s.cont = [] ∧ (∀ a ∈ s.freso, ∀ b ∈ s.freso, a.2.length % 2 = b.2.length % 2) ∧
      (s.coaddArmsForest (fun v => v) (fun l _ => l) (fun _ => 0) 0 (1 / 10 ^ 8) (fun _ => 0) (fun _ => 1)).toOption.map
        (fun t => (t.fwave, t.fflux)) = some ([("brz", [3600, 3601, 3602])], [("brz", [6, 4, 4])]) := by
  refine ⟨⟨rfl, rfl, .nil, .nil, .nil, .nil, ⟨by decide, (List.reverse_perm _).symm⟩, ⟨by decide, (List.reverse_perm _).symm⟩,
    ⟨by decide, (List.reverse_perm _).symm⟩, ⟨by decide, .refl _⟩, trivial, trivial, rfl, .nil, .nil, rfl, rfl, rfl⟩, rfl,
    by decide +kernel, by decide +kernel⟩

section
open VarLss

/-- Three spectra, the first one with two arms. -/
def c96Specs : List (List (List (VPix ℚ))) :=
  let arm := fun d : ℚ => [1, 2, 3, 4, 5, 6].map (fun i : ℚ => (⟨3650, d * i, i + 1 / 2⟩ : VPix ℚ))
  [[arm 1, arm 3], [arm (-4)]]

set_option synthInstance.maxSize 4000 in
/-- **C96** is false without coadding, for the errors: the next arm goes to the next jackknife subsample. With the arms of
one spectrum exchanged the statistics have other errors, and these are the errors given to `curve_fit` for `var_lss` and
`eta`. -/
theorem C96_errors_refuted :
    ∃ specs', List.Forall₂ List.Perm c96Specs specs' ∧ GoodBins c51Cfg ∧
      (let out := fun (l : List (List (List (VPix ℚ)))) =>
        (calculate 0 false (rankObjs c51Cfg (n := 2) (by decide) [l.flatten])).map (fun r => (r.2, r.1.meanRow 1, r.1.errRow 1,
          (r.1.fitArgs 1 1 id (fun _ => false) false 0).map (fun a => (a.1, a.2.1,
            match a.2.2 with | .errors e => e | .matrix _ => []))))
      ∃ m e e' p d, e ≠ e' ∧ out c96Specs = [(none, some m, some e, some (p, d, e))] ∧
        out specs' = [(none, some m, some e', some (p, d, e'))]) := by
  refine ⟨c96Specs.map List.reverse, ?_, ?_, ?_⟩
  · rw [List.forall₂_map_right_iff, List.forall₂_same]
    exact fun l _ => (List.reverse_perm l).symm
  · exact ⟨by decide +kernel, by decide, by decide, by decide +kernel, by decide +kernel⟩
  · dsimp only
    let get := fun (l : List (List (List (VPix ℚ)))) =>
      ((calculate 0 false (rankObjs c51Cfg (n := 2) (by decide) [l.flatten])).map (fun r =>
        ((r.1.meanRow 1).getD [], (r.1.errRow 1).getD [],
          ((r.1.fitArgs 1 1 id (fun _ => false) false 0).map (fun a => (a.1, a.2.1))).getD ([], [])))).getD 0 ([], [], [], [])
    refine ⟨(get c96Specs).1, (get c96Specs).2.1, (get (c96Specs.map List.reverse)).2.1, (get c96Specs).2.2.1,
      (get c96Specs).2.2.2, ?_⟩
    decide +kernel
end

end Verif.Props

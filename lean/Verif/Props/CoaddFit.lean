import Verif.Proofs.CoaddFit
import Verif.Props.Pipeline

/-!
# C115: `qsonic-coadd-deltas` on the deltas of several runs of `qsonic-fit`
-/

namespace Verif.Props
open Verif Verif.Np Verif.Model Verif.Model.Prog Verif.Spec Verif.Proofs

section
variable {Val K : Type} [LinearOrder Val] [Field K] [LinearOrder K] [IsStrictOrderedRing K] [FloorRing K]

/-- **C115**. Runs of `qsonic-fit`, one for each directory, with own settings, catalogs and numbers of processes: one of them
raises `QsonicException` on all ranks, or all finish with deltas of the spectra of the catalog that pass the cuts and whose fit
is valid. In the latter case let `qsonic-coadd-deltas` run on the directories, with the names of the files in any order. If
there is a delta and all arms with signal are on one grid, with weights not negative and not more than ivar, and the same
kind of resolution, it succeeds. Whenever it succeeds, its files have one HDU for each target with an arm with signal in any of the runs,
in the file of the pixel of its coordinates and no other HDUs; no two files have the same name; the HDU is that of all
arms with signal of the target in all runs, each once, coadded one after the other; and if all runs are blinded, or none, so
is the HDU. -/
theorem C115_fit_coadd {Q D V : Type} {dirs : List String} (C : String → WrittenCfg Val K) {c : String → Catalog Val}
    {f : String → Val → List (ReadSpec K)} {dw dr : String → K} {ra dec : Int → K}
    (hC : ∀ d ∈ dirs, PlainRun (C d).run (dw d) (dr d)) (hr : ∀ d ∈ dirs, ReadsPixels (C d).run (c d) (f d))
    (hA : ∀ d ∈ dirs, ∀ k, IsArgsort k ((C d).run.argsort k))
    (hsm : ∀ d ∈ dirs, ∀ v x, ((C d).run.sel.smooth v x).length = v.length)
    (hnew : ∀ d ∈ dirs, ∀ p ∈ catPixels (C d).run.tile (c d), ∀ x ∈ f d p, NewSpec (C d).skipResomat x.spec)
    (hextra : ∀ d ∈ dirs, ∀ i, ∀ k ∈ ((C d).extra i).keys, k ∈ ["TILEID", "FIBER", "PETAL_LOC", "EXPID", "NIGHT"])
    (hnight : ∀ d ∈ dirs, Monotone (C d).night)
    (htile : ∀ d ∈ dirs, (C d).run.byHpx = true → (C d).run.tile = false)
    (hout : ∀ d ∈ dirs, (C d).run.outdir = true) (hra : ∀ d ∈ dirs, (C d).ra = ra) (hdec : ∀ d ∈ dirs, (C d).dec = dec)
    (P : String → FitterFns (FullState K) (Spectrum K) (StackSums K) Q D) (cs : Codec Bool V)
    (cq : Codec (List (List (Row Val))) V) (cn : Codec Val V) (fc : FitterCodecs (StackSums K) Q V)
    {ang2pix : Nat → Val → Val → Val} {file : String → Except Err (Catalog Val)} {isMock : String → Bool}
    {ks : String → Option (List Val)} {zmin zmax : String → Val}
    (h : ∀ d ∈ dirs, readQuasarCatalog ang2pix (file d) (isMock d) (C d).run.tile (ks d) (zmin d) (zmax d) = .ok (c d))
    (n : String → Nat) (hidle : ∀ d ∈ dirs, IdleOk (C d).run ∨ n d + 1 ≤ (catPixels (C d).run.tile (c d)).length)
    (aname : String → String) (g0 : String → FullState K) {pick : List String → Option String} (hp : IsPick pick)
    (pow10 : K → K) {text : Val → String} (htext : Function.Injective text) :
    let job := fun d : String =>
      (runJob (n d) (fun r => (C d).runAll (P d) cs cq cn fc (.ok (c d)) (aname d) (g0 d) (n d + 1) r)).1
    (∃ (outs : String → List (WrittenOut Val K)) (g : String → ReadSpec K → ReadSpec K) (blind : String → Bool)
      (fits : String → List (ReadSpec K)),
      (∀ d ∈ dirs, job d = .done ((outs d).map .ok) ∧ (blind d = true ↔ RunBlinded (C d) (c d)) ∧
        fits d = ((((catPixels (C d).run.tile (c d)).flatMap (f d)).filter
          (fun x => decide (PassesCuts (C d).run.sel x))).map (g d)).filter (fun x => x.spec.valid) ∧
        ∀ x ∈ ((catPixels (C d).run.tile (c d)).flatMap (f d)).filter (fun x => decide (PassesCuts (C d).run.sel x)),
          FromRead (C d).run x (g d x)) ∧
      ∀ (sqrt : K → K) (nan eps dwave : K) (glob : String → List String) (read : String → Except Err (List (Delta K)))
        (pixel : K → K → Nat) (name : HVal K → String) (out : String),
        (∀ d ∈ dirs, DirHas pick pow10 glob read d (writtenFiles text (outs d))) →
        let run := coaddDeltasMain glob read (fun a b => a.coadd sqrt nan eps dwave b) pixel name dirs out
        ((∃ d ∈ dirs, fits d ≠ []) → 0 < dwave → (∃ (w0 : K) (parity : Option Nat), ∀ d ∈ dirs,
          ∀ y ∈ signalArms (fits d), ArmOk w0 dwave parity y.1 y.2) → ∃ files, run = .ok files) ∧
        ∀ files, run = .ok files → (files.map Prod.fst).Nodup ∧ ∃ (targets : List Int) (hdu : Int → Hdu K),
          targets.Nodup ∧ (∀ t, t ∈ targets ↔ ∃ d ∈ dirs, ∃ y ∈ signalArms (fits d), y.1.row.targetid = t) ∧
          (contents files).Perm (targets.map (fun t =>
            (out ++ "/delta-" ++ Nat.repr (pixel (ra t) (dec t)) ++ ".fits", hdu t))) ∧
          ∀ t ∈ targets, ∃ (arms : List (String × ReadSpec K × String × List K)) (ds : List (Delta K)) (Z : Delta K),
            arms.Perm (dirs.flatMap (fun d =>
              ((signalArms (fits d)).filter (fun y => decide (y.1.row.targetid = t))).map (fun y => (d, y)))) ∧
            List.Forall₂ (fun y e => Recovered (blind y.1) ra dec y.2.1 y.2.2 e) arms ds ∧
            coaddAll (fun a b => a.coadd sqrt nan eps dwave b) ds = .ok Z ∧ Z.write name = .ok (hdu t) ∧
            ∀ b, (∀ d ∈ dirs, blind d = b) → Z.blinded = b) ∨
    ∃ d ∈ dirs, job d = .done (List.replicate (n d + 1) (.error .qsonic)) := by
  classical
  intro job
  by_cases hq : ∃ d ∈ dirs, job d = .done (List.replicate (n d + 1) (.error .qsonic))
  · exact .inr hq
  refine .inl ?_
  have hjob : ∀ d ∈ dirs, ∃ (outs : List (WrittenOut Val K)) (g : ReadSpec K → ReadSpec K) (blind : Bool)
      (data : String → List (Delta K)) (arms : String → List (ReadSpec K × String × List K)),
      (job d = .done (outs.map .ok) ∧ (blind = true ↔ RunBlinded (C d) (c d)) ∧
        ∀ x ∈ ((catPixels (C d).run.tile (c d)).flatMap (f d)).filter (fun x => decide (PassesCuts (C d).run.sel x)),
          FromRead (C d).run x (g x)) ∧
      (∀ k ∈ (writtenFiles text outs).keys, readDeltas pick pow10 ((writtenFiles text outs).lookup k) = .ok (data k) ∧
        List.Forall₂ (fun y e => Recovered blind ra dec y.1 y.2 e) (arms k) (data k)) ∧
      ((writtenFiles text outs).keys.flatMap arms).Perm (signalArms (((((catPixels (C d).run.tile (c d)).flatMap
        (f d)).filter (fun x => decide (PassesCuts (C d).run.sel x))).map g).filter (fun x => x.spec.valid))) ∧
      (((((catPixels (C d).run.tile (c d)).flatMap (f d)).filter (fun x => decide (PassesCuts (C d).run.sel x))).map
        g).filter (fun x => x.spec.valid) ≠ [] → (writtenFiles text outs).keys ≠ []) := by
    intro d hd
    rcases C113_written (C d) (hC d hd) (hr d hd) (hA d hd) (hsm d hd) (hnew d hd) (hextra d hd) (hnight d hd) (htile d hd)
      (P d) cs cq cn fc (h d hd) (n d) (hidle d hd) (aname d) (g0 d) hp pow10 with
      ⟨outs, g, blind, h1, -, h3, h4, h5, -, h7⟩ | hx
    swap
    · exact absurd ⟨d, hd, hx⟩ hq
    obtain ⟨h7, h8⟩ := h7 (hout d hd)
    obtain ⟨data, arms, d1, d2, d3⟩ := job_deltas (C d) htext (pick := pick) (pow10 := pow10) (blind := blind) h7 h8
    rw [hra d hd, hdec d hd] at d1
    exact ⟨outs, g, blind, data, arms, ⟨h1, h3, h4⟩, d1, d2.trans (h5.flatMap_right _), fun hne => d3 (fun e => hne (by
      rw [e] at h5
      exact List.nil_perm.mp h5))⟩
  haveI : Nonempty (ReadSpec K → ReadSpec K) := ⟨id⟩
  choose! outs g blind data arms b1 b2 b3 b4 using hjob
  refine ⟨outs, g, blind, fun d => ((((catPixels (C d).run.tile (c d)).flatMap (f d)).filter
    (fun x => decide (PassesCuts (C d).run.sel x))).map (g d)).filter (fun x => x.spec.valid),
    fun d hd => ⟨(b1 d hd).1, (b1 d hd).2.1, rfl, (b1 d hd).2.2⟩, ?_⟩
  generalize hfits : (fun d => ((((catPixels (C d).run.tile (c d)).flatMap (f d)).filter
    (fun x => decide (PassesCuts (C d).run.sel x))).map (g d)).filter (fun x => x.spec.valid)) = fits
  have b3' : ∀ d ∈ dirs, ((writtenFiles text (outs d)).keys.flatMap (arms d)).Perm (signalArms (fits d)) := by
    rw [← hfits]; exact b3
  have b4' : ∀ d ∈ dirs, fits d ≠ [] → (writtenFiles text (outs d)).keys ≠ [] := by
    rw [← hfits]; exact b4
  clear b3 b4 hfits
  intro sqrt nan eps dwave glob read pixel name out hdir run
  choose! names n1 n2 n3 using hdir
  have hrd : ∀ d ∈ dirs, ∀ k ∈ names d, read (d ++ "/" ++ k) = .ok (data d k) := fun d hd k hk => by
    rw [n3 d hd k hk]
    exact (b2 d hd k ((n1 d hd).mem_iff.mp hk)).1
  have hglob : ∀ p ∈ dirs.flatMap glob, ∃ d ∈ dirs, ∃ k ∈ names d, p = d ++ "/" ++ k := by
    intro p hpm
    obtain ⟨d, hd, hpd⟩ := List.mem_flatMap.mp hpm
    rw [n2 d hd] at hpd
    obtain ⟨k, hk, rfl⟩ := List.mem_map.mp hpd
    exact ⟨d, hd, k, hk, rfl⟩
  set D' : String → List (Delta K) := fun p => (read p).toOption.getD [] with hD'
  have hread : ∀ p ∈ dirs.flatMap glob, read p = .ok (D' p) := by
    intro p hpm
    obtain ⟨d, hd, k, hk, rfl⟩ := hglob p hpm
    rw [hD']
    dsimp only
    rw [hrd d hd k hk]
    rfl
  set inputs : List (Delta K) := ((dirs.flatMap glob).map D').flatten with hinputs
  set all : List (String × ReadSpec K × String × List K) := dirs.flatMap (fun d => ((names d).flatMap (arms d)).map
    (fun y => (d, y))) with hall
  have hin : inputs = dirs.flatMap (fun d => (names d).flatMap (data d)) := by
    rw [hinputs, ← List.flatMap_def, List.flatMap_assoc]
    refine List.flatMap_congr fun d hd => ?_
    rw [n2 d hd, List.flatMap_map]
    refine List.flatMap_congr fun k hk => ?_
    rw [hD']
    dsimp only
    rw [hrd d hd k hk]
    rfl
  have hF : List.Forall₂ (fun y e => Recovered (blind y.1) ra dec y.2.1 y.2.2 e ∧ y.1 ∈ dirs) all inputs := by
    rw [hin, hall]
    refine forall₂_flatMap _ fun d hd => ?_
    rw [List.forall₂_map_left_iff]
    refine forall₂_flatMap _ fun k hk => ?_
    exact ((b2 d hd k ((n1 d hd).mem_iff.mp hk)).2).imp fun a b hab => ⟨hab, hd⟩
  have hallp : all.Perm (dirs.flatMap (fun d => (signalArms (fits d)).map (fun y => (d, y)))) :=
    List.Perm.flatMap_left _ fun d hd => (((n1 d hd).flatMap_right _).trans (b3' d hd)).map _
  have hids : inputs.map Delta.targetid = (all.map (fun y => y.2.1.row.targetid)).map HVal.int := by
    rw [List.map_map]
    exact forall₂_map_eq hF fun a b hab => hab.1.targetid
  set tra : HVal K → K := fun t => match t with | .int i => ra i | _ => 0 with htra
  set tdec : HVal K → K := fun t => match t with | .int i => dec i | _ => 0 with htdec
  have hR : ∀ e ∈ inputs, e.header.lookup "RA" = some (.num (tra e.targetid)) ∧
      e.header.lookup "DEC" = some (.num (tdec e.targetid)) := by
    intro e he
    obtain ⟨a, -, ha, -⟩ := forall₂_mem hF e he
    rw [ha.targetid]
    exact ⟨ha.ra, ha.dec⟩
  refine ⟨fun ⟨d0, hd0, hne⟩ hdw ⟨w0, parity, hok⟩ => ?_, fun files hfiles => ?_⟩
  · have hgl : dirs.flatMap glob ≠ [] := by
      obtain ⟨k, hk⟩ := List.exists_mem_of_ne_nil _ (b4' d0 hd0 hne)
      refine List.ne_nil_of_mem (List.mem_flatMap.mpr ⟨d0, hd0, ?_⟩) (a := d0 ++ "/" ++ k)
      rw [n2 d0 hd0]
      exact List.mem_map.mpr ⟨k, (n1 d0 hd0).mem_iff.mpr hk, rfl⟩
    have hco : ∀ e ∈ inputs, CoOk w0 dwave parity e := by
      intro e he
      obtain ⟨a, ha, hae, hda⟩ := forall₂_mem hF e he
      refine coOk_recovered hdw hae (hok a.1 hda a.2 ?_)
      obtain ⟨d, hd, hm⟩ := List.mem_flatMap.mp (hallp.mem_iff.mp ha)
      obtain ⟨y, hy, rfl⟩ := List.mem_map.mp hm
      exact hy
    have hZ : ∀ t ∈ inputs.map Delta.targetid, ∃ z,
        coaddAll (fun a b => a.coadd sqrt nan eps dwave b) (ofTarget t inputs) = .ok z := by
      intro t ht
      obtain ⟨e, he, rfl⟩ := List.mem_map.mp ht
      obtain ⟨z, hz, -⟩ := coaddAll_coOk sqrt nan eps hdw (l := ofTarget e.targetid inputs)
        (List.ne_nil_of_mem (List.mem_filter.mpr ⟨he, by simp⟩)) (fun d hd => hco d (List.mem_filter.mp hd).1)
      exact ⟨z, hz⟩
    obtain ⟨e0, -⟩ : ∃ e : Delta K, True := ⟨⟨[], .int 0, .int 0, [], false, [], [], [], [], none⟩, trivial⟩
    haveI : Nonempty (Delta K) := ⟨e0⟩
    choose! Z hZ using hZ
    obtain ⟨files, hdu, f1, -⟩ := C64_written sqrt nan eps dwave glob read D' pixel name dirs out hgl hread inputs rfl Z hZ
      tra tdec (fun e he => (hR e he).1) (fun e he => (hR e he).2)
    exact ⟨files, f1⟩
  · obtain ⟨hgl, D2, s1, Z, s2'⟩ := C64_success _ glob read pixel name dirs out files hfiles
    have s2 := fun t ht => (s2' t ht).1
    have hDD : (dirs.flatMap glob).map D2 = (dirs.flatMap glob).map D' := List.map_congr_left fun p hpm => by
      have := (s1 p hpm).symm.trans (hread p hpm)
      exact Except.ok.inj this
    rw [hDD] at s2
    obtain ⟨files', hdu, f1, f2, f3, f4⟩ := C64_written sqrt nan eps dwave glob read D' pixel name dirs out hgl hread
      inputs rfl Z s2 tra tdec (fun e he => (hR e he).1) (fun e he => (hR e he).2)
    have : files = files' := Except.ok.inj (hfiles.symm.trans f1)
    subst this
    have hinj : Function.Injective (HVal.int : Int → HVal K) := fun a b hab => HVal.int.inj hab
    refine ⟨f2, (all.map (fun y => y.2.1.row.targetid)).dedup, fun t => hdu (.int t), List.nodup_dedup _, fun t => ?_, ?_,
      fun t ht => ?_⟩
    · rw [List.mem_dedup, List.mem_map]
      constructor
      · rintro ⟨y, hy, rfl⟩
        obtain ⟨d, hd, hm⟩ := List.mem_flatMap.mp (hallp.mem_iff.mp hy)
        obtain ⟨z, hz, rfl⟩ := List.mem_map.mp hm
        exact ⟨d, hd, z, hz, rfl⟩
      · rintro ⟨d, hd, z, hz, rfl⟩
        exact ⟨(d, z), hallp.mem_iff.mpr (List.mem_flatMap.mpr ⟨d, hd, List.mem_map.mpr ⟨z, hz, rfl⟩⟩), rfl⟩
    · rw [hids, List.dedup_map_of_injective hinj, List.map_map] at f4
      exact f4
    · have htm : HVal.int t ∈ inputs.map Delta.targetid := by
        rw [hids]
        exact List.mem_map.mpr ⟨t, List.mem_dedup.mp ht, rfl⟩
      have hfil := forall₂_keep (p := fun y => decide (y.2.1.row.targetid = t))
        (q := fun e => decide (e.targetid = HVal.int t)) hF fun a b hab => by
          rw [hab.1.targetid]
          exact decide_eq_decide.mpr ⟨fun e => by rw [e], fun e => hinj e⟩
      refine ⟨_, _, Z (.int t), ?_, hfil.imp fun a b hab => hab.1, s2 _ htm, f3 _ htm, fun b hb => ?_⟩
      · refine (hallp.filter _).trans (List.Perm.of_eq ?_)
        rw [List.filter_flatMap]
        refine List.flatMap_congr fun d _ => ?_
        rw [List.filter_map]
        rfl
      · have hz := s2 _ htm
        have hbl : ∀ e ∈ ofTarget (HVal.int t) inputs, e.blinded = b := by
          intro e he
          obtain ⟨a, -, hae, hda⟩ := forall₂_mem hF e (List.mem_filter.mp he).1
          rw [hae.blinded, hb _ hda]
        revert hz hbl
        generalize ofTarget (HVal.int t) inputs = l
        intro hz hbl
        cases l with
        | nil => cases hz
        | cons e l =>
          rw [coadd_fold_blinded hz]
          exact hbl e (.head _)

end

/-! ### Concrete cases -/

/-- What the ranks of `qsonic-fit` return in two directories, on two and on three processes. -/
def c115Outs (dir : String) : List (WrittenOut Nat ℚ) :=
  if dir = "a" then c114Outs else c114Ends (runJob 2 (c113Run true 3)).1

/-- The names of the files, in different orders. -/
def c115Names (dir : String) : List String :=
  if dir = "a" then ["delta-4.fits", "delta-5.fits"] else ["delta-5.fits", "delta-4.fits"]

/-- The files in the directories. -/
def c115Glob (dir : String) : List String := (c115Names dir).map (fun k => dir ++ "/" ++ k)

/-- What is read from them. -/
def c115Read (path : String) : Except Err (List (Delta ℚ)) :=
  match (["a", "b"].flatMap (fun d => (c115Names d).map (fun k => (d ++ "/" ++ k, d, k)))).lookup path with
  | some (d, k) => readDeltas List.head? id ((writtenFiles Nat.repr (c115Outs d)).lookup k)
  | none => .error .osError

set_option synthInstance.maxSize 4000 in
/-- The directories; the hypotheses on the runs are those of `C113_written`. -/
example : ∀ d ∈ ["a", "b"], DirHas List.head? id c115Glob c115Read d (writtenFiles Nat.repr (c115Outs d)) := by
  intro d hd
  refine ⟨c115Names d, ?_, rfl, ?_⟩
  · have : ∀ d ∈ ["a", "b"], (c115Names d).isPerm (writtenFiles Nat.repr (c115Outs d)).keys = true := by decide +kernel
    exact List.isPerm_iff.mp (this d hd)
  · have key : ∀ d ∈ ["a", "b"], ∀ k ∈ c115Names d,
        (["a", "b"].flatMap (fun d => (c115Names d).map (fun k => (d ++ "/" ++ k, d, k)))).lookup (d ++ "/" ++ k) =
          some (d, k) := by decide +kernel
    intro k hk
    unfold c115Read
    rw [key d hd k hk]

set_option synthInstance.maxSize 4000 in
/-- The arms can be coadded. -/
example : ∀ d ∈ ["a", "b"], c115Outs d ≠ [] ∧ ∀ y ∈ signalArms ((c115Outs d).flatMap (·.deltas)),
    ArmOk 3300 1 none y.1 y.2 := by
  have h : ∀ d ∈ ["a", "b"], c115Outs d ≠ [] ∧ ∀ y ∈ signalArms ((c115Outs d).flatMap (·.deltas)),
      y.2.2 = [3300, 3301, 3302, 3303, 3304] ∧ y.1.spec.freso.lookup y.2.1 = none ∧
      ∀ p ∈ (y.1.spec.fivar.arr y.2.1).zip (y.1.spec.fweight.arr y.2.1), 0 ≤ p.2 ∧ p.2 ≤ p.1 := by decide +kernel
  intro d hd
  refine ⟨(h d hd).1, fun y hy => ?_⟩
  obtain ⟨h1, h2, h3⟩ := (h d hd).2 y hy
  refine ⟨by rw [h1]; simp, ⟨0, fun i w hw => ?_⟩, fun i v w hv hw => ?_, h2⟩
  · rw [h1] at hw
    rcases i with _ | _ | _ | _ | _ | i <;> simp at hw <;> subst hw <;> norm_num
  · exact h3 (v, w) (List.mem_of_getElem? (List.getElem?_zip_eq_some.mpr ⟨hv, hw⟩))

set_option synthInstance.maxSize 4000 in
/-- Both targets are in both directories: they are written once, in the pixels of their coordinates, here 2 and 3. -/
example : (coaddDeltasMain c115Glob c115Read (fun a b => a.coadd id 0 1 1 b) (fun ra _ => (ra / 10).floor.toNat)
    (fun t => if t = .int 20 then "20" else "30") ["a", "b"] "o").toOption.map
      (fun fs => (contents fs).map (fun x => (x.1, x.2.extname, (vecCol x.2 "DELTA").toOption.getD [],
        (vecCol x.2 "IVAR").toOption.getD []))) =
    some [("o/delta-3.fits", "30", [-1 / 3, 0, 0, -1 / 9, 0], [81, 0, 0, 729 / 16, 36]),
      ("o/delta-2.fits", "20", [-1 / 3, 0, 0, -1 / 9, 0], [81, 0, 0, 729 / 16, 36])] := by
  decide +kernel

end Verif.Props

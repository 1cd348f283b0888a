import Verif.Proofs.WrittenRun
import Verif.Props.WholeRun

/-!
# C113: what a run of `qsonic-fit` writes can be read back

`mpi_run_all` from the catalog to the tables in the delta files. The model is in `Verif.Model.WrittenRun`, the
vocabulary in `Verif.Spec.WrittenRun`.
-/

namespace Verif.Props
open Verif Verif.Np Verif.Model Verif.Model.Prog Verif.Spec Verif.Proofs

section
variable {Val K : Type} [LinearOrder Val] [Field K] [LinearOrder K] [IsStrictOrderedRing K] [FloorRing K]

/-- **C113**. A run on `n + 1` processes either raises `QsonicException` on all ranks, or finishes on all ranks: nothing
fails in writing. If it finishes, the deltas of all ranks are those of the spectra of the catalog that pass the cuts and
whose fit is valid: with all wavelengths in the forest of what was read, the flux and ivar of pixels that
are not masked only changed by the calibrations. With an output directory no two files of the job have the same name, every delta has a file
on its rank, every file is that of a pixel of a delta of its rank (or of its rank without `--save-by-hpx`), and every file can be read with `read_deltas`: it gives, in some order, every arm with signal of
every delta for this file, each once, with its identity, on all its wavelengths the continuum, delta = flux / continuum -
1 (0 where there is no ivar), ivar and weight times the squared continuum, and the resolution. All that is read is
blinded if and only if this is an analysis of data in the forest of Lya with any night after May 13, 2021 in the
catalog, whichever rank has the row. -/
theorem C113_written {Q D V : Type} (C : WrittenCfg Val K) {c : Catalog Val} {f : Val → List (ReadSpec K)} {dw dr : K}
    (hC : PlainRun C.run dw dr) (hr : ReadsPixels C.run c f) (hA : ∀ k, IsArgsort k (C.run.argsort k))
    (hsm : ∀ v x, (C.run.sel.smooth v x).length = v.length)
    (hnew : ∀ p ∈ catPixels C.run.tile c, ∀ x ∈ f p, NewSpec C.skipResomat x.spec)
    (hextra : ∀ i, ∀ k ∈ (C.extra i).keys, k ∈ ["TILEID", "FIBER", "PETAL_LOC", "EXPID", "NIGHT"])
    (hnight : Monotone C.night) (htile : C.run.byHpx = true → C.run.tile = false)
    (P : FitterFns (FullState K) (Spectrum K) (StackSums K) Q D) (cs : Codec Bool V)
    (cq : Codec (List (List (Row Val))) V) (cn : Codec Val V) (fc : FitterCodecs (StackSums K) Q V)
    {ang2pix : Nat → Val → Val → Val} {file : Except Err (Catalog Val)} {isMock : Bool}
    {ks : Option (List Val)} {zmin zmax : Val}
    (h : readQuasarCatalog ang2pix file isMock C.run.tile ks zmin zmax = .ok c) (n : Nat)
    (hidle : IdleOk C.run ∨ n + 1 ≤ (catPixels C.run.tile c).length)
    (fname : String) (g0 : FullState K) {pick : List String → Option String} (hp : IsPick pick) (pow10 : K → K) :
    let job := (runJob n (fun r => C.runAll P cs cq cn fc (.ok c) fname g0 (n + 1) r)).1
    (∃ (outs : List (WrittenOut Val K)) (g : ReadSpec K → ReadSpec K) (blind : Bool),
      job = .done (outs.map .ok) ∧ outs.length = n + 1 ∧ (blind = true ↔ RunBlinded C c) ∧
      (∀ x ∈ ((catPixels C.run.tile c).flatMap f).filter (fun x => decide (PassesCuts C.run.sel x)),
        FromRead C.run x (g x)) ∧
      (outs.flatMap (·.deltas)).Perm
        (((((catPixels C.run.tile c).flatMap f).filter (fun x => decide (PassesCuts C.run.sel x))).map g).filter
          (fun x => x.spec.valid)) ∧
      (C.run.outdir = false → ∀ o ∈ outs, o.files = []) ∧
      (C.run.outdir = true → ((outs.flatMap (·.files)).map Prod.fst).Nodup ∧
        ∀ (r : Nat) (o : WrittenOut Val K), outs[r]? = some o →
          (∀ x ∈ o.deltas, ∃ f ∈ o.files, f.1 = deltaFile C.run r x) ∧
          (C.run.byHpx = true → ∀ f ∈ o.files, ∃ x ∈ o.deltas, f.1 = deltaFile C.run r x) ∧
          (C.run.byHpx = false → ∀ f ∈ o.files, f.1 = .rank r) ∧
          ∀ f ∈ o.files, ∃ ds arms, readDeltas pick pow10 (some f.2) = .ok ds ∧
            arms.Perm (signalArms (o.deltas.filter (fun x => decide (deltaFile C.run r x = f.1)))) ∧
            List.Forall₂ (fun y d => Recovered blind C.ra C.dec y.1 y.2 d) arms ds)) ∨
    job = .done (List.replicate (n + 1) (.error .qsonic)) := by
  intro job
  rcases written_sync C hC hr hA hsm hnew hextra P cs cq cn fc h n hidle fname g0 hp pow10 with
    ⟨night, g, D1, F1, M, s1, n1, n2, hg, hperm, hdis, hfiles⟩ | ⟨ev, s1⟩
  · refine .inl ⟨(List.range (n + 1)).map (fun r => ⟨night, D1 r, F1 r⟩), g,
      decide (MustBlind C.lya ((night.map C.night).getD 0) C.args), ?_, by simp, ?_, hg, ?_, ?_, ?_⟩
    · refine (congrArg Prod.fst s1.job).trans ?_
      dsimp only
      rw [List.map_map]
      rfl
    · rw [decide_eq_true_eq]
      unfold MustBlind RunBlinded
      change C.run.mock = false ∧ C.run.sel.forestW1 ≤ C.lya ∧ _ ↔ _
      refine and_congr_right fun hm => and_congr_right fun _ => ?_
      obtain ⟨m, rfl, ⟨r, hr1, rfl⟩, hmax⟩ := n2 hm
      exact ⟨fun h => ⟨r, hr1, h⟩, fun ⟨r', hr', h⟩ => le_trans h (hnight (hmax r' hr'))⟩
    · rw [List.flatMap_map]
      exact hperm
    · intro ho o hoo
      obtain ⟨r, hrr, rfl⟩ := List.mem_map.mp hoo
      exact (hfiles r (Nat.lt_succ_iff.mp (List.mem_range.mp hrr))).1 ho
    · intro ho
      refine ⟨?_, fun r o hro => ?_⟩
      · rw [List.flatMap_map, List.map_flatMap, List.nodup_flatMap]
        refine ⟨fun r hrr => ((hfiles r (Nat.lt_succ_iff.mp (List.mem_range.mp hrr))).2 ho).1, ?_⟩
        refine List.pairwise_iff_forall_sublist.mpr ?_
        intro i j hij
        have hlt : i < j := (List.pairwise_iff_forall_sublist.mp List.pairwise_lt_range) hij
        have hi : i ≤ n := Nat.lt_succ_iff.mp (List.mem_range.mp (hij.subset (by simp)))
        have hj : j ≤ n := Nat.lt_succ_iff.mp (List.mem_range.mp (hij.subset (by simp)))
        intro a ha1 ha2
        obtain ⟨f1, m1, rfl⟩ := List.mem_map.mp ha1
        obtain ⟨f2, m2, e⟩ := List.mem_map.mp ha2
        have k1 := (((hfiles i hi).2 ho).2.2 f1 m1).1
        have k2 := (((hfiles j hj).2 ho).2.2 f2 m2).1
        rcases k1 with ⟨b1, k1⟩ | ⟨b1, x, hx1, k1⟩
        · rcases k2 with ⟨-, k2⟩ | ⟨b2, -⟩
          · rw [k1, k2] at e
            exact absurd (DeltaName.rank.inj e) hlt.ne'
          · rw [b1] at b2
            cases b2
        · rcases k2 with ⟨b2, -⟩ | ⟨-, y, hy1, k2⟩
          · rw [b1] at b2
            cases b2
          · rw [k1, k2] at e
            exact hdis (htile b1) i hi j hj hlt.ne x hx1 y hy1 (DeltaName.pix.inj e).symm
      · have hrn : r < n + 1 := by
          have := (List.getElem?_eq_some_iff.mp hro).1
          simpa using this
        rw [List.getElem?_map, List.getElem?_range hrn] at hro
        cases hro
        obtain ⟨-, a2, a3⟩ := (hfiles r (Nat.lt_succ_iff.mp hrn)).2 ho
        refine ⟨a2, fun hb f hf => ?_, fun hb f hf => ?_, fun f hf => (a3 f hf).2⟩
        · rcases (a3 f hf).1 with ⟨b, -⟩ | ⟨-, x, hx, e⟩
          · rw [hb] at b
            cases b
          · refine ⟨x, hx, ?_⟩
            rw [e]
            unfold deltaFile
            rw [if_pos hb]
        · rcases (a3 f hf).1 with ⟨-, e⟩ | ⟨b, -⟩
          · exact e
          · rw [hb] at b
            cases b
  · refine .inr ((congrArg Prod.fst s1.job).trans ?_)
    simp [List.map_const']

end

/-! ### Concrete cases -/

/-- The run `c88Cfg` with tables; the nights of the catalog are after September 2022. The variance is fitted for
data. -/
def c113Cfg (mock : Bool) : WrittenCfg Nat ℚ where
  run := c88Cfg mock
  lya := 1215
  skipResomat := true
  night v := v + 20220901
  ra i := i
  dec i := -i
  extra _ := [("TILEID", .int 5)]
  meanReso _ _ := 0
  fitVar := !mock

/-- The program of a rank. -/
def c113Run (mock : Bool) (size rank : Nat) :
    Prog (StackSums ℚ × Nat × Bool × List (List (Row Nat))) (SaverEv (String × List ℚ)) (WrittenOut Nat ℚ) :=
  (c113Cfg mock).runAll c86Var c88Codec.1 c88Codec.2.1 c88Codec.2.2.1 c88Codec.2.2.2 c88Cat "" c86Start size rank

/-- What is read from the files of a job. -/
def c113See : Outcome (WrittenOut Nat ℚ) → Option (List (List (DeltaName Nat × List (HVal ℚ × Bool × List ℚ × List ℚ))))
  | .done l => l.mapM (fun
      | .ok o => o.files.mapM (fun f => ((readDeltas List.head? id (some f.2)).toOption.map (fun ds =>
          (f.1, ds.map (fun d => (d.targetid, d.blinded, d.cont, d.delta))))))
      | .error _ => none)
  | _ => none

set_option synthInstance.maxSize 4000 in
/-- On two processes with fits of the variance, blinded: every file has the delta of the target in its pixel. -/
example : (c113See (runJob 1 (c113Run false 2)).1).map (·.map (·.map (fun x => (x.1, x.2.map (fun d =>
    (d.1, d.2.1, d.2.2.1.length, d.2.2.2.length)))))) =
    some [[(.pix 5, [(.int 20, true, 5, 5)])], [(.pix 4, [(.int 30, true, 5, 5)])]] := by
  decide +kernel

set_option synthInstance.maxSize 4000 in
/-- Mocks on three processes, of which one has no rows. -/
example : c113See (runJob 2 (c113Run true 3)).1 = some [
    [(.pix 5, [(.int 20, false, [3 / 2, 11 / 8, 5 / 4, 9 / 8, 1], [-1 / 3, 0, 0, -1 / 9, 0])])],
    [(.pix 4, [(.int 30, false, [3 / 2, 11 / 8, 5 / 4, 9 / 8, 1], [-1 / 3, 0, 0, -1 / 9, 0])])], []] := by
  decide +kernel

/-- The hypotheses, with ranks that all have rows. -/
example : ∃ (c : Catalog Nat) (f : Nat → List (ReadSpec ℚ)), PlainRun (c113Cfg false).run 8 10 ∧
    ReadsPixels (c113Cfg false).run c f ∧ (∀ k, IsArgsort k ((c113Cfg false).run.argsort k)) ∧
    (∀ v x, ((c113Cfg false).run.sel.smooth v x).length = v.length) ∧
    (∀ p ∈ catPixels (c113Cfg false).run.tile c, ∀ x ∈ f p, NewSpec (c113Cfg false).skipResomat x.spec) ∧
    (∀ i, ∀ k ∈ ((c113Cfg false).extra i).keys, k ∈ ["TILEID", "FIBER", "PETAL_LOC", "EXPID", "NIGHT"]) ∧
    Monotone (c113Cfg false).night ∧ ((c113Cfg false).run.byHpx = true → (c113Cfg false).run.tile = false) ∧
    readQuasarCatalog exPix (.ok exFile) false (c113Cfg false).run.tile (some [1, 2]) 2 3 = .ok c ∧
    1 + 1 ≤ (catPixels (c113Cfg false).run.tile c).length ∧ IsPick List.head? ∧ RunBlinded (c113Cfg false) c ∧
    ¬ RunBlinded (c113Cfg true) c := by
  obtain ⟨c, h, hp⟩ := c88_cat
  refine ⟨c, _, c88_plain false, c88_reads false h, fun k => argsortStable_isArgsort k, fun v x => rfl, ?_, ?_,
    fun a b hab => Nat.add_le_add_right hab _, fun _ => rfl, h, ?_, head_isPick, ⟨rfl, ?_, ?_⟩, fun hb => by cases hb.1⟩
  · intro p _ x hx
    obtain ⟨r, -, rfl⟩ := List.mem_map.mp hx
    exact ⟨rfl, fun _ => rfl, fun h => by cases h⟩
  · intro i k hk
    have : k = "TILEID" := by simpa [c113Cfg, Dict.keys] using hk
    rw [this]
    decide
  · change 1 + 1 ≤ (catPixels false c).length
    rw [hp]
    decide
  · change (1100 : ℚ) ≤ 1215
    norm_num
  · have hne : c.rows ≠ [] := by
      intro e
      unfold catPixels at hp
      rw [e] at hp
      cases hp
    obtain ⟨r, hr⟩ := List.exists_mem_of_ne_nil _ hne
    exact ⟨r, hr, by change 20210514 ≤ r "LASTNIGHT" + 20220901; omega⟩

end Verif.Props

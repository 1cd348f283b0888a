import Verif.Proofs.TailRun
import Verif.Props.WholeRun
import Verif.Props.FitTail
import Verif.Props.ExposureRun

/-!
# C111: the steps after the fit and the number of processes

The run of `Verif.Model.TailRun` beside the run without `--varlss-as-additive-noise` and `--coadd-arms after`. The
vocabulary is in `Verif.Spec.TailRun`.
-/

namespace Verif.Props
open Verif Verif.Np Verif.Model Verif.Model.Prog Verif.Spec Verif.Proofs

section
variable {Val K : Type} [LinearOrder Val] [Field K] [LinearOrder K] [FloorRing K] [IsStrictOrderedRing K]

/-- **C111**. Full claim: with `--varlss-as-additive-noise` and `--coadd-arms after`, which deltas a run writes, and what is
in them, does not depend on the number of processes. This is false for the weights, see `C111_weights_refuted`.

Proved, if the runs without the two options finish on `n + 1` and `n' + 1` processes: there are fitted spectra `F`, the same
for both, from which the deltas without the options come by dropping short arms. With the options, either both jobs are
aborted, because the steps raise for some spectrum of `F` (whatever the variance functions); or both finish with the same
writes, and the deltas of all ranks together are one `g x` for every `x` of `F`, with the variance functions
written last to the attributes file. Deltas of the two runs belong to the same targets and are in files of the same name. With one of the options they have
everything in common but weights and chi square. With both options, they have in common the wavelengths and the
continuum, unless an arm was dropped from one of them.

Missing: weights and chi square; with both options also flux, ivar and resolution (`C111_flux_refuted`); the tile format;
and what is missing in `C88_partial`. -/
theorem C111_partial {Q D V : Type} (C : TailCfg Val K) {c : Catalog Val} {f : Val → List (ReadSpec K)}
    {dw dr : K} (ht : C.run.tile = false) (hC : PlainRun C.run dw dr)
    (hr : ReadsPixels C.run c f) (hA : ∀ k, IsArgsort k (C.run.argsort k))
    (P : FitterFns (FullState K) (Spectrum K) (StackSums K) Q D) (cs : Codec Bool V)
    (cq : Codec (List (List (Row Val))) V) (cn : Codec Val V) (fc : FitterCodecs (StackSums K) Q V)
    {ang2pix : Nat → Val → Val → Val} {file : Except Err (Catalog Val)} {isMock : Bool}
    {ks : Option (List Val)} {zmin zmax : Val}
    (h : readQuasarCatalog ang2pix file isMock C.run.tile ks zmin zmax = .ok c) (n n' : Nat)
    (hidle : IdleOk C.run ∨ (n + 1 ≤ (catPixels C.run.tile c).length ∧ n' + 1 ≤ (catPixels C.run.tile c).length))
    (fname : String) (g0 : FullState K) {outs outs' : List (WholeOut Val K)}
    {w w' : List (List (SaverEv (String × D)))}
    (h1 : runJob n (fun r => C.run.run P cs cq cn fc (.ok c) fname g0 (n + 1) r) = (.done (outs.map .ok), w))
    (h2 : runJob n' (fun r => C.run.run P cs cq cn fc (.ok c) fname g0 (n' + 1) r) = (.done (outs'.map .ok), w')) :
    let job := fun m => runJob m (fun r => mainProg (C.runAll P cs cq cn fc (.ok c) fname g0 (m + 1) r))
    let drop := fun (x : ReadSpec K) (t : Spectrum K) => { x with
      spec := t.dropShortArms C.run.sel.forestW1 C.run.sel.forestW2 C.run.sel.skip }
    ∃ F : List (ReadSpec K), (∀ o ∈ [outs, outs'], (o.flatMap (·.deltas)).Perm (F.map (fun x => drop x x.spec))) ∧
      ((∃ x ∈ F, (∀ v e, ∃ err, fitTail C.fns C.ncal C.after v e [x.spec] = .error err) ∧
          (job n).1 = .aborted ∧ (job n').1 = .aborted) ∨
      ∃ (es es' : List (WholeOut Val K)) (night : Option Val) (k : Nat) (b : Bool) (v e v' e' : K → K)
          (g g' : ReadSpec K → ReadSpec K),
        job n = (.done (es.map .ok), w) ∧ job n' = (.done (es'.map .ok), w') ∧
        es.length = n + 1 ∧ es'.length = n' + 1 ∧
        (∃ a a' : FullState K, EndsWith P fname (w.headD []) a ∧ EndsWith P fname (w'.headD []) a' ∧
          v = a.varlss ∧ e = a.eta ∧ v' = a'.varlss ∧ e' = a'.eta) ∧
        (∀ o ∈ outs ++ outs' ++ es ++ es', o.night = night ∧ o.iterations = k ∧ o.converged = b) ∧
        (∀ x ∈ F, ∃ t, fitTail C.fns C.ncal C.after v e [x.spec] = .ok [t] ∧ g x = drop x t) ∧
        (∀ x ∈ F, ∃ t, fitTail C.fns C.ncal C.after v' e' [x.spec] = .ok [t] ∧ g' x = drop x t) ∧
        (es.flatMap (·.deltas)).Perm (F.map g) ∧ (es'.flatMap (·.deltas)).Perm (F.map g') ∧
        (∀ x ∈ F, onlyTarget (g x) = onlyTarget (g' x) ∧ SameOrDropped (g x).spec (g' x).spec) ∧
        (C.run.outdir = true → C.run.byHpx = true → SameFiles (filesBy onlyTarget (es.flatMap (·.files)))
          (filesBy onlyTarget (es'.flatMap (·.files)))) ∧
        (C.ncal = none ∨ C.after = false →
          (∀ x ∈ F, noWeights (g x) = noWeights (g' x)) ∧
          (C.run.outdir = true → C.run.byHpx = true → SameFiles (filesBy noWeights (es.flatMap (·.files)))
            (filesBy noWeights (es'.flatMap (·.files)))))) := by
  intro job drop
  obtain ⟨Q1, Q2, night, hP1, hP2, hfit⟩ := fitted_sync (A := WholeOut Val K) C.run hC hr P cs cq cn fc h n n' hidle fname g0
  rcases hfit with ⟨j, b, u, gf, gf', ev, ev', ends1, ends2, hk⟩ | ⟨ev, hk⟩
  swap
  · have := (hk (plainEnd C.run)).1.job
    rw [show runJob n (fun r => upToFit C.run P cs cq cn fc c fname g0 (plainEnd C.run) (n + 1) r) = _ from h1] at this
    have := congrArg Prod.fst this
    dsimp only at this
    injection this with this
    cases outs with
    | nil => simp at this
    | cons o l => simp [List.range_succ_eq_map] at this
  set F := fittedOf C.run c f u with hFdef
  have hsv : ∀ (r : Nat) (l : List (ReadSpec K)), ∃ files, C.run.save r l = .ok files ∧ _ :=
    fun r l => save_ok C.run hA r l
  choose files hfiles hfp using hsv
  have hrange : ∀ {m r : Nat}, r ∈ List.range (m + 1) → r ≤ m := fun hr => by simp at hr; omega
  -- the runs without the options
  have hplain : ∀ (m : Nat) (Q : Nat → List (List (Row Val))) (gf : FullState K),
      Sync m (fun r => (plainEnd C.run night r (Q r) (prepQueue C.run c f (Q r))
        (gf, ((prepQueue C.run c f (Q r)).map (·.spec)).map u, j, b) :
          Prog V (SaverEv (String × D)) (WholeOut Val K)))
        (fun r => .ok ⟨night, j, b, (fittedRank C.run c f u (Q r)).map (fun x => drop x x.spec),
          files r ((fittedRank C.run c f u (Q r)).map (fun x => drop x x.spec))⟩)
        (fun _ => []) := by
    intro m Q gf
    refine (sync_ret m _).congr (fun r _ => ?_) (fun _ _ => rfl) (fun _ _ => rfl)
    exact plainEnd_eq C.run _ rfl (hfiles _ _)
  have p1 := ((hk (plainEnd C.run) _ _).1 (hplain n Q1 gf)).job
  have p2 := ((hk (plainEnd C.run) _ _).2 (hplain n' Q2 gf')).job
  rw [show runJob n (fun r => upToFit C.run P cs cq cn fc c fname g0 (plainEnd C.run) (n + 1) r) = _ from h1] at p1
  rw [show runJob n' (fun r => upToFit C.run P cs cq cn fc c fname g0 (plainEnd C.run) (n' + 1) r) = _ from h2] at p2
  obtain ⟨o1, w1⟩ := done_ok_inv p1
  obtain ⟨o2, w2⟩ := done_ok_inv p2
  have hw1 : ev 0 = w.headD [] := by rw [w1, List.range_succ_eq_map]; simp
  have hw2 : ev' 0 = w'.headD [] := by rw [w2, List.range_succ_eq_map]; simp
  -- the runs with the options
  have hjob : ∀ (m : Nat) (Q : Nat → List (List (Row Val))) (gf : FullState K),
      Sync m (fun r => (tailEnd C night r (Q r) (prepQueue C.run c f (Q r))
        (gf, ((prepQueue C.run c f (Q r)).map (·.spec)).map u, j, b) :
          Prog V (SaverEv (String × D)) (WholeOut Val K)))
        (fun r => (fitTail C.fns C.ncal C.after gf.varlss gf.eta ((fittedRank C.run c f u (Q r)).map (·.spec))).bind fun t =>
          (C.run.save r ((SelectCfg.setSpecs (fittedRank C.run c f u (Q r)) t).map (fun x => drop x x.spec))).bind fun files =>
            .ok ⟨night, j, b, (SelectCfg.setSpecs (fittedRank C.run c f u (Q r)) t).map (fun x => drop x x.spec), files⟩)
        (fun _ => []) := by
    intro m Q gf
    exact (sync_fin m _).congr (fun r _ => tailEnd_eq C) (fun _ _ => rfl) (fun _ _ => rfl)
  have s1 := (hk (tailEnd C) _ _).1 (hjob n Q1 gf)
  have s2 := (hk (tailEnd C) _ _).2 (hjob n' Q2 gf')
  have hmem : ∀ {m : Nat} {Q : Nat → List (List (Row Val))}, Prepared C.run c f m Q → ∀ r ≤ m,
      ∀ x ∈ fittedRank C.run c f u (Q r), x ∈ F := fun hP r hr x hx =>
    (fitted_perm C.run hP u).mem_iff.mp (List.mem_flatMap.mpr ⟨r, by simp; omega, hx⟩)
  refine ⟨F, ?_, ?_⟩
  · intro o ho
    rcases List.mem_cons.mp ho with rfl | ho
    · rw [o1, List.flatMap_map]
      change ((List.range (n + 1)).flatMap (fun r => (fittedRank C.run c f u (Q1 r)).map (fun x => drop x x.spec))).Perm _
      rw [← List.map_flatMap]
      exact (fitted_perm C.run hP1 u).map _
    · obtain rfl := List.mem_singleton.mp ho
      rw [o2, List.flatMap_map]
      change ((List.range (n' + 1)).flatMap (fun r => (fittedRank C.run c f u (Q2 r)).map (fun x => drop x x.spec))).Perm _
      rw [← List.map_flatMap]
      exact (fitted_perm C.run hP2 u).map _
  have htwo : ∀ (v e v' e' : K → K) (s : Spectrum K) (err : Err), tailOne C.fns C.ncal C.after v e s = .error err →
      tailOne C.fns C.ncal C.after v' e' s = .error err := by
    intro v e v' e' s err he
    have := tailOne_same C.fns C.ncal C.after v e v' e' s
    rw [he] at this
    cases h' : tailOne C.fns C.ncal C.after v' e' s with
    | error err' => rw [h'] at this; exact congrArg _ (this : err = err').symm
    | ok t => rw [h'] at this; exact this.elim
  by_cases hbad : ∃ x ∈ F, ∃ err, tailOne C.fns C.ncal C.after gf.varlss gf.eta x.spec = .error err
  · obtain ⟨x, hx, err, herr⟩ := hbad
    left
    have habort : ∀ (m : Nat) (Q : Nat → List (List (Row Val))), Prepared C.run c f m Q → ∀ gf : FullState K,
        ∃ r ≤ m, ∃ e, Unexpected e ∧
          ((fitTail C.fns C.ncal C.after gf.varlss gf.eta ((fittedRank C.run c f u (Q r)).map (·.spec))).bind fun t =>
          (C.run.save r ((SelectCfg.setSpecs (fittedRank C.run c f u (Q r)) t).map (fun x => drop x x.spec))).bind fun files =>
            .ok (⟨night, j, b, (SelectCfg.setSpecs (fittedRank C.run c f u (Q r)) t).map (fun x => drop x x.spec), files⟩ :
              WholeOut Val K)) = .error e := by
      intro m Q hP gf2
      obtain ⟨r, hr, hxr⟩ := List.mem_flatMap.mp ((fitted_perm C.run hP u).mem_iff.mpr hx)
      obtain ⟨e', hu, he'⟩ := fitTail_bad C.fns C.ncal C.after gf2.varlss gf2.eta
        (List.mem_map.mpr ⟨x, hxr, rfl⟩) (htwo _ _ gf2.varlss gf2.eta _ _ herr)
      exact ⟨r, hrange hr, e', hu, by rw [he']; rfl⟩
    refine ⟨x, hx, fun v e => ?_, ?_, ?_⟩
    · obtain ⟨e', -, he'⟩ := fitTail_bad C.fns C.ncal C.after v e (List.mem_singleton_self x.spec) (htwo _ _ v e _ _ herr)
      exact ⟨e', he'⟩
    · obtain ⟨r, hr, e, hun, hxr⟩ := habort n Q1 hP1 gf
      exact main_abort s1 hr hun hxr
    · obtain ⟨r, hr, e, hun, hxr⟩ := habort n' Q2 hP2 gf'
      exact main_abort s2 hr hun hxr
  right
  push Not at hbad
  have hok : ∀ v e : K → K, ∃ t : Spectrum K → Spectrum K, ∀ x ∈ F, tailOne C.fns C.ncal C.after v e x.spec = .ok (t x.spec) := by
    intro v e
    refine ⟨fun s => (tailOne C.fns C.ncal C.after v e s).toOption.getD s, fun x hx => ?_⟩
    dsimp only
    cases hxe : tailOne C.fns C.ncal C.after v e x.spec with
    | error err => exact absurd (htwo v e gf.varlss gf.eta _ _ hxe) (hbad x hx err)
    | ok y => rfl
  obtain ⟨t, htl⟩ := hok gf.varlss gf.eta
  obtain ⟨t', htl'⟩ := hok gf'.varlss gf'.eta
  let gg : (Spectrum K → Spectrum K) → ReadSpec K → ReadSpec K := fun t x => drop x (t x.spec)
  have hfin : ∀ (m : Nat) (Q : Nat → List (List (Row Val))), Prepared C.run c f m Q → ∀ (gf : FullState K)
      (t : Spectrum K → Spectrum K),
      (∀ x ∈ F, tailOne C.fns C.ncal C.after gf.varlss gf.eta x.spec = .ok (t x.spec)) → ∀ r ≤ m,
      (.ok (⟨night, j, b, (fittedRank C.run c f u (Q r)).map (gg t),
        files r ((fittedRank C.run c f u (Q r)).map (gg t))⟩ : WholeOut Val K) : Except Err (WholeOut Val K)) =
      (fitTail C.fns C.ncal C.after gf.varlss gf.eta ((fittedRank C.run c f u (Q r)).map (·.spec))).bind fun t =>
          (C.run.save r ((SelectCfg.setSpecs (fittedRank C.run c f u (Q r)) t).map (fun x => drop x x.spec))).bind fun files =>
            .ok (⟨night, j, b, (SelectCfg.setSpecs (fittedRank C.run c f u (Q r)) t).map (fun x => drop x x.spec), files⟩ :
              WholeOut Val K) := by
    intro m Q hP gf t htl r hr
    rw [fitTail_ok C.fns C.ncal C.after gf.varlss gf.eta (t := t) (by
      intro s hs
      obtain ⟨x, hx, rfl⟩ := List.mem_map.mp hs
      exact htl x (hmem hP r hr x hx))]
    change _ = (C.run.save r ((SelectCfg.setSpecs (fittedRank C.run c f u (Q r))
      (((fittedRank C.run c f u (Q r)).map (·.spec)).map t)).map (fun x => drop x x.spec))).bind _
    rw [setSpecs_map, List.map_map]
    change _ = (C.run.save r ((fittedRank C.run c f u (Q r)).map (gg t))).bind _
    rw [hfiles]
    rfl
  have t1 := main_ok (s1.congr (fun _ _ => rfl) (hfin n Q1 hP1 gf t htl) (fun _ _ => rfl))
  have t2 := main_ok (s2.congr (fun _ _ => rfl) (hfin n' Q2 hP2 gf' t' htl') (fun _ _ => rfl))
  rw [← w1] at t1
  rw [← w2] at t2
  have hsame : ∀ x ∈ F, SameCore (t x.spec) (t' x.spec) ∧ (C.ncal = none ∨ C.after = false → bare (t x.spec) = bare (t' x.spec)) := by
    intro x hx
    have := tailOne_same C.fns C.ncal C.after gf.varlss gf.eta gf'.varlss gf'.eta x.spec
    rw [htl x hx, htl' x hx] at this
    exact this
  have hvalid : ∀ x ∈ F, (gg t x).spec.valid = (gg t' x).spec.valid := by
    intro x hx
    change ((t x.spec).dropShortArms _ _ _).valid = ((t' x.spec).dropShortArms _ _ _).valid
    rw [(drop_keeps _ _ _ _).2.2, (drop_keeps _ _ _ _).2.2]
    exact (hsame x hx).1.valid
  have hfilesBy : ∀ φ : ReadSpec K → ReadSpec K, (∀ x ∈ F, φ (gg t x) = φ (gg t' x)) →
      C.run.outdir = true → C.run.byHpx = true →
      SameFiles (filesBy φ ((List.range (n + 1)).flatMap (fun r => files r ((fittedRank C.run c f u (Q1 r)).map (gg t)))))
        (filesBy φ ((List.range (n' + 1)).flatMap (fun r => files r ((fittedRank C.run c f u (Q2 r)).map (gg t'))))) := by
    intro φ hφ ho hb
    have hdis : ∀ (m : Nat) (Q : Nat → List (List (Row Val))) (t : Spectrum K → Spectrum K), Prepared C.run c f m Q →
        ∀ i ≤ m, ∀ j ≤ m, i ≠ j → ∀ x ∈ (fittedRank C.run c f u (Q i)).map (gg t),
          ∀ y ∈ (fittedRank C.run c f u (Q j)).map (gg t), C.run.pix x.row.targetid ≠ C.run.pix y.row.targetid := by
      intro m Q t hP i hi j hj hij x hx y hy
      obtain ⟨x', hx', rfl⟩ := List.mem_map.mp hx
      obtain ⟨y', hy', rfl⟩ := List.mem_map.mp hy
      exact fitted_pix C.run hP ht u i hi j hj hij x' hx' y' hy'
    refine sameFiles_of (C := C.run)
      (filesBy_facts φ (files_pooled C.run (D := fun r => (fittedRank C.run c f u (Q1 r)).map (gg t))
          (files := fun r => files r ((fittedRank C.run c f u (Q1 r)).map (gg t))) (fun r => hfp r _ ho hb) (hdis n Q1 t hP1)))
      (filesBy_facts φ (files_pooled C.run (D := fun r => (fittedRank C.run c f u (Q2 r)).map (gg t'))
          (files := fun r => files r ((fittedRank C.run c f u (Q2 r)).map (gg t'))) (fun r => hfp r _ ho hb) (hdis n' Q2 t' hP2))) ?_
    unfold savedOf
    rw [← List.map_flatMap, ← List.map_flatMap, List.map_map, List.map_map, List.map_map, List.map_map]
    refine (((fitted_perm C.run hP1 u).map _).trans ?_).trans ((fitted_perm C.run hP2 u).symm.map _)
    refine List.Perm.of_eq (List.map_congr_left fun x hx => ?_)
    change (⟨C.run.pix x.row.targetid, (gg t x).spec.valid, φ (gg t x)⟩ : SavedSpec Val (ReadSpec K)) =
      ⟨C.run.pix x.row.targetid, (gg t' x).spec.valid, φ (gg t' x)⟩
    rw [hvalid x hx, hφ x hx]
  have hone : ∀ x ∈ F, onlyTarget (gg t x) = onlyTarget (gg t' x) := by
    intro x hx
    obtain ⟨k1, k2, -⟩ := drop_keeps (t x.spec) C.run.sel.forestW1 C.run.sel.forestW2 C.run.sel.skip
    obtain ⟨l1, l2, -⟩ := drop_keeps (t' x.spec) C.run.sel.forestW1 C.run.sel.forestW2 C.run.sel.skip
    have hb : ∀ (a a' d d' : K), a = a' → d = d' → ({ x with
        spec := (Spectrum.blank a d [] [] [] [] : Spectrum K) } : ReadSpec K) =
        { x with spec := (Spectrum.blank a' d' [] [] [] [] : Spectrum K) } := by
      rintro a _ d _ rfl rfl
      rfl
    exact hb _ _ _ _ (k1.trans ((hsame x hx).1.z.trans l1.symm)) (k2.trans ((hsame x hx).1.dwave.trans l2.symm))
  have hnoW : C.ncal = none ∨ C.after = false → ∀ x ∈ F, noWeights (gg t x) = noWeights (gg t' x) := by
    intro ha x hx
    change ({ x with spec := bare ((t x.spec).dropShortArms C.run.sel.forestW1 C.run.sel.forestW2 C.run.sel.skip) } :
      ReadSpec K) = { x with spec := bare ((t' x.spec).dropShortArms C.run.sel.forestW1 C.run.sel.forestW2 C.run.sel.skip) }
    rw [← drop_bare, ← drop_bare, (hsame x hx).2 ha]
  refine ⟨(List.range (n + 1)).map (fun r => ⟨night, j, b, (fittedRank C.run c f u (Q1 r)).map (gg t),
      files r ((fittedRank C.run c f u (Q1 r)).map (gg t))⟩),
    (List.range (n' + 1)).map (fun r => ⟨night, j, b, (fittedRank C.run c f u (Q2 r)).map (gg t'),
      files r ((fittedRank C.run c f u (Q2 r)).map (gg t'))⟩),
    night, j, b, gf.varlss, gf.eta, gf'.varlss, gf'.eta, gg t, gg t', ?_, ?_, by simp, by simp,
    ⟨gf, gf', hw1 ▸ ends1, hw2 ▸ ends2, rfl, rfl, rfl, rfl⟩, ?_, ?_, ?_, ?_, ?_, ?_, ?_, ?_⟩
  · refine Eq.trans t1 ?_
    rw [List.map_map]
    rfl
  · refine Eq.trans t2 ?_
    rw [List.map_map]
    rfl
  · intro o ho
    rw [o1, o2] at ho
    simp only [List.mem_append, List.mem_map] at ho
    rcases ho with ((⟨r, -, rfl⟩ | ⟨r, -, rfl⟩) | ⟨r, -, rfl⟩) | ⟨r, -, rfl⟩ <;> exact ⟨rfl, rfl, rfl⟩
  · intro x hx
    refine ⟨t x.spec, ?_, rfl⟩
    exact fitTail_ok C.fns C.ncal C.after _ _ (l := [x.spec]) (t := t) (fun s hs => by
      obtain rfl := List.mem_singleton.mp hs
      exact htl x hx)
  · intro x hx
    refine ⟨t' x.spec, ?_, rfl⟩
    exact fitTail_ok C.fns C.ncal C.after _ _ (l := [x.spec]) (t := t') (fun s hs => by
      obtain rfl := List.mem_singleton.mp hs
      exact htl' x hx)
  · rw [List.flatMap_map]
    dsimp only
    rw [← List.map_flatMap]
    exact (fitted_perm C.run hP1 u).map _
  · rw [List.flatMap_map]
    dsimp only
    rw [← List.map_flatMap]
    exact (fitted_perm C.run hP2 u).map _
  · exact fun x hx => ⟨hone x hx, tail_dropped (htl x hx) (htl' x hx) _ _ _⟩
  · rw [List.flatMap_map, List.flatMap_map]
    exact hfilesBy onlyTarget hone
  · intro ha
    refine ⟨hnoW ha, ?_⟩
    rw [List.flatMap_map, List.flatMap_map]
    exact hfilesBy noWeights (hnoW ha)

/-- **C111**, link: without the two options it is the run of `Verif.Model.WholeRun`. -/
theorem C111_plain {Q D V : Type} (C : TailCfg Val K) (h1 : C.ncal = none) (h2 : C.after = false)
    (P : FitterFns (FullState K) (Spectrum K) (StackSums K) Q D) (cs : Codec Bool V)
    (cq : Codec (List (List (Row Val))) V) (cn : Codec Val V) (fc : FitterCodecs (StackSums K) Q V)
    (read : Except Err (Catalog Val)) (fname : String) (g0 : FullState K) (size rank : Nat) :
    C.runAll P cs cq cn fc read fname g0 size rank = C.run.run P cs cq cn fc read fname g0 size rank := by
  have key : ∀ (night : Option Val) (l : List (ReadSpec K)) (r : FullState K × List (Spectrum K) × Nat × Bool),
      (C.ending night rank l r : Prog V (SaverEv (String × D)) (WholeOut Val K)) =
      (ofExcept (C.run.save rank (C.run.finish (SelectCfg.setSpecs l r.2.1)))).bind fun files =>
        .ret ⟨night, r.2.2.1, r.2.2.2, C.run.finish (SelectCfg.setSpecs l r.2.1), files⟩ := by
    intro night l r
    have : C.finish r.1 (SelectCfg.setSpecs l r.2.1) = .ok (C.run.finish (SelectCfg.setSpecs l r.2.1)) := by
      unfold TailCfg.finish fitTail tailNoise tailCoadd
      rw [h1, h2]
      change Except.ok ((SelectCfg.setSpecs _ _).map _) = _
      have hid : ∀ v : List (ReadSpec K), SelectCfg.setSpecs v (v.map (·.spec)) = v := by
        intro v
        have := setSpecs_map v id
        simpa using this
      rw [hid]
      rfl
    unfold TailCfg.ending
    rw [this]
    rfl
  unfold TailCfg.runAll WholeCfg.run
  simp only [key]

end
/-! ### Concrete cases -/

/-- The run of `c88Cfg` on spectra of two arms. -/
def c111Base : WholeCfg Nat ℚ := { c88Cfg true with
  reader := fun l => .ok (l.map (fun r => c87Arms (r "TARGETID" : Nat) (if r "TARGETID" = 40 then 1 / 100 else 3))) }

theorem c111_plain : PlainRun c111Base 8 10 :=
  ⟨(c88_plain true).sqrt, (c88_plain true).eta, (c88_plain true).stack, (c88_plain true).obs, (c88_plain true).obsPos,
    (c88_plain true).rf, (c88_plain true).rfPos⟩

theorem c111_reads {c : Catalog Nat} (h : c88Cat = .ok c) :
    ReadsPixels c111Base c (fun p => (catPixelRows false c p).map
      (fun r => c87Arms (r "TARGETID" : Nat) (if r "TARGETID" = 40 then 1 / 100 else 3))) where
  ok _ _ := rfl
  row := (c88Coadd_reads h).row
  data := (c88Coadd_reads h).data
  coadd h := by cases h

/-- A variance fit that depends on the ranks. It stands for `VarLSSFitter`, which does (`C86_refuted`). -/
def c111Var : FitterFns (FullState ℚ) (Spectrum ℚ) (StackSums ℚ) Nat (List ℚ) :=
  { c86Var with varAcc := fun r _ _ => r, addQ := List.sum, varUpd := fun g q => { g with varlss := fun _ => 1 + q } }

/-- Messages of the example. -/
def c111Codecs : FitterCodecs (StackSums ℚ) Nat (StackSums ℚ × Nat × Bool × List (List (Row Nat))) :=
  ⟨c88Codec.2.2.2.nat, c88Codec.2.2.2.stack, c88Codec.2.2.2.nat⟩

/-- The options: additive noise of variance 1, coadding. -/
def c111Cfg (noise after : Bool) : TailCfg Nat ℚ :=
  ⟨c111Base, demoTailFns, if noise then some ⟨fun _ => 1, some (fun _ => 1)⟩ else none, after⟩

/-- The job on `n + 1` processes. -/
def c111Job (noise after : Bool) (n : Nat) : Outcome (WholeOut Nat ℚ) :=
  (runJob n (fun r => mainProg ((c111Cfg noise after).runAll c111Var c88Codec.1 c88Codec.2.1 c88Codec.2.2.1 c111Codecs
    c88Cat "" c86Start (n + 1) r))).1

/-- What is seen of a job: targets with `φ` of their spectra. -/
def c111See {A : Type} (φ : Spectrum ℚ → A) : Outcome (WholeOut Nat ℚ) → Option (List (List (Int × A)))
  | .done l => l.mapM (fun
      | .ok o => some (o.deltas.map (fun x => (x.row.targetid, φ x.spec)))
      | .error _ => none)
  | _ => none

/-- The spectrum of the `j`-th target of rank `r`. -/
def c111At {A : Type} (φ : Spectrum ℚ → A) (o : Outcome (WholeOut Nat ℚ)) (r j : Nat) : Option A :=
  ((((c111See φ o).getD []).getD r [])[j]?).map Prod.snd

set_option synthInstance.maxSize 4000 in
/-- **C111** is false for the weights. The same two quasars, 20 and 30, on one process and on two: without the
options the weights are the same, with one of them or both they are not. -/
theorem C111_weights_refuted :
    let ids := fun noise after n => (c111See (fun _ => ()) (c111Job noise after n)).map (List.map (List.map Prod.fst))
    let weight := fun noise after n r j => c111At (·.weight) (c111Job noise after n) r j
    (∀ noise after, ids noise after 0 = some [[20, 30]] ∧ ids noise after 1 = some [[20], [30]]) ∧
    (∃ a b, weight false false 0 0 0 = some (some a) ∧ weight false false 1 0 0 = some (some a) ∧
      weight false false 0 0 1 = some (some b) ∧ weight false false 1 1 0 = some (some b)) ∧
    ∀ noise after, noise = true ∨ after = true →
      ∃ a b a' b', weight noise after 0 0 0 = some (some a) ∧ weight noise after 1 0 0 = some (some a') ∧ a ≠ a' ∧
        weight noise after 0 0 1 = some (some b) ∧ weight noise after 1 1 0 = some (some b') ∧ b ≠ b' := by
  intro ids weight
  refine ⟨?_, ?_, ?_⟩
  · intro noise after
    cases noise <;> cases after <;> decide +kernel
  · refine ⟨((weight false false 0 0 0).getD none).getD [], ((weight false false 0 0 1).getD none).getD [], ?_⟩
    decide +kernel
  · intro noise after h
    refine ⟨((weight noise after 0 0 0).getD none).getD [], ((weight noise after 0 0 1).getD none).getD [],
      ((weight noise after 1 0 0).getD none).getD [], ((weight noise after 1 1 0).getD none).getD [], ?_⟩
    cases noise <;> cases after
    · exact absurd h (by decide)
    all_goals decide +kernel

set_option synthInstance.maxSize 4000 in
/-- **C111** is false for the flux and the inverse variance with both options: the arms are coadded with weights of the
last variance fit. -/
theorem C111_flux_refuted :
    ∃ a a' b b', c111At (·.fflux) (c111Job true true 0) 0 0 = some a ∧ c111At (·.fflux) (c111Job true true 1) 0 0 = some a' ∧
      a ≠ a' ∧ c111At (·.fivar) (c111Job true true 0) 0 0 = some b ∧ c111At (·.fivar) (c111Job true true 1) 0 0 = some b' ∧
      b ≠ b' := by
  refine ⟨(c111At (·.fflux) (c111Job true true 0) 0 0).getD [], (c111At (·.fflux) (c111Job true true 1) 0 0).getD [],
    (c111At (·.fivar) (c111Job true true 0) 0 0).getD [], (c111At (·.fivar) (c111Job true true 1) 0 0).getD [], ?_⟩
  decide +kernel

/-- The run without the options. -/
def c111Run (size rank : Nat) :
    Prog (StackSums ℚ × Nat × Bool × List (List (Row Nat))) (SaverEv (String × List ℚ)) (WholeOut Nat ℚ) :=
  c111Base.run c111Var c88Codec.1 c88Codec.2.1 c88Codec.2.2.1 c111Codecs c88Cat "" c86Start size rank

set_option synthInstance.maxSize 4000 in
/-- The hypotheses of `C111_partial`, in the runs of the refutations, with two quasars. -/
example (noise after : Bool) : ∃ (c : Catalog Nat) (f : Nat → List (ReadSpec ℚ))
    (outs outs' : List (WholeOut Nat ℚ)) (w w' : List (List (SaverEv (String × List ℚ)))),
    PlainRun (c111Cfg noise after).run 8 10 ∧ ReadsPixels (c111Cfg noise after).run c f ∧
    (∀ k, IsArgsort k ((c111Cfg noise after).run.argsort k)) ∧
    readQuasarCatalog exPix (.ok exFile) false (c111Cfg noise after).run.tile (some [1, 2]) 2 3 = .ok c ∧
    IdleOk (c111Cfg noise after).run ∧
    runJob 0 (c111Run 1) = (.done (outs.map .ok), w) ∧ runJob 1 (c111Run 2) = (.done (outs'.map .ok), w') ∧
    outs.map (fun o => o.deltas.length) = [2] ∧ outs'.map (fun o => o.deltas.length) = [1, 1] := by
  obtain ⟨c, h, hp⟩ := c88_cat
  have h1 : (c88See (runJob 0 (c111Run 1)).1).map (fun l => l.map (fun x => x.2.2.1.length)) = some [2] := by
    decide +kernel
  have h2 : (c88See (runJob 1 (c111Run 2)).1).map (fun l => l.map (fun x => x.2.2.1.length)) = some [1, 1] := by
    decide +kernel
  obtain ⟨l1, a1, a2⟩ := Option.map_eq_some_iff.mp h1
  obtain ⟨l2, b1, b2⟩ := Option.map_eq_some_iff.mp h2
  obtain ⟨outs, c1, c2⟩ := c88See_some a1
  obtain ⟨outs', d1, d2⟩ := c88See_some b1
  exact ⟨c, _, outs, outs', (runJob 0 (c111Run 1)).2, (runJob 1 (c111Run 2)).2, c111_plain, c111_reads h,
    fun k => argsortStable_isArgsort k, h, ⟨rfl, rfl, rfl⟩, Prod.ext c1 rfl, Prod.ext d1 rfl, c2.symm.trans a2, d2.symm.trans b2⟩

end Verif.Props

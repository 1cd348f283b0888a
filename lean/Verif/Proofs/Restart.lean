import Verif.Proofs.WrittenRun

/-!
# Helper lemmas for C116: a fit does not remember earlier fits
-/

namespace Verif.Proofs
open Verif Verif.Np Verif.Model Verif.Model.Prog Verif.Spec Verif.Model.Spectrum

section
variable {K : Type} [Field K] [LinearOrder K] [FloorRing K]

/-- `s` with another result of a fit. -/
def withFit (s : Spectrum K) (v : Bool) (c : Dict (List K)) (w : Option (Dict (List K))) (x : K) : Spectrum K :=
  { s with valid := v, cont := c, weight := w, chi2 := x }

omit [LinearOrder K] [FloorRing K] in
theorem endFit_withFit (varlss eta : K → K) (s : Spectrum K) (v : Bool) (c : Dict (List K))
    (w : Option (Dict (List K))) (x : K) :
    endFit varlss eta ((withFit s v c w x).setCont (false, c)) = withFit s false [] none (-1) ∧
    ∀ d, endFit varlss eta ((withFit s v c w x).setCont d) = endFit varlss eta (s.setCont d) := by
  refine ⟨rfl, fun d => ?_⟩
  have h1 : setForestWeight ((withFit s v c w x).setCont d) varlss eta =
      { setForestWeight (s.setCont d) varlss eta with chi2 := x } := by
    unfold setForestWeight
    by_cases h : d.1 = false ∨ d.2 = []
    · rw [if_pos (show ((withFit s v c w x).setCont d).valid = false ∨ ((withFit s v c w x).setCont d).cont = [] from h),
        if_pos (show (s.setCont d).valid = false ∨ (s.setCont d).cont = [] from h)]
      rfl
    · rw [if_neg (show ¬ (((withFit s v c w x).setCont d).valid = false ∨ ((withFit s v c w x).setCont d).cont = []) from h),
        if_neg (show ¬ ((s.setCont d).valid = false ∨ (s.setCont d).cont = []) from h)]
      rfl
  have h2 : ∀ t : Spectrum K, calcContinuumChi2 { t with chi2 := x } = calcContinuumChi2 t := by
    intro t
    unfold calcContinuumChi2
    by_cases h : t.valid = false ∨ t.cont = []
    · rw [if_pos h, if_pos h]
    · rw [if_neg h, if_neg h]
      rfl
  unfold endFit
  rw [h1, h2]

omit [LinearOrder K] [FloorRing K] in
theorem endFit_form (varlss eta : K → K) (s : Spectrum K) (d : Bool × Dict (List K)) :
    ∃ v c w x, endFit varlss eta (s.setCont d) = withFit s v c w x := by
  have h1 : ∀ t : Spectrum K, ∃ w, setForestWeight t varlss eta = withFit t t.valid t.cont w t.chi2 := by
    intro t
    unfold setForestWeight
    split <;> exact ⟨_, rfl⟩
  have h2 : ∀ t : Spectrum K, ∃ x, calcContinuumChi2 t = withFit t t.valid t.cont t.weight x := by
    intro t
    unfold calcContinuumChi2
    split <;> exact ⟨_, rfl⟩
  obtain ⟨w, e1⟩ := h1 (s.setCont d)
  obtain ⟨x, e2⟩ := h2 (setForestWeight (s.setCont d) varlss eta)
  unfold endFit
  rw [e2, e1]
  dsimp only
  split <;> exact ⟨_, _, _, _, rfl⟩

theorem fitOne_form (C : FullCfg K) (g : FullState K) (s : Spectrum K) :
    ∃ v c w x, C.fitOne g s = withFit s v c w x := by
  unfold FullCfg.fitOne piccaFit
  split <;> exact endFit_form _ _ _ _

theorem fitOne_withFit (C : FullCfg K) (g : FullState K) (s : Spectrum K) (v : Bool) (c : Dict (List K))
    (w : Option (Dict (List K))) (x : K) : C.fitOne g (withFit s v c w x) = C.fitOne g s := by
  unfold FullCfg.fitOne piccaFit
  have e1 : startA0 (withFit s v c w x) = startA0 s := rfl
  have e2 : piccaCost C.log (C.meancont g) C.meanflux g.varlss g.eta (C.rfwave.getD 0 0) C.denom (withFit s v c w x) =
      piccaCost C.log (C.meancont g) C.meanflux g.varlss g.eta (C.rfwave.getD 0 0) C.denom s := rfl
  rw [e1, e2]
  split
  · exact (endFit_withFit _ _ s v c w x).2 _
  · rfl

/-- A fit does not depend on the result of an earlier fit. -/
theorem fitOne_history (C : FullCfg K) (g g' : FullState K) (s : Spectrum K) :
    C.fitOne g (C.fitOne g' s) = C.fitOne g s := by
  obtain ⟨v, c, w, x, e⟩ := fitOne_form C g' s
  rw [e, fitOne_withFit]

end

section
variable {G Sp R Q D V : Type}

/-- One iteration. -/
theorem sync_one (F : FitterFns G Sp R Q D) (c : FitterCodecs R Q V) (n : Nat) (hf : Bool) (g0 : G)
    (sp : Nat → List Sp) (fname : String) :
    (SomeValid F n (fun r => (sp r).map (F.fitOne g0)) → ∃ (g1 gfin : G) (b : Bool) (M : Nat → List (SaverEv (String × D))),
      Sync n (fun r => F.iterate c fname 1 hf r g0 (sp r))
        (fun r => .ok (gfin, F.tweak g1 ((sp r).map (F.fitOne g0)), 1, b)) M) ∧
    (¬ SomeValid F n (fun r => (sp r).map (F.fitOne g0)) → ∃ M : Nat → List (SaverEv (String × D)),
      Sync n (fun r => F.iterate c fname 1 hf r g0 (sp r)) (fun _ => .error .qsonic) M) := by
  obtain ⟨g, s, conv, h, rfl, rfl⟩ := exists_iterations F n hf g0 sp
  have e : s 1 = fun r => (s 0 r).map (F.fitOne (g 0)) := funext fun r => h.fit 0 r
  rw [← e]
  refine ⟨fun hv => ?_, fun hv => ⟨_, sync_iterate_fail (c := c) h fname 1 0 one_pos (fun l hl => absurd hl (by omega))
    (fun l hl => absurd hl (by omega)) hv⟩⟩
  obtain ⟨k, k1, k2, -, -, k4⟩ := sync_iterate (c := c) h fname 1 (fun j hj _ => by
    obtain rfl : j = 0 := by omega
    exact hv)
  obtain rfl : k = 1 := by have := k2 one_pos; omega
  refine ⟨g 1, finalG F n hf (g 1) (fun r => F.tweak (g 1) (s 1 r)), conv 1, _, k4.congr (fun _ _ => rfl) (fun r _ => ?_) (fun _ _ => rfl)⟩
  rw [← h.fit 0 r]
  rfl

/-- If a fit does not remember earlier fits, the spectra at the end are those of one iteration from the functions
before the last. -/
theorem sync_restart (F : FitterFns G Sp R Q D) (hh : ∀ g g' s, F.fitOne g (F.fitOne g' s) = F.fitOne g s)
    (c : FitterCodecs R Q V) (n : Nat) (hf : Bool) (g0 : G) (sp : Nat → List Sp) (fname : String) {niter : Nat}
    (h0 : 0 < niter) :
    (∃ (k : Nat) (b b' : Bool) (G' gfin : G) (w : Nat → List Sp) (M M' : Nat → List (SaverEv (String × D))),
      Sync n (fun r => F.iterate c fname niter hf r g0 (sp r)) (fun r => .ok (gfin, w r, k, b)) M ∧
      Sync n (fun r => F.iterate c fname 1 hf r G' (sp r)) (fun r => .ok (gfin, w r, 1, b')) M' ∧
      (niter = 1 → G' = g0)) ∨
    (∃ M : Nat → List (SaverEv (String × D)),
      Sync n (fun r => F.iterate c fname niter hf r g0 (sp r)) (fun _ => .error .qsonic) M) := by
  obtain ⟨g, s, conv, h, rfl, rfl⟩ := exists_iterations F n hf g0 sp
  have hmap : ∀ i r, s (i + 1) r = (s 0 r).map (F.fitOne (g i)) := by
    intro i
    induction i with
    | zero => exact h.fit 0
    | succ i ih =>
      intro r
      rw [h.fit (i + 1) r, ih r, List.map_map]
      exact List.map_congr_left fun x _ => hh _ _ x
  by_cases hv : ∀ j < niter, (∀ l, 0 < l → l ≤ j → conv l = false) → SomeValid F n (s (j + 1))
  · left
    obtain ⟨k, k1, k2, k3, -, k4⟩ := sync_iterate (c := c) h fname niter hv
    obtain ⟨k, rfl⟩ : ∃ j, k = j + 1 := ⟨k - 1, by have := k2 h0; omega⟩
    obtain ⟨g', s', conv', h', e1, e2⟩ := exists_iterations F n hf (g k) (s 0)
    have es : s' 1 = s (k + 1) := by
      funext r
      rw [h'.fit 0 r, hmap k r, e1, e2]
    have eg : g' 1 = g (k + 1) := by
      obtain ⟨m, hm, q⟩ := h.update k
      obtain ⟨m', hm', q'⟩ := h'.update 0
      rw [Nat.zero_add, es, e1, ← hm] at hm'
      rw [q, q', Nat.zero_add, es, hm']
    obtain ⟨k', a1, a2, -, -, a4⟩ := sync_iterate (c := c) h' fname 1 (fun j hj _ => by
      obtain rfl : j = 0 := by omega
      rw [Nat.zero_add, es]
      exact hv k (by omega) (fun l l1 l2 => k3 l l1 (by omega)))
    obtain rfl : k' = 1 := by have := a2 one_pos; omega
    rw [es, eg, e1, e2] at a4
    refine ⟨_, _, _, g k, _, _, _, _, k4, a4, fun hn => ?_⟩
    obtain rfl : k = 0 := by omega
    rfl
  · right
    have hex : ∃ j, j < niter ∧ (∀ l, 0 < l → l ≤ j → conv l = false) ∧ ¬ SomeValid F n (s (j + 1)) := by
      push Not at hv
      obtain ⟨j, h1, h2, h3⟩ := hv
      exact ⟨j, h1, h2, h3⟩
    classical
    obtain ⟨h1, h2, h3⟩ := Nat.find_spec hex
    have hmin : ∀ l < Nat.find hex, SomeValid F n (s (l + 1)) := by
      intro l hl
      by_contra hbad
      exact Nat.find_min hex hl ⟨by omega, fun q q1 q2 => h2 q q1 (by omega), hbad⟩
    exact ⟨_, sync_iterate_fail (c := c) h fname niter (Nat.find hex) h1 hmin
      (fun l hl => h2 (l + 1) (by omega) (by omega)) h3⟩

end

section
variable {Val K : Type} [LinearOrder Val] [Field K] [LinearOrder K] [IsStrictOrderedRing K] [FloorRing K]

omit [LinearOrder Val] in
/-- The treatment before the fit does not depend on the other targets of the catalog. -/
theorem prepOne_ids (C : WholeCfg Val K) {dw dr : K} (hC : PlainRun C dw dr) {ids ids' : List Int} {x : ReadSpec K}
    (hx : ReadOk x) (hc : C.sel.coaddBefore = true → CoaddReady C.sel x.spec) (hp : PassesCuts C.sel x)
    (h1 : x.row.targetid ∈ ids) (h2 : x.row.targetid ∈ ids') : prepOne C ids x = prepOne C ids' x := by
  obtain ⟨-, b1, b2, -⟩ := prep_same C.sel hx hc hC.sqrt hp.1
  obtain ⟨c1, c2, -⟩ := etaOne_same C.sel hC.eta b1
  obtain ⟨d1, d2, -⟩ := fluxOne_same C.sel hC.stack c1
  unfold prepOne treatOne
  have hz : 0 < 1 + (fluxOne C.sel (etaOne C.sel (prepRead C.sel x).spec)).z := by rw [d2, c2, b2]; exact hx.zpos
  have hrow := (prepRead_row C.sel x).1
  rw [maskFactors_ids C.sel ids ids' (row := (prepRead C.sel x).row) (by rw [hrow]; exact h1) (by rw [hrow]; exact h2) d1 hz]

/-- What follows the fit of a rank. -/
def saveFit {V W : Type} (C : WrittenCfg Val K) (night : Option Val) (r : Nat) (l : List (ReadSpec K))
    (s : List (Spectrum K)) : Prog V W (WrittenOut Val K) :=
  (Prog.ofExcept (C.save night r (C.run.finish (SelectCfg.setSpecs l s)))).bind fun fl =>
    .ret ⟨night, C.run.finish (SelectCfg.setSpecs l s), fl⟩

omit [IsStrictOrderedRing K] in
theorem saveFit_eq {V W : Type} (C : WrittenCfg Val K) (night : Option Val) (r : Nat) (l : List (ReadSpec K))
    (s : List (Spectrum K)) : (saveFit C night r l s : Prog V W (WrittenOut Val K)) =
      fin ((C.save night r (C.run.finish (SelectCfg.setSpecs l s))).map
        (fun fl => ⟨night, C.run.finish (SelectCfg.setSpecs l s), fl⟩)) := by
  unfold saveFit
  cases C.save night r (C.run.finish (SelectCfg.setSpecs l s)) <;> rfl

omit [IsStrictOrderedRing K] in
theorem sync_saveFit {V W : Type} (C : WrittenCfg Val K) (n : Nat) (night : Option Val) (l : Nat → List (ReadSpec K))
    (w : Nat → List (Spectrum K)) :
    Sync n (fun r => (saveFit C night r (l r) (w r) : Prog V W (WrittenOut Val K)))
      (fun r => (C.save night r (C.run.finish (SelectCfg.setSpecs (l r) (w r)))).map
        (fun fl => ⟨night, C.run.finish (SelectCfg.setSpecs (l r) (w r)), fl⟩)) (fun _ => []) := by
  simp only [saveFit_eq]
  exact sync_fin n _

/-- The fit of a rank and what follows it. -/
def fitSave {Q D V : Type} (C : WrittenCfg Val K) (P : FitterFns (FullState K) (Spectrum K) (StackSums K) Q D)
    (fc : FitterCodecs (StackSums K) Q V) (fname : String) (m : Nat) (g0 : FullState K) (night : Option Val) (r : Nat)
    (l : List (ReadSpec K)) : Prog V (SaverEv (String × D)) (WrittenOut Val K) :=
  ((C.run.fit.fns P).iterate fc fname m C.fitVar r g0 (l.map (fun x : ReadSpec K => x.spec))).bind
    fun x => saveFit C night r l x.2.1

omit [IsStrictOrderedRing K] in
theorem sync_fitWritten {Q D V : Type} (C : WrittenCfg Val K) (P : FitterFns (FullState K) (Spectrum K) (StackSums K) Q D)
    (fc : FitterCodecs (StackSums K) Q V) (fname : String) (m : Nat) (g0 : FullState K) (night : Option Val) {n : Nat}
    (l : Nat → List (ReadSpec K)) {w : Nat → List (Spectrum K)} {gfin : FullState K} {k : Nat} {b : Bool}
    {M : Nat → List (SaverEv (String × D))}
    (h : Sync n (fun r => (C.run.fit.fns P).iterate fc fname m C.fitVar r g0 ((l r).map (fun x : ReadSpec K => x.spec)))
      (fun r => .ok (gfin, w r, k, b)) M) :
    Sync n (fun r => fitSave C P fc fname m g0 night r (l r))
      (fun r => (C.save night r (C.run.finish (SelectCfg.setSpecs (l r) (w r)))).map
        (fun fl => ⟨night, C.run.finish (SelectCfg.setSpecs (l r) (w r)), fl⟩)) (fun r => M r ++ []) := by
  refine Sync.bind (a := fun r => (gfin, w r, k, b)) (f := fun r x => saveFit C night r (l r) x.2.1) h ?_
  dsimp only
  exact sync_saveFit C n night l w

/-- The run with another number of iterations. -/
def withIter (C : WrittenCfg Val K) (m : Nat) : WrittenCfg Val K := { C with run := { C.run with niter := m } }

/-- The same deltas and files come from one iteration. -/
theorem written_restart {Q D V : Type} (C : WrittenCfg Val K) {c : Catalog Val}
    {f : Val → List (ReadSpec K)} {dw dr : K} (hC : PlainRun C.run dw dr) (hr : ReadsPixels C.run c f)
    (h0 : 0 < C.run.niter)
    (P : FitterFns (FullState K) (Spectrum K) (StackSums K) Q D) (cs : Codec Bool V)
    (cq : Codec (List (List (Row Val))) V) (cn : Codec Val V) (fc : FitterCodecs (StackSums K) Q V)
    {ang2pix : Nat → Val → Val → Val} {file : Except Err (Catalog Val)} {isMock : Bool}
    {ks : Option (List Val)} {zmin zmax : Val}
    (h : readQuasarCatalog ang2pix file isMock C.run.tile ks zmin zmax = .ok c) (n : Nat)
    (hidle : IdleOk C.run ∨ n + 1 ≤ (catPixels C.run.tile c).length) (fname : String) (g0 : FullState K) :
    (∃ (y : Nat → Except Err (WrittenOut Val K)) (G : FullState K) (M M' : Nat → List (SaverEv (String × D))),
      Sync n (fun r => C.runAll P cs cq cn fc (.ok c) fname g0 (n + 1) r) y M ∧
      Sync n (fun r => (withIter C 1).runAll P cs cq cn fc (.ok c) fname G (n + 1) r) y M') ∨
    (∃ M : Nat → List (SaverEv (String × D)),
      Sync n (fun r => C.runAll P cs cq cn fc (.ok c) fname g0 (n + 1) r) (fun _ => .error .qsonic) M) := by
  obtain ⟨Q1, night, hP1, -, -, ne, ns⟩ := sync_before (W := SaverEv (String × D)) (A := WrittenOut Val K) C.run hC hr
    cs cq cn h n hidle
  by_cases hbad : C.run.sel.bal = true ∧ balCheckCatalog C.run.cols ≠ .ok ()
  · exact .inr ⟨_, ne hbad _⟩
  have ns1 := ns hbad
  clear ne ns
  rcases sync_restart (C.run.fit.fns P) (fitOne_history C.run.fit) fc n C.fitVar g0
    (fun r => (prepQueue C.run c f (Q1 r)).map (·.spec)) fname h0 with ⟨k, b, b', G, gfin, w, M, M', s1, s2, -⟩ | ⟨M, s1⟩
  · left
    have e1 := sync_fitWritten C P fc fname C.run.niter g0 night (fun r => prepQueue C.run c f (Q1 r)) s1
    have e2 := sync_fitWritten C P fc fname 1 G night (fun r => prepQueue C.run c f (Q1 r)) s2
    exact ⟨_, G, _, _, ns1 (fun night r _ l => fitSave C P fc fname C.run.niter g0 night r l) _ _ e1,
      ns1 (fun night r _ l => fitSave C P fc fname 1 G night r l) _ _ e2⟩
  · right
    exact ⟨_, ns1 (fun night r _ l => fitSave C P fc fname C.run.niter g0 night r l) _ _ (s1.bind_error
        (fun r x => saveFit C night r (prepQueue C.run c f (Q1 r)) x.2.1))⟩

/-- The delta of a quasar by itself, from the functions `g0`. -/
def aloneOne (C : WholeCfg Val K) (g0 : FullState K) (x : ReadSpec K) : ReadSpec K :=
  endOne C (C.fit.fitOne g0) (prepOne C [x.row.targetid] x)

/-- With one iteration every quasar is treated by itself. -/
theorem written_alone {Q D V : Type} (C : WrittenCfg Val K) {c : Catalog Val}
    {f : Val → List (ReadSpec K)} {dw dr : K} (hC : PlainRun C.run dw dr) (hr : ReadsPixels C.run c f)
    (hA : ∀ k, IsArgsort k (C.run.argsort k)) (hsm : ∀ v x, (C.run.sel.smooth v x).length = v.length)
    (hnew : ∀ p ∈ catPixels C.run.tile c, ∀ x ∈ f p, NewSpec C.skipResomat x.spec)
    (hextra : ∀ i, ∀ k ∈ (C.extra i).keys, k ∈ ["TILEID", "FIBER", "PETAL_LOC", "EXPID", "NIGHT"])
    (h1 : C.run.niter = 1) (hno : C.run.fit.normalize = false) (het : C.run.fit.etaCalib = false)
    (P : FitterFns (FullState K) (Spectrum K) (StackSums K) Q D) (cs : Codec Bool V)
    (cq : Codec (List (List (Row Val))) V) (cn : Codec Val V) (fc : FitterCodecs (StackSums K) Q V)
    {ang2pix : Nat → Val → Val → Val} {file : Except Err (Catalog Val)} {isMock : Bool}
    {ks : Option (List Val)} {zmin zmax : Val}
    (h : readQuasarCatalog ang2pix file isMock C.run.tile ks zmin zmax = .ok c) (n : Nat)
    (hidle : IdleOk C.run ∨ n + 1 ≤ (catPixels C.run.tile c).length) (fname : String) (g0 : FullState K)
    {pick : List String → Option String} (hp : IsPick pick) :
    let all := ((((catPixels C.run.tile c).flatMap f).filter (fun x => decide (PassesCuts C.run.sel x))).map
      (aloneOne C.run g0)).filter (fun x => x.spec.valid)
    ((C.run.sel.bal = true ∧ balCheckCatalog C.run.cols ≠ .ok ()) ∨ all = [] →
      ∃ M : Nat → List (SaverEv (String × D)),
        Sync n (fun r => C.runAll P cs cq cn fc (.ok c) fname g0 (n + 1) r) (fun _ => .error .qsonic) M) ∧
    (¬ (C.run.sel.bal = true ∧ balCheckCatalog C.run.cols ≠ .ok ()) → all ≠ [] →
      ∃ (o : Nat → WrittenOut Val K) (M : Nat → List (SaverEv (String × D))),
        Sync n (fun r => C.runAll P cs cq cn fc (.ok c) fname g0 (n + 1) r) (fun r => .ok (o r)) M ∧
        ((List.range (n + 1)).flatMap (fun r => (o r).deltas)).Perm all) := by
  intro all
  obtain ⟨Q1, night, hP1, -, -, ne, ns⟩ := sync_before (W := SaverEv (String × D)) (A := WrittenOut Val K) C.run hC hr
    cs cq cn h n hidle
  set u := C.run.fit.fitOne g0 with hu
  have hprep : ∀ x ∈ ((catPixels C.run.tile c).flatMap f).filter (fun x => decide (PassesCuts C.run.sel x)),
      ReadOk x ∧ NewSpec C.skipResomat x.spec ∧
      (C.run.sel.coaddBefore = true → CoaddReady C.run.sel x.spec) ∧ PassesCuts C.run.sel x ∧
      prepOne C.run (c.rows.map C.run.tid) x = prepOne C.run [x.row.targetid] x := by
    intro x hx
    obtain ⟨p, hpp, hxp⟩ := List.mem_flatMap.mp (List.mem_filter.mp hx).1
    obtain ⟨a1, a2, a3⟩ := hr.data p hpp x hxp
    obtain ⟨q, hq1, hq2, -⟩ := hr.row p hpp x hxp
    refine ⟨⟨a1, a2, a3⟩, hnew p hpp x hxp, fun hb => hr.coadd hb p hpp x hxp,
      of_decide_eq_true (List.mem_filter.mp hx).2, ?_⟩
    refine prepOne_ids C.run hC ⟨a1, a2, a3⟩ (fun hb => hr.coadd hb p hpp x hxp)
      (of_decide_eq_true (List.mem_filter.mp hx).2) ?_ (List.mem_singleton.mpr rfl)
    rw [← hq2]
    exact List.mem_map.mpr ⟨q, (List.mem_filter.mp hq1).1, rfl⟩
  have hall : ((List.range (n + 1)).flatMap (fun r =>
      ((prepQueue C.run c f (Q1 r)).map (endOne C.run u)).filter (fun x => x.spec.valid))).Perm all := by
    rw [← List.filter_flatMap, ← List.map_flatMap]
    refine ((hP1.perm.map _).filter _).trans ?_
    rw [List.map_map]
    refine List.Perm.of_eq (congrArg _ (List.map_congr_left fun x hx => ?_))
    change endOne C.run u (prepOne C.run _ x) = endOne C.run u (prepOne C.run _ x)
    rw [(hprep x hx).2.2.2.2]
  have hsome : SomeValid (C.run.fit.fns P) n (fun r => ((prepQueue C.run c f (Q1 r)).map (·.spec)).map u) ↔ all ≠ [] := by
    constructor
    · rintro ⟨r, hrn, s, hs, hv⟩
      obtain ⟨s', hs', rfl⟩ := List.mem_map.mp hs
      obtain ⟨x, hx, rfl⟩ := List.mem_map.mp hs'
      refine List.ne_nil_of_mem (a := endOne C.run u x) (hall.mem_iff.mp (List.mem_flatMap.mpr
        ⟨r, List.mem_range.mpr (by omega), List.mem_filter.mpr ⟨List.mem_map.mpr ⟨x, hx, rfl⟩, ?_⟩⟩))
      change ((u x.spec).dropShortArms _ _ _).valid = true
      rw [dropShort_valid]
      exact hv
    · intro hne
      obtain ⟨y, hy⟩ := List.exists_mem_of_ne_nil _ hne
      obtain ⟨r, hrr, hy⟩ := List.mem_flatMap.mp (hall.mem_iff.mpr hy)
      obtain ⟨hy, hv⟩ := List.mem_filter.mp hy
      obtain ⟨x, hx, rfl⟩ := List.mem_map.mp hy
      refine ⟨r, Nat.lt_succ_iff.mp (List.mem_range.mp hrr), u x.spec,
        List.mem_map.mpr ⟨x.spec, List.mem_map.mpr ⟨x, hx, rfl⟩, rfl⟩, ?_⟩
      change ((u x.spec).dropShortArms _ _ _).valid = true at hv
      rw [dropShort_valid] at hv
      exact hv
  obtain ⟨i1, i2⟩ := sync_one (C.run.fit.fns P) fc n C.fitVar g0
    (fun r => (prepQueue C.run c f (Q1 r)).map (·.spec)) fname
  refine ⟨fun hb => ?_, fun hb hne => ?_⟩
  · by_cases hbad : C.run.sel.bal = true ∧ balCheckCatalog C.run.cols ≠ .ok ()
    · exact ⟨_, ne hbad _⟩
    have hbe : all = [] := hb.resolve_left hbad
    obtain ⟨M, s1⟩ := i2 (fun hs => (hsome.mp hs) hbe)
    rw [← h1] at s1
    exact ⟨_, ns hbad (fun night r _ l => fitSave C P fc fname C.run.niter g0 night r l) _ _ (s1.bind_error
      (fun r x => saveFit C night r (prepQueue C.run c f (Q1 r)) x.2.1))⟩
  · obtain ⟨g1, gfin, b, M, s1⟩ := i1 (hsome.mpr hne)
    have ht : ∀ l, (C.run.fit.fns P).tweak g1 l = l := by
      intro l
      unfold FitterFns.tweak
      rw [List.map_map]
      refine (List.map_congr_left fun x _ => ?_).trans (List.map_id _)
      change (if C.run.fit.etaCalib then _ else _) = x
      rw [het, if_neg Bool.false_ne_true]
      change (if _ then (if C.run.fit.normalize then _ else _) else _) = x
      rw [hno]
      split <;> rfl
    simp only [ht] at s1
    have hgood : ∀ r ≤ n, ∀ x ∈ ((prepQueue C.run c f (Q1 r)).map (endOne C.run u)).filter (fun x => x.spec.valid),
        GoodDelta C x := by
      intro r hrn x hx
      obtain ⟨hx1, hx2⟩ := List.mem_filter.mp hx
      obtain ⟨y, hy, rfl⟩ := List.mem_map.mp hx1
      obtain ⟨z, hz, rfl⟩ := List.mem_map.mp (hP1.perm.mem_iff.mp (List.mem_flatMap.mpr
        ⟨r, List.mem_range.mpr (by omega), hy⟩))
      obtain ⟨a1, a2, a3, a4, -⟩ := hprep z hz
      obtain ⟨b1, b2⟩ := prepOne_stored C.run hC hsm (c.rows.map C.run.tid) a1 a2 a3 a4
      obtain ⟨c1, c2⟩ := fitOne_stored C.run.fit g0 b1
      obtain ⟨d1, d2⟩ := dropShort_stored C.run.sel.forestW1 C.run.sel.forestW2 C.run.sel.skip c1 c2
      exact ⟨d1, d2, hx2⟩
    have hsv := fun (r : Nat) (hrn : r ≤ n) => saved_read C hA night hp (fun x => x) hextra r (hgood r hrn)
    choose! files hf1 hf2 hf3 using hsv
    rw [← h1] at s1
    have e : ∀ r, C.run.finish (SelectCfg.setSpecs (prepQueue C.run c f (Q1 r))
        (((prepQueue C.run c f (Q1 r)).map (fun x : ReadSpec K => x.spec)).map ((C.run.fit.fns P).fitOne g0))) =
        ((prepQueue C.run c f (Q1 r)).map (endOne C.run u)).filter (fun x => x.spec.valid) :=
      fun r => finish_eq C.run u _
    have s2 := sync_fitWritten C P fc fname C.run.niter g0 night (fun r => prepQueue C.run c f (Q1 r)) s1
    have s3 := ns hb (fun night r _ l => fitSave C P fc fname C.run.niter g0 night r l) _ _ s2
    refine ⟨fun r => ⟨night, ((prepQueue C.run c f (Q1 r)).map (endOne C.run u)).filter (fun x => x.spec.valid), files r⟩,
      _, s3.congr (fun _ _ => rfl) (fun r hrn => ?_) (fun _ _ => rfl), hall⟩
    rw [e, hf1 r hrn]
    rfl

end
end Verif.Proofs

import Verif.Proofs.UnitsWhole
import Mathlib.Tactic.FinCases

/-!
# Units of flux: smoothing, the S/N of the constructor, the tables written, an exact minimizer
-/

namespace Verif.Proofs
open Verif Verif.Np Verif.Model Verif.Model.Prog Verif.Spec

variable {K : Type} [Field K] [LinearOrder K] [IsStrictOrderedRing K]

theorem smooth_scales {sqrt : K → K} (hs : SqrtScales sqrt) {median : List K → K}
    (hm : ∀ (k : K) (l : List K), 0 < k → median (l.map (k * ·)) = k * median l) {smooth : List K → K → List K}
    (hf : ∀ (k : K) (l : List K) (p : K), 0 < k → smooth (l.map (k * ·)) p = (smooth l p).map (k * ·)) (mad esigma : K) :
    SmoothScales (fun l p => getSmoothIvar sqrt median smooth mad l p esigma) := by
  intro c l p hc
  have hk : (0 : K) < 1 / c ^ 2 := by positivity
  have hc0 : c ≠ 0 := hc.ne'
  have hsq : ∀ v, 1 / sqrt (1 / c ^ 2 * v) = c * (1 / sqrt v) := by
    intro v
    rw [hs c v hc, one_div, mul_inv, one_div, inv_inv, one_div]
  have e1 : ((l.map (1 / c ^ 2 * ·)).filter (fun v => decide (0 < v))).map (fun v => 1 / sqrt v) =
      ((l.filter (fun v => decide (0 < v))).map (fun v => 1 / sqrt v)).map (c * ·) := by
    rw [List.filter_map, List.map_map, List.map_map]
    have : ((fun v : K => decide (0 < v)) ∘ fun v => 1 / c ^ 2 * v) = fun v => decide (0 < v) := by
      funext v
      simp only [Function.comp_apply, decide_eq_decide]
      exact mul_pos_iff_of_pos_left hk
    rw [this]
    refine List.map_congr_left fun v _ => ?_
    simp only [Function.comp_apply]
    exact hsq v
  unfold getSmoothIvar
  dsimp only
  rw [e1, hm c _ hc]
  generalize hge : (l.filter (fun v => decide (0 < v))).map (fun v => 1 / sqrt v) = ge
  generalize hme : median ge = me
  have e2 : errorOf sqrt (c * me) (l.map (1 / c ^ 2 * ·)) = (errorOf sqrt me l).map (c * ·) := by
    unfold errorOf
    rw [List.map_map, List.map_map]
    refine List.map_congr_left fun v _ => ?_
    simp only [Function.comp_apply]
    rw [hsq v]
    by_cases hv : 0 < v
    · rw [if_pos hv, if_pos (mul_pos hk hv)]
    · rw [if_neg hv, if_neg (by rwa [mul_pos_iff_of_pos_left hk])]
  have e3 : (ge.map (c * ·)).map (fun e => |e - c * me|) = (ge.map (fun e => |e - me|)).map (c * ·) := by
    rw [List.map_map, List.map_map]
    refine List.map_congr_left fun v _ => ?_
    simp only [Function.comp_apply]
    rw [← mul_sub, abs_mul, abs_of_pos hc]
  rw [e2, e3, hm c _ hc]
  generalize errorOf sqrt me l = err
  generalize median (ge.map (fun e => |e - me|)) = md
  have e4 : (err.map (c * ·)).map (fun e => decide (e - c * me > esigma * (c * md * mad))) =
      err.map (fun e => decide (e - me > esigma * (md * mad))) := by
    rw [List.map_map]
    refine List.map_congr_left fun v _ => ?_
    simp only [Function.comp_apply, decide_eq_decide, gt_iff_lt]
    rw [show esigma * (c * md * mad) = c * (esigma * (md * mad)) by ring, ← mul_sub]
    exact mul_lt_mul_iff_right₀ hc
  have hr : ∀ (w : List Bool) (x y : List K), replaceWhere w (x.map (c * ·)) (y.map (c * ·)) =
      (replaceWhere w x y).map (c * ·) := by
    intro w x y
    unfold replaceWhere
    rw [List.zip_map, List.zipWith_map_right, List.map_zipWith]
    congr 1
    funext b q
    cases b <;> rfl
  rw [e4]
  have e5 : (err.map (c * ·)).map (fun _ => c * me) = (err.map (fun _ => me)).map (c * ·) := by
    rw [List.map_map, List.map_map]
    rfl
  rw [e5, hr, hf c _ _ hc, hr, List.zipWith_map, List.map_zipWith]
  congr 1
  funext v e
  by_cases hv : 0 < v
  · rw [if_pos hv, if_pos (mul_pos hk hv)]
    rw [mul_pow, one_div_mul_one_div]
  · rw [if_neg hv, if_neg (by rwa [mul_pos_iff_of_pos_left hk]), mul_zero]

theorem smooth_nonneg (sqrt : K → K) (median : List K → K) (smooth : List K → K → List K) (mad esigma : K) (l : List K)
    (p : K) : ∀ v ∈ getSmoothIvar sqrt median smooth mad l p esigma, 0 ≤ v := by
  unfold getSmoothIvar
  dsimp only
  intro v hv
  obtain ⟨a, ha, rfl⟩ := List.mem_iff_getElem.mp hv
  rw [List.getElem_zipWith]
  split
  · positivity
  · exact le_rfl

theorem rsnr_scale {sqrt : K → K} (hs : SqrtScales sqrt) {c : K} (hc : 0 < c) (eps lya z : K)
    (wave flux ivar : Dict (List K)) :
    rsnr sqrt eps lya z wave (times c flux) (times (1 / c ^ 2) ivar) = rsnr sqrt eps lya z wave flux ivar := by
  have e : ∀ x ∈ wave, rsnrArm sqrt ((1 + z) * lya) x.2 ((times c flux).arr x.1) ((times (1 / c ^ 2) ivar).arr x.1) =
      rsnrArm sqrt ((1 + z) * lya) x.2 (flux.arr x.1) (ivar.arr x.1) := by
    intro x _
    rw [arr_times, arr_times]
    unfold rsnrArm
    dsimp only
    rw [← List.map_drop, ← List.map_drop, List.map_map]
    have e1 : (sqrt ∘ fun v => 1 / c ^ 2 * v) = fun v => 1 / c * sqrt v := by
      funext v
      exact hs c v hc
    rw [e1]
    have e2 : ∀ l : List K, l.map (fun v => 1 / c * sqrt v) = (l.map sqrt).map (1 / c * ·) := by
      intro l
      rw [List.map_map]
      rfl
    rw [e2, numGood_scale (by positivity)]
    congr 1
    unfold dot
    rw [List.zipWith_map]
    congr 2
    funext a b
    field_simp
  unfold rsnr
  dsimp only
  rw [List.map_congr_left e]

/-! ### Tables -/

theorem timesContSq_scale {c : K} (hc : c ≠ 0) (x cont : List K) :
    timesContSq (x.map (1 / c ^ 2 * ·)) (cont.map (c * ·)) = timesContSq x cont := by
  unfold timesContSq
  rw [List.zipWith_map]
  congr 1
  funext a b
  field_simp

theorem deltaOf_scale {c : K} (hc : c ≠ 0) (f cont v : List K) :
    deltaOf (f.map (c * ·)) (cont.map (c * ·)) v = deltaOf f cont v := by
  unfold deltaOf
  rw [List.zip_map, List.zipWith_map_left]
  congr 1
  funext p v
  simp only [Prod.map_fst, Prod.map_snd]
  rw [mul_div_mul_left _ _ hc]

/-- The names of columns `qsonic-fit` sets. -/
def FitNames (names : List String) : Prop :=
  ∃ d r, (d = "DELTA" ∨ d = "DELTA_BLIND") ∧ (r = [] ∨ r = ["RESOMAT"]) ∧
    names = ["LAMBDA", d, "IVAR", "WEIGHT", "CONT"] ++ r

omit [IsStrictOrderedRing K] in
theorem fitNames_set (lya : K) (night : Nat) (a : BlindArgs K) : FitNames (setBlinding lya .init night a).colnames := by
  unfold setBlinding
  dsimp only
  by_cases hb : blindingOf lya night a ≠ "none"
  · rw [if_pos hb]
    by_cases hs : a.skipResomat = true
    · rw [if_pos hs]
      exact ⟨_, _, .inr rfl, .inl rfl, rfl⟩
    · rw [if_neg hs]
      exact ⟨_, _, .inr rfl, .inr rfl, rfl⟩
  · rw [if_neg hb]
    by_cases hs : a.skipResomat = true
    · rw [if_pos hs]
      exact ⟨_, _, .inl rfl, .inl rfl, rfl⟩
    · rw [if_neg hs]
      exact ⟨_, _, .inl rfl, .inr rfl, rfl⟩

omit [LinearOrder K] [IsStrictOrderedRing K] in
theorem makeHdu_scale (c : K) {names : List String} (hn : FitNames names) (ext : String) (hdr : Dict (HVal K))
    (a b d e cont : List K) (r : List (Col K)) (hr : r = [] ∨ ∃ m, r = [.mat m]) :
    makeHdu ext hdr names ([.vec a, .vec b, .vec d, .vec e, .vec (cont.map (c * ·))] ++ r) =
      (makeHdu ext hdr names ([.vec a, .vec b, .vec d, .vec e, .vec cont] ++ r)).map (contTimes c) := by
  obtain ⟨n, q, hn, hq, rfl⟩ := hn
  unfold makeHdu
  rcases hr with rfl | ⟨m, rfl⟩ <;> rcases hq with rfl | rfl <;> rcases hn with rfl | rfl <;> rfl

theorem write_scale {c : K} (hc : 0 < c) (y : K) {st : ClassState} (hn : FitNames st.colnames) (id : Ident K)
    (mr : String → K) (rs : K) (s : Spectrum K) :
    (rescale c y s).write st id mr rs = (s.write st id mr rs).map (List.map (contTimes c)) := by
  have h0 := hc.ne'
  have harm : ∀ x : String × List K, writeArm st id mr rs (rescale c y s) x.1 x.2 =
      (writeArm st id mr rs s x.1 x.2).map (List.map (contTimes c)) := by
    intro x
    unfold writeArm
    change (dictGet s.meanSnr x.1).bind _ = Except.map _ ((dictGet s.meanSnr x.1).bind _)
    cases dictGet s.meanSnr x.1 with
    | error e => rfl
    | ok snr =>
      dsimp only [Except.bind]
      by_cases hz : snr = 0
      · rw [if_pos hz, if_pos hz]
        rfl
      · rw [if_neg hz, if_neg hz]
        have hd : dictGet (rescale c y s).cont x.1 = (dictGet s.cont x.1).map (List.map (c * ·)) := by
          unfold dictGet
          rw [show (rescale c y s).cont = times c s.cont from rfl]
          unfold times
          rw [lookup_mapVals]
          cases List.lookup x.1 s.cont <;> rfl
        rw [hd]
        cases dictGet s.cont x.1 with
        | error e => rfl
        | ok cont =>
          have ha : armHdu st id (mr x.1) rs (rescale c y s) x.1 x.2 snr (cont.map (c * ·)) =
              (armHdu st id (mr x.1) rs s x.1 x.2 snr cont).map (contTimes c) := by
            unfold armHdu
            have e1 : (rescale c y s).fflux.arr x.1 = (s.fflux.arr x.1).map (c * ·) := arr_times c s.fflux x.1
            have e2 : (rescale c y s).fivar.arr x.1 = (s.fivar.arr x.1).map (1 / c ^ 2 * ·) := arr_times _ s.fivar x.1
            have e3 : (rescale c y s).fweight.arr x.1 = (s.fweight.arr x.1).map (1 / c ^ 2 * ·) := by
              rw [fweight_rescale, arr_times]
            rw [e1, e2, e3]
            dsimp only
            rw [timesContSq_scale h0, timesContSq_scale h0, deltaOf_scale h0]
            change (if s.freso = [] then _ else _) = Except.map _ (if s.freso = [] then _ else _)
            by_cases hr : s.freso = []
            · rw [if_pos hr, if_pos hr]
              have := makeHdu_scale c hn (extName id x.1) (deltaHeader st id rs s.dwave s.smoothing snr) x.2
                (deltaOf (s.fflux.arr x.1) cont (timesContSq (s.fivar.arr x.1) cont))
                (timesContSq (s.fivar.arr x.1) cont) (timesContSq (s.fweight.arr x.1) cont) cont [] (.inl rfl)
              exact this
            · rw [if_neg hr, if_neg hr]
              change (dictGet s.freso x.1).bind _ = Except.map _ ((dictGet s.freso x.1).bind _)
              cases dictGet s.freso x.1 with
              | error e => rfl
              | ok m =>
                exact makeHdu_scale c hn (extName id x.1) _ x.2
                  (deltaOf (s.fflux.arr x.1) cont (timesContSq (s.fivar.arr x.1) cont))
                  (timesContSq (s.fivar.arr x.1) cont) (timesContSq (s.fweight.arr x.1) cont) cont [.mat m] (.inr ⟨m, rfl⟩)
          change (armHdu st id (mr x.1) rs (rescale c y s) x.1 x.2 snr (cont.map (c * ·))).bind _ =
            Except.map _ ((armHdu st id (mr x.1) rs s x.1 x.2 snr cont).bind _)
          rw [ha]
          cases armHdu st id (mr x.1) rs s x.1 x.2 snr cont <;> rfl
  unfold Spectrum.write
  change (s.fwave.mapM (fun x => writeArm st id mr rs (rescale c y s) x.1 x.2)).bind _ = _
  change _ = Except.map _ ((s.fwave.mapM (fun x => writeArm st id mr rs s x.1 x.2)).bind _)
  generalize s.fwave = l
  have hm : ∀ l : List (String × List K), l.mapM (fun x => writeArm st id mr rs (rescale c y s) x.1 x.2) =
      (l.mapM (fun x => writeArm st id mr rs s x.1 x.2)).map (List.map (List.map (contTimes c))) := by
    intro l
    induction l with
    | nil => rfl
    | cons a l ih =>
      rw [List.mapM_cons, List.mapM_cons, harm a, ih]
      cases writeArm st id mr rs s a.1 a.2 with
      | error e => rfl
      | ok x =>
        cases l.mapM (fun x => writeArm st id mr rs s x.1 x.2) <;> rfl
  rw [hm l]
  cases l.mapM (fun x => writeArm st id mr rs s x.1 x.2) with
  | error e => rfl
  | ok t =>
    change Except.ok _ = Except.ok _
    rw [List.map_flatten]

/-! ### A minimizer -/

/-- `m` is the only minimum among the lists of length `n`. -/
def OnlyMin (f : List K → K) (n : Nat) (m : List K) : Prop :=
  m.length = n ∧ ∀ x, x.length = n → x ≠ m → f m < f x

open Classical in
/-- The exact minimum if there is only one, else no success. -/
noncomputable def exactMin (f : List K → K) (x0 : List K) : Bool × List K :=
  if h : ∃ m, OnlyMin f x0.length m then (true, h.choose) else (false, [])

omit [IsStrictOrderedRing K] in
theorem OnlyMin.eq {f : List K → K} {n : Nat} {a b : List K} (ha : OnlyMin f n a) (hb : OnlyMin f n b) : a = b := by
  by_contra h
  exact absurd (ha.2 b hb.1 (Ne.symm h)) (not_lt.mpr (hb.2 a ha.1 h).le)

theorem exactMin_finds : FindsMinimum (exactMin (K := K)) := by
  intro f f' c k x0 x0' hc hl h
  have hc0 := hc.ne'
  have hinv : ∀ x : List K, (x.map (1 / c * ·)).map (c * ·) = x := by
    intro x
    rw [List.map_map]
    conv_rhs => rw [← List.map_id x]
    refine List.map_congr_left fun a _ => ?_
    simp only [Function.comp_apply, id_eq]
    field_simp
  have hinv' : ∀ x : List K, (x.map (c * ·)).map (1 / c * ·) = x := by
    intro x
    rw [List.map_map]
    conv_rhs => rw [← List.map_id x]
    refine List.map_congr_left fun a _ => ?_
    simp only [Function.comp_apply, id_eq]
    field_simp
  have hto : ∀ m, OnlyMin f x0.length m → OnlyMin f' x0'.length (m.map (c * ·)) := by
    intro m hm
    refine ⟨by rw [List.length_map, hm.1, hl], fun x hx hne => ?_⟩
    have := hm.2 (x.map (1 / c * ·)) (by rw [List.length_map, hx, hl]) (fun e => hne (by rw [← e, hinv]))
    rw [h m, ← hinv x, h]
    linarith
  have hfrom : ∀ m, OnlyMin f' x0'.length m → OnlyMin f x0.length (m.map (1 / c * ·)) := by
    intro m hm
    refine ⟨by rw [List.length_map, hm.1, hl], fun x hx hne => ?_⟩
    have := hm.2 (x.map (c * ·)) (by rw [List.length_map, hx, hl]) (fun e => hne (by rw [← e, hinv']))
    rw [h x] at this
    have h2 := h (m.map (1 / c * ·))
    rw [hinv] at h2
    linarith
  unfold exactMin
  by_cases hm : ∃ m, OnlyMin f x0.length m
  · have hm' : ∃ m, OnlyMin f' x0'.length m := ⟨_, hto _ hm.choose_spec⟩
    rw [dif_pos hm, dif_pos hm']
    dsimp only
    congr 1
    exact OnlyMin.eq hm'.choose_spec (hto _ hm.choose_spec)
  · have hm' : ¬ ∃ m, OnlyMin f' x0'.length m := fun ⟨m, h'⟩ => hm ⟨_, hfrom m h'⟩
    rw [dif_neg hm, dif_neg hm']
    rfl

end Verif.Proofs

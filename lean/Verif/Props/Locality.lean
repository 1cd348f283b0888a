import Verif.Spec.Locality
import Verif.Model.Created
import Verif.Props.SpectrumInit
import Verif.Props.Aligned
import Verif.Props.WholeRun

/-!
# C104: only the good pixels of the forest and of the red side matter
-/

namespace Verif.Props
open Verif.Np Verif.Model Verif.Proofs Verif.Spec List Spectrum

section
variable {K : Type} [Field K] [LinearOrder K]

/-! ### Bad pixels -/

/-- Two sets of flux, ivar and mask of an arm with the same size, in which every pixel is bad in both or is good in
both with the same flux and ivar. -/
def SameGoodPixels (d d' : InitData K) (arm : String) : Prop :=
  ∃ f v m f' v' m', d.flux.lookup arm = some f ∧ d.ivar.lookup arm = some v ∧ d.mask.lookup arm = some m ∧
    d'.flux.lookup arm = some f' ∧ d'.ivar.lookup arm = some v' ∧ d'.mask.lookup arm = some m' ∧
    v.length = f.length ∧ m.length = f.length ∧ f'.length = f.length ∧ v'.length = f.length ∧ m'.length = f.length ∧
    ∀ (i : Nat) (a b a' b' : Fl K) (c c' : Nat), f[i]? = some a → v[i]? = some b → m[i]? = some c →
      f'[i]? = some a' → v'[i]? = some b' → m'[i]? = some c' →
      (Bad c a b ∧ Bad c' a' b') ∨ (¬ Bad c a b ∧ ¬ Bad c' a' b' ∧ a = a' ∧ b = b')

theorem cleanArm_congr {f v f' v' : List (Fl K)} {m m' : List Nat} (h1 : v.length = f.length)
    (h2 : m.length = f.length) (h3 : f'.length = f.length) (h4 : v'.length = f.length) (h5 : m'.length = f.length)
    (h : ∀ (i : Nat) (a b a' b' : Fl K) (c c' : Nat), f[i]? = some a → v[i]? = some b → m[i]? = some c →
      f'[i]? = some a' → v'[i]? = some b' → m'[i]? = some c' →
      (Bad c a b ∧ Bad c' a' b') ∨ (¬ Bad c a b ∧ ¬ Bad c' a' b' ∧ a = a' ∧ b = b')) :
    cleanArm m f v = cleanArm m' f' v' := by
  have e : ∃ c, cleanArm m f v = .ok c := by
    unfold cleanArm
    rw [if_pos ⟨h2, h1.symm⟩]
    exact ⟨_, rfl⟩
  have e' : ∃ c, cleanArm m' f' v' = .ok c := by
    unfold cleanArm
    rw [if_pos ⟨by omega, by omega⟩]
    exact ⟨_, rfl⟩
  obtain ⟨c, hc⟩ := e
  obtain ⟨c', hc'⟩ := e'
  rw [hc, hc']
  obtain ⟨-, -, l1, l2, hp⟩ := cleanArm_ok hc
  obtain ⟨-, -, l1', l2', hp'⟩ := cleanArm_ok hc'
  have key : ∀ i < f.length, c.1[i]? = c'.1[i]? ∧ c.2[i]? = c'.2[i]? := by
    intro i hi
    have g : ∀ {β : Type} (l : List β), l.length = f.length → ∃ x, l[i]? = some x :=
      fun l hl => ⟨_, List.getElem?_eq_getElem (by omega)⟩
    obtain ⟨a, ha⟩ := g f rfl
    obtain ⟨b, hb⟩ := g v h1
    obtain ⟨x, hx⟩ := g m h2
    obtain ⟨a', ha'⟩ := g f' h3
    obtain ⟨b', hb'⟩ := g v' h4
    obtain ⟨x', hx'⟩ := g m' h5
    rw [(hp i x a b hx ha hb).1, (hp i x a b hx ha hb).2, (hp' i x' a' b' hx' ha' hb').1,
      (hp' i x' a' b' hx' ha' hb').2]
    rcases h i a b a' b' x x' ha hb hx ha' hb' hx' with ⟨k, k'⟩ | ⟨k, k', rfl, rfl⟩
    · rw [(bad_iff _ _ _).mpr k, (bad_iff _ _ _).mpr k']
      exact ⟨rfl, rfl⟩
    · rw [Bool.eq_false_iff.mpr (mt (bad_iff _ _ _).mp k), Bool.eq_false_iff.mpr (mt (bad_iff _ _ _).mp k')]
      exact ⟨rfl, rfl⟩
  congr 1
  refine Prod.ext ?_ ?_
  · refine List.ext_getElem? fun i => ?_
    by_cases hi : i < f.length
    · exact (key i hi).1
    · rw [List.getElem?_eq_none (by omega), List.getElem?_eq_none (by omega)]
  · refine List.ext_getElem? fun i => ?_
    by_cases hi : i < f.length
    · exact (key i hi).2
    · rw [List.getElem?_eq_none (by omega), List.getElem?_eq_none (by omega)]

/-- **C104, bad pixels.** What a file has in its bad pixels (flag, flux and ivar) has no influence on the spectrum
created. -/
theorem C104_bad_pixels (rtol atol : K) (st : GridState K) {d d' : InitData K} (hw : d'.wave = d.wave)
    (hr : d'.reso = d.reso) (h : ∀ arm, arm ∈ st.wave.keys ∨ arm ∈ d.wave.keys → SameGoodPixels d d' arm) :
    initSpectrum rtol atol st d' = initSpectrum rtol atol st d := by
  have hstep : ∀ arm, arm ∈ st.wave.keys ∨ arm ∈ d.wave.keys → ∀ s, initStep d' s arm = initStep d s arm := by
    intro arm ha s
    obtain ⟨f, v, m, f', v', m', e1, e2, e3, e1', e2', e3', l1, l2, l3, l4, l5, hp⟩ := h arm ha
    unfold initStep dictGet
    rw [e1, e2, e3, e1', e2', e3', hr]
    simp only [except_bind_ok]
    rw [cleanArm_congr l1 l2 l3 l4 l5 hp]
  have hfold : ∀ (l : List String), (∀ a ∈ l, a ∈ st.wave.keys ∨ a ∈ d.wave.keys) → ∀ s,
      l.foldlM (initStep d') s = l.foldlM (initStep d) s := by
    intro l
    induction l with
    | nil => intro _ _; rfl
    | cons a l ih =>
      intro hl s
      rw [List.foldlM_cons, List.foldlM_cons, hstep a (hl a (by simp))]
      congr 1
      funext t
      exact ih (fun x hx => hl x (by simp [hx])) t
  unfold initSpectrum
  rw [hw]
  cases hs : setWave rtol atol st d.wave false with
  | error e => rfl
  | ok st' =>
    simp only [except_bind_ok]
    rw [hfold]
    intro a ha
    unfold setWave at hs
    split at hs
    · unfold firstWave at hs
      split at hs
      · simp only [Except.ok.injEq] at hs
        subst hs
        rename_i e
        exact Or.inr (by rw [e] at ha ⊢; exact ha)
      · cases hs
    · simp only [Bool.false_eq_true, if_false, Except.ok.injEq] at hs
      subst hs
      exact Or.inl ha

/-! ### Pixels outside of the forest -/

theorem pixelsWhere_agree {α : Type} {p : K → Prop} [DecidablePred p] {wave : List K} {a b : List α}
    (ha : a.length = wave.length) (hb : b.length = wave.length) (h : AgreeAt p wave a b) :
    pixelsWhere p wave a = pixelsWhere p wave b := by
  induction wave generalizing a b with
  | nil => rfl
  | cons w ws ih =>
    cases a with
    | nil => simp at ha
    | cons x a =>
      cases b with
      | nil => simp at hb
      | cons y b =>
        simp only [List.length_cons, Nat.add_right_cancel_iff] at ha hb
        have ht := ih ha hb (fun i v hi hv => by simpa using h (i + 1) v (by simpa using hi) hv)
        rw [pixelsWhere_cons, pixelsWhere_cons, ht]
        split
        · rename_i hp
          have := h 0 w (by simp) hp
          simp only [List.getElem?_cons_zero, Option.some.injEq] at this
          rw [this]
        · rfl

/-- Other data in a spectrum. -/
def withData (f v : Dict (List K)) (r : Dict (List (List K))) (s : Spectrum K) : Spectrum K :=
  { s with flux := f, ivar := v, reso := r }

theorem regionArm_withData {l1 l2 : K} {s : Spectrum K} {f v : Dict (List K)} {r : Dict (List (List K))} {arm : String}
    {w : List K}
    (hf : slice (f.arr arm) (searchsorted w l1) (searchsorted w l2) =
      slice (s.flux.arr arm) (searchsorted w l1) (searchsorted w l2))
    (hv : slice (v.arr arm) (searchsorted w l1) (searchsorted w l2) =
      slice (s.ivar.arr arm) (searchsorted w l1) (searchsorted w l2))
    (hr0 : r = [] ↔ s.reso = [])
    (hr : (r.arr arm).map (fun x => slice x (searchsorted w l1) (searchsorted w l2)) =
      (s.reso.arr arm).map (fun x => slice x (searchsorted w l1) (searchsorted w l2))) :
    regionArm l1 l2 (withData f v r s) arm w = withData f v r (regionArm l1 l2 s arm w) := by
  by_cases h0 : numGood (slice (s.ivar.arr arm) (searchsorted w l1) (searchsorted w l2)) = 0
  · have e1 : regionArm l1 l2 s arm w = s := if_pos h0
    have e2 : regionArm l1 l2 (withData f v r s) arm w = withData f v r s :=
      if_pos (show numGood (slice (v.arr arm) _ _) = 0 by rw [hv]; exact h0)
    rw [e1, e2]
  · have e1 : regionArm l1 l2 s arm w = _ := if_neg h0
    have e2 : regionArm l1 l2 (withData f v r s) arm w = _ :=
      if_neg (show ¬ numGood (slice (v.arr arm) _ _) = 0 by rw [hv]; exact h0)
    rw [e1, e2]
    dsimp only [withData]
    rw [hf, hv, hr]
    simp only [hr0]

theorem regionArm_data (l1 l2 : K) (s : Spectrum K) (arm : String) (w : List K) :
    (regionArm l1 l2 s arm w).flux = s.flux ∧ (regionArm l1 l2 s arm w).ivar = s.ivar ∧
    (regionArm l1 l2 s arm w).reso = s.reso := by
  unfold regionArm
  dsimp only
  split <;> exact ⟨rfl, rfl, rfl⟩

theorem regionFold_withData {l1 l2 : K} {f v : Dict (List K)} {r : Dict (List (List K))} (wave : Dict (List K))
    (s : Spectrum K)
    (hf : ∀ x ∈ wave, slice (f.arr x.1) (searchsorted x.2 l1) (searchsorted x.2 l2) =
      slice (s.flux.arr x.1) (searchsorted x.2 l1) (searchsorted x.2 l2))
    (hv : ∀ x ∈ wave, slice (v.arr x.1) (searchsorted x.2 l1) (searchsorted x.2 l2) =
      slice (s.ivar.arr x.1) (searchsorted x.2 l1) (searchsorted x.2 l2))
    (hr0 : r = [] ↔ s.reso = [])
    (hr : ∀ x ∈ wave, (r.arr x.1).map (fun y => slice y (searchsorted x.2 l1) (searchsorted x.2 l2)) =
      (s.reso.arr x.1).map (fun y => slice y (searchsorted x.2 l1) (searchsorted x.2 l2))) :
    wave.foldl (fun s x => regionArm l1 l2 s x.1 x.2) (withData f v r s) =
      withData f v r (wave.foldl (fun s x => regionArm l1 l2 s x.1 x.2) s) := by
  induction wave generalizing s with
  | nil => rfl
  | cons x wave ih =>
    rw [List.foldl_cons, List.foldl_cons, regionArm_withData (hf x (by simp)) (hv x (by simp)) hr0 (hr x (by simp))]
    obtain ⟨e1, e2, e3⟩ := regionArm_data l1 l2 s x.1 x.2
    refine ih _ ?_ ?_ ?_ ?_
    · rw [e1]; exact fun y hy => hf y (by simp [hy])
    · rw [e2]; exact fun y hy => hv y (by simp [hy])
    · rw [e3]; exact hr0
    · rw [e3]; exact fun y hy => hr y (by simp [hy])

end

section
variable {K : Type} [Field K] [LinearOrder K] [FloorRing K]

/-- The forest does not depend on data outside of it. -/
theorem setForestRegion_withData {sqrt : K → K} {eps w1 w2 lya1 lya2 : K} {s : Spectrum K} {f v : Dict (List K)}
    {r : Dict (List (List K))} (hs : DataOk s) (hs' : DataOk (withData f v r s))
    (hf : ArmsAgree (InForest s.z w1 w2 lya1 lya2) s.wave f s.flux)
    (hv : ArmsAgree (InForest s.z w1 w2 lya1 lya2) s.wave v s.ivar)
    (hr : ResoAgree (InForest s.z w1 w2 lya1 lya2) s.wave r s.reso) :
    ((withData f v r s).setForestRegion sqrt eps w1 w2 lya1 lya2).removeNonforestPixels =
      (s.setForestRegion sqrt eps w1 w2 lya1 lya2).removeNonforestPixels := by
  have hl : ∀ x ∈ s.wave, s.wave.lookup x.1 = some x.2 := fun x hx => lookup_of_mem hs.nodup hx
  have key := regionFold_withData (l1 := max w1 ((1 + s.z) * lya1)) (l2 := min w2 ((1 + s.z) * lya2)) (f := f)
    (v := v) (r := r) s.wave s ?_ ?_ hr.1 ?_
  · unfold setForestRegion
    dsimp only
    rw [show (withData f v r s).wave = s.wave from rfl, show (withData f v r s).z = s.z from rfl, key]
    rfl
  · intro x hx
    have h1 : (f.arr x.1).length = x.2.length := hs'.flux _ _ (hl x hx)
    have h2 := hs.flux _ _ (hl x hx)
    rw [slice_inForest (hs.sorted _ _ (hl x hx)) _ _ _ _ h1, slice_inForest (hs.sorted _ _ (hl x hx)) _ _ _ _ h2]
    exact pixelsWhere_agree h1 h2 (hf x hx)
  · intro x hx
    have h1 : (v.arr x.1).length = x.2.length := hs'.ivar _ _ (hl x hx)
    have h2 := hs.ivar _ _ (hl x hx)
    rw [slice_inForest (hs.sorted _ _ (hl x hx)) _ _ _ _ h1, slice_inForest (hs.sorted _ _ (hl x hx)) _ _ _ _ h2]
    exact pixelsWhere_agree h1 h2 (hv x hx)
  · intro x hx
    have h1 : ∀ y ∈ r.arr x.1, y.length = x.2.length := hs'.reso _ _ (hl x hx)
    have h2 := hs.reso _ _ (hl x hx)
    have h3 := hr.2 x hx
    have : ∀ {a b : List (List K)}, List.Forall₂ (AgreeAt (InForest s.z w1 w2 lya1 lya2) x.2) a b →
        (∀ y ∈ a, y.length = x.2.length) → (∀ y ∈ b, y.length = x.2.length) →
        a.map (fun y => slice y (searchsorted x.2 (max w1 ((1 + s.z) * lya1)))
          (searchsorted x.2 (min w2 ((1 + s.z) * lya2)))) =
        b.map (fun y => slice y (searchsorted x.2 (max w1 ((1 + s.z) * lya1)))
          (searchsorted x.2 (min w2 ((1 + s.z) * lya2)))) := by
      intro a b h
      induction h with
      | nil => intros; rfl
      | @cons a0 b0 _ _ h0 _ ih =>
        intro ha hb
        rw [List.map_cons, List.map_cons, ih (fun y hy => ha y (by simp [hy])) (fun y hy => hb y (by simp [hy])),
          slice_inForest (hs.sorted _ _ (hl x hx)) _ _ _ _ (ha a0 (by simp)),
          slice_inForest (hs.sorted _ _ (hl x hx)) _ _ _ _ (hb b0 (by simp)),
          pixelsWhere_agree (ha a0 (by simp)) (hb b0 (by simp)) h0]
    exact this h3 h1 h2

omit [FloorRing K] in
/-- The red side SNR does not depend on data blueward of Lya. -/
theorem rsnr_agree {sqrt : K → K} {eps lya z : K} {wave f v f' v' : Dict (List K)}
    (hw : ∀ x ∈ wave, x.2.Pairwise (· < ·) ∧ (f.arr x.1).length = x.2.length ∧ (v.arr x.1).length = x.2.length ∧
      (f'.arr x.1).length = x.2.length ∧ (v'.arr x.1).length = x.2.length)
    (hf : ArmsAgree (fun w => (1 + z) * lya ≤ w) wave f' f) (hv : ArmsAgree (fun w => (1 + z) * lya ≤ w) wave v' v) :
    rsnr sqrt eps lya z wave f' v' = rsnr sqrt eps lya z wave f v := by
  have e : wave.map (fun x => rsnrArm sqrt ((1 + z) * lya) x.2 (f'.arr x.1) (v'.arr x.1)) =
      wave.map (fun x => rsnrArm sqrt ((1 + z) * lya) x.2 (f.arr x.1) (v.arr x.1)) := by
    refine List.map_congr_left fun x hx => ?_
    obtain ⟨hs, h1, h2, h3, h4⟩ := hw x hx
    unfold rsnrArm
    dsimp only
    rw [drop_searchsorted hs _ h1, drop_searchsorted hs _ h2, drop_searchsorted hs _ h3, drop_searchsorted hs _ h4,
      pixelsWhere_agree h3 h1 (hf x hx), pixelsWhere_agree h4 h2 (hv x hx)]
  unfold rsnr
  dsimp only
  rw [e]

/-- **C104, other pixels.** After the forest region has been set, the spectra created from two sets of data are the
same if these agree in the pixels of the forest, and from Lya on in the flux and ivar. -/
theorem C104_forest (C : SelectCfg K) (lya : K) (row : MaskRow K) (z dwave : K) (wave : Dict (List K))
    {f v f' v' : Dict (List K)} {r r' : Dict (List (List K))}
    (hs : DataOk (blank z dwave wave f v r)) (hs' : DataOk (blank z dwave wave f' v' r'))
    (hf : ArmsAgree (InForest z C.wave1 C.wave2 C.forestW1 C.forestW2) wave f' f)
    (hv : ArmsAgree (InForest z C.wave1 C.wave2 C.forestW1 C.forestW2) wave v' v)
    (hr : ResoAgree (InForest z C.wave1 C.wave2 C.forestW1 C.forestW2) wave r' r)
    (hf2 : ArmsAgree (fun w => (1 + z) * lya ≤ w) wave f' f) (hv2 : ArmsAgree (fun w => (1 + z) * lya ≤ w) wave v' v) :
    C.setForest (createdSpec C.sqrt C.eps lya row z dwave wave f' v' r') =
      C.setForest (createdSpec C.sqrt C.eps lya row z dwave wave f v r) := by
  have e1 : rsnr C.sqrt C.eps lya z wave f' v' = rsnr C.sqrt C.eps lya z wave f v := by
    refine rsnr_agree (fun x hx => ?_) hf2 hv2
    have hl : wave.lookup x.1 = some x.2 := lookup_of_mem hs.nodup hx
    exact ⟨hs.sorted _ _ hl, hs.flux _ _ hl, hs.ivar _ _ hl, hs'.flux _ _ hl, hs'.ivar _ _ hl⟩
  have e2 := setForestRegion_withData (sqrt := C.sqrt) (eps := C.eps) (s := blank z dwave wave f v r) (f := f')
    (v := v') (r := r') hs hs' hf hv hr
  unfold SelectCfg.setForest createdSpec
  dsimp only
  rw [e1]
  congr 1

theorem map_error_inj {α β : Type} {f g : α → β} {a b : Err}
    (h : Except.map f (Except.error a) = Except.map g (Except.error b)) : a = b := Except.error.inj h

theorem readLocal_same {Cat : Type} (C : SelectCfg K) {reader reader' : Cat → Except Err (List (ReadSpec K))}
    (h : ∀ c, (reader' c).map (List.map C.setForest) = (reader c).map (List.map C.setForest)) (queue : List Cat) :
    C.readLocal reader' queue = C.readLocal reader queue := by
  have h2 : ∀ queue : List Cat,
      (queue.mapM reader').map (List.flatMap fun specs => (specs.map C.setForest).filter C.keepRead) =
      (queue.mapM reader).map (List.flatMap fun specs => (specs.map C.setForest).filter C.keepRead) := by
    intro queue
    induction queue with
    | nil => rfl
    | cons c queue ih =>
      rw [List.mapM_cons, List.mapM_cons]
      have hc := h c
      cases e : reader c with
      | error x =>
        cases e' : reader' c with
        | error x' => rw [e, e'] at hc; rw [map_error_inj hc]; rfl
        | ok l' => rw [e, e'] at hc; cases hc
      | ok l =>
        cases e' : reader' c with
        | error x' => rw [e, e'] at hc; cases hc
        | ok l' =>
          rw [e, e'] at hc
          have hl : l'.map C.setForest = l.map C.setForest := Except.ok.inj hc
          cases q : queue.mapM reader with
          | error x =>
            cases q' : queue.mapM reader' with
            | error x' => rw [q, q'] at ih; rw [map_error_inj ih]; rfl
            | ok m' => rw [q, q'] at ih; cases ih
          | ok m =>
            cases q' : queue.mapM reader' with
            | error x' => rw [q, q'] at ih; cases ih
            | ok m' =>
              rw [q, q'] at ih
              have hm := Except.ok.inj ih
              refine congrArg Except.ok ?_
              rw [List.flatMap_cons, List.flatMap_cons, hl, hm]
  have h3 := h2 queue
  unfold SelectCfg.readLocal
  cases q : queue.mapM reader with
  | error x =>
    cases q' : queue.mapM reader' with
    | error x' => rw [q, q'] at h3; rw [map_error_inj h3]
    | ok m' => rw [q, q'] at h3; cases h3
  | ok m =>
    cases q' : queue.mapM reader' with
    | error x' => rw [q, q'] at h3; cases h3
    | ok m' =>
      rw [q, q'] at h3
      have hm := Except.ok.inj h3
      simp only [except_bind_ok]
      rw [hm]

theorem likeFile_map {C : SelectCfg K} {lya : K} {a b : Except Err (List (ReadSpec K))} (h : LikeFile C lya a b) :
    b.map (List.map C.setForest) = a.map (List.map C.setForest) := by
  cases h with
  | error e => rfl
  | ok h =>
    refine congrArg Except.ok ?_
    induction h with
    | nil => rfl
    | cons h0 _ ih =>
      rw [List.map_cons, List.map_cons, ih]
      cases h0 with
      | mk d d' h1 h2 h3 h4 h5 => rw [C104_forest C lya _ _ _ _ d d' h1 h2 h3 h4 h5]

/-- **C104, selection.** So are the spectra selected for the fit, with calibrations, masks and cuts. -/
theorem C104_select {Cat : Type} (C : SelectCfg K) (lya : K) {reader reader' : Cat → Except Err (List (ReadSpec K))}
    (h : ∀ c, LikeFile C lya (reader c) (reader' c)) (ids : List Int) (queue : List Cat) :
    C.select reader' ids queue = C.select reader ids queue := by
  unfold SelectCfg.select
  rw [readLocal_same C (fun c => likeFile_map (h c))]

/-- **C104, run.** And all results of a run. -/
theorem C104_run {Val : Type} [LinearOrder Val] (C : WholeCfg Val K) (lya : K)
    (reader' : List (Row Val) → Except Err (List (ReadSpec K)))
    (h : ∀ c, LikeFile C.sel lya (C.reader c) (reader' c)) {Q D V : Type}
    (P : FitterFns (FullState K) (Spectrum K) (StackSums K) Q D)
    (cs : Codec Bool V) (cq : Codec (List (List (Row Val))) V) (cn : Codec Val V)
    (c : FitterCodecs (StackSums K) Q V) (read : Except Err (Catalog Val)) (fname : String) (g0 : FullState K)
    (size n : Nat) :
    runJob n (({ C with reader := reader' } : WholeCfg Val K).run P cs cq cn c read fname g0 size) =
      runJob n (C.run P cs cq cn c read fname g0 size) := by
  have hp : ∀ q, ({ C with reader := reader' } : WholeCfg Val K).prepare q = C.prepare q := by
    intro q
    unfold WholeCfg.prepare
    dsimp only
    simp only [C104_select C.sel lya h]
    rfl
  congr 1
  funext rank
  unfold WholeCfg.run
  simp only [hp]
  rfl

end

/-! ### Examples -/

/-- A spectrum with one pixel before the forest, three in it, one between forest and Lya, and one after Lya. -/
def c104Spec (id : Int) (before between after : ℚ) : ReadSpec ℚ :=
  createdSpec c87Cfg.sqrt c87Cfg.eps 1216 ⟨id, [], [], [], []⟩ 2 1 [("b", [3250, 3301, 3302, 3303, 3340, 3660])]
    [("b", [before, 3, 4, 5, between, after])] [("b", [before, 4, 4, 4, between, 4])]
    [("b", [[before, 1, 1, 1, between, after]])]

theorem c104_like {C : SelectCfg ℚ} (hq : C.sqrt = c87Cfg.sqrt) (he : C.eps = c87Cfg.eps)
    (f0 : ¬ InForest (2 : ℚ) C.wave1 C.wave2 C.forestW1 C.forestW2 3250)
    (f4 : ¬ InForest (2 : ℚ) C.wave1 C.wave2 C.forestW1 C.forestW2 3340) (id : Int) (a b a' b' c : ℚ) :
    LikeSpec C 1216 (c104Spec id a b c) (c104Spec id a' b' c) := by
  have hd : ∀ a b : ℚ, DataOk (blank (2 : ℚ) 1 [("b", [3250, 3301, 3302, 3303, 3340, 3660])]
      [("b", [a, 3, 4, 5, b, c])] [("b", [a, 4, 4, 4, b, 4])] [("b", [[a, 1, 1, 1, b, c]])]) := by
    intro a b
    refine ⟨by simp [blank, Dict.keys], ?_, ?_, ?_, ?_⟩
    all_goals
      intro arm w h
      have hm := mem_of_lookup h
      simp only [blank, List.mem_cons, Prod.mk.injEq, List.not_mem_nil, or_false] at hm
      obtain ⟨rfl, rfl⟩ := hm
      first
        | decide +kernel
        | (intro r hr
           simp [blank, Dict.arr] at hr
           subst hr
           rfl)
        | rfl
  have ag : ∀ {p : ℚ → Prop} {x y : List ℚ}, (¬ p 3250) → (¬ p 3340) → x.length = 6 → y.length = 6 →
      x[1]? = y[1]? → x[2]? = y[2]? → x[3]? = y[3]? → x[5]? = y[5]? →
      AgreeAt p [3250, 3301, 3302, 3303, 3340, 3660] x y := by
    intro p x y h0 h4 lx ly e1 e2 e3 e5 i w hi hp
    match i, hi with
    | 0, hi => simp at hi; subst hi; exact absurd hp h0
    | 1, _ => exact e1
    | 2, _ => exact e2
    | 3, _ => exact e3
    | 4, hi => simp at hi; subst hi; exact absurd hp h4
    | 5, _ => exact e5
    | i + 6, hi => simp at hi
  have g0 : ¬ ((1 + 2) * 1216 ≤ (3250 : ℚ)) := by norm_num
  have g4 : ¬ ((1 + 2) * 1216 ≤ (3340 : ℚ)) := by norm_num
  unfold c104Spec
  rw [← hq, ← he]
  refine .mk (hd a b) (hd a' b') ?_ ?_ ⟨by simp, ?_⟩ ?_ ?_
  all_goals
    intro x hx
    simp only [List.mem_singleton] at hx
    subst hx
  · exact ag f0 f4 rfl rfl rfl rfl rfl rfl
  · exact ag f0 f4 rfl rfl rfl rfl rfl rfl
  · exact .cons (ag f0 f4 rfl rfl rfl rfl rfl rfl) .nil
  · exact ag g0 g4 rfl rfl rfl rfl rfl rfl
  · exact ag g0 g4 rfl rfl rfl rfl rfl rfl

-- the spectrum is selected, and other values before and after the forest change nothing
example : ((c87Cfg.select (fun _ => .ok [c104Spec 1 1 2 3]) [1] [()]).toOption.map (List.map (fun x => x.spec.fflux))) =
    some [[("b", [0, 4 / 3, 50 / 27])]] := by decide +kernel
example : c87Cfg.select (fun _ : Unit => .ok [c104Spec 1 7 (-5) 3]) [1] [()] =
    c87Cfg.select (fun _ => .ok [c104Spec 1 1 2 3]) [1] [()] :=
  C104_select c87Cfg 1216 (fun _ => .ok (.cons (c104_like rfl rfl (by decide +kernel) (by decide +kernel) _ _ _ _ _ _) .nil)) _ _
-- pixels redward of Lya matter, through the cut on the SNR
example : ((c87Cfg.select (fun _ => .ok [c104Spec 1 1 2 (1 / 100)]) [1] [()]).toOption.map List.length) = some 0 := by
  decide +kernel
/-- A run whose files have the values `a` before the forest and `b` after it. -/
def c104Run (a b : ℚ) : WholeCfg Nat ℚ :=
  { c88Cfg true with reader := fun l => .ok (l.map (fun r => c104Spec (r "TARGETID" : Nat) a b 3)) }

-- the job ends with deltas on both processes, whatever these values are
example : (c88See (runJob 1 (fun r => (c104Run 1 2).run c86Var c88Codec.1 c88Codec.2.1 c88Codec.2.2.1 c88Codec.2.2.2
    c88Cat "" c86Start 2 r)).1).map (List.map (fun x => (x.2.1, x.2.2.1.map Prod.fst))) =
    some [(1, [20, 40]), (1, [30])] := by decide +kernel
example (a b : ℚ) : runJob 1 (fun r => (c104Run a b).run c86Var c88Codec.1 c88Codec.2.1 c88Codec.2.2.1 c88Codec.2.2.2
      c88Cat "" c86Start 2 r) =
    runJob 1 (fun r => (c104Run 1 2).run c86Var c88Codec.1 c88Codec.2.1 c88Codec.2.2.1 c88Codec.2.2.2
      c88Cat "" c86Start 2 r) := by
  refine C104_run (c104Run 1 2) 1216 (c104Run a b).reader (fun l => .ok ?_) _ _ _ _ _ _ _ _ _ _
  induction l with
  | nil => exact .nil
  | cons x l ih => exact .cons (c104_like (C := (c104Run 1 2).sel) rfl rfl (by decide +kernel) (by decide +kernel) _ _ _ _ _ _) ih

/-- The data of C21 with other values in the bad pixels, and other reasons why they are bad. -/
def c104Data : InitData ℚ where
  wave := [("b", [3600, 3601, 3602, 3603, 3604, 3605])]
  flux := [("b", [.fin 1, .nan, .fin 5, .fin 3, .pinf, .fin 9])]
  ivar := [("b", [.fin 4, .fin 1, .fin (-7), .ninf, .fin 1, .fin 3])]
  mask := [("b", [0, 0, 0, 4, 0, 2])]
  reso := []

example : initSpectrum (1 / 100000) (1 / 100000000) ⟨[], 0⟩ c104Data =
    initSpectrum (1 / 100000) (1 / 100000000) ⟨[], 0⟩ c21Data := by
  refine C104_bad_pixels _ _ _ rfl rfl fun arm ha => ?_
  have : arm = "b" := by
    rcases ha with ha | ha
    · simp [Dict.keys] at ha
    · simpa [c21Data, Dict.keys] using ha
  subst this
  refine ⟨_, _, _, _, _, _, rfl, rfl, rfl, rfl, rfl, rfl, rfl, rfl, rfl, rfl, rfl, ?_⟩
  intro i a b a' b' c c' h1 h2 h3 h4 h5 h6
  simp only [← bad_iff]
  match i, h1, h2, h3, h4, h5, h6 with
  | 0, h1, h2, h3, h4, h5, h6 => cases h1; cases h2; cases h3; cases h4; cases h5; cases h6; right; decide +kernel
  | 1, h1, h2, h3, h4, h5, h6 => cases h1; cases h2; cases h3; cases h4; cases h5; cases h6; left; decide +kernel
  | 2, h1, h2, h3, h4, h5, h6 => cases h1; cases h2; cases h3; cases h4; cases h5; cases h6; left; decide +kernel
  | 3, h1, h2, h3, h4, h5, h6 => cases h1; cases h2; cases h3; cases h4; cases h5; cases h6; left; decide +kernel
  | 4, h1, h2, h3, h4, h5, h6 => cases h1; cases h2; cases h3; cases h4; cases h5; cases h6; right; decide +kernel
  | 5, h1, h2, h3, h4, h5, h6 => cases h1; cases h2; cases h3; cases h4; cases h5; cases h6; left; decide +kernel
  | i + 6, h1, _, _, _, _, _ => simp at h1

end Verif.Props

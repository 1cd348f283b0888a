import Verif.Proofs.SpectrumInit
import Mathlib.Algebra.Order.Ring.Rat
import Mathlib.Algebra.Order.Field.Rat
import Mathlib.Data.Rat.Floor

/-!
# C21, C31: construction of spectra, the common grid
-/

namespace Verif.Props
open Verif.Np Verif.Model Verif.Proofs Verif.Spec List

variable {K : Type} [Field K] [LinearOrder K]

/-! ### C21 -/

/-- Value given to the constructor that makes the pixel bad. -/
def Bad (m : Nat) (f v : Fl K) : Prop :=
  m ≠ 0 ∨ f = .nan ∨ v = .nan ∨ v = .ninf ∨ ∃ x, v = .fin x ∧ x < 0

theorem bad_iff (m : Nat) (f v : Fl K) : badPixel m f v = true ↔ Bad m f v := by
  unfold badPixel Bad
  cases f <;> cases v <;> simp [Fl.isNan, Fl.lt]

/-- **C21.** In a new spectrum every arm of the grid has flux and ivar arrays of the length of those
given; a pixel that is masked or has NaN flux, NaN ivar or negative ivar has flux 0 and ivar 0, every
other pixel has the values given. The arms are exactly those of the grid. -/
theorem C21_bad_pixels {rtol atol : K} {st st' : GridState K} {d : InitData K} {s : InitSpec K}
    (h : initSpectrum rtol atol st d = .ok (st', s)) :
    (∀ arm, arm ∈ s.flux.keys ↔ arm ∈ st'.wave.keys) ∧
    (∀ arm, arm ∈ s.ivar.keys ↔ arm ∈ st'.wave.keys) ∧
    ∀ arm ∈ st'.wave.keys, ∃ flux ivar mask flux' ivar', d.flux.lookup arm = some flux ∧
      d.ivar.lookup arm = some ivar ∧ d.mask.lookup arm = some mask ∧
      s.flux.lookup arm = some flux' ∧ s.ivar.lookup arm = some ivar' ∧
      flux'.length = flux.length ∧ ivar'.length = flux.length ∧
      ∀ (i : Nat) m f v, mask[i]? = some m → flux[i]? = some f → ivar[i]? = some v →
        (Bad m f v → flux'[i]? = some (.fin 0) ∧ ivar'[i]? = some (.fin 0)) ∧
        (¬ Bad m f v → flux'[i]? = some f ∧ ivar'[i]? = some v) := by
  unfold initSpectrum at h
  simp only [except_bind_eq_ok] at h
  obtain ⟨st1, h1, s1, h2, h3⟩ := h
  simp only [except_pure, Except.ok.injEq, Prod.mk.injEq] at h3
  obtain ⟨rfl, rfl⟩ := h3
  have hk := init_keys h2
  refine ⟨fun arm => by rw [hk.1]; simp, fun arm => by rw [hk.2]; simp, ?_⟩
  intro arm ha
  obtain ⟨flux, ivar, mask, c, e1, e2, e3, e4, e5, e6, -⟩ :=
    (init_foldlM h2 (fun _ => False) (fun _ h => h.elim) arm (Or.inr ha)).ex
  obtain ⟨l1, l2, l3, l4, hp⟩ := cleanArm_ok e4
  refine ⟨flux, ivar, mask, c.1, c.2, e1, e2, e3, e5, e6, l3, l4, ?_⟩
  intro i m f v hm hf hv
  obtain ⟨p1, p2⟩ := hp i m f v hm hf hv
  constructor
  · intro hb
    rw [← bad_iff] at hb
    rw [p1, p2, hb]
    exact ⟨rfl, rfl⟩
  · intro hb
    rw [← bad_iff, Bool.not_eq_true] at hb
    rw [p1, p2, hb]
    exact ⟨rfl, rfl⟩

/-- **C21.** No spectrum has a NaN flux, a NaN ivar or a negative ivar. -/
theorem C21_no_nan {rtol atol : K} {st st' : GridState K} {d : InitData K} {s : InitSpec K}
    (h : initSpectrum rtol atol st d = .ok (st', s)) {arm : String} {flux ivar : List (Fl K)}
    (hf : s.flux.lookup arm = some flux) (hv : s.ivar.lookup arm = some ivar) :
    (∀ f ∈ flux, f ≠ .nan) ∧ ∀ v ∈ ivar, v = .pinf ∨ ∃ x, v = .fin x ∧ 0 ≤ x := by
  obtain ⟨k1, -, k3⟩ := C21_bad_pixels h
  have ha := (k1 arm).mp (mem_keys_of_lookup hf)
  obtain ⟨fl, iv, ma, fl', iv', e1, e2, e3, e4, e5, l1, l2, hp⟩ := k3 arm ha
  rw [hf, Option.some_inj] at e4
  rw [hv, Option.some_inj] at e5
  subst e4 e5
  have hc : ∃ c, cleanArm ma fl iv = .ok c := by
    unfold initSpectrum at h
    simp only [except_bind_eq_ok] at h
    obtain ⟨st1, h1, s1, h2, h3⟩ := h
    simp only [except_pure, Except.ok.injEq, Prod.mk.injEq] at h3
    obtain ⟨rfl, rfl⟩ := h3
    obtain ⟨flux', ivar', mask', c, g1, g2, g3, g4, -⟩ :=
      (init_foldlM h2 (fun _ => False) (fun _ h => h.elim) arm (Or.inr ha)).ex
    rw [e1, Option.some_inj] at g1
    rw [e2, Option.some_inj] at g2
    rw [e3, Option.some_inj] at g3
    subst g1 g2 g3
    exact ⟨c, g4⟩
  obtain ⟨c, hc⟩ := hc
  obtain ⟨m1, m2, -, -, -⟩ := cleanArm_ok hc
  have key : ∀ i : Nat, i < fl.length → ∃ m f v, ma[i]? = some m ∧ fl[i]? = some f ∧
      iv[i]? = some v := fun i hi =>
    ⟨ma[i], fl[i], iv[i], List.getElem?_eq_getElem _, List.getElem?_eq_getElem _,
      List.getElem?_eq_getElem _⟩
  constructor
  · intro f hf'
    obtain ⟨i, hi, rfl⟩ := List.getElem_of_mem hf'
    obtain ⟨m, f, v, q1, q2, q3⟩ := key i (by omega)
    have := hp i m f v q1 q2 q3
    rw [List.getElem?_eq_getElem hi] at this
    by_cases hb : Bad m f v
    · have := (this.1 hb).1
      simp only [Option.some_inj] at this
      rw [this]; simp
    · have := (this.2 hb).1
      simp only [Option.some_inj] at this
      rw [this]
      intro hn
      exact hb (Or.inr (Or.inl hn))
  · intro v hv'
    obtain ⟨i, hi, rfl⟩ := List.getElem_of_mem hv'
    obtain ⟨m, f, v, q1, q2, q3⟩ := key i (by omega)
    have := hp i m f v q1 q2 q3
    rw [List.getElem?_eq_getElem hi] at this
    by_cases hb : Bad m f v
    · have := (this.1 hb).2
      simp only [Option.some_inj] at this
      rw [this]; exact Or.inr ⟨0, rfl, le_refl _⟩
    · have := (this.2 hb).2
      simp only [Option.some_inj] at this
      rw [this]
      cases v with
      | nan => exact absurd (Or.inr (Or.inr (Or.inl rfl))) hb
      | pinf => exact Or.inl rfl
      | ninf => exact absurd (Or.inr (Or.inr (Or.inr (Or.inl rfl)))) hb
      | fin x =>
        refine Or.inr ⟨x, rfl, not_lt.mp fun hx => hb ?_⟩
        exact Or.inr (Or.inr (Or.inr (Or.inr ⟨x, rfl, hx⟩)))

/-- **C21.** With every arm of the grid in the data, and arrays of equal lengths, the constructor
does not raise. -/
theorem C21_accepts {rtol atol : K} {st st' : GridState K} {d : InitData K}
    (hst : setWave rtol atol st d.wave false = .ok st')
    (h : ∀ a ∈ st'.wave.keys, ∃ flux ivar mask, d.flux.lookup a = some flux ∧
      d.ivar.lookup a = some ivar ∧ d.mask.lookup a = some mask ∧ mask.length = flux.length ∧
      flux.length = ivar.length ∧ (d.reso = [] ∨ a ∈ d.reso.keys)) :
    ∃ s, initSpectrum rtol atol st d = .ok (st', s) := by
  unfold initSpectrum
  rw [hst, except_bind_ok]
  obtain ⟨s, hs⟩ := init_foldlM_ok { flux := [], ivar := [], reso := [] } h
  rw [hs]
  exact ⟨s, rfl⟩

/-- A spectrum with one good pixel and bad ones of each kind. -/
def c21Data : InitData ℚ where
  wave := [("b", [3600, 3601, 3602, 3603, 3604, 3605])]
  flux := [("b", [.fin 1, .fin 2, .nan, .fin 3, .pinf, .fin 7])]
  ivar := [("b", [.fin 4, .fin 4, .fin 4, .nan, .fin 1, .fin (-1)])]
  mask := [("b", [0, 8, 0, 0, 0, 0])]
  reso := []

example : ∃ st' s, initSpectrum (1 / 100000) (1 / 100000000) ⟨[], 0⟩ c21Data = .ok (st', s) ∧
    st'.dwave = 1 ∧
    s.flux.lookup "b" = some [.fin 1, .fin 0, .fin 0, .fin 0, .pinf, .fin 0] ∧
    s.ivar.lookup "b" = some [.fin 4, .fin 0, .fin 0, .fin 0, .fin 1, .fin 0] :=
  ⟨_, _, rfl, by norm_num, by decide +kernel, by decide +kernel⟩

/-! ### C31 -/

section
variable [IsStrictOrderedRing K]

theorem allclose_self {rtol atol : K} (hr : 0 ≤ rtol) (ha : 0 ≤ atol) (l : List K) :
    allclose rtol atol l l = .ok true := by
  unfold allclose
  rw [if_pos rfl]
  congr 1
  rw [List.all_eq_true]
  intro b hb
  obtain ⟨i, hi, rfl⟩ := List.getElem_of_mem hb
  simp only [List.getElem_zipWith, sub_self, abs_zero, id_eq, decide_eq_true_eq]
  exact add_nonneg ha (mul_nonneg hr (abs_nonneg _))

/-- **C31, partial.** With the check requested, an arm of the grid in use that the new grid does not
have raises.

Missing: nothing more is checked, see `C31_other_grid_accepted`. -/
theorem C31_missing_arm_detected_partial {rtol atol : K} (hr : 0 ≤ rtol) (ha : 0 ≤ atol)
    {st : GridState K} (hn : st.wave.keys.Nodup) {wave : Dict (List K)} {arm : String}
    (h1 : arm ∈ st.wave.keys) (h2 : arm ∉ wave.keys) :
    setWave rtol atol st wave true = .error .assertionError := by
  unfold setWave
  have hne : st.wave ≠ [] := by rintro e; rw [e] at h1; simp at h1
  rw [if_neg hne, if_pos rfl]
  have : ∀ l : List (String × List K), l ⊆ st.wave → arm ∈ Dict.keys l →
      l.forM (checkArm rtol atol st wave) = .error .assertionError := by
    intro l
    induction l with
    | nil => intro _ h; simp at h
    | cons x l ih =>
      intro hsub h
      rw [List.forM_eq_forM, List.forM_cons]
      have hx : List.lookup x.1 st.wave = some x.2 :=
        lookup_of_mem hn (hsub (List.mem_cons_self))
      by_cases hk : x.1 ∈ wave.keys
      · have : checkArm rtol atol st wave x = .ok () := by
          unfold checkArm assert
          simp [hk, dictGet_ok.mpr hx, allclose_self hr ha]
        rw [this, except_bind_ok]
        rw [keys_cons, List.mem_cons] at h
        rcases h with h | h
        · subst h; exact absurd hk h2
        · exact ih (fun y hy => hsub (List.mem_cons_of_mem _ hy)) h
      · have : checkArm rtol atol st wave x = .error .assertionError := by
          unfold checkArm assert
          simp [hk]
        rw [this]; rfl
  rw [this _ (fun _ h => h) h1]
  rfl

/-- **C31 does not hold.** With the check requested, a grid with the same arms is accepted whatever
its wavelengths are: the check compares the grid in use with itself. -/
theorem C31_other_grid_accepted {rtol atol : K} (hr : 0 ≤ rtol) (ha : 0 ≤ atol)
    {st : GridState K} (hn : st.wave.keys.Nodup) (hne : st.wave ≠ []) {wave : Dict (List K)}
    (h : ∀ arm ∈ st.wave.keys, arm ∈ wave.keys) :
    setWave rtol atol st wave true = .ok st := by
  unfold setWave
  rw [if_neg hne, if_pos rfl]
  have : ∀ l : List (String × List K), l ⊆ st.wave →
      l.forM (checkArm rtol atol st wave) = .ok () := by
    intro l
    induction l with
    | nil => intro _; rfl
    | cons x l ih =>
      intro hsub
      rw [List.forM_eq_forM, List.forM_cons]
      have hmem := hsub (List.mem_cons_self)
      have hx : List.lookup x.1 st.wave = some x.2 := lookup_of_mem hn hmem
      have hk : x.1 ∈ wave.keys := h _ (List.mem_map.mpr ⟨_, hmem, rfl⟩)
      have : checkArm rtol atol st wave x = .ok () := by
        unfold checkArm assert
        simp [hk, dictGet_ok.mpr hx, allclose_self hr ha]
      rw [this, except_bind_ok]
      exact ih (fun y hy => hsub (List.mem_cons_of_mem _ hy))
  rw [this _ (fun _ h => h)]
  rfl

end

/-- **C31.** Once set, the grid and its spacing stay the same however many spectra are constructed
from whatever wavelengths; a spectrum never has another grid than the first. -/
theorem C31_grid_is_the_first {rtol atol : K} {st : GridState K} (hne : st.wave ≠ [])
    (ds : List (InitData K)) {st' : GridState K} {out : List (InitSpec K)}
    (h : ds.foldlM (fun (acc : GridState K × List (InitSpec K)) d => do
      let r ← initSpectrum rtol atol acc.1 d
      pure (r.1, acc.2 ++ [r.2])) (st, []) = .ok (st', out)) : st' = st := by
  have : ∀ (acc : GridState K × List (InitSpec K)), acc.1 = st →
      ds.foldlM (fun (acc : GridState K × List (InitSpec K)) d => do
        let r ← initSpectrum rtol atol acc.1 d
        pure (r.1, acc.2 ++ [r.2])) acc = .ok (st', out) → st' = st := by
    clear h
    induction ds with
    | nil => intro acc h1 h; simp at h; rw [← h1, h]
    | cons d ds ih =>
      intro acc h1 h
      rw [List.foldlM_cons, except_bind_eq_ok] at h
      obtain ⟨acc', h2, h⟩ := h
      refine ih acc' ?_ h
      rw [except_bind_eq_ok] at h2
      obtain ⟨r, h3, h4⟩ := h2
      simp at h4
      subst h4
      unfold initSpectrum at h3
      rw [except_bind_eq_ok] at h3
      obtain ⟨st1, h5, h6⟩ := h3
      rw [except_bind_eq_ok] at h6
      obtain ⟨s1, _, h7⟩ := h6
      simp at h7
      subst h7
      unfold setWave at h5
      rw [h1, if_neg hne] at h5
      simp at h5
      exact h5.symm
  exact this (st, []) rfl h

/-- The grid in use starts at 3600 A; a grid starting at 5000 A passes the check. -/
example : setWave (1 / 100000 : ℚ) (1 / 100000000) ⟨[("b", [3600, 3601])], 1⟩
    [("b", [5000, 5002])] true = .ok ⟨[("b", [3600, 3601])], 1⟩ :=
  C31_other_grid_accepted (by norm_num) (by norm_num) (by simp [Dict.keys]) (by simp)
    (by simp [Dict.keys])

/-- A grid without the r arm does not. -/
example : setWave (1 / 100000 : ℚ) (1 / 100000000) ⟨[("b", [3600, 3601]), ("r", [5700, 5701])], 1⟩
    [("b", [3600, 3601])] true = .error .assertionError :=
  C31_missing_arm_detected_partial (by norm_num) (by norm_num) (by simp [Dict.keys]) (arm := "r")
    (by simp [Dict.keys]) (by simp [Dict.keys])

/-- Two spectra constructed on the same grid. -/
example : ∃ out, [c21Data, c21Data].foldlM
    (fun (acc : GridState ℚ × List (InitSpec ℚ)) d => do
      let r ← initSpectrum (1 / 100000) (1 / 100000000) acc.1 d
      pure (r.1, acc.2 ++ [r.2])) (⟨c21Data.wave, 1⟩, []) = .ok (⟨c21Data.wave, 1⟩, out) :=
  ⟨_, rfl⟩

end Verif.Props

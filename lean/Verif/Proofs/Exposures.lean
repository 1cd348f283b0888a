import Verif.Model.Exposures
import Verif.Spec.Exposures
import Verif.Proofs.Calib
import Verif.Proofs.Dict
import Verif.Proofs.ExceptList
import Verif.Proofs.SpectrumInit

/-!
# Lemmas on the continua of exposures
-/

namespace Verif.Proofs
open Verif.Model Verif.Np Verif.Spec

variable {K : Type} [Field K] [LinearOrder K] [FloorRing K]

/-! ### `slice` -/

theorem sliceSm_same (s : Spectrum K) (arm : String) (i j : Nat) :
    (s.sliceSm arm i j).fwave = s.fwave ∧ (s.sliceSm arm i j).fflux = s.fflux ∧
      (s.sliceSm arm i j).cont = s.cont ∧ (s.sliceSm arm i j).valid = s.valid ∧
      (s.sliceSm arm i j).dwave = s.dwave := by
  unfold Spectrum.sliceSm
  split <;> exact ⟨rfl, rfl, rfl, rfl, rfl⟩

theorem sliceWeight_same (s : Spectrum K) (arm : String) (i j : Nat) :
    (s.sliceWeight arm i j).fwave = s.fwave ∧ (s.sliceWeight arm i j).fflux = s.fflux ∧
      (s.sliceWeight arm i j).cont = s.cont ∧ (s.sliceWeight arm i j).valid = s.valid ∧
      (s.sliceWeight arm i j).dwave = s.dwave := by
  unfold Spectrum.sliceWeight
  split
  · exact sliceSm_same s arm i j
  · exact ⟨rfl, rfl, rfl, rfl, rfl⟩

theorem slice'_fwave (s : Spectrum K) (arm : String) (i j : Nat) (h : ¬ (i = 0 ∧ j = (s.fwave.arr arm).length)) :
    (s.slice' arm i j).fwave = s.fwave.set arm (slice (s.fwave.arr arm) i j) ∧
    (s.slice' arm i j).fflux = s.fflux.set arm (slice (s.fflux.arr arm) i j) ∧
    (s.slice' arm i j).valid = s.valid ∧ (s.slice' arm i j).dwave = s.dwave ∧
    ∀ a, a ≠ arm → (s.slice' arm i j).cont.lookup a = s.cont.lookup a := by
  unfold Spectrum.slice'
  rw [if_neg h]
  obtain ⟨a1, a2, a3, a4, a5⟩ := sliceWeight_same
    ((((s.sliceWave arm i j).sliceFlux arm i j).sliceIvar arm i j).sliceSm arm i j) arm i j
  obtain ⟨b1, b2, b3, b4, b5⟩ := sliceSm_same (((s.sliceWave arm i j).sliceFlux arm i j).sliceIvar arm i j) arm i j
  refine ⟨a1.trans b1, a2.trans b2, a4.trans b4, a5.trans b5, fun a ha => ?_⟩
  have e : ∀ t : Spectrum K, (t.sliceCont arm i j).cont.lookup a = t.cont.lookup a := by
    intro t
    unfold Spectrum.sliceCont
    dsimp only
    split
    · unfold Spectrum.sliceDict
      rw [lookup_set, if_neg ha]
    · rfl
  rw [e]
  exact congrArg (List.lookup a) (a3.trans b3)

theorem slice_full (l : List K) : slice l 0 l.length = l := by
  unfold slice
  rw [List.take_length, List.drop_zero]

/-- The effect of `slice` on the wavelengths and the flux. -/
theorem slice'_arr (s : Spectrum K) (arm : String) (i j : Nat)
    (hl : (s.fflux.arr arm).length = (s.fwave.arr arm).length) :
    (∀ a, (s.slice' arm i j).fwave.arr a = if a = arm then slice (s.fwave.arr arm) i j else s.fwave.arr a) ∧
    (∀ a, (s.slice' arm i j).fflux.arr a = if a = arm then slice (s.fflux.arr arm) i j else s.fflux.arr a) ∧
    (∀ a, a ≠ arm → (s.slice' arm i j).fwave.lookup a = s.fwave.lookup a) ∧
    (s.slice' arm i j).valid = s.valid ∧ (s.slice' arm i j).dwave = s.dwave ∧
    ∀ a, a ≠ arm → (s.slice' arm i j).cont.lookup a = s.cont.lookup a := by
  by_cases h : i = 0 ∧ j = (s.fwave.arr arm).length
  · have e : s.slice' arm i j = s := by
      unfold Spectrum.slice'
      rw [if_pos h]
    rw [e]
    obtain ⟨rfl, rfl⟩ := h
    refine ⟨fun a => ?_, fun a => ?_, fun _ _ => rfl, rfl, rfl, fun _ _ => rfl⟩
    · rw [slice_full]; split
      · next h => rw [h]
      · rfl
    · rw [← hl, slice_full]; split
      · next h => rw [h]
      · rfl
  · obtain ⟨h1, h2, h3, h4, h5⟩ := slice'_fwave s arm i j h
    refine ⟨fun a => ?_, fun a => ?_, fun a ha => ?_, h3, h4, h5⟩
    · rw [h1, arr_set]
    · rw [h2, arr_set]
    · rw [h1, lookup_set, if_neg ha]

/-! ### Indices -/

variable [IsStrictOrderedRing K]

theorem pyRound_near {x : K} {k : Int} (h : |x - k| < 1 / 2) : pyRound x = k := by
  refine (pyRound_eq_iff ?_ k).mpr h
  intro he
  rw [abs_lt] at h
  have h1 : ((⌊x⌋ : Int) : K) < k := by linarith
  have h2 : (k : K) < ((⌊x⌋ + 1 : Int) : K) := by push_cast; linarith
  have h1' : ⌊x⌋ < k := by exact_mod_cast h1
  have h2' : k < ⌊x⌋ + 1 := by exact_mod_cast h2
  omega

theorem firstElem_range {f : Nat → K} (n : Nat) : firstElem ((List.range (n + 1)).map f) = .ok (f 0) := by
  unfold firstElem
  rw [List.range_succ_eq_map]
  rfl

theorem lastElem_range {f : Nat → K} (n : Nat) : lastElem ((List.range (n + 1)).map f) = .ok (f n) := by
  unfold lastElem
  rw [List.range_succ, List.map_append, List.map_cons, List.map_nil, List.getLast?_append_of_ne_nil _ (by simp)]
  rfl

theorem matchIdx_ok {dw : K} (hd : 0 < dw) {w0 δ : K} {a : Int} {n N : Nat} (hδ : |δ| < 1 / 2) :
    matchIdx dw ((List.range (n + 1)).map (fun i : Nat => w0 + ((a : K) + δ + (i : K)) * dw))
      ((List.range (N + 1)).map (fun j : Nat => w0 + (j : K) * dw)) =
    .ok ((-a).toNat, (n + 1 : Int) + min (N - n - a) 0, a.toNat, (N + 1 : Int) - max (N - n - a) 0) := by
  unfold matchIdx
  rw [firstElem_range, firstElem_range, lastElem_range, lastElem_range]
  have e1 : (w0 + ((a : K) + δ + ((0 : Nat) : K)) * dw - (w0 + ((0 : Nat) : K) * dw)) / dw = (a : K) + δ := by
    push_cast; field_simp; ring
  have e2 : (w0 + ((N : Nat) : K) * dw - (w0 + ((a : K) + δ + (n : K)) * dw)) / dw = (((N - n - a : Int)) : K) - δ := by
    push_cast; field_simp; ring
  have r1 : pyRound ((a : K) + δ) = a := pyRound_near (by rwa [add_sub_cancel_left])
  have r2 : pyRound ((((N - n - a : Int)) : K) - δ) = N - n - a :=
    pyRound_near (by rw [sub_sub_cancel_left, abs_neg]; exact hδ)
  simp only [except_bind_ok, e1, e2, r1, r2, List.length_map, List.length_range]
  push_cast
  rfl

theorem expSlice_getElem? {α : Type} (l : List α) (i j k : Nat) (h : k < (slice l i j).length) :
    (slice l i j)[k]? = l[i + k]? := by
  unfold slice at *
  rw [List.length_drop, List.length_take] at h
  rw [List.getElem?_drop, List.getElem?_take_of_lt (by omega)]

theorem expSlice_length {α : Type} (l : List α) (i j : Nat) : (slice l i j).length = min j l.length - i := by
  unfold slice
  rw [List.length_drop, List.length_take]

theorem slice_zip {α β : Type} (l : List α) (m : List β) (i j : Nat) :
    (slice l i j).zip (slice m i j) = slice (l.zip m) i j := by
  unfold slice List.zip
  rw [List.take_zipWith, List.drop_zipWith]

/-- Pixels that are cut to the same length have the continuum of their wavelength. -/
theorem aligned {dw w0 δ ε : K} (hd : 0 < dw) {a : Int} {n N : Nat} (hδ : |δ| ≤ ε) {we wc cont : List K}
    (hwe : we = (List.range (n + 1)).map (fun i : Nat => w0 + ((a : K) + δ + (i : K)) * dw))
    (hwc : wc = (List.range (N + 1)).map (fun j : Nat => w0 + (j : K) * dw)) (hcl : cont.length = wc.length)
    (i2 j2 : Nat) (hl : (slice we (-a).toNat i2).length = (slice cont a.toNat j2).length) :
    ∀ p ∈ (slice we (-a).toNat i2).zip (slice cont a.toNat j2), ∃ q ∈ wc.zip cont,
      |p.1 - q.1| ≤ ε * dw ∧ p.2 = q.2 := by
  intro p hp
  obtain ⟨k, hk⟩ := List.mem_iff_getElem?.mp hp
  rw [List.getElem?_zip_eq_some] at hk
  obtain ⟨h1, h2⟩ := hk
  have k1 : k < (slice we (-a).toNat i2).length := by
    by_contra hc
    rw [List.getElem?_eq_none (by omega)] at h1
    simp at h1
  rw [expSlice_getElem? _ _ _ _ k1] at h1
  rw [expSlice_getElem? _ _ _ _ (hl ▸ k1)] at h2
  have k2 : a.toNat + k < cont.length := by
    by_contra hc
    rw [List.getElem?_eq_none (by omega)] at h2
    simp at h2
  have k3 : a.toNat + k < N + 1 := by rw [hcl, hwc] at k2; simpa using k2
  have k4 : (-a).toNat + k < n + 1 := by
    by_contra hc
    rw [hwe, List.getElem?_eq_none (by simpa using hc)] at h1
    simp at h1
  have hw : wc[a.toNat + k]? = some (w0 + ((a.toNat + k : Nat) : K) * dw) := by
    rw [hwc, List.getElem?_map, List.getElem?_range k3]
    rfl
  rw [hwe, List.getElem?_map, List.getElem?_range k4] at h1
  have h1 := Option.some.inj h1
  refine ⟨(w0 + ((a.toNat + k : Nat) : K) * dw, p.2), ?_, ?_, rfl⟩
  · refine List.mem_iff_getElem?.mpr ⟨a.toNat + k, ?_⟩
    rw [List.getElem?_zip_eq_some]
    exact ⟨hw, h2⟩
  · dsimp only
    have hi : (a : K) + (((-a).toNat + k : Nat) : K) = ((a.toNat + k : Nat) : K) := by
      have : a + (((-a).toNat + k : Nat) : Int) = ((a.toNat + k : Nat) : Int) := by omega
      exact_mod_cast this
    rw [← h1, ← hi]
    have : w0 + ((a : K) + δ + (((-a).toNat + k : Nat) : K)) * dw - (w0 + ((a : K) + (((-a).toNat + k : Nat) : K)) * dw) =
        δ * dw := by ring
    rw [this, abs_mul, abs_of_pos hd]
    exact mul_le_mul_of_nonneg_right hδ hd.le

/-- Pixels of the exposure that are at or next to a pixel of the coadded spectrum. -/
theorem nearPixel {dw w0 δ : K} (hd : 0 < dw) {a : Int} {N : Nat} (hδ : |δ| < 1 / 2) (i : Nat)
    (h : ∃ v ∈ (List.range (N + 1)).map (fun j : Nat => w0 + (j : K) * dw),
      |w0 + ((a : K) + δ + (i : K)) * dw - v| < 3 * dw / 2) : -1 ≤ a + i ∧ a + i ≤ N + 1 := by
  obtain ⟨v, hv, hlt⟩ := h
  obtain ⟨j, hj, rfl⟩ := List.mem_map.mp hv
  have hj := List.mem_range.mp hj
  have e : w0 + ((a : K) + δ + (i : K)) * dw - (w0 + (j : K) * dw) = (((a + i - j : Int) : K) + δ) * dw := by
    push_cast; ring
  rw [e, abs_mul, abs_of_pos hd, show 3 * dw / 2 = 3 / 2 * dw by ring, mul_lt_mul_iff_of_pos_right hd] at hlt
  rw [abs_lt] at hlt hδ
  have h1 : ((a + i - j : Int) : K) < ((2 : Int) : K) := by push_cast at *; linarith
  have h2 : ((-2 : Int) : K) < ((a + i - j : Int) : K) := by push_cast at *; linarith
  have h1' : a + i - j < 2 := by exact_mod_cast h1
  have h2' : -2 < a + i - j := by exact_mod_cast h2
  omega

/-- Which pixels of the exposure are at a pixel of the coadded spectrum. -/
theorem atPixel_iff {dw w0 δ : K} (hd : 0 < dw) {a : Int} {N : Nat} (hδ : |δ| < 1 / 2) (i : Nat) :
    (∃ v ∈ (List.range (N + 1)).map (fun j : Nat => w0 + (j : K) * dw),
      |w0 + ((a : K) + δ + (i : K)) * dw - v| < dw / 2) ↔ 0 ≤ a + i ∧ a + i ≤ N := by
  constructor
  · rintro ⟨v, hv, hlt⟩
    obtain ⟨j, hj, rfl⟩ := List.mem_map.mp hv
    have hj := List.mem_range.mp hj
    have e : w0 + ((a : K) + δ + (i : K)) * dw - (w0 + (j : K) * dw) = (((a + i - j : Int) : K) + δ) * dw := by
      push_cast; ring
    rw [e, abs_mul, abs_of_pos hd, show dw / 2 = 1 / 2 * dw by ring, mul_lt_mul_iff_of_pos_right hd] at hlt
    rw [abs_lt] at hlt hδ
    have h1 : ((a + i - j : Int) : K) < ((1 : Int) : K) := by push_cast at *; linarith
    have h2 : ((-1 : Int) : K) < ((a + i - j : Int) : K) := by push_cast at *; linarith
    have h1' : a + i - j < 1 := by exact_mod_cast h1
    have h2' : -1 < a + i - j := by exact_mod_cast h2
    omega
  · rintro ⟨h1, h2⟩
    refine ⟨w0 + ((a + i).toNat : K) * dw, List.mem_map.mpr ⟨(a + i).toNat, List.mem_range.mpr (by omega), rfl⟩, ?_⟩
    have hi : (((a + i).toNat : Nat) : K) = (a : K) + (i : K) := by
      have : (((a + i).toNat : Nat) : Int) = a + i := by omega
      exact_mod_cast congrArg (Int.cast (R := K)) this
    rw [hi]
    have : w0 + ((a : K) + δ + (i : K)) * dw - (w0 + ((a : K) + (i : K)) * dw) = δ * dw := by ring
    rw [this, abs_mul, abs_of_pos hd, show dw / 2 = 1 / 2 * dw by ring]
    exact mul_lt_mul_of_pos_right hδ hd

theorem mem_slice_iff {α : Type} (l : List α) (i j : Nat) (p : α) :
    p ∈ slice l i j ↔ ∃ k, i ≤ k ∧ k < j ∧ l[k]? = some p := by
  unfold slice
  rw [List.mem_iff_getElem?]
  constructor
  · rintro ⟨k, hk⟩
    rw [List.getElem?_drop, List.getElem?_take] at hk
    split at hk
    · next h => exact ⟨i + k, by omega, h, hk⟩
    · simp at hk
  · rintro ⟨k, h1, h2, h3⟩
    refine ⟨k - i, ?_⟩
    rw [List.getElem?_drop, List.getElem?_take, show i + (k - i) = k by omega, if_pos h2, h3]

/-- If the arm overlaps with the coadded spectrum, wavelengths and continuum have the same length after the cut and
the pixels that stay are those at a pixel of the coadded spectrum. -/
theorem overlap_cut {dw w0 δ : K} (hd : 0 < dw) {a : Int} {n N : Nat} (hδ : |δ| < 1 / 2) {we wc cont fe : List K}
    (hwe : we = (List.range (n + 1)).map (fun i : Nat => w0 + ((a : K) + δ + (i : K)) * dw))
    (hwc : wc = (List.range (N + 1)).map (fun j : Nat => w0 + (j : K) * dw)) (hcl : cont.length = wc.length)
    (ho : Overlap dw we wc) {i2 j2 : Int} (hi2 : i2 = (n + 1 : Int) + min (N - n - a) 0)
    (hj2 : j2 = (N + 1 : Int) - max (N - n - a) 0) :
    (slice we (-a).toNat (pyStop we.length i2)).length = (slice cont a.toNat (pyStop cont.length j2)).length ∧
    ∀ p, p ∈ (slice we (-a).toNat (pyStop we.length i2)).zip (slice fe (-a).toNat (pyStop we.length i2)) ↔
      p ∈ we.zip fe ∧ ∃ v ∈ wc, |p.1 - v| < dw / 2 := by
  have l1 : we.length = n + 1 := by rw [hwe]; simp
  have l2 : cont.length = N + 1 := by rw [hcl, hwc]; simp
  obtain ⟨w, hw, hv⟩ := ho
  rw [hwe] at hw
  obtain ⟨i, hi, rfl⟩ := List.mem_map.mp hw
  have hi := List.mem_range.mp hi
  rw [hwc] at hv
  obtain ⟨o1, o2⟩ := nearPixel hd hδ i hv
  have p1 : pyStop we.length i2 = i2.toNat := if_neg (by omega)
  have p2 : pyStop cont.length j2 = j2.toNat := if_neg (by omega)
  rw [p1, p2]
  constructor
  · rw [expSlice_length, expSlice_length, l1, l2]
    omega
  · intro p
    rw [slice_zip, mem_slice_iff, List.mem_iff_getElem?]
    have key : ∀ k, (we.zip fe)[k]? = some p →
        ((∃ v ∈ wc, |p.1 - v| < dw / 2) ↔ (-a).toNat ≤ k ∧ k < i2.toNat) := by
      intro k hk
      rw [List.getElem?_zip_eq_some] at hk
      have hk := hk.1
      have hkn : k < n + 1 := by
        by_contra hc
        rw [List.getElem?_eq_none (by omega)] at hk
        simp at hk
      rw [hwe, List.getElem?_map, List.getElem?_range hkn] at hk
      have hk := Option.some.inj hk
      rw [← hk, hwc, atPixel_iff hd hδ k]
      omega
    constructor
    · rintro ⟨k, h1, h2, h3⟩
      exact ⟨⟨k, h3⟩, (key k h3).mpr ⟨h1, h2⟩⟩
    · rintro ⟨⟨k, h3⟩, h⟩
      obtain ⟨h1, h2⟩ := (key k h3).mp h
      exact ⟨k, h1, h2, h3⟩

/-! ### The loop -/

/-- What becomes of an arm with these wavelengths: wavelengths, flux and continuum. -/
structure ArmResult (K : Type) where
  wave : List K
  flux : List K
  cont : List K

/-- The cut of an arm by the indices of `matchIdx`. -/
def cutArm (we fe cont : List K) (x : Nat × Int × Nat × Int) : ArmResult K :=
  { wave := slice we x.1 (pyStop we.length x.2.1)
    flux := slice fe x.1 (pyStop we.length x.2.1)
    cont := slice cont x.2.2.1 (pyStop cont.length x.2.2.2) }

omit [IsStrictOrderedRing K] in
theorem matchArms_ok (c : Spectrum K) (l : List (String × List K)) (hn : (Dict.keys l).Nodup) (t : Spectrum K)
    (ht : ∀ x ∈ l, t.fwave.arr x.1 = x.2 ∧ (t.fflux.arr x.1).length = x.2.length)
    (idx : String → Nat × Int × Nat × Int) (wc cc : String → List K)
    (hc : ∀ x ∈ l, c.fwave.lookup x.1 = some (wc x.1) ∧ c.cont.lookup x.1 = some (cc x.1) ∧
      matchIdx t.dwave x.2 (wc x.1) = .ok (idx x.1)) :
    ∃ t', l.foldlM (fun t x => matchArm c t x.1 x.2) t = .ok t' ∧
      (∀ x ∈ l, t'.fwave.arr x.1 = (cutArm x.2 (t.fflux.arr x.1) (cc x.1) (idx x.1)).wave ∧
        t'.fflux.arr x.1 = (cutArm x.2 (t.fflux.arr x.1) (cc x.1) (idx x.1)).flux ∧
        t'.cont.lookup x.1 = some (cutArm x.2 (t.fflux.arr x.1) (cc x.1) (idx x.1)).cont) ∧
      (∀ a, a ∉ Dict.keys l → t'.fwave.arr a = t.fwave.arr a ∧ t'.fflux.arr a = t.fflux.arr a ∧
        t'.cont.lookup a = t.cont.lookup a) ∧
      (t'.valid = true ↔ t.valid = true ∧ ∀ x ∈ l,
        (cutArm x.2 (t.fflux.arr x.1) (cc x.1) (idx x.1)).wave.length =
          (cutArm x.2 (t.fflux.arr x.1) (cc x.1) (idx x.1)).cont.length) := by
  induction l generalizing t with
  | nil => exact ⟨t, rfl, by simp, fun _ _ => ⟨rfl, rfl, rfl⟩, by simp⟩
  | cons x l ih =>
    obtain ⟨arm, we⟩ := x
    have hx := ht (arm, we) (.head _)
    have hcx := hc (arm, we) (.head _)
    dsimp only at hx hcx
    obtain ⟨hw, hf⟩ := hx
    obtain ⟨c1, c2, c3⟩ := hcx
    have hnd : arm ∉ Dict.keys l ∧ (Dict.keys l).Nodup := List.nodup_cons.mp hn
    have hstep : matchArm c t arm we = .ok (assignCont arm (idx arm).1 (idx arm).2.1
        (cutArm we (t.fflux.arr arm) (cc arm) (idx arm)).cont t) := by
      unfold matchArm
      rw [c1]
      dsimp only
      rw [c3, except_bind_ok, dictGet_ok.mpr c2, except_bind_ok]
      rfl
    generalize ht1 : assignCont arm (idx arm).1 (idx arm).2.1
      (cutArm we (t.fflux.arr arm) (cc arm) (idx arm)).cont t = t1 at hstep
    obtain ⟨s1, s2, s3, s4, s5, s6⟩ := slice'_arr t arm (idx arm).1 (pyStop we.length (idx arm).2.1)
      (by rw [hw, hf])
    have e1 : ∀ a, t1.fwave.arr a = if a = arm then (cutArm we (t.fflux.arr arm) (cc arm) (idx arm)).wave
        else t.fwave.arr a := by
      intro a
      rw [← ht1]
      unfold assignCont
      dsimp only
      rw [hw, s1, hw]
      rfl
    have e2 : ∀ a, t1.fflux.arr a = if a = arm then (cutArm we (t.fflux.arr arm) (cc arm) (idx arm)).flux
        else t.fflux.arr a := by
      intro a
      rw [← ht1]
      unfold assignCont
      dsimp only
      rw [hw, s2]
      rfl
    have e3 : ∀ a, t1.cont.lookup a = if a = arm then some (cutArm we (t.fflux.arr arm) (cc arm) (idx arm)).cont
        else t.cont.lookup a := by
      intro a
      rw [← ht1]
      unfold assignCont
      dsimp only
      rw [lookup_set]
      by_cases ha : a = arm
      · rw [if_pos ha, if_pos ha]
      · rw [if_neg ha, if_neg ha, hw, s6 a ha]
    have e4 : t1.valid = true ↔ t.valid = true ∧ (cutArm we (t.fflux.arr arm) (cc arm) (idx arm)).wave.length =
        (cutArm we (t.fflux.arr arm) (cc arm) (idx arm)).cont.length := by
      rw [← ht1]
      unfold assignCont
      dsimp only
      rw [hw, s1, if_pos rfl, s4, hw, Bool.and_eq_true, decide_eq_true_eq]
      rfl
    have e5 : t1.dwave = t.dwave := by
      rw [← ht1]
      unfold assignCont
      dsimp only
      rw [hw, s5]
    have hne : ∀ x ∈ l, x.1 ≠ arm := by
      intro x hx he
      exact hnd.1 (he ▸ List.mem_map.mpr ⟨x, hx, rfl⟩)
    have hfl : ∀ x ∈ l, t1.fflux.arr x.1 = t.fflux.arr x.1 := fun x hx => by rw [e2, if_neg (hne x hx)]
    obtain ⟨t', r1, r2, r3, r4⟩ := ih hnd.2 t1
      (fun x hx => by
        rw [e1, if_neg (hne x hx), hfl x hx]
        exact ht x (.tail _ hx))
      (fun x hx => by
        rw [e5]
        exact hc x (.tail _ hx))
    refine ⟨t', ?_, ?_, ?_, ?_⟩
    · rw [List.foldlM_cons, hstep, except_bind_ok, r1]
    · intro x hx
      rcases List.mem_cons.mp hx with rfl | hx
      · obtain ⟨q1, q2, q3⟩ := r3 arm hnd.1
        dsimp only
        rw [q1, q2, q3, e1, e2, e3, if_pos rfl, if_pos rfl, if_pos rfl]
        exact ⟨rfl, rfl, rfl⟩
      · have := r2 x hx
        rwa [hfl x hx] at this
    · intro a ha
      have ha1 : a ≠ arm := fun h => ha (h ▸ List.mem_cons_self ..)
      obtain ⟨q1, q2, q3⟩ := r3 a (fun h => ha (List.mem_cons_of_mem _ h))
      rw [q1, q2, q3, e1, e2, e3, if_neg ha1, if_neg ha1, if_neg ha1]
      exact ⟨rfl, rfl, rfl⟩
    · rw [r4, e4]
      constructor
      · rintro ⟨⟨v, h0⟩, h1⟩
        refine ⟨v, fun x hx => ?_⟩
        rcases List.mem_cons.mp hx with rfl | hx
        · exact h0
        · have := h1 x hx
          rwa [hfl x hx] at this
      · rintro ⟨v, h⟩
        refine ⟨⟨v, h _ (.head _)⟩, fun x hx => ?_⟩
        rw [hfl x hx]
        exact h x (.tail _ hx)

omit [IsStrictOrderedRing K] in
/-- An arm that the coadded spectrum does not have makes it fail, if the arms before it do not. -/
theorem matchArms_missing (c : Spectrum K) (l₁ l₂ : List (String × List K)) (arm : String) (we : List K)
    (t t' : Spectrum K) (h : l₁.foldlM (fun t x => matchArm c t x.1 x.2) t = .ok t')
    (hc : c.fwave.lookup arm = none) :
    (l₁ ++ (arm, we) :: l₂).foldlM (fun t x => matchArm c t x.1 x.2) t = .error .runtimeError := by
  rw [List.foldlM_append, h, except_bind_ok, List.foldlM_cons]
  unfold matchArm
  rw [hc]
  rfl

end Verif.Proofs

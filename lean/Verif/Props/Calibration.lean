import Verif.Spec.Calibration
import Verif.Proofs.Calibration
import Verif.Proofs.ExceptList
import Verif.Props.Interp

/-!
# C39, C40: noise and flux calibration
-/

namespace Verif.Props
open Verif.Np Verif.Model Verif.Spec Verif.Proofs

section
variable {K : Type} [Field K] [LinearOrder K]

/-! ### C39 -/

/-- **C39.** Without additive term every ivar becomes `ivar / eta` at its wavelength, and nothing else
changes. -/
theorem C39_eta {c : NoiseCal K} (hc : c.varlss = none) {l : List (Spectrum K)} (hl : ∀ s ∈ l, Aligned s) :
    ∃ l', c.apply l = .ok l' ∧ List.Forall₂ (IvarChange (fun _ _ x v v' => v' = v / c.eta x)) l l' := by
  refine ⟨l.map (fun s => s.fwave.foldl (etaArm c.eta) s), by unfold NoiseCal.apply; rw [hc], ?_⟩
  rw [List.forall₂_map_right_iff, List.forall₂_same]
  intro s hs
  have ha := hl s hs
  have e : s.fwave.foldl (etaArm c.eta) s = _ :=
    foldl_setIvar (fun _ w y => List.zipWith (fun w v => v / c.eta w) w y) s.fwave s
  obtain ⟨h1, h2⟩ := foldl_update_arm (F := fun _ w y => List.zipWith (fun w v => v / c.eta w) w y)
    (l := s.fwave) (d := s.fivar) ha.nodup ha.ivarKeys
  rw [e]
  refine ⟨rfl, h1, fun arm w hw => ?_, fun arm w hw i x v v' hx hv hv' => ?_⟩
  · simp only
    rw [h2 arm (mem_keys_of_lookup hw), arr_of_lookup hw, List.length_zipWith, ha.ivar arm w hw, min_self]
  · simp only at hv'
    rw [h2 arm (mem_keys_of_lookup hw), arr_of_lookup hw, zipWith_pix hx hv] at hv'
    exact (Option.some.inj hv').symm

/-- With additive term, in terms of the model of a pixel. -/
theorem additive_pixels {c : NoiseCal K} {vl : K → K} (hc : c.varlss = some vl) {l : List (Spectrum K)}
    (hl : ∀ s ∈ l, Aligned s) (hh : ∀ s ∈ l, HasCont s) (hne : ∀ s ∈ l, s.cont ≠ []) :
    ∃ l', c.apply l = .ok l' ∧ List.Forall₂ (fun s s' => IvarChange (fun arm i x v v' =>
      ∃ q, (s.cont.arr arm)[i]? = some q ∧ v' = additivePix (c.eta x) (vl x) q v) s s') l l' := by
  refine ⟨l.map (fun s => s.fwave.foldl (fun s' x => s'.setIvar x.1
        ((fun a w y => List.zipWith (fun w p => additivePix (c.eta w) (vl w) p.1 p.2) w
          ((s.cont.arr a).zip y)) x.1 x.2 (s'.fivar.arr x.1))) s), ?_, ?_⟩
  · unfold NoiseCal.apply
    rw [hc]
    simp only
    rw [if_pos (by
      rw [List.all_eq_true]
      intro s hs
      have := hne s hs
      cases h : s.cont with
      | nil => exact absurd h this
      | cons => rfl)]
    refine mapM_eq_ok fun s hs => foldlM_additive c.eta vl s.cont s.fwave s rfl fun x hx => ?_
    exact (hh s hs x.1 x.2 (lookup_of_mem (hl s hs).nodup hx)).1
  · rw [List.forall₂_map_right_iff, List.forall₂_same]
    intro s hs
    have ha := hl s hs
    have e := foldl_setIvar (fun a w y => List.zipWith (fun w p => additivePix (c.eta w) (vl w) p.1 p.2) w
          ((s.cont.arr a).zip y)) s.fwave s
    obtain ⟨h1, h2⟩ := foldl_update_arm (F := fun a w y =>
      List.zipWith (fun w p => additivePix (c.eta w) (vl w) p.1 p.2) w ((s.cont.arr a).zip y))
      (l := s.fwave) (d := s.fivar) ha.nodup ha.ivarKeys
    rw [e]
    refine ⟨rfl, h1, fun arm w hw => ?_, fun arm w hw i x v v' hx hv hv' => ?_⟩
    · simp only
      rw [h2 arm (mem_keys_of_lookup hw), arr_of_lookup hw, List.length_zipWith, List.length_zip,
        ha.ivar arm w hw, (hh s hs arm w hw).2, min_self, min_self]
    · simp only at hv'
      have hi : i < (s.cont.arr arm).length := by
        rw [(hh s hs arm w hw).2]; exact (List.getElem?_eq_some_iff.mp hx).1
      have hz : ((s.cont.arr arm).zip (s.fivar.arr arm))[i]? = some ((s.cont.arr arm)[i], v) := by
        rw [List.getElem?_zip_eq_some]; exact ⟨List.getElem?_eq_getElem hi, hv⟩
      rw [h2 arm (mem_keys_of_lookup hw), arr_of_lookup hw, zipWith_pix hx hz] at hv'
      exact ⟨_, List.getElem?_eq_getElem hi, (Option.some.inj hv').symm⟩

/-- **C39.** The additive term needs continua: the call is refused exactly when a spectrum has none, or
none for one of its arms. -/
theorem C39_continuum_needed {c : NoiseCal K} {vl : K → K} (hc : c.varlss = some vl)
    (l : List (Spectrum K)) :
    (c.apply l = .error .exception ↔ ∃ s ∈ l, s.cont = []) ∧
    ((∀ s ∈ l, s.cont ≠ []) → (c.apply l = .error .keyError ↔
      ∃ s ∈ l, ∃ arm ∈ s.fwave.keys, arm ∉ s.cont.keys)) := by
  have hall : (l.all (fun s => !s.cont.isEmpty) = true) ↔ ∀ s ∈ l, s.cont ≠ [] := by
    simp [List.all_eq_true]
  have hmap : ∀ l : List (Spectrum K), (∀ l', l.mapM (fun s => s.fwave.foldlM (additiveArm c.eta vl) s) =
      .ok l' → ∀ s ∈ l, ∀ arm ∈ s.fwave.keys, arm ∈ s.cont.keys) ∧
      (∀ e, l.mapM (fun s => s.fwave.foldlM (additiveArm c.eta vl) s) = .error e → e = .keyError ∧
        ∃ s ∈ l, ∃ arm ∈ s.fwave.keys, arm ∉ s.cont.keys) := by
    intro l
    induction l with
    | nil =>
      refine ⟨fun _ _ s hs => by simp at hs, fun e h => ?_⟩
      rw [List.mapM_nil] at h
      cases h
    | cons s l ih =>
      by_cases hs : ∃ x ∈ s.fwave, x.1 ∉ s.cont.keys
      · have e := foldlM_additive_error c.eta vl s.fwave s hs
        obtain ⟨x, hx, hx'⟩ := hs
        have hk : x.1 ∈ s.fwave.keys := List.mem_map.mpr ⟨x, hx, rfl⟩
        refine ⟨fun l' h => ?_, fun e' h => ?_⟩
        · rw [List.mapM_cons, e] at h; cases h
        · rw [List.mapM_cons, e] at h
          cases h
          exact ⟨rfl, s, List.mem_cons_self, x.1, hk, hx'⟩
      · have hs' : ∀ x ∈ s.fwave, x.1 ∈ s.cont.keys := fun x hx => by
          by_contra hx'; exact hs ⟨x, hx, hx'⟩
        have e := foldlM_additive c.eta vl s.cont s.fwave s rfl hs'
        have hk : ∀ arm ∈ s.fwave.keys, arm ∈ s.cont.keys := by
          intro arm ha
          obtain ⟨x, hx, rfl⟩ := List.mem_map.mp ha
          exact hs' x hx
        refine ⟨fun l' h => ?_, fun e' h => ?_⟩
        · rw [List.mapM_cons, e] at h
          cases hm : l.mapM (fun s => s.fwave.foldlM (additiveArm c.eta vl) s) with
          | error e' => rw [hm] at h; cases h
          | ok l'' =>
            intro t ht
            rcases List.mem_cons.mp ht with rfl | ht
            · exact hk
            · exact ih.1 l'' hm t ht
        · rw [List.mapM_cons, e] at h
          cases hm : l.mapM (fun s => s.fwave.foldlM (additiveArm c.eta vl) s) with
          | ok l'' => rw [hm] at h; cases h
          | error e'' =>
            rw [hm] at h
            cases h
            obtain ⟨h1, t, ht, h2⟩ := ih.2 e' hm
            exact ⟨h1, t, List.mem_cons_of_mem _ ht, h2⟩
  unfold NoiseCal.apply
  rw [hc]
  simp only
  constructor
  · by_cases h : l.all (fun s => !s.cont.isEmpty) = true
    · rw [if_pos h]
      rw [hall] at h
      constructor
      · intro he
        have := ((hmap l).2 _ he).1
        cases this
      · rintro ⟨s, hs, h'⟩
        exact absurd h' (h s hs)
    · rw [if_neg h]
      refine ⟨fun _ => ?_, fun _ => rfl⟩
      rw [hall] at h
      push Not at h
      exact h
  · intro h
    rw [if_pos (hall.mpr h)]
    constructor
    · intro he; exact ((hmap l).2 _ he).2
    · rintro ⟨s, hs, arm, h1, h2⟩
      cases hm : l.mapM (fun s => s.fwave.foldlM (additiveArm c.eta vl) s) with
      | ok l' => exact absurd ((hmap l).1 l' hm s hs arm h1) h2
      | error e => rw [((hmap l).2 e hm).1]

/-- **C39.** With the additive term no ivar is negative, whatever the interpolators. -/
theorem C39_additive_nonneg {c : NoiseCal K} {vl : K → K} (hc : c.varlss = some vl) {l : List (Spectrum K)}
    (hl : ∀ s ∈ l, Aligned s) (hh : ∀ s ∈ l, HasCont s) (hne : ∀ s ∈ l, s.cont ≠ []) :
    ∃ l', c.apply l = .ok l' ∧ List.Forall₂ (IvarChange (fun _ _ _ _ v' => 0 ≤ v')) l l' := by
  obtain ⟨l', h1, h2⟩ := additive_pixels hc hl hh hne
  refine ⟨l', h1, h2.imp fun s s' h => ⟨h.rest, h.keys, h.length, fun arm w hw i x v v' hx hv hv' => ?_⟩⟩
  obtain ⟨q, -, rfl⟩ := h.pixel arm w hw i x v v' hx hv hv'
  unfold additivePix
  dsimp only
  split
  · exact le_rfl
  · next h => exact not_lt.mp h

variable [IsStrictOrderedRing K]

/-- **C39.** With the additive term the variance of a good pixel is scaled by eta and increased by the
variance of the large-scale structure of the continuum; masked pixels stay masked. -/
theorem C39_additive {c : NoiseCal K} {vl : K → K} (hc : c.varlss = some vl) {l : List (Spectrum K)}
    (hl : ∀ s ∈ l, Aligned s) (hh : ∀ s ∈ l, HasCont s) (hne : ∀ s ∈ l, s.cont ≠ []) :
    ∃ l', c.apply l = .ok l' ∧ List.Forall₂ (fun s s' => IvarChange (fun arm i x v v' =>
      ∃ q, (s.cont.arr arm)[i]? = some q ∧ (v = 0 → v' = 0) ∧
        (0 < v → 0 < c.eta x → 0 ≤ vl x → 0 < v' ∧ 1 / v' = c.eta x * (1 / v) + vl x * q ^ 2)) s s') l l' := by
  obtain ⟨l', h1, h2⟩ := additive_pixels hc hl hh hne
  refine ⟨l', h1, h2.imp fun s s' h => ⟨h.rest, h.keys, h.length, fun arm w hw i x v v' hx hv hv' => ?_⟩⟩
  obtain ⟨q, hq, rfl⟩ := h.pixel arm w hw i x v v' hx hv hv'
  refine ⟨q, hq, ?_, ?_⟩
  · rintro rfl
    simp [additivePix]
  · intro h0 h3 h4
    have hp : 0 < c.eta x + v * (vl x * q ^ 2) := by positivity
    have hpos : 0 < v / (c.eta x + v * (vl x * q ^ 2)) := div_pos h0 hp
    unfold additivePix
    dsimp only
    rw [if_neg (not_lt.mpr hpos.le)]
    refine ⟨hpos, ?_⟩
    rw [one_div_div]
    field_simp

/-- **C39, part.** Where the interpolated eta is positive and the interpolated var_lss is not negative, the
good pixels stay good and the masked ones masked, no ivar becomes negative, and none grows where eta is one
or more. Missing: the interpolators can leave the range of their tables, see `C39_overshoot_refuted`;
`C39_table_positive` is a condition on the table. -/
theorem C39_good_pixels_partial {c : NoiseCal K} {l : List (Spectrum K)} (hl : ∀ s ∈ l, Aligned s)
    (hcont : ∀ vl, c.varlss = some vl → ∀ s ∈ l, HasCont s ∧ s.cont ≠ [] ∧
      ∀ arm w, s.fwave.lookup arm = some w → ∀ x ∈ w, 0 ≤ vl x)
    (heta : ∀ s ∈ l, ∀ arm w, s.fwave.lookup arm = some w → ∀ x ∈ w, 0 < c.eta x) :
    ∃ l', c.apply l = .ok l' ∧ List.Forall₂ (IvarChange (fun _ _ x v v' => 0 ≤ v →
      (0 < v' ↔ 0 < v) ∧ 0 ≤ v' ∧ (1 ≤ c.eta x → v' ≤ v))) l l' := by
  have mono : ∀ {R Q : Spectrum K → Spectrum K → Prop} {l l' : List (Spectrum K)},
      (∀ s ∈ l, ∀ s', R s s' → Q s s') → List.Forall₂ R l l' → List.Forall₂ Q l l' := by
    intro R Q l l' h hf
    induction hf with
    | nil => exact .nil
    | cons h1 _ ih =>
      exact .cons (h _ List.mem_cons_self _ h1) (ih fun s hs => h s (List.mem_cons_of_mem _ hs))
  cases hc : c.varlss with
  | none =>
    obtain ⟨l', h1, h2⟩ := C39_eta hc hl
    refine ⟨l', h1, mono (fun s hs s' h => ⟨h.rest, h.keys, h.length, ?_⟩) h2⟩
    intro arm w hw i x v v' hx hv hv' h0
    have he := heta s hs arm w hw x (List.mem_of_getElem? hx)
    rw [h.pixel arm w hw i x v v' hx hv hv']
    refine ⟨?_, div_nonneg h0 he.le, fun h1 => div_le_self h0 h1⟩
    rw [lt_div_iff₀ he, zero_mul]
  | some vl =>
    obtain ⟨l', h1, h2⟩ := C39_additive hc hl (fun s hs => (hcont vl hc s hs).1)
      (fun s hs => (hcont vl hc s hs).2.1)
    refine ⟨l', h1, mono (fun s hs s' h => ⟨h.rest, h.keys, h.length, ?_⟩) h2⟩
    intro arm w hw i x v v' hx hv hv' h0
    have he := heta s hs arm w hw x (List.mem_of_getElem? hx)
    have hvl := (hcont vl hc s hs).2.2 arm w hw x (List.mem_of_getElem? hx)
    obtain ⟨q, -, hz, hp⟩ := h.pixel arm w hw i x v v' hx hv hv'
    rcases h0.eq_or_lt with h0' | h0'
    · rw [hz h0'.symm, ← h0']
      simp
    · obtain ⟨p1, p2⟩ := hp h0' he hvl
      refine ⟨⟨fun _ => h0', fun _ => p1⟩, p1.le, fun h1 => ?_⟩
      have : 1 / v ≤ 1 / v' := by
        rw [p2]
        have : 0 ≤ vl x * q ^ 2 := by positivity
        have h5 : 0 < 1 / v := by positivity
        nlinarith
      exact (one_div_le_one_div h0' p1).mp this
end

section
variable {K : Type} [Field K] [LinearOrder K]

theorem readGrid_ok {rtol atol : K} {waves : List K} {g : K × K} (h : readGrid rtol atol waves = .ok g) :
    ∃ w0 w1, waves[0]? = some w0 ∧ waves[1]? = some w1 ∧ g = (w0, w1 - w0) := by
  unfold readGrid at h
  split at h
  · split at h
    · cases h; exact ⟨_, _, rfl, rfl, rfl⟩
    · cases h
  · cases h

/-- **C39, C40.** A table is accepted if and only if it has two rows and all its steps agree with the first one within the
tolerance; otherwise no interpolator is made from it. Zeros of the stacked flux and of `eta` are read as one. -/
theorem C39_table_even (rtol atol : K) (waves : List K) {w0 w1 : K} (h0 : waves[0]? = some w0) (h1 : waves[1]? = some w1) :
    ((∀ (i : Nat) (a b : K), waves[i]? = some a → waves[i + 1]? = some b → |b - a - (w1 - w0)| ≤ atol + rtol * |w1 - w0|) ∧
      (∀ stacked, fluxRead rtol atol waves stacked = .ok ⟨w0, w1 - w0, stacked.map (fun x => if x = 0 then 1 else x)⟩) ∧
      ∀ junk varlss eta, noiseRead junk rtol atol waves varlss eta =
        .ok (CubicInterp.notaknot junk w0 (w1 - w0) (eta.map (fun x => if x = 0 then 1 else x)),
          CubicInterp.notaknot junk w0 (w1 - w0) varlss)) ∨
    ((∃ (i : Nat) (a b : K), waves[i]? = some a ∧ waves[i + 1]? = some b ∧ atol + rtol * |w1 - w0| < |b - a - (w1 - w0)|) ∧
      (∀ stacked, fluxRead rtol atol waves stacked = .error .exception) ∧
      ∀ junk varlss eta, noiseRead junk rtol atol waves varlss eta = .error .exception) := by
  match waves, h0, h1 with
  | a0 :: a1 :: l, h0, h1 =>
    cases h0
    cases h1
    have hg : ∀ (i : Nat) (a b : K), (w0 :: w1 :: l)[i]? = some a → (w0 :: w1 :: l)[i + 1]? = some b →
        (List.zipWith (fun a b => b - a) (w0 :: w1 :: l) (w1 :: l))[i]? = some (b - a) := by
      intro i a b ha hb
      rw [List.getElem?_zipWith, ha, show (w1 :: l)[i]? = some b from hb]
    by_cases h : (List.zipWith (fun a b => b - a) (w0 :: w1 :: l) (w1 :: l)).all
        (fun d => decide (|d - (w1 - w0)| ≤ atol + rtol * |w1 - w0|)) = true
    · have e : readGrid rtol atol (w0 :: w1 :: l) = .ok (w0, w1 - w0) := by
        unfold readGrid
        exact if_pos h
      refine .inl ⟨fun i a b ha hb => ?_, fun stacked => ?_, fun junk varlss eta => ?_⟩
      · have := List.all_eq_true.mp h _ (List.mem_of_getElem? (hg i a b ha hb))
        simpa using this
      · unfold fluxRead
        rw [e]
        rfl
      · unfold noiseRead
        rw [e]
        rfl
    · have e : readGrid rtol atol (w0 :: w1 :: l) = .error .exception := by
        unfold readGrid
        exact if_neg h
      refine .inr ⟨?_, fun stacked => ?_, fun junk varlss eta => ?_⟩
      · rw [Bool.not_eq_true, List.all_eq_false] at h
        obtain ⟨d, hd, hdd⟩ := h
        obtain ⟨i, hi⟩ := List.getElem?_of_mem hd
        rw [List.getElem?_zipWith_eq_some] at hi
        obtain ⟨a, b, ha, hb, rfl⟩ := hi
        exact ⟨i, a, b, ha, hb, by simpa using hdd⟩
      · unfold fluxRead
        rw [e]
        rfl
      · unfold noiseRead
        rw [e]
        rfl

theorem noiseRead_ok {junk : Nat → K} {rtol atol : K} {waves varlss eta : List K}
    {r : CubicInterp K × CubicInterp K} (h : noiseRead junk rtol atol waves varlss eta = .ok r) :
    ∃ w0 w1, waves[0]? = some w0 ∧ waves[1]? = some w1 ∧
      r = (CubicInterp.notaknot junk w0 (w1 - w0) (zerosToOne eta),
        CubicInterp.notaknot junk w0 (w1 - w0) varlss) := by
  unfold noiseRead at h
  cases hg : readGrid rtol atol waves with
  | error e => rw [hg] at h; cases h
  | ok g =>
    rw [hg] at h
    obtain ⟨w0, w1, h0, h1, rfl⟩ := readGrid_ok hg
    cases h
    exact ⟨w0, w1, h0, h1, rfl⟩

theorem zerosToOne_of_pos {a : List K} (h : ∀ x ∈ a, 0 < x) : zerosToOne a = a := by
  unfold zerosToOne
  conv_rhs => rw [← List.map_id a]
  exact List.map_congr_left fun x hx => if_neg (h x hx).ne'

variable [IsStrictOrderedRing K] [FloorRing K]

/-- **C39.** A positive eta table whose values differ by less than a factor 1.79 is positive between its
nodes as well. -/
theorem C39_table_positive {junk : Nat → K} {rtol atol : K} {waves varlss eta : List K}
    {r : CubicInterp K × CubicInterp K} (h : noiseRead junk rtol atol waves varlss eta = .ok r)
    (hn : 4 ≤ eta.length) {m M : K} (hm : 0 < m) (hM : M ≤ 179 / 100 * m)
    (hr : ∀ y ∈ eta, m ≤ y ∧ y ≤ M) {w0 w1 x : K} (h0 : waves[0]? = some w0) (h1 : waves[1]? = some w1)
    (hw : w0 < w1) (hx : w0 ≤ x) (hx' : x ≤ w0 + ((eta.length - 1 : Nat) : K) * (w1 - w0))
    (addVarlss noEta : Bool) : 0 < (NoiseCal.mk' r addVarlss noEta).eta x := by
  obtain ⟨w0', w1', h0', h1', rfl⟩ := noiseRead_ok h
  rw [h0] at h0'; rw [h1] at h1'; cases h0'; cases h1'
  unfold NoiseCal.mk'
  dsimp only
  by_cases hne : noEta = true
  · rw [if_pos hne]; exact zero_lt_one
  rw [if_neg hne, zerosToOne_of_pos fun y hy => hm.trans_le (hr y hy).1]
  have hmem : ∀ {i : Nat} {y : K}, eta[i]? = some y → m ≤ y ∧ y ≤ M := fun hy => hr _ (List.mem_of_getElem? hy)
  obtain ⟨y, hy, v, hv, hyv⟩ := C43_overshoot junk (sub_pos.mpr hw) hn (D := 2 * (M - m))
    (fun i f0 f1 f2 g0 g1 g2 => by
      have := hmem g0; have := hmem g1; have := hmem g2
      rw [abs_le]; constructor <;> linarith) hx hx'
  have hvm : m ≤ v := by
    by_cases hlast : x = w0 + ((eta.length - 1 : Nat) : K) * (w1 - w0)
    · have hg : eta[eta.length - 1]? = some _ := List.getElem?_eq_getElem (by omega)
      have := C41_nodes (f := ⟨w0, w1 - w0, eta⟩) (sub_pos.mpr hw) (by simp only; omega) hg
      simp only at this
      rw [← hlast, hv] at this
      rw [Option.some.inj this]
      exact (hmem hg).1
    · have hd : 0 < w1 - w0 := sub_pos.mpr hw
      have t0 : 0 ≤ (x - w0) / (w1 - w0) := div_nonneg (by linarith) hd.le
      have t1 : (x - w0) / (w1 - w0) < ((eta.length - 1 : Nat) : K) := by
        rw [div_lt_iff₀ hd]
        have := lt_of_le_of_ne hx' hlast
        linarith
      have hf := Int.floor_nonneg.mpr t0
      obtain ⟨k, hk⟩ := Int.eq_ofNat_of_zero_le hf
      have hk1 : (k : K) ≤ (x - w0) / (w1 - w0) := by
        have := Int.floor_le ((x - w0) / (w1 - w0))
        rw [hk] at this; exact_mod_cast this
      have hk2 : (x - w0) / (w1 - w0) < k + 1 := by
        have := Int.lt_floor_add_one ((x - w0) / (w1 - w0))
        rw [hk] at this; exact_mod_cast this
      have hlt : k + 1 < eta.length := by
        have : ((k : Nat) : K) < ((eta.length - 1 : Nat) : K) := hk1.trans_lt t1
        have := Nat.cast_lt.mp this
        omega
      have g1 : eta[k]? = some _ := List.getElem?_eq_getElem (by omega)
      have g2 : eta[k + 1]? = some _ := List.getElem?_eq_getElem hlt
      obtain ⟨y', e1, e2, -⟩ := C41_between (f := ⟨w0, w1 - w0, eta⟩) hd g1 g2 (x := x)
        (by rw [le_div_iff₀ hd] at hk1; simp only; linarith)
        (by rw [div_lt_iff₀ hd] at hk2; simp only; linarith)
      rw [hv] at e1
      cases e1
      exact (le_min (hmem g1).1 (hmem g2).1).trans e2
  unfold asFun
  rw [hy]
  simp only [Option.getD_some]
  rw [abs_le] at hyv
  linarith [hyv.1]

end

/-- Two arms, a masked pixel, a continuum. -/
def c39Spec : Spectrum ℚ :=
  { Spectrum.blank 2 1 [] [] [] [] with
    fwave := [("b", [1, 3 / 2, 2]), ("r", [2, 3])], fflux := [("b", [1, 2, 3]), ("r", [4, 5])],
    fivar := [("b", [2, 16, 0]), ("r", [4, 1])], ivarSm := none, weight := none,
    cont := [("b", [1, 1, 2]), ("r", [2, 2])] }

theorem c39Spec_ok : Aligned c39Spec := by
  refine ⟨by decide, by decide, by decide, by decide, by decide, by decide, ?_, ?_, ?_, ?_, ?_, ?_⟩
  all_goals
    intro arm w hw
    have hw' : (arm = "b" ∧ w = [1, 3 / 2, 2]) ∨ (arm = "r" ∧ w = [2, 3]) := by
      have := mem_of_lookup hw
      simpa [c39Spec] using this
    rcases hw' with ⟨rfl, rfl⟩ | ⟨rfl, rfl⟩ <;> decide +kernel

theorem c39Spec_cont : HasCont c39Spec := by
  intro arm w hw
  have hw' : (arm = "b" ∧ w = [1, 3 / 2, 2]) ∨ (arm = "r" ∧ w = [2, 3]) := by
    have := mem_of_lookup hw
    simpa [c39Spec] using this
  rcases hw' with ⟨rfl, rfl⟩ | ⟨rfl, rfl⟩ <;> decide +kernel

/-- Fields of a result for comparison. -/
def ivars (r : Except Err (List (Spectrum ℚ))) : List (Dict (List ℚ)) :=
  match r with
  | .ok l => l.map (·.fivar)
  | .error _ => []

theorem ivars_eq {r : Except Err (List (Spectrum ℚ))} {d : Dict (List ℚ)} (h : ivars r = [d]) :
    ∃ t, r = .ok [t] ∧ t.fivar = d := by
  cases r with
  | error e => simp [ivars] at h
  | ok l =>
    unfold ivars at h
    match l, h with
    | [t], h => exact ⟨t, rfl, by simpa using h⟩

example : ivars ((⟨fun x => x, none⟩ : NoiseCal ℚ).apply [c39Spec]) =
    [[("b", [2, 32 / 3, 0]), ("r", [2, 1 / 3])]] := by decide +kernel

example : ivars ((⟨fun _ => 1, some (fun _ => 1 / 2)⟩ : NoiseCal ℚ).apply [c39Spec]) =
    [[("b", [1, 16 / 9, 0]), ("r", [4 / 9, 1 / 3])]] := by decide +kernel

example : (∀ s ∈ [c39Spec], Aligned s ∧ HasCont s ∧ s.cont ≠ []) ∧
    (∀ x ∈ [(1 : ℚ), 3 / 2, 2, 2, 3], 0 < (⟨fun x => x, some (fun _ => 1 / 2)⟩ : NoiseCal ℚ).eta x) := by
  refine ⟨fun s hs => ?_, by decide +kernel⟩
  rw [List.mem_singleton.mp hs]
  exact ⟨c39Spec_ok, c39Spec_cont, by decide⟩

/-- **C39, refuted as stated.** The tables are interpolated by splines which leave the range of the table:
with a positive eta table a good pixel gets negative ivar (no additive term), and with a nonnegative var_lss
table and eta = 1 a good pixel is masked. -/
theorem C39_overshoot_refuted : ∃ (waves eta vl : List ℚ) (s : Spectrum ℚ),
    (∀ y ∈ eta, 0 < y) ∧ (∀ y ∈ vl, 0 ≤ y) ∧ Aligned s ∧ HasCont s ∧ s.cont ≠ [] ∧
    ∀ junk : Nat → ℚ, ∃ r, noiseRead junk (1 / 10 ^ 5) (1 / 10 ^ 8) waves vl eta = .ok r ∧
      (∃ t, (NoiseCal.mk' r false false).apply [s] = .ok [t] ∧ (s.fivar.arr "b")[1]? = some (16 : ℚ) ∧
        (t.fivar.arr "b")[1]? = some (-128 : ℚ)) ∧
      (∃ t, (NoiseCal.mk' r true true).apply [s] = .ok [t] ∧ (t.fivar.arr "b")[1]? = some (0 : ℚ)) := by
  refine ⟨[0, 1, 2, 3], [10, 1, 1, 10], [1, 0, 0, 1], c39Spec, by decide, by decide, c39Spec_ok, c39Spec_cont,
    by decide, fun junk => ?_⟩
  have e : noiseRead junk (1 / 10 ^ 5) (1 / 10 ^ 8) [0, 1, 2, 3] [1, 0, 0, 1] [10, 1, 1, 10] =
      .ok (CubicInterp.notaknot junk 0 (1 - 0) [10, 1, 1, 10], CubicInterp.notaknot junk 0 (1 - 0) [1, 0, 0, 1]) := by
    rw [show noiseRead junk (1 / 10 ^ 5) (1 / 10 ^ 8) [0, 1, 2, 3] [1, 0, 0, 1] [10, 1, 1, 10] =
      (readGrid (1 / 10 ^ 5) (1 / 10 ^ 8) [0, 1, 2, 3] >>= fun g => .ok
        (CubicInterp.notaknot junk g.1 g.2 (zerosToOne [10, 1, 1, 10]),
          CubicInterp.notaknot junk g.1 g.2 [1, 0, 0, 1])) from rfl,
      show readGrid (1 / 10 ^ 5 : ℚ) (1 / 10 ^ 8) [0, 1, 2, 3] = .ok (0, 1 - 0) by decide +kernel,
      show zerosToOne [10, 1, 1, (10 : ℚ)] = [10, 1, 1, 10] by decide +kernel]
    rfl
  refine ⟨_, e, ?_⟩
  rw [C43_only_table junk (fun _ => 0) (by decide), C43_only_table junk (fun _ => 0) (by decide)]
  constructor
  · obtain ⟨t, h1, h2⟩ := ivars_eq (r := (NoiseCal.mk' (CubicInterp.notaknot (fun _ => (0 : ℚ)) 0 (1 - 0)
      [10, 1, 1, 10], CubicInterp.notaknot (fun _ => 0) 0 (1 - 0) [1, 0, 0, 1]) false false).apply [c39Spec])
      (d := [("b", [2, -128, 0]), ("r", [4, 1 / 10])]) (by decide +kernel)
    exact ⟨t, h1, by decide +kernel, by rw [h2]; decide +kernel⟩
  · obtain ⟨t, h1, h2⟩ := ivars_eq (r := (NoiseCal.mk' (CubicInterp.notaknot (fun _ => (0 : ℚ)) 0 (1 - 0)
      [10, 1, 1, 10], CubicInterp.notaknot (fun _ => 0) 0 (1 - 0) [1, 0, 0, 1]) true true).apply [c39Spec])
      (d := [("b", [2, 0, 0]), ("r", [4, 1 / 5])]) (by decide +kernel)
    exact ⟨t, h1, by rw [h2]; decide +kernel⟩

/-- A table as `C39_table_positive` asks for. -/
example : ∃ r, noiseRead (fun _ => (0 : ℚ)) (1 / 10 ^ 5) (1 / 10 ^ 8) [0, 1, 2, 3, 4] [1, 1, 1, 1, 1]
    [1, 17 / 10, 1, 3 / 2, 1] = .ok r ∧ (∀ y ∈ [(1 : ℚ), 17 / 10, 1, 3 / 2, 1], 1 ≤ y ∧ y ≤ 179 / 100) := by
  refine ⟨(CubicInterp.notaknot (fun _ => (0 : ℚ)) 0 1 [1, 17 / 10, 1, 3 / 2, 1],
    CubicInterp.notaknot (fun _ => 0) 0 1 [1, 1, 1, 1, 1]), ?_, by decide +kernel⟩
  rw [show noiseRead (fun _ => (0 : ℚ)) (1 / 10 ^ 5) (1 / 10 ^ 8) [0, 1, 2, 3, 4] [1, 1, 1, 1, 1]
    [1, 17 / 10, 1, 3 / 2, 1] = (readGrid (1 / 10 ^ 5) (1 / 10 ^ 8) [0, 1, 2, 3, 4] >>= fun g => .ok
        (CubicInterp.notaknot (fun _ => (0 : ℚ)) g.1 g.2 (zerosToOne [1, 17 / 10, 1, 3 / 2, 1]),
          CubicInterp.notaknot (fun _ => (0 : ℚ)) g.1 g.2 [1, 1, 1, 1, 1])) from rfl,
    show readGrid (1 / 10 ^ 5 : ℚ) (1 / 10 ^ 8) [0, 1, 2, 3, 4] = .ok (0, 1) by decide +kernel,
    show zerosToOne [1, 17 / 10, 1, 3 / 2, (1 : ℚ)] = [1, 17 / 10, 1, 3 / 2, 1] by decide +kernel]
  rfl

/-- A table that is not equally spaced is refused. -/
example : readGrid (1 / 10 ^ 5 : ℚ) (1 / 10 ^ 8) [0, 1, 2, 4] = .error .exception := by decide +kernel

/-! ### C40 -/

section
variable {K : Type} [Field K] [LinearOrder K]

theorem fluxApply_eq (st : K → K) {l : List (Spectrum K)} (hl : ∀ s ∈ l, Aligned s) :
    fluxApply st l = l.map (updAll (fun w y => List.zipWith (fun w f => f / st w) w y)
      (fun w y => List.zipWith (fun w v => v * st w ^ 2) w y)) := by
  unfold fluxApply
  exact List.map_congr_left fun s hs => foldl_updArm_eq
    (fun w y => List.zipWith (fun w f => f / st w) w y)
    (fun w y => List.zipWith (fun w v => v * st w ^ 2) w y) (hl s hs)

/-- **C40.** Flux calibration divides every flux by the stacked flux at its wavelength and multiplies the
ivar by its square; nothing else changes. So flux² · ivar is the same wherever the stacked flux is not zero,
and masked pixels stay masked. -/
theorem C40_pixels (st : K → K) {l : List (Spectrum K)} (hl : ∀ s ∈ l, Aligned s) :
    List.Forall₂ (fun s t => t = { s with fflux := t.fflux, fivar := t.fivar } ∧
      t.fflux.keys = s.fflux.keys ∧ t.fivar.keys = s.fivar.keys ∧
      ∀ arm w, s.fwave.lookup arm = some w →
        (t.fflux.arr arm).length = w.length ∧ (t.fivar.arr arm).length = w.length ∧
        ∀ (i : Nat) (x f v f' v' : K), w[i]? = some x → (s.fflux.arr arm)[i]? = some f →
          (s.fivar.arr arm)[i]? = some v → (t.fflux.arr arm)[i]? = some f' →
          (t.fivar.arr arm)[i]? = some v' →
          v' = v * st x ^ 2 ∧ (v = 0 → v' = 0) ∧
          (st x ≠ 0 → f' = f / st x ∧ f' ^ 2 * v' = f ^ 2 * v)) l (fluxApply st l) := by
  rw [fluxApply_eq st hl, List.forall₂_map_right_iff, List.forall₂_same]
  intro s hs
  have ha := hl s hs
  refine ⟨rfl, by unfold updAll; simp only [keys_mapVals],
    by unfold updAll; simp only [keys_mapVals],
    fun arm w hw => ?_⟩
  have hk := mem_keys_of_lookup hw
  have e1 : ((updAll (fun w y => List.zipWith (fun w f => f / st w) w y)
      (fun w y => List.zipWith (fun w v => v * st w ^ 2) w y)) s).fflux.arr arm =
      List.zipWith (fun w f => f / st w) w (s.fflux.arr arm) := by
    unfold updAll
    simp only
    rw [arr_mapVals (by rw [ha.fluxKeys]; exact hk), arr_of_lookup hw]
  have e2 : ((updAll (fun w y => List.zipWith (fun w f => f / st w) w y)
      (fun w y => List.zipWith (fun w v => v * st w ^ 2) w y)) s).fivar.arr arm =
      List.zipWith (fun w v => v * st w ^ 2) w (s.fivar.arr arm) := by
    unfold updAll
    simp only
    rw [arr_mapVals (by rw [ha.ivarKeys]; exact hk), arr_of_lookup hw]
  rw [e1, e2]
  refine ⟨by rw [List.length_zipWith, ha.flux arm w hw, min_self],
    by rw [List.length_zipWith, ha.ivar arm w hw, min_self], ?_⟩
  intro i x f v f' v' hx hf hv hf' hv'
  rw [zipWith_pix hx hf] at hf'
  rw [zipWith_pix hx hv] at hv'
  cases hf'
  cases hv'
  exact ⟨rfl, fun h => by rw [h, zero_mul], fun h => ⟨rfl, by field_simp⟩⟩

/-- **C40.** Calibration with the reciprocal function undoes a calibration that does not vanish at a
pixel. -/
theorem C40_undone (st st' : K → K) {l : List (Spectrum K)} (hl : ∀ s ∈ l, Aligned s)
    (h : ∀ s ∈ l, ∀ arm w, s.fwave.lookup arm = some w → ∀ x ∈ w, st x ≠ 0 ∧ st' x = 1 / st x) :
    fluxApply st' (fluxApply st l) = l := by
  have hF : ∀ (f : K → K → K) (w y : List K), y.length = w.length → (List.zipWith f w y).length = w.length := by
    intro f w y hy; rw [List.length_zipWith, hy, min_self]
  have hal : ∀ s ∈ l, Aligned (updAll (fun w y => List.zipWith (fun w f => f / st w) w y)
      (fun w y => List.zipWith (fun w v => v * st w ^ 2) w y) s) := fun s hs =>
    aligned_updAll (hl s hs) (fun w y => hF _ w y) (fun w y => hF _ w y)
  rw [fluxApply_eq st hl, fluxApply_eq st' (by
    intro t ht
    obtain ⟨s, hs, rfl⟩ := List.mem_map.mp ht
    exact hal s hs), List.map_map]
  conv_rhs => rw [← List.map_id l]
  refine List.map_congr_left fun s hs => ?_
  have ha := hl s hs
  have key : ∀ (f g : K → K → K) (w y : List K), y.length = w.length →
      (∀ x ∈ w, ∀ v, g x (f x v) = v) → List.zipWith g w (List.zipWith f w y) = y := by
    intro f g w
    induction w with
    | nil => intro y hy _; simp at hy; simp [hy]
    | cons x w ih =>
      intro y hy hx
      cases y with
      | nil => simp at hy
      | cons v y =>
        rw [List.zipWith_cons_cons, List.zipWith_cons_cons, hx x List.mem_cons_self,
          ih y (by simpa using hy) (fun x' hx' => hx x' (List.mem_cons_of_mem _ hx'))]
  have hmv : ∀ (f g : K → K → K) (d : Dict (List K)), d.keys = s.fwave.keys →
      (∀ arm w, s.fwave.lookup arm = some w → (d.arr arm).length = w.length) →
      (∀ arm w, s.fwave.lookup arm = some w → ∀ x ∈ w, ∀ v, g x (f x v) = v) →
      (d.mapVals (fun a y => List.zipWith f (s.fwave.arr a) y)).mapVals
        (fun a y => List.zipWith g (s.fwave.arr a) y) = d := by
    intro f g d hd hlen hfg
    have hn : d.keys.Nodup := by rw [hd]; exact ha.nodup
    refine eq_of_keys_of_lookup (by rw [keys_mapVals, keys_mapVals]; exact hn)
      (by rw [keys_mapVals, keys_mapVals]) fun a hk => ?_
    rw [keys_mapVals, keys_mapVals] at hk
    have hkw : a ∈ s.fwave.keys := by rw [← hd]; exact hk
    have hw := lookup_eq_arr hkw
    rw [lookup_mapVals, lookup_mapVals, lookup_eq_arr hk]
    simp only [Option.map_some]
    rw [key f g _ _ (hlen a _ hw) (hfg a _ hw)]
  change updAll _ _ (updAll _ _ s) = s
  unfold updAll
  simp only
  rw [hmv _ _ s.fflux ha.fluxKeys ha.flux (fun arm w hw x hx v => by
      obtain ⟨h1, h2⟩ := h s hs arm w hw x hx
      rw [h2]; field_simp),
    hmv _ _ s.fivar ha.ivarKeys ha.ivar (fun arm w hw x hx v => by
      obtain ⟨h1, h2⟩ := h s hs arm w hw x hx
      rw [h2]; field_simp)]

theorem fluxRead_ok {rtol atol : K} {waves st : List K} {f : LinInterp K}
    (h : fluxRead rtol atol waves st = .ok f) :
    ∃ w0 w1, waves[0]? = some w0 ∧ waves[1]? = some w1 ∧ f = ⟨w0, w1 - w0, zerosToOne st⟩ := by
  unfold fluxRead at h
  cases hg : readGrid rtol atol waves with
  | error e => rw [hg] at h; cases h
  | ok g =>
    rw [hg] at h
    obtain ⟨w0, w1, h0, h1, rfl⟩ := readGrid_ok hg
    cases h
    exact ⟨w0, w1, h0, h1, rfl⟩

variable [IsStrictOrderedRing K] [FloorRing K]

/-- **C40.** For pixels at the wavelengths of a table without zeros, calibration with the table of the
reciprocals undoes the calibration. -/
theorem C40_reciprocal_table {rtol atol w0 w1 : K} {waves st : List K} {f g : LinInterp K}
    (hf : fluxRead rtol atol waves st = .ok f) (hg : fluxRead rtol atol waves (st.map (fun x => 1 / x)) = .ok g)
    (hn : 2 ≤ st.length) (hst : ∀ x ∈ st, x ≠ 0) (h0 : waves[0]? = some w0) (h1 : waves[1]? = some w1)
    (hw : w0 < w1) {l : List (Spectrum K)} (hl : ∀ s ∈ l, Aligned s)
    (hx : ∀ s ∈ l, ∀ arm w, s.fwave.lookup arm = some w → ∀ x ∈ w,
      ∃ k : Nat, k < st.length ∧ x = w0 + k * (w1 - w0)) :
    fluxApply (asFun g.eval) (fluxApply (asFun f.eval) l) = l := by
  obtain ⟨a0, a1, ha0, ha1, rfl⟩ := fluxRead_ok hf
  obtain ⟨b0, b1, hb0, hb1, rfl⟩ := fluxRead_ok hg
  rw [h0] at ha0 hb0
  rw [h1] at ha1 hb1
  cases ha0; cases ha1; cases hb0; cases hb1
  have z1 : ∀ l : List K, (∀ x ∈ l, x ≠ 0) → zerosToOne l = l := by
    intro l hl
    unfold zerosToOne
    conv_rhs => rw [← List.map_id l]
    exact List.map_congr_left fun x hx => if_neg (hl x hx)
  rw [z1 st hst, z1 _ (by
    intro x hx
    obtain ⟨y, hy, rfl⟩ := List.mem_map.mp hx
    exact one_div_ne_zero (hst y hy))]
  refine C40_undone _ _ hl fun s hs arm w hw' x hxw => ?_
  obtain ⟨k, hk, rfl⟩ := hx s hs arm w hw' x hxw
  have e1 := C41_nodes (f := ⟨w0, w1 - w0, st⟩) (sub_pos.mpr hw) hn (List.getElem?_eq_getElem hk)
  have e2 := C41_nodes (f := ⟨w0, w1 - w0, st.map (fun x => 1 / x)⟩) (sub_pos.mpr hw) (by simpa using hn)
    (k := k) (y := 1 / st[k]) (by rw [List.getElem?_map, List.getElem?_eq_getElem hk]; rfl)
  simp only at e1 e2
  unfold asFun
  rw [e1, e2]
  exact ⟨hst _ (List.getElem_mem hk), rfl⟩

/-- **C40.** A positive table is positive between its nodes, so no pixel within the table is lost. -/
theorem C40_table_positive {rtol atol w0 w1 : K} {waves st : List K} {f : LinInterp K}
    (hf : fluxRead rtol atol waves st = .ok f) (hst : ∀ x ∈ st, 0 < x) (h0 : waves[0]? = some w0)
    (h1 : waves[1]? = some w1) (hw : w0 < w1) {k : Nat} (hk : k + 1 < st.length) {x : K}
    (hx : w0 + k * (w1 - w0) ≤ x) (hx' : x ≤ w0 + (k + 1) * (w1 - w0)) : 0 < asFun f.eval x := by
  obtain ⟨a0, a1, ha0, ha1, rfl⟩ := fluxRead_ok hf
  rw [h0] at ha0
  rw [h1] at ha1
  cases ha0; cases ha1
  rw [zerosToOne_of_pos hst]
  obtain ⟨y, e1, e2, -⟩ := C41_between (f := ⟨w0, w1 - w0, st⟩) (sub_pos.mpr hw)
    (List.getElem?_eq_getElem (Nat.lt_of_succ_lt hk)) (List.getElem?_eq_getElem hk) hx hx'
  unfold asFun
  rw [e1]
  exact lt_of_lt_of_le (lt_min (hst _ (List.getElem_mem _)) (hst _ (List.getElem_mem _))) e2
end

/-- Between its nodes the table of the reciprocals does not undo the calibration: the value at the middle
between 1 and 3 is 2, that of the reciprocals 2/3. -/
theorem C40_between_nodes_refuted : ∃ (waves st : List ℚ) (f g : LinInterp ℚ) (s : Spectrum ℚ),
    (∀ x ∈ st, 0 < x) ∧ fluxRead (1 / 10 ^ 5) (1 / 10 ^ 8) waves st = .ok f ∧
    fluxRead (1 / 10 ^ 5) (1 / 10 ^ 8) waves (st.map (fun x => 1 / x)) = .ok g ∧ Aligned s ∧
    fluxApply (asFun g.eval) (fluxApply (asFun f.eval) [s]) ≠ [s] := by
  refine ⟨[1, 2, 3], [1, 3, 1], ⟨1, 1, [1, 3, 1]⟩, ⟨1, 1, [1, 1 / 3, 1]⟩, c39Spec, by decide +kernel, ?_, ?_,
    c39Spec_ok, fun h => ?_⟩
  · rw [show fluxRead (1 / 10 ^ 5 : ℚ) (1 / 10 ^ 8) [1, 2, 3] [1, 3, 1] =
      (readGrid (1 / 10 ^ 5) (1 / 10 ^ 8) [1, 2, 3] >>= fun g => .ok ⟨g.1, g.2, zerosToOne [1, 3, 1]⟩) from rfl,
      show readGrid (1 / 10 ^ 5 : ℚ) (1 / 10 ^ 8) [1, 2, 3] = .ok (1, 1) by decide +kernel,
      show zerosToOne [1, 3, (1 : ℚ)] = [1, 3, 1] by decide +kernel]
    rfl
  · rw [show ([1, 3, 1] : List ℚ).map (fun x => 1 / x) = [1, 1 / 3, 1] by decide +kernel,
      show fluxRead (1 / 10 ^ 5 : ℚ) (1 / 10 ^ 8) [1, 2, 3] [1, 1 / 3, 1] =
      (readGrid (1 / 10 ^ 5) (1 / 10 ^ 8) [1, 2, 3] >>= fun g => .ok ⟨g.1, g.2, zerosToOne [1, 1 / 3, 1]⟩) from rfl,
      show readGrid (1 / 10 ^ 5 : ℚ) (1 / 10 ^ 8) [1, 2, 3] = .ok (1, 1) by decide +kernel,
      show zerosToOne [1, 1 / 3, (1 : ℚ)] = [1, 1 / 3, 1] by decide +kernel]
    rfl
  · have h2 := congrArg (fun l => l.map (·.fflux)) h
    exact absurd h2 (by decide +kernel)

/-- Pixels on the nodes, as `C40_reciprocal_table` asks for, with the intermediate result. -/
example : (fluxApply (asFun (⟨1, 1 / 2, [2, 4, 2, 1, 5]⟩ : LinInterp ℚ).eval) [c39Spec]).map
    (fun s => (s.fflux, s.fivar)) =
    [([("b", [1 / 2, 1 / 2, 3 / 2]), ("r", [2, 1])], [("b", [8, 256, 0]), ("r", [16, 25])])] := by
  decide +kernel

end Verif.Props

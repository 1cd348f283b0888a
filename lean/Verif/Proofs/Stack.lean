import Verif.Spec.Stack
import Mathlib.Tactic.FieldSimp
import Mathlib.Tactic.Ring
import Mathlib.Tactic.LinearCombination
import Mathlib.Tactic.NormNum
import Mathlib.Tactic.Linarith

/-!
# Lemmas on stacks
-/

namespace Verif.Proofs
open Verif Verif.Np Verif.Model Verif.Model.Stacker Verif.Spec

variable {K : Type} [Field K] [LinearOrder K] [IsStrictOrderedRing K] [FloorRing K]

theorem linGrid_ok {w1 w2 dw : K} {g : StackGrid K} (h : linGrid w1 w2 dw = .ok g) :
    0 < g.n ∧ g.dx = (w2 - w1) / g.n ∧ g.x0 = w1 + g.dx / 2 := by
  unfold linGrid at h
  dsimp only at h
  split at h
  · cases h
  · split at h
    · cases h
    · rename_i _ h2
      cases h
      dsimp only
      refine ⟨by omega, rfl, by ring⟩

theorem dx_pos {w1 w2 dw : K} {g : StackGrid K} (h : linGrid w1 w2 dw = .ok g) (hw : w1 < w2) : 0 < g.dx := by
  obtain ⟨h1, h2, -⟩ := linGrid_ok h
  rw [h2]
  exact div_pos (sub_pos.mpr hw) (by exact_mod_cast h1)

theorem idx_eq {w1 w2 dw : K} {g : StackGrid K} (h : linGrid w1 w2 dw = .ok g) (hw : w1 < w2) {w : K}
    (hl : w1 ≤ w) (k : Nat) : g.idx w = k ↔ InStackCell w1 w2 g.n k w := by
  have hd := dx_pos h hw
  obtain ⟨h1, h2, h3⟩ := linGrid_ok h
  have e : (w - g.x0) / g.dx + 1 / 2 = (w - w1) / g.dx := by
    rw [h3]; field_simp; ring
  unfold StackGrid.idx truncInt InStackCell
  rw [e, if_pos (div_nonneg (sub_nonneg.mpr hl) hd.le), Int.floor_eq_iff, le_div_iff₀ hd, div_lt_iff₀ hd, ← h2]
  push_cast
  constructor <;> rintro ⟨a, b⟩ <;> constructor <;> linarith

theorem idx_range {w1 w2 dw : K} {g : StackGrid K} (h : linGrid w1 w2 dw = .ok g) (hw : w1 < w2) {w : K}
    (hl : w1 ≤ w) : 0 ≤ g.idx w ∧ (g.idx w < g.n ↔ w < w2) := by
  have hd := dx_pos h hw
  obtain ⟨h1, h2, h3⟩ := linGrid_ok h
  have e : (w - g.x0) / g.dx + 1 / 2 = (w - w1) / g.dx := by
    rw [h3]; field_simp; ring
  unfold StackGrid.idx truncInt
  have h0 := div_nonneg (sub_nonneg.mpr hl) hd.le
  rw [e, if_pos h0]
  refine ⟨Int.floor_nonneg.mpr h0, ?_⟩
  have hn : (0 : K) < g.n := by exact_mod_cast h1
  rw [Int.floor_lt, div_lt_iff₀ hd, h2]
  push_cast
  rw [mul_div_cancel₀ _ hn.ne']
  constructor <;> intro h <;> linarith

theorem fits_of_range {w1 w2 dw : K} {g : StackGrid K} (h : linGrid w1 w2 dw = .ok g) (hw : w1 < w2) {ws : List K}
    (hl : ∀ w ∈ ws, w1 ≤ w) : fits g ws = true ↔ ∀ w ∈ ws, w < w2 := by
  unfold fits
  rw [List.all_eq_true]
  refine forall₂_congr fun w hm => ?_
  have := idx_range h hw (hl w hm)
  simp [this.1, this.2]

omit [LinearOrder K] [IsStrictOrderedRing K] [FloorRing K] in
theorem binAdd_length (a : List K) (idx : List Int) (w : List K) : (binAdd a idx w).length = a.length := by
  simp [binAdd]

omit [LinearOrder K] [IsStrictOrderedRing K] [FloorRing K] in
theorem binAdd_get {α : Type} (a : List K) (l : List α) (f : α → Int) (g : α → K) (k : Nat) :
    (binAdd a (l.map f) (l.map g))[k]? = a[k]?.map (fun x => x + ((l.filter (fun p => decide (f p = k))).map g).sum) := by
  unfold binAdd
  rw [List.getElem?_map]
  by_cases hk : k < a.length
  · have e : ((List.map f l).zip (List.map g l)).filter (fun p => decide (p.1 = (k : Int))) =
        (l.filter (fun p => decide (f p = k))).map (fun p => (f p, g p)) := by
      rw [List.zip_map', List.filter_map]
      rfl
    rw [List.getElem?_range hk]
    simp only [e, List.map_map, List.getElem?_eq_getElem hk, Option.map_some, Option.getD_some]
    rfl
  · rw [List.getElem?_eq_none (by simpa using hk), List.getElem?_eq_none (by simpa using hk)]
    rfl

/-- The sums over the pixels in the cells: what the four arrays contain. -/
structure Sums (w1 w2 r1 r2 : K) (st0 st : Stacker K) (l : List (SPix K)) : Prop where
  obs : st.obs = st0.obs
  rf : st.rf = st0.rf
  fp : ∀ k : Nat, st.fp[k]? = st0.fp[k]?.map (fun x => x +
    ((l.filter (fun p => decide (InStackCell w1 w2 st0.obs.n k p.wave))).map (·.wflux)).sum)
  ep : ∀ k : Nat, st.ep[k]? = st0.ep[k]?.map (fun x => x +
    ((l.filter (fun p => decide (InStackCell w1 w2 st0.obs.n k p.wave))).map (·.weight)).sum)
  fpRf : ∀ k : Nat, st.fpRf[k]? = st0.fpRf[k]?.map (fun x => x +
    ((l.filter (fun p => decide (InStackCell r1 r2 st0.rf.n k p.waveRf))).map (·.wcont)).sum)
  epRf : ∀ k : Nat, st.epRf[k]? = st0.epRf[k]?.map (fun x => x +
    ((l.filter (fun p => decide (InStackCell r1 r2 st0.rf.n k p.waveRf))).map (·.weight)).sum)

theorem add_sums {w1 w2 dw r1 r2 dr : K} {st : Stacker K} (ho : linGrid w1 w2 dw = .ok st.obs) (hw : w1 < w2)
    (hr : linGrid r1 r2 dr = .ok st.rf) (hrw : r1 < r2) {l : List (SPix K)}
    (hl : ∀ p ∈ l, (w1 ≤ p.wave ∧ p.wave < w2) ∧ (r1 ≤ p.waveRf ∧ p.waveRf < r2)) :
    (st.add l).2 = none ∧ Sums w1 w2 r1 r2 st (st.add l).1 l := by
  have f1 : fits st.obs (l.map (·.wave)) = true := by
    rw [fits_of_range ho hw]
    · intro w hm; obtain ⟨p, hp, rfl⟩ := List.mem_map.mp hm; exact (hl p hp).1.2
    · intro w hm; obtain ⟨p, hp, rfl⟩ := List.mem_map.mp hm; exact (hl p hp).1.1
  have f2 : fits st.rf (l.map (·.waveRf)) = true := by
    rw [fits_of_range hr hrw]
    · intro w hm; obtain ⟨p, hp, rfl⟩ := List.mem_map.mp hm; exact (hl p hp).2.2
    · intro w hm; obtain ⟨p, hp, rfl⟩ := List.mem_map.mp hm; exact (hl p hp).2.1
  have q1 : ∀ k : Nat, l.filter (fun p => decide (st.obs.idx p.wave = k)) =
      l.filter (fun p => decide (InStackCell w1 w2 st.obs.n k p.wave)) := by
    intro k
    refine List.filter_congr fun p hp => ?_
    rw [decide_eq_decide]
    exact idx_eq ho hw (hl p hp).1.1 k
  have q2 : ∀ k : Nat, l.filter (fun p => decide (st.rf.idx p.waveRf = k)) =
      l.filter (fun p => decide (InStackCell r1 r2 st.rf.n k p.waveRf)) := by
    intro k
    refine List.filter_congr fun p hp => ?_
    rw [decide_eq_decide]
    exact idx_eq hr hrw (hl p hp).2.1 k
  have e : st.add l = ((st.addObs l).addRf l, none) := by
    unfold Stacker.add; rw [if_pos f1, if_pos f2]
  rw [e]
  refine ⟨rfl, rfl, rfl, ?_, ?_, ?_, ?_⟩
  · intro k
    rw [← q1 k]; exact binAdd_get st.fp l _ _ k
  · intro k
    rw [← q1 k]; exact binAdd_get st.ep l _ _ k
  · intro k
    rw [← q2 k]; exact binAdd_get st.fpRf l _ _ k
  · intro k
    rw [← q2 k]; exact binAdd_get st.epRf l _ _ k

theorem addList_sums {w1 w2 dw r1 r2 dr : K} (hw : w1 < w2) (hrw : r1 < r2) (ls : List (List (SPix K)))
    (hl : ∀ l ∈ ls, ∀ p ∈ l, (w1 ≤ p.wave ∧ p.wave < w2) ∧ (r1 ≤ p.waveRf ∧ p.waveRf < r2))
    {st : Stacker K} (ho : linGrid w1 w2 dw = .ok st.obs) (hr : linGrid r1 r2 dr = .ok st.rf) :
    (st.addList ls).2 = none ∧ Sums w1 w2 r1 r2 st (st.addList ls).1 ls.flatten := by
  induction ls generalizing st with
  | nil =>
    refine ⟨rfl, rfl, rfl, ?_, ?_, ?_, ?_⟩ <;> intro k <;> simp [Stacker.addList]
  | cons l ls ih =>
    obtain ⟨a1, a2⟩ := add_sums ho hw hr hrw (hl l List.mem_cons_self)
    have hst : st.addList (l :: ls) = (st.add l).1.addList ls := by
      rw [Stacker.addList]
      obtain ⟨s', e⟩ : ∃ s', st.add l = (s', none) := ⟨(st.add l).1, by rw [← a1]⟩
      rw [e]
    obtain ⟨b1, b2⟩ := ih (fun l' h' => hl l' (List.mem_cons_of_mem _ h')) (st := (st.add l).1)
      (by rw [a2.obs]; exact ho) (by rw [a2.rf]; exact hr)
    rw [hst]
    refine ⟨b1, ?_⟩
    constructor
    · rw [b2.obs, a2.obs]
    · rw [b2.rf, a2.rf]
    · intro k; rw [b2.fp, a2.fp, a2.obs]; simp [Option.map_map, Function.comp_def, add_assoc]
    · intro k; rw [b2.ep, a2.ep, a2.obs]; simp [Option.map_map, Function.comp_def, add_assoc]
    · intro k; rw [b2.fpRf, a2.fpRf, a2.rf]; simp [Option.map_map, Function.comp_def, add_assoc]
    · intro k; rw [b2.epRf, a2.epRf, a2.rf]; simp [Option.map_map, Function.comp_def, add_assoc]

end Verif.Proofs

import Verif.Spec.VarLssFl
import Verif.Proofs.VarLss
import Verif.Proofs.StackFl
import Verif.Props.StackFl
import Verif.Props.VarLss

/-!
# C127: special values in the variance statistics
-/

namespace Verif.Props
open Verif Verif.Np Verif.Model Verif.Spec Verif.Proofs

variable {K : Type} [Field K] [LinearOrder K] [IsStrictOrderedRing K]

/-- A pixel in one of the bins has a positive number as inverse variance of delta. -/
theorem ivarIdxFl_inner {c : VarCfg K} (hc : GoodBins c) {v : Fl K} {i : Nat} (hi : i < c.nv)
    (h : c.ivarIdxFl v = i + 1) : ∃ x, v = .fin x ∧ 0 < x := by
  cases v with
  | nan => change c.edges.length = _ at h; rw [hc.length] at h; omega
  | pinf => change c.edges.length = _ at h; rw [hc.length] at h; omega
  | ninf => change 0 = _ at h; omega
  | fin x =>
    refine ⟨x, rfl, ?_⟩
    by_contra hx
    have hl : 0 < c.edges.length := by rw [hc.length]; omega
    have : c.ivarIdx x = 0 := by
      unfold VarCfg.ivarIdx searchsorted
      obtain ⟨e, es, he⟩ := List.exists_cons_of_length_pos hl
      rw [he, List.findIdx_cons]
      have : x ≤ e := (not_lt.mp hx).trans (hc.pos e (by rw [he]; exact List.mem_cons_self)).le
      simp [this]
    change c.ivarIdx x = _ at h
    omega

/-- If `ivar * cont**2` is a positive number, so are `ivar` and `cont**2`. -/
theorem ivarC_pos {p : FlPix K} {x : K} (h : p.ivarC = .fin x) (hx : 0 < x) :
    ∃ v c, p.ivar = .fin v ∧ p.cont = .fin c ∧ c ≠ 0 ∧ 0 < v ∧ x = v * c ^ 2 := by
  obtain ⟨w, fl, iv, ct⟩ := p
  unfold FlPix.ivarC at h
  dsimp only at h ⊢
  have inf : ∀ y : K, (Fl.infMul y : Fl K) ≠ .fin x := by
    intro y; unfold Fl.infMul; split_ifs <;> simp
  cases ct with
  | nan => rw [show Fl.mul Fl.nan Fl.nan = (Fl.nan : Fl K) from rfl] at h; cases iv <;> cases h
  | pinf =>
    rw [show Fl.mul Fl.pinf Fl.pinf = (Fl.pinf : Fl K) from rfl] at h
    cases iv <;> first | cases h | exact absurd h (inf _)
  | ninf =>
    rw [show Fl.mul Fl.ninf Fl.ninf = (Fl.pinf : Fl K) from rfl] at h
    cases iv <;> first | cases h | exact absurd h (inf _)
  | fin c =>
    simp only [Fl.mul] at h
    cases iv with
    | nan => cases h
    | pinf => exact absurd h (inf _)
    | ninf => exact absurd h (inf _)
    | fin v =>
      simp only [Fl.mul] at h
      have e := Fl.fin.inj h
      have hc : c ≠ 0 := by rintro rfl; rw [mul_zero, mul_zero] at e; exact hx.ne e
      refine ⟨v, c, rfl, rfl, hc, ?_, by rw [← e, pow_two]⟩
      by_contra hv
      have := mul_nonneg (neg_nonneg.mpr (not_lt.mp hv)) (mul_self_nonneg c)
      linarith

variable [FloorRing K]

/-- The index of a pixel is that of a bin only if it has a good delta, and then it is the index for the numbers. -/
theorem allIdxFl_bin {c : VarCfg K} (hc : GoodBins c) {iw iv : Nat} (hv : iv < c.nv) {p : FlPix K}
    {f : K} (hf : p.flux = .fin f) :
    (c.allIdxFl p = binIdx c iw iv ↔ ∃ q, goodDelta p = some q ∧ c.allIdx q.wave q.ivar = binIdx c iw iv) ∧
    ∀ q, goodDelta p = some q → ∀ j, pixRowFl p j = .fin (pixRow q j) := by
  have key : ∀ v c' : K, p.ivar = .fin v → p.cont = .fin c' → c' ≠ 0 → 0 < v →
      goodDelta p = some ⟨p.wave, f / c' - 1, v * c' ^ 2⟩ := by
    intro v c' h1 h2 h3 h4
    unfold goodDelta
    rw [hf, h1, h2]
    exact if_pos ⟨h3, h4⟩
  have good : ∀ q, goodDelta p = some q → ∃ v c', p.ivar = .fin v ∧ p.cont = .fin c' ∧ c' ≠ 0 ∧ 0 < v ∧
      q = ⟨p.wave, f / c' - 1, v * c' ^ 2⟩ := by
    intro q hq
    cases h1 : p.ivar with
    | fin v =>
      cases h2 : p.cont with
      | fin c' =>
        unfold goodDelta at hq
        rw [hf, h1, h2] at hq
        dsimp only at hq
        split at hq
        · next h => exact ⟨v, c', rfl, rfl, h.1, h.2, (Option.some.inj hq).symm⟩
        · cases hq
      | _ => unfold goodDelta at hq; rw [hf, h1, h2] at hq; cases hq
    | _ => unfold goodDelta at hq; rw [hf, h1] at hq; cases hq
  have same : ∀ v c' : K, p.ivar = .fin v → p.cont = .fin c' → p.ivarC = .fin (v * c' ^ 2) := by
    intro v c' h1 h2
    unfold FlPix.ivarC
    rw [h1, h2]
    simp only [Fl.mul, pow_two]
  refine ⟨⟨fun h => ?_, ?_⟩, ?_⟩
  · have hl : c.ivarIdxFl p.ivarC ≤ c.nv + 1 := by
      cases p.ivarC with
      | fin x => exact ivarIdx_le hc.length x
      | ninf => exact Nat.zero_le _
      | nan => exact hc.length.le
      | pinf => exact hc.length.le
    have h1 : c.ivarIdxFl p.ivarC = iv + 1 := by
      unfold VarCfg.allIdxFl binIdx at h
      have := congrArg (· % (c.nv + 2)) (h.trans (by ring : _ = iv + 1 + (iw + 1) * (c.nv + 2)))
      simp only [Nat.add_mul_mod_self_right] at this
      rwa [Nat.mod_eq_of_lt (by omega), Nat.mod_eq_of_lt (by omega)] at this
    obtain ⟨x, hx, hx0⟩ := ivarIdxFl_inner hc hv h1
    obtain ⟨v, c', e1, e2, e3, e4, rfl⟩ := ivarC_pos hx hx0
    refine ⟨_, key v c' e1 e2 e3 e4, ?_⟩
    rw [← h]
    unfold VarCfg.allIdxFl VarCfg.allIdx
    rw [hx]
    rfl
  · rintro ⟨q, hq, h⟩
    obtain ⟨v, c', e1, e2, e3, e4, rfl⟩ := good q hq
    rw [← h]
    unfold VarCfg.allIdxFl VarCfg.allIdx
    rw [same v c' e1 e2]
    rfl
  · intro q hq j
    obtain ⟨v, c', e1, e2, e3, e4, rfl⟩ := good q hq
    have hd : p.delta = .fin (f / c' - 1) := by
      unfold FlPix.delta
      rw [hf, e2]
      simp only [Fl.div, if_neg e3, Fl.add, sub_eq_add_neg]
    have hp : 0 < v * c' ^ 2 := by positivity
    unfold pixRowFl pixRow
    rw [hd, same v c' e1 e2]
    split_ifs
    · rfl
    · simp only [Fl.mul, pow_two]
    · simp only [Fl.mul, pow_two]
    · unfold pixVarFl pixVar
      rw [if_pos (by simpa [Fl.lt] using hp), if_pos hp]
      simp only [Fl.div, if_neg hp.ne']

theorem filter_allIdxFl {c : VarCfg K} (hc : GoodBins c) {iw iv : Nat} (hw : iw < c.nw) (hv : iv < c.nv) (j : Fin 4)
    (l : List (FlPix K)) (hl : ∀ p ∈ l, ∃ f, p.flux = .fin f) :
    (l.filter (fun p => c.allIdxFl p = binIdx c iw iv)).map (fun p => pixRowFl p j) =
      (inBin c iw iv (l.filterMap goodDelta)).map (fun q => Fl.fin (pixRow q j)) := by
  classical
  induction l with
  | nil => rfl
  | cons p l ih =>
    have ih := ih fun q hq => hl q (List.mem_cons_of_mem _ hq)
    obtain ⟨f, hf⟩ := hl p List.mem_cons_self
    obtain ⟨h1, h2⟩ := allIdxFl_bin hc (iw := iw) hv hf
    unfold inBin at ih ⊢
    cases hg : goodDelta p with
    | none =>
      have : ¬ c.allIdxFl p = binIdx c iw iv := fun h => by
        obtain ⟨q, hq, _⟩ := h1.mp h
        rw [hg] at hq; cases hq
      rw [List.filter_cons_of_neg (by simpa using this), List.filterMap_cons_none hg, ih]
    | some q =>
      rw [List.filterMap_cons_some hg]
      by_cases h : InBin c iw iv q
      · rw [List.filter_cons_of_pos (by simpa using h1.mpr ⟨q, hg, (allIdx_eq hc hw hv q).mpr h⟩),
          List.filter_cons_of_pos (by simpa using h), List.map_cons, List.map_cons, ih, h2 q hg j]
      · have : ¬ c.allIdxFl p = binIdx c iw iv := fun e => by
          obtain ⟨q', hq', e'⟩ := h1.mp e
          rw [hg] at hq'
          cases hq'
          exact h ((allIdx_eq hc hw hv q).mp e')
        rw [List.filter_cons_of_neg (by simpa using this), List.filter_cons_of_neg (by simpa using h), ih]

/-- C127. Whatever the inverse variances and the continua of the pixels are (NaN, infinite, zero, negative), the number
of pixels in each bin and the sums of delta, its square, its fourth power and the variance are numbers. They are those
of the pixels that have a number different from zero as continuum and a positive number as inverse variance. What is
missing: fluxes that are not numbers, see `C127_infinite_flux_refuted`. -/
theorem C127_partial {c : VarCfg K} (hc : GoodBins c) {iw iv : Nat} (hw : iw < c.nw) (hv : iv < c.nv)
    (l : List (FlPix K)) (hl : ∀ p ∈ l, ∃ f, p.flux = .fin f) :
    npixFl c l ((iw + 1) * (c.nv + 2) + 1 + iv) = (inBin c iw iv (l.filterMap goodDelta)).length ∧
    xvecFl c l 0 ((iw + 1) * (c.nv + 2) + 1 + iv) =
      .fin ((inBin c iw iv (l.filterMap goodDelta)).map (fun q => q.delta)).sum ∧
    xvecFl c l 1 ((iw + 1) * (c.nv + 2) + 1 + iv) =
      .fin ((inBin c iw iv (l.filterMap goodDelta)).map (fun q => q.delta ^ 2)).sum ∧
    xvecFl c l 2 ((iw + 1) * (c.nv + 2) + 1 + iv) =
      .fin ((inBin c iw iv (l.filterMap goodDelta)).map (fun q => q.delta ^ 4)).sum ∧
    xvecFl c l 3 ((iw + 1) * (c.nv + 2) + 1 + iv) =
      .fin ((inBin c iw iv (l.filterMap goodDelta)).map (fun q => 1 / q.ivar)).sum := by
  classical
  have row : ∀ j, xvecFl c l j (binIdx c iw iv) =
      .fin ((inBin c iw iv (l.filterMap goodDelta)).map (fun q => pixRow q j)).sum := fun j => by
    unfold xvecFl
    rw [filter_allIdxFl hc hw hv j l hl, Fl.sum_fin]
  refine ⟨?_, (row 0).trans rfl, (row 1).trans rfl, (row 2).trans ?_, (row 3).trans ?_⟩
  · have := congrArg List.length (filter_allIdxFl hc hw hv 0 l hl)
    rw [List.length_map, List.length_map] at this
    rw [← this]
    unfold npixFl
    rw [List.countP_eq_length_filter]
    rfl
  · congr 3
    funext q
    change (q.delta ^ 2) ^ 2 = _
    ring
  · congr 2
    refine List.map_congr_left fun q hq => ?_
    obtain ⟨-, lo, hi, h1, -, h3, -⟩ : InBin c iw iv q := by
      unfold inBin at hq
      simpa using (List.mem_filter.mp hq).2
    exact if_pos ((hc.pos lo (List.mem_of_getElem? h1)).trans h3)

/-- What the arrays of an object hold at one index: numbers with sums `S`, zero where the weight is zero, weights with
sum `N`. -/
def ColumnSums {n : Nat} (x : Fin n → Fin 4 → Fl K) (w : Fin n → Nat) (S : Fin 4 → K) (N : Nat) : Prop :=
  ∃ a : Fin n → Fin 4 → K, (∀ i j, x i j = .fin (a i j)) ∧ (∀ i, w i = 0 → ∀ j, a i j = 0) ∧
    (∀ j, ∑ i, a i j = S j) ∧ ∑ i, w i = N

theorem addList_column {n : Nat} {c : VarCfg K} (hc : GoodBins c) {iw iv : Nat} (hw : iw < c.nw) (hv : iv < c.nv)
    (ls : List (List (FlPix K))) (hl : ∀ l ∈ ls, ∀ p ∈ l, ∃ f, p.flux = .fin f) (s : VarLssFl K n) {S : Fin 4 → K}
    {N : Nat} (hs : ColumnSums (fun i j => s.x i j (binIdx c iw iv)) (fun i => s.w i (binIdx c iw iv)) S N) :
    ColumnSums (fun i j => (s.addList c ls).x i j (binIdx c iw iv)) (fun i => (s.addList c ls).w i (binIdx c iw iv))
      (fun j => S j + ((inBin c iw iv (ls.flatten.filterMap goodDelta)).map (fun q => pixRow q j)).sum)
      (N + (inBin c iw iv (ls.flatten.filterMap goodDelta)).length) ∧
    (s.addList c ls).numPix (binIdx c iw iv) =
      s.numPix (binIdx c iw iv) + (inBin c iw iv (ls.flatten.filterMap goodDelta)).length ∧
    (s.addList c ls).numQso (binIdx c iw iv) =
      s.numQso (binIdx c iw iv) + spectraIn c iw iv (ls.map (fun l => l.filterMap goodDelta)) := by
  classical
  induction ls generalizing s S N with
  | nil =>
    refine ⟨?_, by simp [VarLssFl.addList, inBin], by simp [VarLssFl.addList, spectraIn]⟩
    simpa [VarLssFl.addList, inBin] using hs
  | cons l ls ih =>
    have hll := hl l List.mem_cons_self
    have hx : ∀ j, xvecFl c l j (binIdx c iw iv) =
        .fin ((inBin c iw iv (l.filterMap goodDelta)).map (fun q => pixRow q j)).sum := fun j => by
      unfold xvecFl
      rw [filter_allIdxFl hc hw hv j l hll, Fl.sum_fin]
    have hn : npixFl c l (binIdx c iw iv) = (inBin c iw iv (l.filterMap goodDelta)).length :=
      (C127_partial hc hw hv l hll).1
    obtain ⟨a, a1, a2, a3, a4⟩ := hs
    have hs' : ColumnSums (fun i j => (s.add c l).x i j (binIdx c iw iv)) (fun i => (s.add c l).w i (binIdx c iw iv))
        (fun j => S j + ((inBin c iw iv (l.filterMap goodDelta)).map (fun q => pixRow q j)).sum)
        (N + (inBin c iw iv (l.filterMap goodDelta)).length) := by
      refine ⟨Function.update a s.isample (fun j => a s.isample j +
        ((inBin c iw iv (l.filterMap goodDelta)).map (fun q => pixRow q j)).sum), fun i j => ?_, fun i h0 j => ?_,
        fun j => ?_, ?_⟩
      · dsimp only [VarLssFl.add]
        by_cases e : i = s.isample
        · subst e
          have e1 : s.x s.isample j (binIdx c iw iv) = .fin (a s.isample j) := a1 s.isample j
          rw [Function.update_self, Function.update_self, hx, e1]
          rfl
        · rw [Function.update_of_ne e, Function.update_of_ne e]
          exact a1 i j
      · dsimp only [VarLssFl.add] at h0
        by_cases e : i = s.isample
        · subst e
          rw [Function.update_self, hn] at h0
          have h1 : s.w s.isample (binIdx c iw iv) = 0 := by omega
          have h2 : inBin c iw iv (l.filterMap goodDelta) = [] := List.eq_nil_of_length_eq_zero (by omega)
          rw [Function.update_self, a2 _ h1 j, h2]
          simp
        · rw [Function.update_of_ne e] at h0 ⊢
          exact a2 i h0 j
      · dsimp only
        rw [← a3 j]
        have : ∀ i, Function.update a s.isample (fun j => a s.isample j +
            ((inBin c iw iv (l.filterMap goodDelta)).map (fun q => pixRow q j)).sum) i j =
            a i j + if i = s.isample then
              ((inBin c iw iv (l.filterMap goodDelta)).map (fun q => pixRow q j)).sum else 0 := fun i => by
          by_cases e : i = s.isample
          · subst e; rw [Function.update_self, if_pos rfl]
          · rw [Function.update_of_ne e, if_neg e, add_zero]
        simp only [this, Finset.sum_add_distrib, Finset.sum_ite_eq', Finset.mem_univ, if_true]
      · rw [← a4]
        have : ∀ i, (s.add c l).w i (binIdx c iw iv) = s.w i (binIdx c iw iv) + if i = s.isample then
            (inBin c iw iv (l.filterMap goodDelta)).length else 0 := fun i => by
          dsimp only [VarLssFl.add]
          by_cases e : i = s.isample
          · subst e; rw [Function.update_self, if_pos rfl, hn]
          · rw [Function.update_of_ne e, if_neg e, add_zero]
        simp only [this, Finset.sum_add_distrib, Finset.sum_ite_eq', Finset.mem_univ, if_true]
    have happ : inBin c iw iv ((l :: ls).flatten.filterMap goodDelta) =
        inBin c iw iv (l.filterMap goodDelta) ++ inBin c iw iv (ls.flatten.filterMap goodDelta) := by
      unfold inBin
      rw [List.flatten_cons, List.filterMap_append, List.filter_append]
    obtain ⟨i1, i2, i3⟩ := ih (fun l' h => hl l' (List.mem_cons_of_mem _ h)) (s.add c l) hs'
    change ColumnSums (fun i j => ((s.add c l).addList c ls).x i j (binIdx c iw iv))
      (fun i => ((s.add c l).addList c ls).w i (binIdx c iw iv)) _ _ ∧
      ((s.add c l).addList c ls).numPix (binIdx c iw iv) = _ ∧
      ((s.add c l).addList c ls).numQso (binIdx c iw iv) = _
    rw [happ]
    refine ⟨?_, ?_, ?_⟩
    · simpa only [List.map_append, List.sum_append, List.length_append, add_assoc] using i1
    · rw [i2, List.length_append, ← add_assoc, ← hn]
      rfl
    · rw [i3]
      unfold spectraIn
      rw [List.map_cons, List.countP_cons]
      have hq : (s.add c l).numQso (binIdx c iw iv) =
          s.numQso (binIdx c iw iv) + (if 0 < npixFl c l (binIdx c iw iv) then 1 else 0) := rfl
      rw [hq, hn]
      have : (0 < (inBin c iw iv (l.filterMap goodDelta)).length) ↔ ∃ p ∈ l.filterMap goodDelta, InBin c iw iv p := by
        unfold inBin
        rw [List.length_pos_iff_exists_mem]
        simp only [List.mem_filter, decide_eq_true_eq]
      simp only [this, decide_eq_true_eq]
      omega

theorem ranks_column {n : Nat} {c : VarCfg K} (hc : GoodBins c) (h : 0 < n) {iw iv : Nat} (hw : iw < c.nw)
    (hv : iv < c.nv) (l : List (List (List (FlPix K)) × Nat)) (size : Nat)
    (hl : ∀ r ∈ l, ∀ f ∈ r.1, ∀ p ∈ f, ∃ x, p.flux = .fin x) :
    let os : List (VarLssFl K n) := l.map (fun r => (VarLssFl.new h r.2 size).addList c r.1)
    let P := inBin c iw iv ((l.map Prod.fst).flatten.flatten.filterMap goodDelta)
    ColumnSums (fun i j => VarLssFl.totX os i j (binIdx c iw iv)) (fun i => VarLssFl.totW os i (binIdx c iw iv))
      (fun j => (P.map (fun q => pixRow q j)).sum) P.length ∧
    VarLssFl.totPix os (binIdx c iw iv) = P.length ∧
    VarLssFl.totQso os (binIdx c iw iv) =
      spectraIn c iw iv ((l.map Prod.fst).flatten.map (fun f => f.filterMap goodDelta)) := by
  classical
  induction l with
  | nil =>
    refine ⟨⟨fun _ _ => 0, fun _ _ => rfl, fun _ _ _ => rfl, ?_, ?_⟩, rfl, rfl⟩ <;>
      simp [inBin, VarLssFl.totW]
  | cons r l ih =>
    intro os P
    obtain ⟨⟨a, a1, a2, a3, a4⟩, i2, i3⟩ := ih fun r' h' => hl r' (List.mem_cons_of_mem _ h')
    have h0 : ColumnSums (fun i j => (VarLssFl.new h r.2 size : VarLssFl K n).x i j (binIdx c iw iv))
        (fun i => (VarLssFl.new h r.2 size : VarLssFl K n).w i (binIdx c iw iv)) (fun _ => 0) 0 :=
      ⟨fun _ _ => 0, fun _ _ => rfl, fun _ _ _ => rfl, fun _ => by simp, by simp [VarLssFl.new]⟩
    obtain ⟨⟨b, b1, b2, b3, b4⟩, j2, j3⟩ := addList_column hc hw hv r.1 (hl r List.mem_cons_self) _ h0
    have happ : P = inBin c iw iv (r.1.flatten.filterMap goodDelta) ++
        inBin c iw iv ((l.map Prod.fst).flatten.flatten.filterMap goodDelta) := by
      simp only [P, inBin, List.map_cons, List.flatten_cons, List.flatten_append, List.filterMap_append,
        List.filter_append]
    refine ⟨⟨fun i j => b i j + a i j, fun i j => ?_, fun i hi j => ?_, fun j => ?_, ?_⟩, ?_, ?_⟩
    · have e1 := b1 i j
      have e2 := a1 i j
      unfold VarLssFl.totX at e2 ⊢
      dsimp only [os] at e1 e2 ⊢
      rw [List.map_cons, List.map_cons, Fl.sum_cons, e1, e2]
      rfl
    · unfold VarLssFl.totW at hi
      dsimp only [os] at hi
      rw [List.map_cons, List.map_cons, List.sum_cons] at hi
      dsimp only at b2 a2 ⊢
      rw [b2 i (by omega) j, a2 i (by unfold VarLssFl.totW; omega) j, add_zero]
    · dsimp only
      rw [Finset.sum_add_distrib, a3 j, b3 j, happ, List.map_append, List.sum_append]
      dsimp only
      rw [zero_add]
    · rw [happ, List.length_append, ← a4]
      rw [zero_add] at b4
      rw [← b4, ← Finset.sum_add_distrib]
      refine Finset.sum_congr rfl fun i _ => ?_
      unfold VarLssFl.totW
      dsimp only [os]
      rw [List.map_cons, List.map_cons, List.sum_cons]
    · unfold VarLssFl.totPix at i2 ⊢
      dsimp only [os]
      rw [List.map_cons, List.map_cons, List.sum_cons, i2, j2, happ, List.length_append]
      simp [VarLssFl.new]
    · unfold VarLssFl.totQso at i3 ⊢
      dsimp only [os]
      rw [List.map_cons, List.map_cons, List.sum_cons, i3, j3]
      simp [VarLssFl.new, spectraIn]

theorem mean_column {n : Nat} {os : List (VarLssFl K n)} {k : Nat} {S : Fin 4 → K} {N : Nat}
    (h : ColumnSums (fun i j => VarLssFl.totX os i j k) (fun i => VarLssFl.totW os i k) S N) (j : Fin 4) :
    VarLssFl.mean os j k = .fin (S j / N) := by
  obtain ⟨a, a1, a2, a3, a4⟩ := h
  have hN : ((List.finRange n).map (fun i => VarLssFl.totW os i k)).sum = N := by
    rw [← a4, Fin.sum_univ_def]
  have hd : ∀ (y : K) (w : Nat), VarLssFl.divWhere (.fin y) w = .fin (if w = 0 then y else y / w) := by
    intro y w
    unfold VarLssFl.divWhere
    split_ifs with h0
    · rfl
    · simp only [Fl.div, if_neg (show (w : K) ≠ 0 by exact_mod_cast h0)]
  unfold VarLssFl.mean
  dsimp only
  rw [hN]
  have : ∀ i, Fl.mul (VarLssFl.divWhere (VarLssFl.totX os i j k) (VarLssFl.totW os i k))
      (VarLssFl.divWhere (.fin (VarLssFl.totW os i k : K)) N) = .fin (a i j / N) := fun i => by
    have e1 : VarLssFl.totX os i j k = .fin (a i j) := a1 i j
    rw [e1, hd, hd]
    simp only [Fl.mul]
    congr 1
    by_cases hw : VarLssFl.totW os i k = 0
    · rw [a2 i hw j]; simp
    · have hN0 : N ≠ 0 := by
        have : VarLssFl.totW os i k ≤ N := by
          rw [← a4]
          exact Finset.single_le_sum (f := fun i => VarLssFl.totW os i k) (fun _ _ => Nat.zero_le _)
            (Finset.mem_univ i)
        omega
      rw [if_neg hw, if_neg hN0]
      have : (VarLssFl.totW os i k : K) ≠ 0 := by exact_mod_cast hw
      field_simp
  simp only [this]
  rw [Fl.sum_fin, ← Fin.sum_univ_def, ← Finset.sum_div, a3 j]

/-- C127, for the statistics after all forests of all ranks: in each bin all ranks have the number of good pixels, the
number of forests with such a pixel, and the mean of delta, the variance of delta, its error and the mean variance of
the good pixels, which are numbers whatever the inverse variances and the continua of the other pixels are. What is
missing: fluxes that are not numbers; the jackknife errors are in `C127_errors_partial`. -/
theorem C127_statistics_partial {n : Nat} {c : VarCfg K} (hc : GoodBins c) (h : 0 < n) {iw iv : Nat} (hw : iw < c.nw)
    (hv : iv < c.nv) (ranks : List (List (List (FlPix K))))
    (hl : ∀ r ∈ ranks, ∀ l ∈ r, ∀ p ∈ l, ∃ f, p.flux = .fin f) :
    let os : List (VarLssFl K n) := VarLssFl.ofRanks c h ranks
    let k := (iw + 1) * (c.nv + 2) + 1 + iv
    let P := inBin c iw iv (ranks.flatten.flatten.filterMap goodDelta)
    let m1 : K := (P.map (fun p => p.delta)).sum / P.length
    let m2 : K := (P.map (fun p => p.delta ^ 2)).sum / P.length
    let m4 : K := (P.map (fun p => p.delta ^ 4)).sum / P.length
    VarLssFl.totPix os k = P.length ∧
    VarLssFl.totQso os k = spectraIn c iw iv (ranks.flatten.map (fun l => l.filterMap goodDelta)) ∧
    VarLssFl.stats os 0 k = .fin m1 ∧
    VarLssFl.stats os 1 k = .fin (m2 - m1 ^ 2) ∧
    VarLssFl.stats os 2 k = .fin ((m4 - (m2 - m1 ^ 2) ^ 2) / P.length) ∧
    VarLssFl.stats os 3 k = .fin ((P.map (fun p => 1 / p.ivar)).sum / P.length) := by
  classical
  intro os k P m1 m2 m4
  have efst : ranks.zipIdx.map Prod.fst = ranks := by simp
  obtain ⟨h1, h2, h3⟩ := ranks_column hc h hw hv ranks.zipIdx ranks.length (fun r hr => hl r.1 (by
    rw [← efst]; exact List.mem_map_of_mem hr))
  rw [efst] at h1 h2 h3
  have hm := mean_column h1
  change VarLssFl.totPix os k = P.length at h2
  change VarLssFl.totQso os k = _ at h3
  change ∀ j, VarLssFl.mean os j k = .fin ((P.map (fun q => pixRow q j)).sum / P.length) at hm
  have q0 : VarLssFl.mean os 0 k = .fin m1 := hm 0
  have q1 : VarLssFl.mean os 1 k = .fin m2 := hm 1
  have q2 : VarLssFl.mean os 2 k = .fin m4 := by
    rw [hm 2]
    congr 4
    funext q
    change (q.delta ^ 2) ^ 2 = _
    ring
  have q3 : VarLssFl.mean os 3 k = .fin ((P.map (fun p => 1 / p.ivar)).sum / P.length) := by
    rw [hm 3]
    congr 3
    refine List.map_congr_left fun q hq => ?_
    obtain ⟨-, lo, hi, h1, -, h3, -⟩ : InBin c iw iv q := by
      simp only [P, inBin] at hq
      simpa using (List.mem_filter.mp hq).2
    exact if_pos ((hc.pos lo (List.mem_of_getElem? h1)).trans h3)
  have hv' : VarLssFl.sub (VarLssFl.mean os 1 k) (Fl.mul (VarLssFl.mean os 0 k) (VarLssFl.mean os 0 k)) =
      .fin (m2 - m1 ^ 2) := by
    rw [q0, q1]
    simp only [VarLssFl.sub, Fl.mul, Fl.add]
    congr 1
    ring
  refine ⟨h2, h3, ?_, ?_, ?_, ?_⟩
  · exact q0
  · exact hv'
  · change VarLssFl.divWhere (VarLssFl.sub (VarLssFl.mean os 2 k) (Fl.mul (VarLssFl.sub (VarLssFl.mean os 1 k)
      (Fl.mul (VarLssFl.mean os 0 k) (VarLssFl.mean os 0 k))) (VarLssFl.sub (VarLssFl.mean os 1 k)
      (Fl.mul (VarLssFl.mean os 0 k) (VarLssFl.mean os 0 k))))) (VarLssFl.totPix os k) = _
    rw [hv', q2, h2]
    simp only [VarLssFl.sub, Fl.mul, Fl.add]
    unfold VarLssFl.divWhere
    by_cases h0 : P.length = 0
    · have : P = [] := List.eq_nil_of_length_eq_zero h0
      rw [if_pos h0]
      simp [m1, m2, m4, this]
    · rw [if_neg h0]
      simp only [Fl.div, if_neg (show (P.length : K) ≠ 0 by exact_mod_cast h0)]
      congr 2
      ring
  · exact q3

omit [IsStrictOrderedRing K] [FloorRing K] in
/-- A sum that is a number has only numbers as terms. -/
theorem sum_eq_fin {l : List (Fl K)} {x : K} (h : Fl.sum l = .fin x) : ∀ a ∈ l, ∃ y, a = .fin y := by
  induction l generalizing x with
  | nil => simp
  | cons a l ih =>
    rw [Fl.sum_cons] at h
    cases ha : a with
    | fin y =>
      cases hs : Fl.sum l with
      | fin z =>
        intro b hb
        rcases List.mem_cons.mp hb with rfl | hb
        · exact ⟨y, rfl⟩
        · exact ih hs b hb
      | _ => rw [ha, hs] at h; cases h
    | _ => rw [ha] at h; cases hs : Fl.sum l <;> rw [hs] at h <;> cases h

/-- C127, the negation for infinite fluxes: such a flux in a pixel with good continuum and inverse variance makes the
sum of squares of its bin something that is not a number, whatever the other pixels are. Reading spectra only masks
NaN (py/qsonic/spectrum.py:225-226). -/
theorem C127_infinite_flux_refuted {c : VarCfg K} (hc : GoodBins c) {iw iv : Nat} (hw : iw < c.nw) (hv : iv < c.nv)
    {l : List (FlPix K)} {p : FlPix K} (hp : p ∈ l) (hf : p.flux = .pinf ∨ p.flux = .ninf) {v ct : K}
    (h1 : p.ivar = .fin v) (h2 : p.cont = .fin ct) (h3 : ct ≠ 0)
    (hb : InBin c iw iv ⟨p.wave, 0, v * ct ^ 2⟩) (x : K) :
    xvecFl c l 1 ((iw + 1) * (c.nv + 2) + 1 + iv) ≠ .fin x := by
  intro h
  have hi : c.allIdxFl p = binIdx c iw iv := by
    rw [← (allIdx_eq hc hw hv _).mpr hb]
    unfold VarCfg.allIdxFl VarCfg.allIdx FlPix.ivarC
    rw [h1, h2]
    simp only [Fl.mul, pow_two, VarCfg.ivarIdxFl]
  obtain ⟨y, hy⟩ := sum_eq_fin h (pixRowFl p 1)
    (List.mem_map.mpr ⟨p, List.mem_filter.mpr ⟨hp, decide_eq_true hi⟩, rfl⟩)
  change Fl.mul p.delta p.delta = _ at hy
  have hd : p.delta = .pinf ∨ p.delta = .ninf := by
    unfold FlPix.delta
    rcases hf with e | e <;> rw [e, h2] <;> simp only [Fl.div] <;> split_ifs <;> simp [Fl.add]
  rcases hd with e | e <;> rw [e] at hy <;> cases hy

/-- A pixel with continuum 2, then NaN, zero, infinite continuum, NaN and zero inverse variance. -/
def c127Pixels : List (FlPix ℚ) :=
  [FlPix.mk 3650 (.fin 3) (.fin (1 / 4)) (.fin 2), FlPix.mk 3650 (.fin 3) (.fin 1) .nan,
    FlPix.mk 3650 (.fin 3) (.fin 1) (.fin 0), FlPix.mk 3650 (.fin 3) (.fin 1) .pinf,
    FlPix.mk 3650 (.fin 3) .nan (.fin 1), FlPix.mk 3650 (.fin 3) (.fin 0) (.fin 1)]

/-- Only the first pixel is counted: delta is 1/2 and the inverse variance of delta is 1. -/
example : (∀ p ∈ c127Pixels, ∃ f, p.flux = .fin f) ∧ npixFl c48Cfg c127Pixels 5 = 1 ∧
    xvecFl c48Cfg c127Pixels 0 5 = .fin (1 / 2) ∧ xvecFl c48Cfg c127Pixels 1 5 = .fin (1 / 4) ∧
    xvecFl c48Cfg c127Pixels 2 5 = .fin (1 / 16) ∧ xvecFl c48Cfg c127Pixels 3 5 = .fin 1 := by
  refine ⟨?_, by decide +kernel, by decide +kernel, by decide +kernel, by decide +kernel, by decide +kernel⟩
  intro p hp
  simp only [c127Pixels, List.mem_cons, List.not_mem_nil, or_false] at hp
  rcases hp with rfl | rfl | rfl | rfl | rfl | rfl <;> exact ⟨3, rfl⟩

/-- The pixels on one rank and a pixel with delta 1 on another: mean 3/4, variance 1/16, two forests. -/
def c127Ranks : List (List (List (FlPix ℚ))) := [[c127Pixels], [[FlPix.mk 3700 (.fin 2) (.fin 1) (.fin 1)]]]

example : VarLssFl.totPix (VarLssFl.ofRanks c48Cfg (n := 3) (by decide) c127Ranks) 5 = 2 ∧
    VarLssFl.totQso (VarLssFl.ofRanks c48Cfg (n := 3) (by decide) c127Ranks) 5 = 2 ∧
    VarLssFl.stats (VarLssFl.ofRanks c48Cfg (n := 3) (by decide) c127Ranks) 0 5 = .fin (3 / 4) ∧
    VarLssFl.stats (VarLssFl.ofRanks c48Cfg (n := 3) (by decide) c127Ranks) 1 5 = .fin (1 / 16) ∧
    VarLssFl.stats (VarLssFl.ofRanks c48Cfg (n := 3) (by decide) c127Ranks) 3 5 = .fin 1 :=
  ⟨by decide +kernel, by decide +kernel, by decide +kernel, by decide +kernel, by decide +kernel⟩

/-- The overflow bin of the variance is not a number, as the pixel with NaN as continuum is there. -/
example : VarLssFl.stats (VarLssFl.ofRanks c48Cfg (n := 3) (by decide) c127Ranks) 0 7 = .nan := by decide +kernel

/-- With one more pixel of infinite flux in this bin the sums are infinite. -/
example : InBin c48Cfg 0 0 ⟨3700, 0, 1 * 1 ^ 2⟩ ∧
    xvecFl c48Cfg (FlPix.mk 3700 .pinf (.fin 1) (.fin 1) :: c127Pixels) 1 5 = .pinf :=
  ⟨⟨by decide +kernel, 1 / 2, 1, rfl, rfl, by decide +kernel, by decide +kernel⟩, by decide +kernel⟩

end Verif.Props

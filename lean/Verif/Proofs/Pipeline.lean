import Verif.Spec.Pipeline
import Verif.Props.CalibWhole
import Verif.Props.WrittenRun

/-!
# Proofs for `qsonic-calib` after `qsonic-fit`
-/

namespace Verif.Proofs
open Verif Verif.Np Verif.Model Verif.Model.Prog Verif.Spec Verif.Props

/-- Elements sorted into the places of their keys. -/
theorem flatMap_keys_perm {α β : Type} [DecidableEq β] (key : α → β) {names : List β} (hn : names.Nodup) {l : List α}
    (h : ∀ x ∈ l, key x ∈ names) :
    (names.flatMap (fun n => l.filter (fun x => decide (key x = n)))).Perm l := by
  classical
  refine List.perm_iff_count.mpr fun a => ?_
  rw [List.count_flatMap]
  by_cases ha : a ∈ l
  · have e : (names.map (List.count a ∘ fun n => l.filter (fun x => decide (key x = n)))) =
        names.map (fun n => if n = key a then l.count a else 0) := by
      refine List.map_congr_left fun n _ => ?_
      dsimp only [Function.comp]
      split
      next e => exact List.count_filter (by simp [e])
      next e =>
        refine List.count_eq_zero.mpr fun hm => e ?_
        exact (of_decide_eq_true (List.mem_filter.mp hm).2).symm
    rw [e]
    have key2 : ∀ m : List β, m.Nodup → key a ∈ m →
        (m.map (fun n => if n = key a then l.count a else 0)).sum = l.count a := by
      intro m hm hk
      induction m with
      | nil => simp at hk
      | cons b m ih =>
        rw [List.map_cons, List.sum_cons]
        by_cases hb : b = key a
        · rw [if_pos hb]
          have : ∀ n ∈ m, (if n = key a then l.count a else 0) = 0 := by
            intro n hnm
            rw [if_neg]
            rintro rfl
            exact (List.nodup_cons.mp hm).1 (hb ▸ hnm)
          rw [List.map_congr_left this]
          simp
        · rw [if_neg hb, Nat.zero_add]
          refine ih (List.nodup_cons.mp hm).2 ?_
          rcases List.mem_cons.mp hk with e | e
          · exact absurd e.symm hb
          · exact e
    exact key2 names hn (h a ha)
  · rw [List.count_eq_zero.mpr ha]
    refine List.sum_eq_zero fun c hc => ?_
    obtain ⟨n, -, rfl⟩ := List.mem_map.mp hc
    exact List.count_eq_zero.mpr fun hm => ha (List.mem_filter.mp hm).1

section
variable {Val K : Type} [Field K] [LinearOrder K]

theorem forCalib_recovered {blind : Bool} {ra dec : Int → K} {x : ReadSpec K} {a : String × List K} {d : Delta K}
    (h : Recovered blind ra dec x a d) : d.forCalib = .ok (armDelta x a) := by
  obtain ⟨r, r1, r2⟩ := h.snr
  have hc : x.spec.cont.arr a.1 = d.cont := arr_of_lookup h.cont
  obtain ⟨l1, l2, l3, l4⟩ := h.lengths
  have key : ∀ {l : List K} {g : Nat → K}, l.length = a.2.length → (∀ i < a.2.length, l[i]? = some (g i)) →
      l = (List.range a.2.length).map g := by
    intro l g hl hg
    refine List.ext_getElem? fun i => ?_
    by_cases hi : i < a.2.length
    · rw [hg i hi, List.getElem?_map, List.getElem?_range hi]
      rfl
    · rw [List.getElem?_eq_none (by omega), List.getElem?_eq_none (by simp; omega)]
  unfold Delta.forCalib armDelta
  rw [h.targetid, r2, h.dwave]
  dsimp only
  rw [r1, hc, h.wave, ← key l2, ← key l3, ← key l4]
  · rfl
  all_goals
    intro i hi
    obtain ⟨f, v, w, c, p1, p2, p3, p4, p5, p6, p7⟩ := h.pixel i hi
    simp only [List.getD_eq_getElem?_getD, p1, p2, p3, p4, Option.getD_some]
  · exact p6
  · exact p5
  · exact p7

theorem mapM_forCalib {blind : Bool} {ra dec : Int → K} {arms : List (ReadSpec K × String × List K)} {ds : List (Delta K)}
    (h : List.Forall₂ (fun y d => Recovered blind ra dec y.1 y.2 d) arms ds) :
    ds.mapM Delta.forCalib = .ok (arms.map (fun y => armDelta y.1 y.2)) := by
  induction h with
  | nil => rfl
  | cons h _ ih =>
    rw [List.mapM_cons, forCalib_recovered h, except_bind_ok, ih]
    rfl

theorem signalArms_flatMap {β : Type} (l : List β) (g : β → List (ReadSpec K)) :
    signalArms (l.flatMap g) = l.flatMap (fun b => signalArms (g b)) := by
  unfold signalArms
  rw [List.flatMap_assoc]

theorem fitDeltas_perm {l l' : List (ReadSpec K)} (h : l.Perm l') : (fitDeltas l).Perm (fitDeltas l') :=
  (h.flatMap_right _).map _

theorem fitDeltas_flatMap {β : Type} (l : List β) (g : β → List (ReadSpec K)) :
    fitDeltas (l.flatMap g) = l.flatMap (fun b => fitDeltas (g b)) := by
  unfold fitDeltas
  rw [signalArms_flatMap, List.map_flatMap]

theorem file_inj {text : Val → String} (ht : Function.Injective text) {byHpx : Bool} {a b : DeltaName Val}
    (ha : if byHpx then ∃ p, a = .pix p else ∃ r, a = .rank r) (hb : if byHpx then ∃ p, b = .pix p else ∃ r, b = .rank r)
    (h : a.file text = b.file text) : a = b := by
  have key : ∀ s t : String, "delta-" ++ s ++ ".fits" = "delta-" ++ t ++ ".fits" → s = t := by
    intro s t e
    have := congrArg String.toList e
    simp only [String.toList_append] at this
    have := List.append_cancel_right this
    exact String.toList_injective (List.append_cancel_left this)
  cases byHpx
  · obtain ⟨r, rfl⟩ := ha
    obtain ⟨r', rfl⟩ := hb
    have := key _ _ h
    rw [Nat.repr_inj.mp this]
  · obtain ⟨r, rfl⟩ := ha
    obtain ⟨r', rfl⟩ := hb
    rw [ht (key _ _ h)]

/-- The names of the files of a job. -/
theorem job_names [DecidableEq Val] (C : WrittenCfg Val K) {text : Val → String} (ht : Function.Injective text)
    {outs : List (WrittenOut Val K)} (hnames : ((outs.flatMap (·.files)).map Prod.fst).Nodup)
    (h2 : ∀ (r : Nat) (o : WrittenOut Val K), outs[r]? = some o → C.run.byHpx = true →
      ∀ f ∈ o.files, ∃ x ∈ o.deltas, f.1 = deltaFile C.run r x)
    (h3 : ∀ (r : Nat) (o : WrittenOut Val K), outs[r]? = some o → C.run.byHpx = false → ∀ f ∈ o.files, f.1 = .rank r) :
    (writtenFiles text outs).keys = (outs.flatMap (·.files)).map (fun f => f.1.file text) ∧
    (writtenFiles text outs).keys.Nodup ∧
    ∀ f ∈ outs.flatMap (·.files), (writtenFiles text outs).lookup (f.1.file text) = some f.2 := by
  have hmem : ∀ o ∈ outs, ∃ r : Nat, outs[r]? = some o := fun o ho => List.mem_iff_getElem?.mp ho
  have hkind : ∀ f ∈ outs.flatMap (·.files), if C.run.byHpx then ∃ p, f.1 = .pix p else ∃ r, f.1 = .rank r := by
    intro f hf
    obtain ⟨o, ho, hfo⟩ := List.mem_flatMap.mp hf
    obtain ⟨r, hr⟩ := hmem o ho
    split
    next hb =>
      obtain ⟨x, -, e⟩ := h2 r o hr hb f hfo
      unfold deltaFile at e
      rw [if_pos hb] at e
      exact ⟨_, e⟩
    next hb => exact ⟨r, h3 r o hr (by simpa using hb) f hfo⟩
  have hkeys : (writtenFiles text outs).keys = (outs.flatMap (·.files)).map (fun f => f.1.file text) := by
    unfold writtenFiles Dict.keys
    rw [List.map_map]
    rfl
  have hnd : (writtenFiles text outs).keys.Nodup := by
    rw [hkeys, List.nodup_map_iff_inj_on (List.Nodup.of_map _ hnames)]
    intro a ha b hb e
    exact List.inj_on_of_nodup_map hnames ha hb (file_inj ht (hkind a ha) (hkind b hb) e)
  refine ⟨hkeys, hnd, fun f hf => ?_⟩
  exact lookup_of_mem hnd (List.mem_map.mpr ⟨f, hf, rfl⟩)

/-- What is read from the files of a job. -/
theorem job_files [DecidableEq Val] (C : WrittenCfg Val K) {text : Val → String} (ht : Function.Injective text)
    {pick : List String → Option String} {pow10 : K → K} {blind : Bool} {outs : List (WrittenOut Val K)}
    (hnames : ((outs.flatMap (·.files)).map Prod.fst).Nodup)
    (hfiles : ∀ (r : Nat) (o : WrittenOut Val K), outs[r]? = some o →
      (∀ x ∈ o.deltas, ∃ f ∈ o.files, f.1 = deltaFile C.run r x) ∧
      (C.run.byHpx = true → ∀ f ∈ o.files, ∃ x ∈ o.deltas, f.1 = deltaFile C.run r x) ∧
      (C.run.byHpx = false → ∀ f ∈ o.files, f.1 = .rank r) ∧
      ∀ f ∈ o.files, ∃ ds arms, readDeltas pick pow10 (some f.2) = .ok ds ∧
        arms.Perm (signalArms (o.deltas.filter (fun x => decide (deltaFile C.run r x = f.1)))) ∧
        List.Forall₂ (fun y d => Recovered blind C.ra C.dec y.1 y.2 d) arms ds) :
    ∃ data : String → List (CalDelta K), (writtenFiles text outs).keys.Nodup ∧
      (∀ f ∈ (writtenFiles text outs).keys, readForCalib pick pow10 (writtenFiles text outs) f = .ok (data f)) ∧
      ((writtenFiles text outs).keys.flatMap data).Perm (fitDeltas (outs.flatMap (·.deltas))) ∧
      ∀ (r : Nat) (o : WrittenOut Val K), outs[r]? = some o → ∀ f ∈ o.files, (data (f.1.file text)).Perm
        (fitDeltas (o.deltas.filter (fun x => decide (deltaFile C.run r x = f.1)))) := by
  have hmem : ∀ o ∈ outs, ∃ r : Nat, outs[r]? = some o := fun o ho => List.mem_iff_getElem?.mp ho
  obtain ⟨hkeys, hnd, hlook⟩ := job_names C ht hnames (fun r o hr => (hfiles r o hr).2.1)
    (fun r o hr => (hfiles r o hr).2.2.1)
  have hone : ∀ (r : Nat) (o : WrittenOut Val K), outs[r]? = some o → ∀ f ∈ o.files, ∃ l,
      readForCalib pick pow10 (writtenFiles text outs) (f.1.file text) = .ok l ∧
      l.Perm (fitDeltas (o.deltas.filter (fun x => decide (deltaFile C.run r x = f.1)))) := by
    intro r o hr f hf
    obtain ⟨ds, arms, a1, a2, a3⟩ := (hfiles r o hr).2.2.2 f hf
    refine ⟨_, ?_, a2.map _⟩
    unfold readForCalib
    rw [hlook f (List.mem_flatMap.mpr ⟨o, List.mem_of_getElem? hr, hf⟩), a1, except_bind_ok]
    exact mapM_forCalib a3
  set data : String → List (CalDelta K) := fun f =>
    match readForCalib pick pow10 (writtenFiles text outs) f with
    | .ok l => l
    | .error _ => [] with hdata
  have hd : ∀ {f : String} {l : List (CalDelta K)}, readForCalib pick pow10 (writtenFiles text outs) f = .ok l →
      data f = l := by
    intro f l h
    rw [hdata]
    dsimp only
    rw [h]
  refine ⟨data, hnd, fun f hf => ?_, ?_, fun r o hr f hf => ?_⟩
  · rw [hkeys] at hf
    obtain ⟨g, hg, rfl⟩ := List.mem_map.mp hf
    obtain ⟨o, ho, hgo⟩ := List.mem_flatMap.mp hg
    obtain ⟨r, hr⟩ := hmem o ho
    obtain ⟨l, h1, -⟩ := hone r o hr g hgo
    rw [hd h1, h1]
  · rw [hkeys, List.flatMap_map, List.flatMap_assoc, fitDeltas_flatMap]
    refine List.Perm.flatMap_left _ fun o ho => ?_
    obtain ⟨r, hr⟩ := hmem o ho
    have hnd' : (o.files.map Prod.fst).Nodup := by
      rw [List.map_flatMap, List.nodup_flatMap] at hnames
      exact hnames.1 o ho
    refine (List.Perm.flatMap_left _ fun f hf => ?_ : List.Perm _ (o.files.flatMap (fun f =>
      fitDeltas (o.deltas.filter (fun x => decide (deltaFile C.run r x = f.1)))))).trans ?_
    · obtain ⟨l, h1, h2⟩ := hone r o hr f hf
      rw [hd h1]
      exact h2
    · rw [← fitDeltas_flatMap]
      refine fitDeltas_perm ?_
      have := flatMap_keys_perm (deltaFile C.run r) hnd' (l := o.deltas) (fun x hx => by
        obtain ⟨f, hf, e⟩ := (hfiles r o hr).1 x hx
        exact List.mem_map.mpr ⟨f, hf, e⟩)
      rw [List.flatMap_map] at this
      exact this
  · obtain ⟨l, h1, h2⟩ := hone r o hr f hf
    rw [hd h1]
    exact h2

end

/-! ### Wavelengths -/

section
variable {K : Type} [Field K] [LinearOrder K] [IsStrictOrderedRing K] [FloorRing K]

omit [Field K] [LinearOrder K] [IsStrictOrderedRing K] [FloorRing K] in
/-- The numbers with a property that holds between any two for which it holds. -/
theorem filter_range_convex {P : Nat → Bool} (hP : ∀ i j l, i ≤ l → l ≤ j → P i = true → P j = true → P l = true) (m : Nat) :
    ∃ a n, (List.range m).filter P = (List.range n).map (fun i => a + i) ∧ a + n ≤ m := by
  induction m with
  | zero => exact ⟨0, 0, rfl, le_refl _⟩
  | succ m ih =>
    obtain ⟨a, n, e, hn⟩ := ih
    rw [List.range_succ, List.filter_append, e]
    by_cases hm : P m = true
    · rcases Nat.eq_zero_or_pos n with rfl | hn0
      · exact ⟨m, 1, by simp [hm], le_refl _⟩
      · have hlast : a + (n - 1) ∈ (List.range m).filter P := by
          rw [e]
          exact List.mem_map.mpr ⟨n - 1, List.mem_range.mpr (by omega), rfl⟩
        have hmn : a + n = m := by
          by_contra hne
          have : a + n ∈ (List.range m).filter P := List.mem_filter.mpr ⟨List.mem_range.mpr (by omega),
            hP (a + (n - 1)) m (a + n) (by omega) (by omega) (List.mem_filter.mp hlast).2 hm⟩
          rw [e] at this
          obtain ⟨i, hi, h⟩ := List.mem_map.mp this
          have := List.mem_range.mp hi
          omega
        refine ⟨a, n + 1, ?_, by omega⟩
        rw [List.range_succ, List.map_append]
        simp [hm, hmn]
    · refine ⟨a, n, ?_, by omega⟩
      simp [hm]

omit [FloorRing K] in
/-- What is in the forest of a grid is a grid. -/
theorem grid_inForest {w1 dw x0 : K} (hdw : 0 < dw) (k : Int) (m : Nat) (z a1 a2 b1 b2 : K) :
    ∃ (k' : Int) (m' : Nat), ((List.range m).map (fun i : Nat => w1 + (x0 + k + i) * dw)).filter
      (fun w => decide (InForest z a1 a2 b1 b2 w)) = (List.range m').map (fun i : Nat => w1 + (x0 + k' + i) * dw) := by
  have hmono : ∀ i j : Nat, i ≤ j → w1 + (x0 + k + i) * dw ≤ w1 + (x0 + k + j) * dw := by
    intro i j hij
    have : (i : K) ≤ j := by exact_mod_cast hij
    have := mul_le_mul_of_nonneg_right (show x0 + k + i ≤ x0 + k + (j : K) by linarith) hdw.le
    linarith
  obtain ⟨a, n, e, -⟩ := filter_range_convex
    (P := fun i : Nat => decide (InForest z a1 a2 b1 b2 (w1 + (x0 + k + i) * dw))) (fun i j l h1 h2 hi hj => by
      have hi := of_decide_eq_true hi
      have hj := of_decide_eq_true hj
      have m1 := hmono i l h1
      have m2 := hmono l j h2
      exact decide_eq_true ⟨hi.1.trans m1, hi.2.1.trans m1, m2.trans_lt hj.2.2.1, m2.trans_lt hj.2.2.2⟩) m
  refine ⟨k + a, n, ?_⟩
  rw [List.filter_map]
  change ((List.range m).filter (fun i : Nat => decide (InForest z a1 a2 b1 b2 (w1 + (x0 + k + i) * dw)))).map _ = _
  rw [e, List.map_map]
  refine List.map_congr_left fun i _ => ?_
  simp only [Function.comp_apply, Nat.cast_add, Int.cast_add, Int.cast_natCast]
  ring

/-- An arm of the forest of a spectrum on the grid. -/
theorem forestArm_grid {C : SelectCfg K} {s : Spectrum K} {w1 dw x0 : K} (hdw : 0 < dw) (hs : s.dwave = dw)
    (hg : ∀ a ∈ s.wave, ∃ (k : Int) (m : Nat), a.2 = (List.range m).map (fun i : Nat => w1 + (x0 + k + i) * dw))
    (hne : readGood C s ≠ []) {a : String × List K} (ha : ForestArm C s a) :
    ∃ (k : Int) (m : Nat), a.2 = (List.range m).map (fun i : Nat => w1 + (x0 + k + i) * dw) := by
  unfold ForestArm at ha
  split at ha
  · have hfw : ∀ w ∈ forestWaves C s, ∃ k : Int, w = w1 + (x0 + k) * dw := by
      intro w hw
      obtain ⟨b, hb, hwb⟩ := List.mem_flatMap.mp hw
      obtain ⟨k, m, e⟩ := hg b (List.mem_filter.mp hb).1
      have := (List.mem_filter.mp hwb).1
      rw [e] at this
      obtain ⟨i, -, rfl⟩ := List.mem_map.mp this
      exact ⟨k + i, by push_cast; ring⟩
    have hfne : forestWaves C s ≠ [] := by
      obtain ⟨p, hp⟩ := List.exists_mem_of_ne_nil _ hne
      obtain ⟨h1, h2⟩ := List.mem_filter.mp hp
      obtain ⟨h2, h3⟩ := of_decide_eq_true h2
      obtain ⟨b, hb, hpb⟩ := List.mem_flatMap.mp h1
      have hz := List.of_mem_zip (a := p.1) (b := p.2) hpb
      have hz2 := List.of_mem_zip (a := p.2.1) (b := p.2.2) hz.2
      refine List.ne_nil_of_mem (a := p.1) (List.mem_flatMap.mpr ⟨b, List.mem_filter.mpr ⟨hb, decide_eq_true ?_⟩,
        List.mem_filter.mpr ⟨hz.1, decide_eq_true h3⟩⟩)
      obtain ⟨i, hi⟩ := List.mem_iff_getElem?.mp hpb
      have hi1 := List.getElem?_zip_eq_some.mp hi
      have hi2 := List.getElem?_zip_eq_some.mp hi1.2
      refine ⟨p.2.2, ?_, h2⟩
      unfold pixelsWhere
      refine List.mem_map.mpr ⟨(p.1, p.2.2), List.mem_filter.mpr ⟨?_, decide_eq_true h3⟩, rfl⟩
      exact List.mem_iff_getElem?.mpr ⟨i, List.getElem?_zip_eq_some.mpr ⟨hi1.1, hi2.2⟩⟩
    obtain ⟨lo, hlo⟩ := Option.isSome_iff_exists.mp (List.isSome_min?_of_ne_nil hfne)
    obtain ⟨hi, hhi⟩ := Option.isSome_iff_exists.mp (List.isSome_max?_of_ne_nil hfne)
    have l1 := List.min?_eq_some_iff.mp hlo
    have l2 := List.max?_eq_some_iff.mp hhi
    have e1 : gridLo C s = lo := by unfold gridLo; rw [hlo]; rfl
    have e2 : gridHi C s = hi := by unfold gridHi; rw [hhi]; rfl
    obtain ⟨k1, h1⟩ := hfw lo l1.1
    obtain ⟨k2, h2⟩ := hfw hi l2.1
    have hle : lo ≤ hi := l1.2 hi l2.1
    have hk : k1 ≤ k2 := by
      by_contra hlt
      have : (k2 : K) < k1 := by exact_mod_cast not_le.mp hlt
      have := mul_lt_mul_of_pos_right (show x0 + k2 < x0 + (k1 : K) by linarith) hdw
      linarith
    obtain ⟨N, hN⟩ := Int.eq_ofNat_of_zero_le (sub_nonneg.mpr hk)
    have hdiff : hi - lo = (N : K) * dw := by
      have : (k2 : K) - k1 = N := by exact_mod_cast hN
      rw [h1, h2, ← this]
      ring
    have hlast : gridLast C s = N := by
      unfold gridLast
      rw [e1, e2, hs, hdiff, mul_div_cancel_right₀ _ hdw.ne']
      rw [Nat.floor_eq_iff (by positivity)]
      constructor
      · linarith [show (0 : K) < 1 / 10 by norm_num]
      · linarith [show (1 / 10 : K) < 1 by norm_num]
    refine ⟨k1, N + 1, ?_⟩
    rw [ha, hlast, e1, e2, hdiff]
    refine List.map_congr_left fun i hi => ?_
    rcases Nat.eq_zero_or_pos N with rfl | hN0
    · have : i = 0 := by
        have := List.mem_range.mp hi
        omega
      subst this
      rw [h1]
      simp
    · have : (N : K) ≠ 0 := by exact_mod_cast hN0.ne'
      rw [mul_div_cancel_left₀ _ this, h1]
      ring
  · obtain ⟨w, hw, e⟩ := ha
    obtain ⟨k, m, e'⟩ := hg _ (mem_of_lookup hw)
    dsimp only at e'
    rw [e, e']
    exact grid_inForest hdw k m _ _ _ _ _

theorem fitDeltas_grid {Val : Type} {C : WholeCfg Val K} {l : List (ReadSpec K)} {w1 dw : K} (hdw : 0 < dw)
    (hl : ∀ y ∈ l, ∃ x, FromRead C x y ∧ PassesCuts C.sel x ∧ OnStackGrid w1 dw x.spec) :
    ∀ d ∈ fitDeltas l, d.dwave = dw ∧ OnGrid w1 dw d := by
  intro d hd
  obtain ⟨p, hp, rfl⟩ := List.mem_map.mp hd
  obtain ⟨y, hy, hpy⟩ := List.mem_flatMap.mp hp
  obtain ⟨a, ha, rfl⟩ := List.mem_map.mp hpy
  obtain ⟨x, h1, h2, h3, x0, h4, h5⟩ := hl y hy
  obtain ⟨k, m, e⟩ := forestArm_grid hdw h3 h5 h2.1 (h1.arms a (List.mem_filter.mp ha).1)
  refine ⟨h1.dwave.trans h3, x0 + k, m, fun j hj => h4 (j - k) ?_, e⟩
  push_cast
  linarith

end
end Verif.Proofs

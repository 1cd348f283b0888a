import Verif.Spec.CoaddFit
import Verif.Proofs.Pipeline
import Verif.Props.CoaddDeltas
import Verif.Props.Delta

/-!
# Proofs for `qsonic-coadd-deltas` after `qsonic-fit`
-/

namespace Verif.Proofs
open Verif Verif.Np Verif.Model Verif.Model.Prog Verif.Spec Verif.Props

theorem forall₂_keep {α β : Type} {R : α → β → Prop} {p : α → Bool} {q : β → Bool} {l : List α} {m : List β}
    (h : List.Forall₂ R l m) (hpq : ∀ a b, R a b → p a = q b) : List.Forall₂ R (l.filter p) (m.filter q) := by
  induction h with
  | nil => exact .nil
  | @cons a b l m hab _ ih =>
    rw [List.filter_cons, List.filter_cons, hpq a b hab]
    split
    · exact .cons hab ih
    · exact ih

theorem forall₂_mem {α β : Type} {R : α → β → Prop} {l : List α} {m : List β} (h : List.Forall₂ R l m) :
    ∀ b ∈ m, ∃ a ∈ l, R a b := by
  induction h with
  | nil => intro b hb; cases hb
  | cons hab _ ih =>
    intro b hb
    rcases List.mem_cons.mp hb with rfl | hb
    · exact ⟨_, .head _, hab⟩
    · obtain ⟨a, ha, h⟩ := ih b hb
      exact ⟨a, .tail _ ha, h⟩

theorem forall₂_map_eq {α β γ : Type} {R : α → β → Prop} {f : α → γ} {g : β → γ} {l : List α} {m : List β}
    (h : List.Forall₂ R l m) (hfg : ∀ a b, R a b → g b = f a) : m.map g = l.map f := by
  induction h with
  | nil => rfl
  | cons hab _ ih => rw [List.map_cons, List.map_cons, hfg _ _ hab, ih]

section
variable {Val K : Type} [Field K] [LinearOrder K]

/-- What is read from the files of a job. -/
theorem job_deltas [DecidableEq Val] (C : WrittenCfg Val K) {text : Val → String} (ht : Function.Injective text)
    {pick : List String → Option String} {pow10 : K → K} {blind : Bool} {outs : List (WrittenOut Val K)}
    (hnames : ((outs.flatMap (·.files)).map Prod.fst).Nodup)
    (hfiles : ∀ (r : Nat) (o : WrittenOut Val K), outs[r]? = some o →
      (∀ x ∈ o.deltas, ∃ f ∈ o.files, f.1 = deltaFile C.run r x) ∧
      (C.run.byHpx = true → ∀ f ∈ o.files, ∃ x ∈ o.deltas, f.1 = deltaFile C.run r x) ∧
      (C.run.byHpx = false → ∀ f ∈ o.files, f.1 = .rank r) ∧
      ∀ f ∈ o.files, ∃ ds arms, readDeltas pick pow10 (some f.2) = .ok ds ∧
        arms.Perm (signalArms (o.deltas.filter (fun x => decide (deltaFile C.run r x = f.1)))) ∧
        List.Forall₂ (fun y d => Recovered blind C.ra C.dec y.1 y.2 d) arms ds) :
    ∃ (data : String → List (Delta K)) (arms : String → List (ReadSpec K × String × List K)),
      (∀ k ∈ (writtenFiles text outs).keys, readDeltas pick pow10 ((writtenFiles text outs).lookup k) = .ok (data k) ∧
        List.Forall₂ (fun y d => Recovered blind C.ra C.dec y.1 y.2 d) (arms k) (data k)) ∧
      ((writtenFiles text outs).keys.flatMap arms).Perm (signalArms (outs.flatMap (·.deltas))) ∧
      (outs.flatMap (·.deltas) ≠ [] → (writtenFiles text outs).keys ≠ []) := by
  have hmem : ∀ o ∈ outs, ∃ r : Nat, outs[r]? = some o := fun o ho => List.mem_iff_getElem?.mp ho
  obtain ⟨hkeys, hnd, hlook⟩ := job_names C ht hnames (fun r o hr => (hfiles r o hr).2.1)
    (fun r o hr => (hfiles r o hr).2.2.1)
  have hone : ∀ k ∈ (writtenFiles text outs).keys, ∃ p : List (Delta K) × List (ReadSpec K × String × List K),
      readDeltas pick pow10 ((writtenFiles text outs).lookup k) = .ok p.1 ∧
      List.Forall₂ (fun y d => Recovered blind C.ra C.dec y.1 y.2 d) p.2 p.1 ∧
      ∀ (r : Nat) (o : WrittenOut Val K), outs[r]? = some o → ∀ f ∈ o.files, f.1.file text = k →
        p.2.Perm (signalArms (o.deltas.filter (fun x => decide (deltaFile C.run r x = f.1)))) := by
    intro k hk
    have hk' := hk
    rw [hkeys] at hk
    obtain ⟨g, hg, rfl⟩ := List.mem_map.mp hk
    obtain ⟨o, ho, hgo⟩ := List.mem_flatMap.mp hg
    obtain ⟨r, hr⟩ := hmem o ho
    obtain ⟨ds, arms, a1, a2, a3⟩ := (hfiles r o hr).2.2.2 g hgo
    refine ⟨(ds, arms), by rw [hlook g hg]; exact a1, a3, fun r' o' hr' f hf e => ?_⟩
    have hfm : f ∈ outs.flatMap (·.files) := List.mem_flatMap.mpr ⟨o', List.mem_of_getElem? hr', hf⟩
    have hfg : f = g := List.inj_on_of_nodup_map (hkeys ▸ hnd) hfm hg e
    subst hfg
    have : r' = r := by
      by_contra hne
      have hl := (List.getElem?_eq_some_iff.mp hr).1
      have hl' := (List.getElem?_eq_some_iff.mp hr').1
      have hp : outs.Pairwise (fun a b => List.Disjoint (a.files.map Prod.fst) (b.files.map Prod.fst)) := by
        rw [List.map_flatMap, List.nodup_flatMap] at hnames
        exact hnames.2
      have e1 : outs[r] = o := by simpa [hl] using hr
      have e2 : outs[r'] = o' := by simpa [hl'] using hr'
      rcases Nat.lt_or_gt_of_ne hne with hlt | hlt
      · have := List.pairwise_iff_getElem.mp hp r' r hl' hl hlt
        rw [e1, e2] at this
        exact this (List.mem_map.mpr ⟨f, hf, rfl⟩) (List.mem_map.mpr ⟨f, hgo, rfl⟩)
      · have := List.pairwise_iff_getElem.mp hp r r' hl hl' hlt
        rw [e1, e2] at this
        exact this (List.mem_map.mpr ⟨f, hgo, rfl⟩) (List.mem_map.mpr ⟨f, hf, rfl⟩)
    subst this
    rw [hr] at hr'
    cases hr'
    exact a2
  choose! q q1 q2 q3 using hone
  refine ⟨fun k => (q k).1, fun k => (q k).2, fun k hk => ⟨q1 k hk, q2 k hk⟩, ?_, fun hne => ?_⟩
  · rw [hkeys, List.flatMap_map, List.flatMap_assoc, signalArms_flatMap]
    refine List.Perm.flatMap_left _ fun o ho => ?_
    obtain ⟨r, hr⟩ := hmem o ho
    have hnd' : (o.files.map Prod.fst).Nodup := by
      rw [List.map_flatMap, List.nodup_flatMap] at hnames
      exact hnames.1 o ho
    refine (List.Perm.flatMap_left _ fun f hf => ?_ : List.Perm _ (o.files.flatMap (fun f =>
      signalArms (o.deltas.filter (fun x => decide (deltaFile C.run r x = f.1)))))).trans ?_
    · exact q3 _ (by
        rw [hkeys]
        exact List.mem_map.mpr ⟨f, List.mem_flatMap.mpr ⟨o, ho, hf⟩, rfl⟩) r o hr f hf rfl
    · rw [← signalArms_flatMap]
      refine List.Perm.flatMap_right _ ?_
      have := flatMap_keys_perm (deltaFile C.run r) hnd' (l := o.deltas) (fun x hx => by
        obtain ⟨f, hf, e⟩ := (hfiles r o hr).1 x hx
        exact List.mem_map.mpr ⟨f, hf, e⟩)
      rw [List.flatMap_map] at this
      exact this
  · obtain ⟨x, hx⟩ := List.exists_mem_of_ne_nil _ hne
    obtain ⟨o, ho, hxo⟩ := List.mem_flatMap.mp hx
    obtain ⟨r, hr⟩ := hmem o ho
    obtain ⟨f, hf, -⟩ := (hfiles r o hr).1 x hxo
    rw [hkeys]
    exact List.ne_nil_of_mem (List.mem_map.mpr ⟨f, List.mem_flatMap.mpr ⟨o, ho, hf⟩, rfl⟩)

end

/-! ### Deltas that can be coadded -/

section
variable {K : Type} [Field K] [LinearOrder K] [IsStrictOrderedRing K] [FloorRing K]

/-- A delta that can be coadded to others. -/
structure CoOk (w0 dwave : K) (parity : Option Nat) (d : Delta K) : Prop where
  ok : ∃ j, DeltaOk w0 dwave j d
  le : ∀ p ∈ d.pix, p.weight ≤ p.ivar
  reso : ArmReso parity d.wave.length d.reso

theorem coadd_coOk (sqrt : K → K) (nan eps : K) {w0 dwave : K} (hd : 0 < dwave) {parity : Option Nat} {d e : Delta K}
    (h1 : CoOk w0 dwave parity d) (h2 : CoOk w0 dwave parity e) :
    ∃ t, d.coadd sqrt nan eps dwave e = .ok t ∧ CoOk w0 dwave parity t := by
  obtain ⟨j1, o1⟩ := h1.ok
  obtain ⟨j2, o2⟩ := h2.ok
  have r1 := h1.reso
  have r2 := h2.reso
  cases parity with
  | none =>
    obtain ⟨t, ht, hr⟩ := coadd_ok_of_noReso sqrt nan eps hd o1 o2 r1
    obtain ⟨a, b⟩ := C67_weights_partial sqrt nan eps hd o1 o2 h1.le h2.le ht
    exact ⟨t, ht, ⟨_, a⟩, fun p hp => (b p hp).2, hr⟩
  | some p =>
    obtain ⟨rd, e1, f1, p1⟩ := r1
    obtain ⟨re, e2, f2, p2⟩ := r2
    obtain ⟨lo, hi, hlo, hhi, hu, hv, hform⟩ := coadd_form sqrt nan eps hd o1 o2
    rw [coaddDeltaReso_ok hd nan eps o1 o2 hlo hu hv (le_refl _) e1 e2 f1 f2 (p1.trans p2.symm)] at hform
    obtain ⟨a, b⟩ := C67_weights_partial sqrt nan eps hd o1 o2 h1.le h2.le hform
    refine ⟨_, hform, ⟨_, a⟩, fun p hp => (b p hp).2, _, rfl, fun r hr => ?_, ?_⟩
    · obtain ⟨i, -, rfl⟩ := List.mem_map.mp hr
      rw [List.length_map, List.length_range]
      exact (coadd_result sqrt nan eps hd o1 o2 hform).2.1.symm
    · rw [List.length_map, List.length_range]
      rcases le_total rd.length re.length with h | h
      · rw [max_eq_right h, p2]
      · rw [max_eq_left h, p1]

theorem coaddAll_coOk (sqrt : K → K) (nan eps : K) {w0 dwave : K} (hd : 0 < dwave) {parity : Option Nat}
    {l : List (Delta K)} (hne : l ≠ []) (h : ∀ d ∈ l, CoOk w0 dwave parity d) :
    ∃ t, coaddAll (fun a b => a.coadd sqrt nan eps dwave b) l = .ok t ∧ CoOk w0 dwave parity t := by
  obtain ⟨d, l, rfl⟩ := List.exists_cons_of_ne_nil hne
  change ∃ t, l.foldlM (fun a b => a.coadd sqrt nan eps dwave b) d = .ok t ∧ _
  have hd0 := h d (.head _)
  replace h : ∀ e ∈ l, CoOk w0 dwave parity e := fun e he => h e (.tail _ he)
  clear hne
  induction l generalizing d with
  | nil => exact ⟨d, rfl, hd0⟩
  | cons e l ih =>
    obtain ⟨t, ht, hk⟩ := coadd_coOk sqrt nan eps hd hd0 (h e (.head _))
    rw [List.foldlM_cons, ht, except_bind_ok]
    exact ih t hk (fun e he => h e (.tail _ he))

theorem coOk_recovered {w0 dwave : K} (hd : 0 < dwave) {parity : Option Nat} {blind : Bool} {ra dec : Int → K}
    {x : ReadSpec K} {a : String × List K} {d : Delta K} (h : Recovered blind ra dec x a d)
    (ha : ArmOk w0 dwave parity x a) : CoOk w0 dwave parity d := by
  obtain ⟨l1, l2, l3, l4⟩ := h.lengths
  obtain ⟨j, hj⟩ := ha.grid
  have hw : ∀ p ∈ d.pix, 0 ≤ p.weight ∧ p.weight ≤ p.ivar := by
    intro p hp
    obtain ⟨i, hi⟩ := List.mem_iff_getElem?.mp hp
    unfold Delta.pix at hi
    rw [List.getElem?_zipWith_eq_some] at hi
    obtain ⟨u, v, hu, hv, rfl⟩ := hi
    obtain ⟨u1, u2⟩ := List.getElem?_zip_eq_some.mp hu
    obtain ⟨v1, v2⟩ := List.getElem?_zip_eq_some.mp hv
    have hlt : i < a.2.length := l2 ▸ (List.getElem?_eq_some_iff.mp u1).1
    obtain ⟨f, v', w, c, -, q2, q3, -, q5, q6, -⟩ := h.pixel i hlt
    rw [q5] at u2
    rw [q6] at v1
    obtain ⟨w1, w2⟩ := ha.weight i v' w q2 q3
    rw [← Option.some.inj u2, ← Option.some.inj v1]
    exact ⟨mul_nonneg w1 (sq_nonneg c), mul_le_mul_of_nonneg_right w2 (sq_nonneg c)⟩
  refine ⟨⟨j, ?_, ?_, ?_, ?_, ?_, ?_, ?_, fun p hp => ⟨(hw p hp).1, fun h => h.trans_le (hw p hp).2⟩⟩,
    fun p hp => (hw p hp).2, ?_⟩
  · rw [h.wave]; exact ha.nonempty
  · rw [h.wave]; exact pairwise_of_onGrid hd hj
  · rw [h.wave]; exact hj
  · rw [h.wave]; exact l2
  · rw [h.wave]; exact l3
  · rw [h.wave]; exact l4
  · rw [h.wave]; exact l1
  · rw [h.wave, h.reso]; exact ha.reso

end

end Verif.Proofs

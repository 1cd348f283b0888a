import Verif.Spec.Increment
import Verif.Props.CoaddDeltas
import Verif.Props.DeltaFiles
import Verif.Props.Delta

/-!
# Lemmas for coadding in steps
-/

namespace Verif.Proofs
open Verif.Model Verif.Np Verif.Spec Verif.Props

section
variable {K : Type} [Field K] [LinearOrder K] [FloorRing K]

theorem coadd_targetid (sqrt : K → K) (nan eps dwave : K) {d e t : Delta K}
    (h : d.coadd sqrt nan eps dwave e = .ok t) : t.targetid = d.targetid := by
  unfold Delta.coadd at h
  simp only [Bind.bind, Except.bind, pure, Except.pure] at h
  repeat' split at h
  all_goals first | (cases h; done) | skip
  cases h
  rfl

theorem foldlM_targetid (sqrt : K → K) (nan eps dwave : K) (l : List (Delta K)) {d t : Delta K}
    (h : l.foldlM (fun a b => a.coadd sqrt nan eps dwave b) d = .ok t) : t.targetid = d.targetid := by
  induction l generalizing d with
  | nil => cases h; rfl
  | cons x l ih =>
    rw [List.foldlM_cons] at h
    cases hc : d.coadd sqrt nan eps dwave x with
    | error e => rw [hc] at h; cases h
    | ok y =>
      rw [hc, except_bind_ok] at h
      rw [ih h, coadd_targetid sqrt nan eps dwave hc]

theorem coaddAll_targetid (sqrt : K → K) (nan eps dwave : K) {l : List (Delta K)} {z : Delta K} {t : HVal K}
    (h : coaddAll (fun a b => a.coadd sqrt nan eps dwave b) l = .ok z) (hl : ∀ d ∈ l, d.targetid = t) :
    z.targetid = t := by
  cases l with
  | nil => cases h
  | cons x l => rw [foldlM_targetid sqrt nan eps dwave l h, hl x (.head _)]

omit [Field K] [LinearOrder K] [FloorRing K] in
theorem coaddAll_append {D : Type} {coadd : D → D → Except Err D} {l : List D} {z : D} (h : coaddAll coadd l = .ok z)
    (r : List D) : coaddAll coadd ([z] ++ r) = coaddAll coadd (l ++ r) := by
  cases l with
  | nil => cases h
  | cons a l =>
    change r.foldlM coadd z = (l ++ r).foldlM coadd a
    rw [List.foldlM_append, show l.foldlM coadd a = .ok z from h, except_bind_ok]

omit [Field K] [FloorRing K] in
theorem mem_ofTarget {t : HVal K} {l : List (Delta K)} {d : Delta K} : d ∈ ofTarget t l ↔ d ∈ l ∧ d.targetid = t := by
  unfold ofTarget
  rw [List.mem_filter, decide_eq_true_eq]

/-- `C64_written` and `C64_success` together: the run succeeds if and only if there is a file and the deltas of each target can
be coadded. -/
theorem main_iff (sqrt : K → K) (nan eps dwave : K) (glob : String → List String)
    (read : String → Except Err (List (Delta K))) (data : String → List (Delta K)) (ang2pix : K → K → Nat)
    (name : HVal K → String) (dirs : List String) (out : String)
    (hread : ∀ f ∈ dirs.flatMap glob, read f = .ok (data f)) (inputs : List (Delta K))
    (hin : inputs = (dirs.flatMap glob).flatMap data) (ra dec : HVal K → K)
    (hra : ∀ d ∈ inputs, d.header.lookup "RA" = some (.num (ra d.targetid)))
    (hdec : ∀ d ∈ inputs, d.header.lookup "DEC" = some (.num (dec d.targetid))) :
    let run := coaddDeltasMain glob read (fun a b => a.coadd sqrt nan eps dwave b) ang2pix name dirs out
    ((∃ files, run = .ok files) ↔ dirs.flatMap glob ≠ [] ∧ ∀ t ∈ inputs.map Delta.targetid,
      ∃ z, coaddAll (fun a b => a.coadd sqrt nan eps dwave b) (ofTarget t inputs) = .ok z) ∧
    ∀ files, run = .ok files → ∃ (Z : HVal K → Delta K) (hdu : HVal K → Hdu K),
      (∀ t ∈ inputs.map Delta.targetid,
        coaddAll (fun a b => a.coadd sqrt nan eps dwave b) (ofTarget t inputs) = .ok (Z t) ∧
        (Z t).write name = .ok (hdu t)) ∧
      (contents files).Perm ((inputs.map Delta.targetid).dedup.map (fun t =>
        (out ++ "/delta-" ++ Nat.repr (ang2pix (ra t) (dec t)) ++ ".fits", hdu t))) := by
  intro run
  have hin' : inputs = ((dirs.flatMap glob).map data).flatten := by rw [hin, List.flatMap_def]
  have hsucc : ∀ files, run = .ok files → dirs.flatMap glob ≠ [] ∧ ∃ Z : HVal K → Delta K,
      ∀ t ∈ inputs.map Delta.targetid,
        coaddAll (fun a b => a.coadd sqrt nan eps dwave b) (ofTarget t inputs) = .ok (Z t) := by
    intro files hf
    obtain ⟨hne, data', h1, Z, h2'⟩ := C64_success _ _ _ _ _ _ _ _ hf
    have h2 := fun t ht => (h2' t ht).1
    have : (dirs.flatMap glob).map data' = (dirs.flatMap glob).map data :=
      List.map_congr_left fun f hf => Except.ok.inj ((h1 f hf).symm.trans (hread f hf))
    rw [this, ← hin'] at h2
    exact ⟨hne, Z, h2⟩
  refine ⟨⟨?_, ?_⟩, ?_⟩
  · rintro ⟨files, hf⟩
    obtain ⟨hne, Z, hZ⟩ := hsucc files hf
    exact ⟨hne, fun t ht => ⟨Z t, hZ t ht⟩⟩
  · rintro ⟨hne, hz⟩
    obtain ⟨f0, hf0⟩ := List.exists_mem_of_ne_nil _ hne
    by_cases hi : inputs = []
    · have e : ((dirs.flatMap glob).map data).flatten = [] := hin' ▸ hi
      refine ⟨[], ?_⟩
      change coaddDeltasMain glob read _ ang2pix name dirs out = _
      unfold coaddDeltasMain readDirsToDict
      rw [if_neg (by simpa [List.isEmpty_iff] using hne), mapM_eq_ok hread, except_bind_ok, e]
      rfl
    · obtain ⟨d0, -⟩ := List.exists_mem_of_ne_nil _ hi
      haveI : Nonempty (Delta K) := ⟨d0⟩
      choose! Z hZ using hz
      obtain ⟨files, hdu, h1, -⟩ := C64_written sqrt nan eps dwave glob read data ang2pix name dirs out hne hread inputs hin' Z
        hZ ra dec hra hdec
      exact ⟨files, h1⟩
  · intro files hf
    obtain ⟨hne, Z, hZ⟩ := hsucc files hf
    obtain ⟨files', hdu, h1, -, h3, h4⟩ := C64_written sqrt nan eps dwave glob read data ang2pix name dirs out hne hread inputs
      hin' Z hZ ra dec hra hdec
    obtain rfl := Except.ok.inj (h1.symm.trans hf)
    exact ⟨Z, hdu, fun t ht => ⟨hZ t ht, h3 t ht⟩, h4⟩

end

section
variable {K : Type} [Field K] [LinearOrder K] [IsStrictOrderedRing K] [FloorRing K]

/-- A coadded delta is on the grid, if no weight is negative. -/
theorem coadd_deltaOk (sqrt : K → K) (nan eps : K) {w0 dwave : K} (hd : 0 < dwave) {j1 j2 : Nat}
    {d e t : Delta K} (h1 : DeltaOk w0 dwave j1 d) (h2 : DeltaOk w0 dwave j2 e)
    (ht : d.coadd sqrt nan eps dwave e = .ok t) (hw : ∀ p ∈ t.pix, 0 ≤ p.weight) :
    DeltaOk w0 dwave (min j1 j2) t := by
  obtain ⟨g, l, l1, l2, l3, l4, -, -, hp⟩ := coadd_result sqrt nan eps hd h1 h2 ht
  have p1 := List.length_pos_of_ne_nil h1.nonempty
  refine ⟨List.ne_nil_of_length_pos (by omega), pairwise_of_onGrid hd g, g, l1, l2, l3, l4, fun p hpm => ⟨hw p hpm, ?_⟩⟩
  obtain ⟨i, hi⟩ := List.mem_iff_getElem?.mp hpm
  have h := hp (min j1 j2 + i)
  have e0 : pixAt (min j1 j2) t.pix (min j1 j2 + i) = some p := by
    unfold pixAt
    rw [if_pos (by omega), Nat.add_sub_cancel_left, hi]
  rw [e0] at h
  split at h
  · rw [Option.some.injEq] at h
    rw [h]
    have hok : PixOk (both j1 j2 d e (min j1 j2 + i)) := by
      intro q hq
      simp only [both, List.mem_append, Option.mem_toList] at hq
      rcases hq with hq | hq
      · exact h1.nonneg q (pixAt_mem hq)
      · exact h2.nonneg q (pixAt_mem hq)
    rcases (dweight_nonneg hok).eq_or_lt with hz | hW
    · rw [coaddPix_zero hok hz.symm]
      exact fun h => absurd h (lt_irrefl _)
    · exact fun _ => (coaddPix_pos hok hW).2.2.2
  · cases h

/-- Deltas read from files and coadded are `Loaded`. -/
theorem loaded_coaddAll {pick : List String → Option String} {pow10 sqrt : K → K} {nan eps w0 dwave : K} (h0 : 0 < dwave)
    {l : List (Delta K)} {z : Delta K}
    (hl : ∀ d ∈ l, (∃ h, Delta.read pick pow10 h = .ok d) ∧ ∃ j, DeltaOk w0 dwave j d)
    (hn : ∀ l₁ x l₂, l = l₁ ++ x :: l₂ → ∀ y, coaddAll (fun a b => a.coadd sqrt nan eps dwave b) l₁ = .ok y →
      ∀ p ∈ y.pix, 0 ≤ p.weight)
    (h : coaddAll (fun a b => a.coadd sqrt nan eps dwave b) l = .ok z) : Loaded pick pow10 sqrt nan eps z := by
  have key : ∀ l₂ l₁ : List (Delta K), ∀ y, l = l₁ ++ l₂ →
      coaddAll (fun a b => a.coadd sqrt nan eps dwave b) l₁ = .ok y → Loaded pick pow10 sqrt nan eps y →
      (l₂ ≠ [] → ∃ j, DeltaOk w0 dwave j y) → Loaded pick pow10 sqrt nan eps z := by
    intro l₂
    induction l₂ with
    | nil =>
      intro l₁ y e hy hL _
      rw [List.append_nil] at e
      rw [e, hy] at h
      exact Except.ok.inj h ▸ hL
    | cons x l₂ ih =>
      intro l₁ y e hy hL hok
      obtain ⟨j1, h1⟩ := hok (by simp)
      obtain ⟨-, j2, h2⟩ := hl x (by rw [e]; simp)
      have e' : l = (l₁ ++ [x]) ++ l₂ := by rw [e, List.append_assoc]; rfl
      have hs : coaddAll (fun a b => a.coadd sqrt nan eps dwave b) (l₁ ++ [x]) = y.coadd sqrt nan eps dwave x := by
        rw [← coaddAll_append hy [x]]
        change [x].foldlM (fun a b : Delta K => a.coadd sqrt nan eps dwave b) y = _
        rw [List.foldlM_cons]
        cases y.coadd sqrt nan eps dwave x <;> rfl
      cases hc : y.coadd sqrt nan eps dwave x with
      | error er =>
        have : coaddAll (fun a b => a.coadd sqrt nan eps dwave b) l = .error er := by
          rw [hc] at hs
          rw [e']
          have hne : l₁ ++ [x] ≠ [] := by simp
          obtain ⟨a, m, hm⟩ := List.exists_cons_of_ne_nil hne
          rw [hm] at hs ⊢
          change (m ++ l₂).foldlM _ a = _
          rw [List.foldlM_append, show m.foldlM _ a = _ from hs]
          rfl
        rw [this] at h
        cases h
      | ok y' =>
        rw [hc] at hs
        refine ih (l₁ ++ [x]) y' e' hs (.coadd hL h0 h1 h2 hc) fun hne => ?_
        obtain ⟨x', l₃, rfl⟩ := List.exists_cons_of_ne_nil hne
        exact ⟨_, coadd_deltaOk sqrt nan eps h0 h1 h2 hc (hn _ _ _ e' y' hs)⟩
  cases l with
  | nil => cases h
  | cons d l =>
    obtain ⟨⟨x, h1⟩, h2⟩ := hl d (.head _)
    exact key l [d] d rfl rfl (.read h1) (fun _ => h2)

omit [IsStrictOrderedRing K] [FloorRing K] in
theorem read_of_readDeltas {pick : List String → Option String} {pow10 : K → K} {t : Option (List (Hdu K))}
    {l : List (Delta K)} (h : readDeltas pick pow10 t = .ok l) : ∀ d ∈ l, ∃ x, Delta.read pick pow10 x = .ok d := by
  cases t with
  | none => cases h
  | some t =>
    change t.mapM (Delta.read pick pow10) = .ok l at h
    induction t generalizing l with
    | nil => cases h; intro d hd; cases hd
    | cons a t ih =>
      rw [List.mapM_cons] at h
      cases ha : Delta.read pick pow10 a with
      | error e => rw [ha] at h; cases h
      | ok x =>
        rw [ha, except_bind_ok] at h
        cases ht : t.mapM (Delta.read pick pow10) with
        | error e => rw [ht] at h; cases h
        | ok xs =>
          rw [ht, except_bind_ok] at h
          obtain rfl := Except.ok.inj h
          intro d hd
          rcases List.mem_cons.mp hd with rfl | hd
          exacts [⟨a, ha⟩, ih ht d hd]

omit [IsStrictOrderedRing K] [FloorRing K] in
theorem ofTarget_map {Z : HVal K → Delta K} {T : List (HVal K)} (hT : T.Nodup) (hZ : ∀ t ∈ T, (Z t).targetid = t)
    (t : HVal K) : ofTarget t (T.map Z) = if t ∈ T then [Z t] else [] := by
  induction T with
  | nil => rfl
  | cons a T ih =>
    rw [List.nodup_cons] at hT
    unfold ofTarget at ih ⊢
    rw [List.map_cons, List.filter_cons, ih hT.2 (fun t ht => hZ t (.tail _ ht)), hZ a (.head _)]
    by_cases h : a = t
    · subst h
      simp [hT.1]
    · have h' : t ≠ a := fun e => h e.symm
      simp [h, h']

/-- What the second run reads from the directory of the first. -/
theorem reread {pick : List String → Option String} (hp : IsPick pick) {pow10 sqrt : K → K} {nan eps : K}
    (name : HVal K → String) {T : List (HVal K)} {Z : HVal K → Delta K} {hdu : HVal K → Hdu K} {fname : HVal K → String}
    (hL : ∀ t ∈ T, Loaded pick pow10 sqrt nan eps (Z t)) (hw : ∀ t ∈ T, (Z t).write name = .ok (hdu t))
    {files : List (String × List (Hdu K))} (hc : (contents files).Perm (T.map (fun t => (fname t, hdu t))))
    {D E : Disk K} {dir : String} {others : List String} (hE : NewDir D E dir files others) :
    ∃ data : String → List (Delta K), (∀ f ∈ E.glob dir, readDeltas pick pow10 (E.tables f) = .ok (data f)) ∧
      ((E.glob dir).flatMap data).Perm (T.map Z) := by
  have hrd : ∀ t ∈ T, Delta.read pick pow10 (hdu t) = .ok (Z t) := by
    intro t ht
    obtain ⟨h, h1, h2⟩ := C30_delta_roundtrip hp name (hL t ht)
    rw [hw t ht] at h1
    obtain rfl := Except.ok.inj h1
    exact h2
  have hmem : ∀ f ∈ files, ∀ h ∈ f.2, ∃ t ∈ T, hdu t = h := by
    intro f hf h hh
    have : (f.1, h) ∈ contents files := List.mem_flatMap.mpr ⟨f, hf, List.mem_map.mpr ⟨h, hh, rfl⟩⟩
    obtain ⟨t, ht, e⟩ := List.mem_map.mp (hc.mem_iff.mp this)
    exact ⟨t, ht, (Prod.mk.inj e).2⟩
  let R : Hdu K → Option (Delta K) := fun h => (Delta.read pick pow10 h).toOption
  have hR : ∀ t ∈ T, R (hdu t) = some (Z t) := fun t ht => by
    change (Delta.read pick pow10 (hdu t)).toOption = _
    rw [hrd t ht]
    rfl
  refine ⟨fun f => ((E.tables f).getD []).filterMap R, ?_, ?_⟩
  · intro f hf
    obtain ⟨x, hx, rfl⟩ := List.mem_map.mp (hE.names.mem_iff.mp hf)
    dsimp only
    rw [hE.tables x hx]
    change x.2.mapM (Delta.read pick pow10) = .ok (x.2.filterMap R)
    have key : ∀ l : List (Hdu K), (∀ h ∈ l, ∃ t ∈ T, hdu t = h) →
        l.mapM (Delta.read pick pow10) = .ok (l.filterMap R) := by
      intro l
      induction l with
      | nil => exact fun _ => rfl
      | cons a l ih =>
        intro hl
        obtain ⟨t, ht, rfl⟩ := hl a (.head _)
        rw [List.mapM_cons, hrd t ht, except_bind_ok, ih (fun h hh => hl h (.tail _ hh)), except_bind_ok,
          List.filterMap_cons_some (hR t ht)]
        rfl
    exact key x.2 (hmem x hx)
  · have e1 := hE.names.flatMap_right (fun f => ((E.tables f).getD []).filterMap R)
    have e2 : (files.map Prod.fst).flatMap (fun f => ((E.tables f).getD []).filterMap R) =
        (contents files).filterMap (fun x => R x.2) := by
      unfold contents
      rw [List.flatMap_map, List.filterMap_flatMap]
      refine List.flatMap_congr fun x hx => ?_
      rw [hE.tables x hx, List.filterMap_map]
      rfl
    have e3 := hc.filterMap (fun x : String × Hdu K => R x.2)
    have e4 : (T.map (fun t => (fname t, hdu t))).filterMap (fun x : String × Hdu K => R x.2) = T.map Z := by
      rw [List.filterMap_map]
      clear hc e3 hmem hw hL
      induction T with
      | nil => rfl
      | cons a T ih =>
        rw [List.filterMap_cons_some (show ((fun x : String × Hdu K => R x.2) ∘ fun t => (fname t, hdu t)) a = some (Z a)
          from hR a (.head _)), ih (fun t ht => hrd t (.tail _ ht)) (fun t ht => hR t (.tail _ ht)), List.map_cons]
    rw [e4] at e3
    rw [← e2] at e3
    exact e1.trans e3

end

end Verif.Proofs

import Verif.Proofs.Fitter

/-!
# Lemmas: the iterations do not depend on the distribution of the spectra
-/

namespace Verif.Proofs
open Verif.Model Verif.Model.Prog Verif.Model.FitterFns Verif.Spec

variable {G Sp R Q D V : Type}

/-- All spectra of the ranks `0..n`. -/
abbrev pooled (n : Nat) (sp : Nat → List Sp) : List Sp := (List.range (n + 1)).flatMap sp

/-- State of the iterations: functions, spectra and verdict of the iteration. -/
def iterState (F : FitterFns G Sp R Q D) (n : Nat) (hf : Bool) (g0 : G) (sp0 : Nat → List Sp) :
    Nat → G × (Nat → List Sp) × Bool
  | 0 => (g0, sp0, false)
  | i + 1 =>
    let p := iterState F n hf g0 sp0 i
    let sp' := fun r => (p.2.1 r).map (F.fitOne p.1)
    let m := F.meanUpd p.1 (F.addR ((List.range (n + 1)).map (fun r => F.stack p.1 (validOf F (sp' r)))))
    (if hf then F.varUpd m.1 (F.addQ ((List.range (n + 1)).map (fun r => F.varAcc r m.1 (validOf F (sp' r)))))
      else m.1, sp', m.2)

/-- There are iterations from any start. -/
theorem exists_iterations (F : FitterFns G Sp R Q D) (n : Nat) (hf : Bool) (g0 : G) (sp0 : Nat → List Sp) :
    ∃ g sp conv, Iterations F n hf g sp conv ∧ g 0 = g0 ∧ sp 0 = sp0 :=
  ⟨fun i => (iterState F n hf g0 sp0 i).1, fun i => (iterState F n hf g0 sp0 i).2.1,
    fun i => (iterState F n hf g0 sp0 i).2.2,
    ⟨fun _ _ => rfl, fun _ => rfl, fun _ => ⟨_, rfl, rfl⟩⟩, rfl, rfl⟩

/-- The two fitters do the same apart from the variance, and the sums of the stack are those of the pooled spectra. -/
structure Pools (F F' : FitterFns G Sp R Q D) (P : Sp → Prop) : Prop where
  fitOne : F'.fitOne = F.fitOne
  valid : F'.valid = F.valid
  meanUpd : F'.meanUpd = F.meanUpd
  keep : ∀ g s, P s → P (F.fitOne g s)
  sums : ∀ g n n' (sp sp' : Nat → List Sp), (pooled n sp).Perm (pooled n' sp') → (∀ s ∈ pooled n sp, P s) →
    F.addR ((List.range (n + 1)).map (fun r => F.stack g (validOf F (sp r)))) =
      F'.addR ((List.range (n' + 1)).map (fun r => F'.stack g (validOf F (sp' r))))

theorem pooled_map (n : Nat) (sp : Nat → List Sp) (f : Sp → Sp) :
    pooled n (fun r => (sp r).map f) = (pooled n sp).map f := by
  unfold pooled
  rw [List.map_flatMap]

theorem pooled_someValid {F : FitterFns G Sp R Q D} {n : Nat} {sp : Nat → List Sp} :
    SomeValid F n sp ↔ ∃ s ∈ pooled n sp, F.valid s = true := by
  unfold SomeValid pooled
  constructor
  · rintro ⟨r, hr, s, hs, hv⟩
    exact ⟨s, List.mem_flatMap.mpr ⟨r, List.mem_range.mpr (by omega), hs⟩, hv⟩
  · rintro ⟨s, hs, hv⟩
    obtain ⟨r, hr, hs⟩ := List.mem_flatMap.mp hs
    exact ⟨r, by have := List.mem_range.mp hr; omega, s, hs, hv⟩

theorem iterations_pool {F F' : FitterFns G Sp R Q D} {P : Sp → Prop} (hF : Pools F F' P) {n n' : Nat}
    {g g' : Nat → G} {sp sp' : Nat → Nat → List Sp} {conv conv' : Nat → Bool}
    (h : Iterations F n false g sp conv) (h' : Iterations F' n' false g' sp' conv') (hg : g 0 = g' 0)
    (hp : (pooled n (sp 0)).Perm (pooled n' (sp' 0))) (hP : ∀ s ∈ pooled n (sp 0), P s) (i : Nat) :
    g i = g' i ∧ (pooled n (sp i)).Perm (pooled n' (sp' i)) ∧ (∀ s ∈ pooled n (sp i), P s) ∧
      conv (i + 1) = conv' (i + 1) := by
  have hvo : ∀ l, validOf F' l = validOf F l := fun l => by unfold validOf; rw [hF.valid]
  have step : ∀ i, g i = g' i → (pooled n (sp i)).Perm (pooled n' (sp' i)) → (∀ s ∈ pooled n (sp i), P s) →
      (pooled n (sp (i + 1))).Perm (pooled n' (sp' (i + 1))) ∧ (∀ s ∈ pooled n (sp (i + 1)), P s) ∧
      g (i + 1) = g' (i + 1) ∧ conv (i + 1) = conv' (i + 1) := by
    intro i e1 e2 e3
    have s1 : sp (i + 1) = fun r => (sp i r).map (F.fitOne (g i)) := funext (h.fit i)
    have s2 : sp' (i + 1) = fun r => (sp' i r).map (F.fitOne (g i)) := by
      funext r
      rw [h'.fit i r, hF.fitOne, ← e1]
    have p1 : (pooled n (sp (i + 1))).Perm (pooled n' (sp' (i + 1))) := by
      rw [s1, s2, pooled_map, pooled_map]
      exact e2.map _
    have p2 : ∀ s ∈ pooled n (sp (i + 1)), P s := by
      rw [s1, pooled_map]
      intro s hs
      obtain ⟨t, ht, rfl⟩ := List.mem_map.mp hs
      exact hF.keep _ _ (e3 t ht)
    have q := hF.sums (g i) n n' (sp (i + 1)) (sp' (i + 1)) p1 p2
    refine ⟨p1, p2, ?_, ?_⟩
    · obtain ⟨m, hm, hgm⟩ := h.update i
      obtain ⟨m', hm', hgm'⟩ := h'.update i
      simp only [Bool.false_eq_true, if_false] at hgm hgm'
      rw [hgm, hgm', hm, hm', hF.meanUpd, ← e1, q]
      simp only [hvo]
    · rw [h.converged i, h'.converged i, hF.meanUpd, ← e1, q]
      simp only [hvo]
  induction i with
  | zero => exact ⟨hg, hp, hP, (step 0 hg hp hP).2.2.2⟩
  | succ i ih =>
    obtain ⟨a1, a2, a3, -⟩ := ih
    obtain ⟨b1, b2, b3, -⟩ := step i a1 a2 a3
    exact ⟨b3, b1, b2, (step (i + 1) b3 b1 b2).2.2.2⟩

/-- A number of iterations that is minimal. -/
theorem stop_unique {conv : Nat → Bool} {niter k k' : Nat} (hk : k ≤ niter) (hk' : k' ≤ niter)
    (h0 : 0 < niter → 0 < k) (h0' : 0 < niter → 0 < k')
    (h1 : ∀ j, 0 < j → j < k → conv j = false) (h1' : ∀ j, 0 < j → j < k' → conv j = false)
    (h2 : k = niter ∨ conv k = true) (h2' : k' = niter ∨ conv k' = true) : k = k' := by
  rcases Nat.lt_trichotomy k k' with hlt | he | hgt
  · exfalso
    rcases h2 with h2 | h2
    · omega
    · rw [h1' k (h0 (by omega)) hlt] at h2; exact absurd h2 (by simp)
  · exact he
  · exfalso
    rcases h2' with h2' | h2'
    · omega
    · rw [h1 k' (h0' (by omega)) hgt] at h2'; exact absurd h2' (by simp)

/-- The iterations on two distributions of the spectra. What every step keeps of a spectrum is kept by all. -/
theorem sync_pool_inv {F F' : FitterFns G Sp R Q D} {P : Sp → Prop} (hF : Pools F F' P)
    (hn : F'.normalize = F.normalize) (he : F'.etaCalib = F.etaCalib)
    (hd : F'.dataCont = F.dataCont ∧ F'.dataFlux = F.dataFlux ∧ F'.dataFluxRf = F.dataFluxRf)
    (c c' : FitterCodecs R Q V) (n n' : Nat) (g0 : G) (sp sp' : Nat → List Sp)
    (hp : (pooled n sp).Perm (pooled n' sp')) (hP : ∀ s ∈ pooled n sp, P s) (fname : String) (niter : Nat) :
    (∃ (k : Nat) (b : Bool) (f : Sp → Sp) (gfin gfin' : G) (exts tail tail' : List (String × D)),
      Sync n (fun r => F.iterate c fname niter false r g0 (sp r))
        (fun r => .ok (gfin, (sp r).map f, k, b))
        (fun r => if r = 0 ∧ fname ≠ "" then
          [.create fname] ++ (exts ++ tail).map (.write fname) ++ [.close fname] else []) ∧
      Sync n' (fun r => F'.iterate c' fname niter false r g0 (sp' r))
        (fun r => .ok (gfin', (sp' r).map f, k, b))
        (fun r => if r = 0 ∧ fname ≠ "" then
          [.create fname] ++ (exts ++ tail').map (.write fname) ++ [.close fname] else []) ∧
      tail.map Prod.fst = ["CONT-fit", "STACKED_FLUX-fit", "STACKED_FLUX_RF-fit", "VAR_FUNC-fit", "VAR_STATS"] ∧
      tail'.map Prod.fst = tail.map Prod.fst ∧
      (tail = F.saveExts true "-fit" gfin ++ [("VAR_STATS", F.dataStats gfin)] ∧
        tail' = F'.saveExts true "-fit" gfin' ++ [("VAR_STATS", F'.dataStats gfin')]) ∧
      ∀ I : Sp → Sp → Prop, (∀ y, I y y) → (∀ g y x, I y x → I y (F.fitOne g x)) →
        (∀ g y x, I y x → I y (F.normalize g x)) → (∀ g y x, I y x → I y (F.etaCalib g x)) → ∀ y, I y (f y)) ∨
    (∃ ev : List (SaverEv (String × D)),
      Sync n (fun r => F.iterate c fname niter false r g0 (sp r)) (fun _ => .error .qsonic)
        (fun r => if r = 0 ∧ fname ≠ "" then ev else []) ∧
      Sync n' (fun r => F'.iterate c' fname niter false r g0 (sp' r)) (fun _ => .error .qsonic)
        (fun r => if r = 0 ∧ fname ≠ "" then ev else [])) := by
  obtain ⟨g, s, conv, h, rfl, rfl⟩ := exists_iterations F n false g0 sp
  obtain ⟨g', s', conv', h', hg0, rfl⟩ := exists_iterations F' n' false (g 0) sp'
  have key := iterations_pool hF h h' hg0.symm hp hP
  have hgg : g' = g := funext fun i => (key i).1.symm
  subst hgg
  have hcc : ∀ i, 0 < i → conv' i = conv i := by
    intro i hi
    obtain ⟨j, rfl⟩ : ∃ j, i = j + 1 := ⟨i - 1, by omega⟩
    exact (key j).2.2.2.symm
  have hsv : ∀ i, SomeValid F n (s i) ↔ SomeValid F' n' (s' i) := by
    intro i
    rw [pooled_someValid, pooled_someValid, hF.valid]
    constructor
    · rintro ⟨x, hx, hv⟩; exact ⟨x, (key i).2.1.mem_iff.mp hx, hv⟩
    · rintro ⟨x, hx, hv⟩; exact ⟨x, (key i).2.1.mem_iff.mpr hx, hv⟩
  have hmap : ∀ i, ∃ f : Sp → Sp, (∀ r, s i r = (s 0 r).map f) ∧ (∀ r, s' i r = (s' 0 r).map f) ∧
      ∀ I : Sp → Sp → Prop, (∀ y, I y y) → (∀ g y x, I y x → I y (F.fitOne g x)) → ∀ y, I y (f y) := by
    intro i
    induction i with
    | zero => exact ⟨id, fun r => by simp, fun r => by simp, fun I h0 _ y => h0 y⟩
    | succ i ih =>
      obtain ⟨f, f1, f2, f3⟩ := ih
      refine ⟨F.fitOne (g' i) ∘ f, fun r => ?_, fun r => ?_, fun I h0 h1 y => h1 _ _ _ (f3 I h0 h1 y)⟩
      · rw [h.fit i r, f1 r, List.map_map]
      · rw [h'.fit i r, f2 r, hF.fitOne, List.map_map]
  have hexts : ∀ suff x, F'.saveExts false suff x = F.saveExts false suff x := by
    intro suff x
    unfold FitterFns.saveExts
    rw [hd.1, hd.2.1, hd.2.2]
    rfl
  have hsaved : ∀ i k, savedFrom F' false g' i k = savedFrom F false g' i k := by
    intro i k
    unfold savedFrom
    simp only [hexts]
  have hinit : ∀ r, Saver.init (D := String × D) fname r =
      if r = 0 ∧ fname ≠ "" then ([.create fname], ⟨some fname⟩) else ([], ⟨none⟩) := fun r => rfl
  by_cases hv : ∀ j < niter, (∀ l, 0 < l → l ≤ j → conv l = false) → SomeValid F n (s (j + 1))
  · left
    have hv' : ∀ j < niter, (∀ l, 0 < l → l ≤ j → conv' l = false) → SomeValid F' n' (s' (j + 1)) := by
      intro j hj hl
      exact (hsv _).mp (hv j hj fun l h1 h2 => by rw [← hcc l h1]; exact hl l h1 h2)
    obtain ⟨k, hk, k1, k2, k3, k4⟩ := sync_iterate (c := c) h fname niter hv
    obtain ⟨k', hk', k1', k2', k3', k4'⟩ := sync_iterate (c := c') h' fname niter hv'
    obtain rfl : k = k' := by
      refine stop_unique (conv := conv) hk hk' k1 k1' k2 (fun j j1 j2 => ?_) k3 ?_
      · rw [← hcc j j1]; exact k2' j j1 j2
      · rcases k3' with e | e
        · exact .inl e
        · rcases Nat.eq_zero_or_pos niter with e0 | e0
          · left; omega
          · right; rw [← hcc k' (k1' e0)]; exact e
    obtain ⟨f, f1, f2, f3⟩ := hmap k
    have htw : F'.tweak (g' k) = F.tweak (g' k) := by
      funext l
      unfold FitterFns.tweak
      rw [hn, he, hF.valid]
    have hb : (if k = 0 then false else conv' k) = if k = 0 then false else conv k := by
      by_cases e : k = 0
      · rw [if_pos e, if_pos e]
      · rw [if_neg e, if_neg e, hcc k (by omega)]
    have hwr : ∀ (r : Nat) (l : List (String × D)), Saver.session fname r l = if r = 0 ∧ fname ≠ "" then
        [.create fname] ++ l.map (.write fname) ++ [.close fname] else [] := by
      intro r l
      split
      · next hr => rw [hr.1]; exact session_root fname hr.2 l
      · next hr =>
        refine session_none fname r ?_ l
        by_cases h0 : r = 0
        · right; by_contra hne; exact hr ⟨h0, hne⟩
        · exact .inl h0
    refine ⟨k, if k = 0 then false else conv k,
      (fun x => F.etaCalib (g' k) (if F.valid x = true then F.normalize (g' k) x else x)) ∘ f,
      finalG F n false (g' k) (fun r => F.tweak (g' k) (s k r)),
      finalG F' n' false (g' k) (fun r => F'.tweak (g' k) (s' k r)),
      savedFrom F false g' 0 k ++ F.saveExts false "" (g' k),
      F.saveExts true "-fit" (finalG F n false (g' k) (fun r => F.tweak (g' k) (s k r))) ++
        [("VAR_STATS", F.dataStats (finalG F n false (g' k) (fun r => F.tweak (g' k) (s k r))))],
      F'.saveExts true "-fit" (finalG F' n' false (g' k) (fun r => F'.tweak (g' k) (s' k r))) ++
        [("VAR_STATS", F'.dataStats (finalG F' n' false (g' k) (fun r => F'.tweak (g' k) (s' k r))))],
      ?_, ?_, ?_, ?_, ⟨rfl, rfl⟩, ?_⟩
    · refine k4.congr (fun _ _ => rfl) (fun r _ => Eq.symm ?_) (fun r _ => Eq.symm ?_)
      · rw [f1 r, ← List.map_map]
        unfold FitterFns.tweak
        rw [List.map_map (l := (s 0 r).map f)]
        rfl
      · rw [hwr]
        unfold allExts
        simp only [Bool.false_eq_true, if_false, List.append_assoc]
    · refine k4'.congr (fun _ _ => rfl) (fun r _ => Eq.symm ?_) (fun r _ => Eq.symm ?_)
      · rw [hb, htw, f2 r, ← List.map_map]
        unfold FitterFns.tweak
        rw [List.map_map (l := (s' 0 r).map f)]
        rfl
      · rw [hwr]
        unfold allExts
        rw [hsaved, hexts]
        simp only [Bool.false_eq_true, if_false, List.append_assoc]
    · rfl
    · rfl
    · intro I h0 h1 h2 h3 y
      refine h3 _ _ _ ?_
      split
      · exact h2 _ _ _ (f3 I h0 h1 y)
      · exact f3 I h0 h1 y
  · right
    have hex : ∃ j, j < niter ∧ (∀ l, 0 < l → l ≤ j → conv l = false) ∧ ¬ SomeValid F n (s (j + 1)) := by
      push Not at hv
      obtain ⟨j, h1, h2, h3⟩ := hv
      exact ⟨j, h1, h2, h3⟩
    classical
    obtain ⟨h1, h2, h3⟩ := Nat.find_spec hex
    have hmin : ∀ l < Nat.find hex, SomeValid F n (s (l + 1)) := by
      intro l hl
      by_contra hbad
      exact Nat.find_min hex hl ⟨by omega, fun q q1 q2 => h2 q q1 (by omega), hbad⟩
    have r1 := sync_iterate_fail (c := c) h fname niter (Nat.find hex) h1 hmin
      (fun l hl => h2 (l + 1) (by omega) (by omega)) h3
    have r2 := sync_iterate_fail (c := c') h' fname niter (Nat.find hex) h1 (fun l hl => (hsv _).mp (hmin l hl))
      (fun l hl => by rw [hcc (l + 1) (by omega)]; exact h2 (l + 1) (by omega) (by omega)) ((hsv _).not.mp h3)
    have hlog : ∀ (r : Nat) (l : List (String × D)), (Saver.init (D := String × D) fname r).1 ++
        l.flatMap (Saver.init (D := String × D) fname r).2.write =
        if r = 0 ∧ fname ≠ "" then .create fname :: l.map (.write fname) else [] := by
      intro r l
      rw [hinit]
      split
      · change [SaverEv.create fname] ++ l.flatMap (fun x => [SaverEv.write fname x]) = _
        rw [List.singleton_append, List.map_eq_flatMap]
      · change [] ++ l.flatMap (fun _ => []) = _
        simp
    refine ⟨.create fname :: (savedFrom F false g' 0 (Nat.find hex + 1)).map (.write fname), ?_, ?_⟩
    · exact r1.congr (fun _ _ => rfl) (fun _ _ => rfl) (fun r _ => (hlog r _).symm)
    · refine r2.congr (fun _ _ => rfl) (fun _ _ => rfl) (fun r _ => Eq.symm ?_)
      rw [hsaved]
      exact hlog r _

/-- The iterations on two distributions of the spectra. -/
theorem sync_pool {F F' : FitterFns G Sp R Q D} {P : Sp → Prop} (hF : Pools F F' P)
    (hn : F'.normalize = F.normalize) (he : F'.etaCalib = F.etaCalib)
    (hd : F'.dataCont = F.dataCont ∧ F'.dataFlux = F.dataFlux ∧ F'.dataFluxRf = F.dataFluxRf)
    (c c' : FitterCodecs R Q V) (n n' : Nat) (g0 : G) (sp sp' : Nat → List Sp)
    (hp : (pooled n sp).Perm (pooled n' sp')) (hP : ∀ s ∈ pooled n sp, P s) (fname : String) (niter : Nat) :
    (∃ (k : Nat) (b : Bool) (f : Sp → Sp) (gfin gfin' : G) (exts tail tail' : List (String × D)),
      Sync n (fun r => F.iterate c fname niter false r g0 (sp r))
        (fun r => .ok (gfin, (sp r).map f, k, b))
        (fun r => if r = 0 ∧ fname ≠ "" then
          [.create fname] ++ (exts ++ tail).map (.write fname) ++ [.close fname] else []) ∧
      Sync n' (fun r => F'.iterate c' fname niter false r g0 (sp' r))
        (fun r => .ok (gfin', (sp' r).map f, k, b))
        (fun r => if r = 0 ∧ fname ≠ "" then
          [.create fname] ++ (exts ++ tail').map (.write fname) ++ [.close fname] else []) ∧
      tail.map Prod.fst = ["CONT-fit", "STACKED_FLUX-fit", "STACKED_FLUX_RF-fit", "VAR_FUNC-fit", "VAR_STATS"] ∧
      tail'.map Prod.fst = tail.map Prod.fst) ∨
    (∃ ev : List (SaverEv (String × D)),
      Sync n (fun r => F.iterate c fname niter false r g0 (sp r)) (fun _ => .error .qsonic)
        (fun r => if r = 0 ∧ fname ≠ "" then ev else []) ∧
      Sync n' (fun r => F'.iterate c' fname niter false r g0 (sp' r)) (fun _ => .error .qsonic)
        (fun r => if r = 0 ∧ fname ≠ "" then ev else [])) := by
  rcases sync_pool_inv hF hn he hd c c' n n' g0 sp sp' hp hP fname niter with
    ⟨k, b, f, gfin, gfin', exts, tail, tail', h1, h2, h3, h4, -⟩ | h
  · exact .inl ⟨k, b, f, gfin, gfin', exts, tail, tail', h1, h2, h3, h4⟩
  · exact .inr h

/-- The iterations on two distributions of the spectra. -/
theorem job_pool {F F' : FitterFns G Sp R Q D} {P : Sp → Prop} (hF : Pools F F' P)
    (hn : F'.normalize = F.normalize) (he : F'.etaCalib = F.etaCalib)
    (hd : F'.dataCont = F.dataCont ∧ F'.dataFlux = F.dataFlux ∧ F'.dataFluxRf = F.dataFluxRf)
    (c c' : FitterCodecs R Q V) (n n' : Nat) (g0 : G) (sp sp' : Nat → List Sp)
    (hp : (pooled n sp).Perm (pooled n' sp')) (hP : ∀ s ∈ pooled n sp, P s) (fname : String) (niter : Nat) :
    (∃ (k : Nat) (b : Bool) (f : Sp → Sp) (gfin gfin' : G) (exts tail tail' : List (String × D)),
      runJob n (fun r => F.iterate c fname niter false r g0 (sp r)) =
        (.done ((List.range (n + 1)).map (fun r => .ok (gfin, (sp r).map f, k, b))),
         (List.range (n + 1)).map (fun r => if r = 0 ∧ fname ≠ "" then
          [.create fname] ++ (exts ++ tail).map (.write fname) ++ [.close fname] else [])) ∧
      runJob n' (fun r => F'.iterate c' fname niter false r g0 (sp' r)) =
        (.done ((List.range (n' + 1)).map (fun r => .ok (gfin', (sp' r).map f, k, b))),
         (List.range (n' + 1)).map (fun r => if r = 0 ∧ fname ≠ "" then
          [.create fname] ++ (exts ++ tail').map (.write fname) ++ [.close fname] else [])) ∧
      tail.map Prod.fst = ["CONT-fit", "STACKED_FLUX-fit", "STACKED_FLUX_RF-fit", "VAR_FUNC-fit", "VAR_STATS"] ∧
      tail'.map Prod.fst = tail.map Prod.fst) ∨
    (∃ ev : List (SaverEv (String × D)),
      runJob n (fun r => F.iterate c fname niter false r g0 (sp r)) =
        (.done ((List.range (n + 1)).map (fun _ => .error .qsonic)),
          (List.range (n + 1)).map (fun r => if r = 0 ∧ fname ≠ "" then ev else [])) ∧
      runJob n' (fun r => F'.iterate c' fname niter false r g0 (sp' r)) =
        (.done ((List.range (n' + 1)).map (fun _ => .error .qsonic)),
          (List.range (n' + 1)).map (fun r => if r = 0 ∧ fname ≠ "" then ev else []))) := by
  rcases sync_pool hF hn he hd c c' n n' g0 sp sp' hp hP fname niter with
    ⟨k, b, f, gfin, gfin', exts, tail, tail', h1, h2, h3, h4⟩ | ⟨ev, h1, h2⟩
  · exact .inl ⟨k, b, f, gfin, gfin', exts, tail, tail', h1.job, h2.job, h3, h4⟩
  · exact .inr ⟨ev, h1.job, h2.job⟩

end Verif.Proofs

import Verif.Spec.Fitter
import Verif.Proofs.Sync
import Std.Data.String.ToNat
import Verif.Proofs.ExceptList

/-!
# Lemmas on the continuum fitter
-/

namespace Verif.Proofs
open Verif.Model Verif.Model.Prog Verif.Model.FitterFns Verif.Spec

variable {G Sp R Q D V W : Type} {F : FitterFns G Sp R Q D} {c : FitterCodecs R Q V}

theorem sumNat_map (n : Nat) (f : Nat → Nat) :
    c.nat.dec (sumNat c ((List.range (n + 1)).map (fun r => c.nat.enc (f r)))) =
      ((List.range (n + 1)).map f).sum := by
  unfold sumNat
  rw [c.nat.dec_enc, List.map_map]
  congr 1
  refine List.map_congr_left fun i _ => ?_
  exact c.nat.dec_enc _

theorem countP_flatMap (n : Nat) (f : Nat → List Sp) (p : Sp → Bool) :
    ((List.range (n + 1)).map (fun r => (f r).countP p)).sum = ((List.range (n + 1)).flatMap f).countP p := by
  rw [List.countP_flatMap]
  rfl

theorem sync_fitContinua (n : Nat) (g : Nat → G) (specs : Nat → List Sp) :
    Sync n (fun r => (F.fitContinua c (g r) (specs r) : Prog V W _))
      (fun r =>
        if ((List.range (n + 1)).flatMap (fun r => (specs r).map (F.fitOne (g r)))).countP (fun s => F.valid s) = 0
        then .error .qsonic
        else .ok ((specs r).map (F.fitOne (g r)),
          ((List.range (n + 1)).flatMap (fun r => (specs r).map (F.fitOne (g r)))).countP (fun s => F.valid s),
          ((List.range (n + 1)).flatMap (fun r => (specs r).map (F.fitOne (g r)))).countP (fun s => !F.valid s)))
      (fun _ => []) := by
  unfold fitContinua
  dsimp only
  refine sync_allreduce _ _ (sync_allreduce _ _ ?_)
  rw [sumNat_map, sumNat_map, countP_flatMap, countP_flatMap]
  split
  · exact sync_raise n (fun _ => .qsonic)
  · exact sync_ret n _

theorem sync_updateMeanCont (n : Nat) (g : G) (specs : Nat → List Sp) :
    Sync n (fun r => (F.updateMeanCont c g (specs r) : Prog V W _))
      (fun _ => .ok (F.meanUpd g (F.addR ((List.range (n + 1)).map (fun r => F.stack g (validOf F (specs r)))))))
      (fun _ => []) := by
  unfold updateMeanCont
  refine sync_allreduce (fun _ => _) _ ?_
  rw [c.stack.dec_enc, List.map_map]
  have : (c.stack.dec ∘ fun r => c.stack.enc (F.stack g ((specs r).filter (fun s => F.valid s)))) =
      fun r => F.stack g (validOf F (specs r)) := by
    funext r; exact c.stack.dec_enc _
  rw [this]
  exact sync_ret n _

theorem sync_updateVarLssEta (n : Nat) (g : G) (specs : Nat → List Sp) :
    Sync n (fun r => (F.updateVarLssEta c r g (specs r) : Prog V W _))
      (fun _ => .ok (F.varUpd g (F.addQ ((List.range (n + 1)).map (fun r => F.varAcc r g (validOf F (specs r)))))))
      (fun _ => []) := by
  unfold updateVarLssEta
  refine sync_allreduce (fun _ => _) _ ?_
  rw [c.var.dec_enc, List.map_map]
  have : (c.var.dec ∘ fun r => c.var.enc (F.varAcc r g ((specs r).filter (fun s => F.valid s)))) =
      fun r => F.varAcc r g (validOf F (specs r)) := by
    funext r; exact c.var.dec_enc _
  rw [this]
  exact sync_ret n _

theorem sync_varStep (n : Nat) (hf : Bool) (g : G) (specs : Nat → List Sp) :
    Sync n (fun r => (F.varStep c r hf g (specs r) : Prog V W _))
      (fun _ => .ok (if hf then F.varUpd g (F.addQ ((List.range (n + 1)).map
        (fun r => F.varAcc r g (validOf F (specs r))))) else g)) (fun _ => []) := by
  unfold varStep
  cases hf with
  | true => simp only [if_true]; exact sync_updateVarLssEta n g specs
  | false => simp only [Bool.false_eq_true, if_false]; exact sync_ret n _

theorem someValid_iff {n : Nat} {sp : Nat → List Sp} :
    ((List.range (n + 1)).flatMap sp).countP (fun s => F.valid s) = 0 ↔ ¬ SomeValid F n sp := by
  rw [List.countP_eq_zero]
  unfold SomeValid
  constructor
  · rintro h ⟨r, hr, s, hs, hv⟩
    exact h s (List.mem_flatMap.mpr ⟨r, List.mem_range.mpr (by omega), hs⟩) hv
  · intro h s hs hv
    obtain ⟨r, hr, hs⟩ := List.mem_flatMap.mp hs
    exact h ⟨r, by have := List.mem_range.mp hr; omega, s, hs, hv⟩

/-- One iteration with a valid spectrum. -/
theorem sync_step {n : Nat} {hf : Bool} {g : Nat → G} {sp : Nat → Nat → List Sp} {conv : Nat → Bool}
    (h : Iterations F n hf g sp conv) {i : Nat} (hv : SomeValid F n (sp (i + 1))) (sv : Nat → Saver) (m : Nat)
    {x : Nat → Except Err (G × List Sp × Nat × Bool)} {M : Nat → List (SaverEv (String × D))}
    (hx : Sync n (fun r => if conv (i + 1) then .ret (g (i + 1), sp (i + 1) r, i + 1, true)
      else F.iterLoop c (sv r) r hf m (i + 1) (g (i + 1)) (sp (i + 1) r)) x M) :
    Sync n (fun r => F.iterLoop c (sv r) r hf (m + 1) i (g i) (sp i r)) x
      (fun r => F.saveEv (sv r) hf (suffix i) (g i) ++ M r) := by
  have h1 := sync_fitContinua (F := F) (c := c) (W := SaverEv (String × D)) n (fun _ => g i) (sp i)
  have e1 : (fun r => (sp i r).map (F.fitOne (g i))) = sp (i + 1) := by funext r; exact (h.fit i r).symm
  simp only [e1, if_neg (someValid_iff.not.mpr (not_not.mpr hv))] at h1
  have e1' : ∀ r, (sp i r).map (F.fitOne (g i)) = sp (i + 1) r := fun r => (h.fit i r).symm
  simp only [e1'] at h1
  obtain ⟨m0, hm0, hg⟩ := h.update i
  have hc := h.converged i
  have h2 := sync_updateMeanCont (F := F) (c := c) (W := SaverEv (String × D)) n (g i) (sp (i + 1))
  have h3 := sync_varStep (F := F) (c := c) (W := SaverEv (String × D)) n hf m0 (sp (i + 1))
  rw [← hg] at h3
  generalize F.meanUpd (g i) (F.addR ((List.range (n + 1)).map
    (fun r => F.stack (g i) (validOf F (sp (i + 1) r))))) = mm at h2 hm0 hc
  subst hm0
  rw [hc] at hx
  have := sync_emits (fun r => F.saveEv (sv r) hf (suffix i) (g i))
    (h1.bind (f := fun r f => (F.updateMeanCont c (g i) f.1).bind fun m' =>
      (F.varStep c r hf m'.1 f.1).bind fun g2 =>
      if m'.2 then .ret (g2, f.1, i + 1, true) else F.iterLoop c (sv r) r hf m (i + 1) g2 f.1)
      (h2.bind (f := fun r m' => (F.varStep c r hf m'.1 (sp (i + 1) r)).bind fun g2 =>
        if m'.2 then .ret (g2, sp (i + 1) r, i + 1, true)
        else F.iterLoop c (sv r) r hf m (i + 1) g2 (sp (i + 1) r)) (h3.bind hx)))
  exact this.congr (fun r _ => rfl) (fun _ _ => rfl) (fun r _ => by simp)

/-- One iteration without any valid spectrum. -/
theorem sync_step_fail {n : Nat} {hf : Bool} {g : Nat → G} {sp : Nat → Nat → List Sp} {conv : Nat → Bool}
    (h : Iterations F n hf g sp conv) {i : Nat} (hv : ¬ SomeValid F n (sp (i + 1))) (sv : Nat → Saver) (m : Nat) :
    Sync n (fun r => F.iterLoop c (sv r) r hf (m + 1) i (g i) (sp i r)) (fun _ => .error .qsonic)
      (fun r => F.saveEv (sv r) hf (suffix i) (g i)) := by
  have h1 := sync_fitContinua (F := F) (c := c) (W := SaverEv (String × D)) n (fun _ => g i) (sp i)
  have e1 : (fun r => (sp i r).map (F.fitOne (g i))) = sp (i + 1) := by funext r; exact (h.fit i r).symm
  simp only [e1, if_pos (someValid_iff.mpr hv)] at h1
  have := sync_emits (fun r => F.saveEv (sv r) hf (suffix i) (g i))
    (h1.bind_error (fun r f => (F.updateMeanCont c (g i) f.1).bind fun m' =>
      (F.varStep c r hf m'.1 f.1).bind fun g2 =>
      if m'.2 then .ret (g2, f.1, i + 1, true) else F.iterLoop c (sv r) r hf m (i + 1) g2 f.1))
  exact this.congr (fun r _ => rfl) (fun _ _ => rfl) (fun r _ => by simp)

/-- What is saved in `k` iterations from iteration `i`. -/
def savedFrom (F : FitterFns G Sp R Q D) (hf : Bool) (g : Nat → G) (i k : Nat) : List (String × D) :=
  (List.range k).flatMap (fun j => F.saveExts hf (suffix (i + j)) (g (i + j)))

theorem savedFrom_succ (hf : Bool) (g : Nat → G) (i k : Nat) :
    savedFrom F hf g i (k + 1) = F.saveExts hf (suffix i) (g i) ++ savedFrom F hf g (i + 1) k := by
  unfold savedFrom
  rw [List.range_succ_eq_map, List.flatMap_cons, List.flatMap_map, Nat.add_zero]
  congr 1
  refine List.flatMap_congr fun j _ => ?_
  rw [show i + (j + 1) = i + 1 + j by omega]

theorem sync_iterLoop {n : Nat} {hf : Bool} {g : Nat → G} {sp : Nat → Nat → List Sp} {conv : Nat → Bool}
    (h : Iterations F n hf g sp conv) (sv : Nat → Saver) (m i : Nat)
    (hv : ∀ j < m, (∀ l, 0 < l → l ≤ j → conv (i + l) = false) → SomeValid F n (sp (i + j + 1))) :
    ∃ k ≤ m, (0 < m → 0 < k) ∧ (∀ j, 0 < j → j < k → conv (i + j) = false) ∧
      (k = m ∨ conv (i + k) = true) ∧
      Sync n (fun r => F.iterLoop c (sv r) r hf m i (g i) (sp i r))
        (fun r => .ok (g (i + k), sp (i + k) r, i + k, if k = 0 then false else conv (i + k)))
        (fun r => (savedFrom F hf g i k).flatMap (sv r).write) := by
  induction m generalizing i with
  | zero =>
    refine ⟨0, le_rfl, by omega, fun j h1 h2 => absurd h2 (by omega), .inl rfl, ?_⟩
    unfold iterLoop
    exact (sync_ret n _).congr (fun _ _ => rfl) (fun _ _ => by simp) (fun _ _ => rfl)
  | succ m ih =>
    cases hc : conv (i + 1) with
    | true =>
      refine ⟨1, by omega, by omega, fun j h1 h2 => absurd h2 (by omega), .inr hc, ?_⟩
      have := sync_step (c := c) h (hv 0 (by omega) (by omega)) sv m (x := fun r => .ok (g (i + 1), sp (i + 1) r, i + 1, true))
        (M := fun _ => []) (by rw [hc]; simp only [if_true]; exact sync_ret n _)
      refine this.congr (fun _ _ => rfl) (fun _ _ => by simp [hc]) (fun r _ => ?_)
      rw [savedFrom_succ]
      simp [savedFrom, saveEv]
    | false =>
      obtain ⟨k, hk, -, h2, h3, h4⟩ := ih (i + 1) (fun j hj hl => by
        have := hv (j + 1) (by omega) (fun l l1 l2 => by
          rcases Nat.eq_or_lt_of_le l1 with e | hlt
          · rw [← e]; exact hc
          · have := hl (l - 1) (by omega) (by omega)
            rwa [show i + 1 + (l - 1) = i + l by omega] at this)
        rwa [show i + (j + 1) + 1 = i + 1 + j + 1 by omega] at this)
      refine ⟨k + 1, by omega, by omega, fun j hj1 hj2 => ?_, ?_, ?_⟩
      · rcases Nat.eq_or_lt_of_le hj1 with e | hlt
        · rw [← e]; exact hc
        · have := h2 (j - 1) (by omega) (by omega)
          rwa [show i + 1 + (j - 1) = i + j by omega] at this
      · rcases h3 with h3 | h3
        · left; omega
        · right; rwa [show i + (k + 1) = i + 1 + k by omega]
      · have := sync_step (c := c) h (hv 0 (by omega) (by omega)) sv m (by
          rw [hc]; simp only [Bool.false_eq_true, if_false]; exact h4)
        refine this.congr (fun _ _ => rfl) (fun r _ => ?_) (fun r _ => ?_)
        · rw [show i + (k + 1) = i + 1 + k by omega]
          rcases Nat.eq_zero_or_pos k with e | hp
          · subst e
            simp [hc]
          · rw [if_neg (by omega), if_neg (by omega)]
        · rw [savedFrom_succ, List.flatMap_append]
          rfl

theorem sync_iterLoop_fail {n : Nat} {hf : Bool} {g : Nat → G} {sp : Nat → Nat → List Sp} {conv : Nat → Bool}
    (h : Iterations F n hf g sp conv) (sv : Nat → Saver) (m i j : Nat) (hj : j < m)
    (hv : ∀ l < j, SomeValid F n (sp (i + l + 1))) (hc : ∀ l < j, conv (i + l + 1) = false)
    (hbad : ¬ SomeValid F n (sp (i + j + 1))) :
    Sync n (fun r => F.iterLoop c (sv r) r hf m i (g i) (sp i r)) (fun _ => .error .qsonic)
      (fun r => (savedFrom F hf g i (j + 1)).flatMap (sv r).write) := by
  induction m generalizing i j with
  | zero => omega
  | succ m ih =>
    cases j with
    | zero =>
      refine (sync_step_fail h hbad sv m).congr (fun _ _ => rfl) (fun _ _ => rfl) (fun r _ => ?_)
      rw [savedFrom_succ]
      simp [savedFrom, saveEv]
    | succ j =>
      have h4 := ih (i + 1) j (by omega) (fun l hl => by
        have := hv (l + 1) (by omega)
        rwa [show i + (l + 1) + 1 = i + 1 + l + 1 by omega] at this) (fun l hl => by
        have := hc (l + 1) (by omega)
        rwa [show i + (l + 1) + 1 = i + 1 + l + 1 by omega] at this) (by
        rwa [show i + (j + 1) + 1 = i + 1 + j + 1 by omega] at hbad)
      have := sync_step (c := c) h (hv 0 (by omega)) sv m (by
        rw [show i + 1 = i + 0 + 1 by omega, hc 0 (by omega)]
        simp only [Bool.false_eq_true, if_false]
        exact h4)
      refine this.congr (fun _ _ => rfl) (fun _ _ => rfl) (fun r _ => ?_)
      rw [savedFrom_succ, List.flatMap_append]
      rfl

/-- The functions after `fit_final_varlss` (`n + 1` ranks). -/
def finalG (F : FitterFns G Sp R Q D) (n : Nat) (hf : Bool) (g : G) (specs : Nat → List Sp) : G :=
  if hf then g
  else
    let g1 := F.varUpd (F.newVar g) (F.addQ ((List.range (n + 1)).map
      (fun r => F.varAcc r (F.newVar g) (validOf F (specs r)))))
    (F.meanUpd g1 (F.addR ((List.range (n + 1)).map (fun r => F.stack g1 (validOf F (specs r)))))).1

theorem sync_finalVar (n : Nat) (hf : Bool) (sv : Nat → Saver) (g : G) (specs : Nat → List Sp) :
    Sync n (fun r => F.finalVar c (sv r) r hf g (specs r)) (fun _ => .ok (finalG F n hf g specs))
      (fun r => (if hf then [] else F.saveExts true "-fit" (finalG F n hf g specs)).flatMap (sv r).write) := by
  unfold finalVar
  cases hf with
  | true => simp only [if_true]; exact sync_ret n _
  | false =>
    simp only [Bool.false_eq_true, if_false]
    unfold fitFinalVarlss
    have h1 := sync_updateVarLssEta (F := F) (c := c) (W := SaverEv (String × D)) n (F.newVar g) specs
    have h2 := sync_updateMeanCont (F := F) (c := c) (W := SaverEv (String × D)) n
      (F.varUpd (F.newVar g) (F.addQ ((List.range (n + 1)).map
        (fun r => F.varAcc r (F.newVar g) (validOf F (specs r)))))) specs
    have h3 := h1.bind (f := fun r g1 => (F.updateMeanCont c g1 (specs r)).bind fun m => .ret m.1)
      (h2.bind (f := fun r m => .ret m.1) (sync_ret n _))
    have h4 := h3.bind (f := fun r g' => .emits (F.saveEv (sv r) true "-fit" g') (.ret g'))
      (sync_emits _ (sync_ret n _))
    exact h4.congr (fun _ _ => rfl) (fun _ _ => rfl) (fun r _ => by simp [saveEv, finalG])

/-- All extensions that a run of `k` iterations writes. -/
def allExts (F : FitterFns G Sp R Q D) (hf : Bool) (g : Nat → G) (k : Nat) (gf : G) : List (String × D) :=
  savedFrom F hf g 0 k ++ F.saveExts hf "" (g k) ++ (if hf then [] else F.saveExts true "-fit" gf) ++
    [("VAR_STATS", F.dataStats gf)]

theorem sync_iterate {n : Nat} {hf : Bool} {g : Nat → G} {sp : Nat → Nat → List Sp} {conv : Nat → Bool}
    (h : Iterations F n hf g sp conv) (fname : String) (niter : Nat)
    (hv : ∀ j < niter, (∀ l, 0 < l → l ≤ j → conv l = false) → SomeValid F n (sp (j + 1))) :
    ∃ k ≤ niter, (0 < niter → 0 < k) ∧ (∀ j, 0 < j → j < k → conv j = false) ∧ (k = niter ∨ conv k = true) ∧
      Sync n (fun r => F.iterate c fname niter hf r (g 0) (sp 0 r))
        (fun r => .ok (finalG F n hf (g k) (fun r => F.tweak (g k) (sp k r)), F.tweak (g k) (sp k r), k,
          if k = 0 then false else conv k))
        (fun r => Saver.session fname r
          (allExts F hf g k (finalG F n hf (g k) (fun r => F.tweak (g k) (sp k r))))) := by
  obtain ⟨k, hk, h1, h2, h3, h4⟩ := sync_iterLoop (c := c) h
    (fun r => (Saver.init (D := String × D) fname r).2) niter 0 (fun j hj hl => by
      simp only [Nat.zero_add] at hl ⊢; exact hv j hj hl)
  simp only [Nat.zero_add] at h2 h3 h4
  refine ⟨k, hk, h1, h2, h3, ?_⟩
  have h5 := sync_finalVar (F := F) (c := c) n hf (fun r => (Saver.init (D := String × D) fname r).2) (g k)
    (fun r => F.tweak (g k) (sp k r))
  have h6 := sync_emits (fun r => (Saver.init (D := String × D) fname r).1)
    (h4.bind (f := fun r q => .emits (F.saveEv (Saver.init (D := String × D) fname r).2 hf "" q.1) <|
      (F.finalVar c (Saver.init (D := String × D) fname r).2 r hf q.1 (F.tweak q.1 q.2.1)).bind fun g' =>
      .emits ((Saver.init (D := String × D) fname r).2.write ("VAR_STATS", F.dataStats g') ++
        (Saver.init (D := String × D) fname r).2.close) <|
      .ret (g', F.tweak q.1 q.2.1, q.2.2))
      (sync_emits (fun r => F.saveEv (Saver.init (D := String × D) fname r).2 hf "" (g k))
        (h5.bind (f := fun r g' => .emits ((Saver.init (D := String × D) fname r).2.write
            ("VAR_STATS", F.dataStats g') ++ (Saver.init (D := String × D) fname r).2.close) <|
          .ret (g', F.tweak (g k) (sp k r), k, if k = 0 then false else conv k))
          (sync_emits _ (sync_ret n _)))))
  refine h6.congr (fun _ _ => rfl) (fun _ _ => rfl) (fun r _ => ?_)
  unfold Saver.session allExts
  simp only [List.flatMap_append, List.flatMap_cons, List.flatMap_nil, List.append_nil, saveEv, List.append_assoc]

theorem sync_iterate_fail {n : Nat} {hf : Bool} {g : Nat → G} {sp : Nat → Nat → List Sp} {conv : Nat → Bool}
    (h : Iterations F n hf g sp conv) (fname : String) (niter j : Nat) (hj : j < niter)
    (hv : ∀ l < j, SomeValid F n (sp (l + 1))) (hc : ∀ l < j, conv (l + 1) = false)
    (hbad : ¬ SomeValid F n (sp (j + 1))) :
    Sync n (fun r => F.iterate c fname niter hf r (g 0) (sp 0 r)) (fun _ => .error .qsonic)
      (fun r => (Saver.init (D := String × D) fname r).1 ++
        (savedFrom F hf g 0 (j + 1)).flatMap (Saver.init (D := String × D) fname r).2.write) := by
  have h4 := sync_iterLoop_fail (c := c) h (fun r => (Saver.init (D := String × D) fname r).2) niter 0 j hj
    (by simpa using hv) (by simpa using hc) (by simpa using hbad)
  have h6 := sync_emits (fun r => (Saver.init (D := String × D) fname r).1)
    (h4.bind_error (fun r q => .emits (F.saveEv (Saver.init (D := String × D) fname r).2 hf "" q.1) <|
      (F.finalVar c (Saver.init (D := String × D) fname r).2 r hf q.1 (F.tweak q.1 q.2.1)).bind fun g' =>
      .emits ((Saver.init (D := String × D) fname r).2.write ("VAR_STATS", F.dataStats g') ++
        (Saver.init (D := String × D) fname r).2.close) <|
      .ret (g', F.tweak q.1 q.2.1, q.2.2)))
  exact h6.congr (fun _ _ => rfl) (fun _ _ => rfl) (fun r _ => rfl)

theorem session_root (fname : String) (hf : fname ≠ "") (l : List D) :
    Saver.session fname 0 l = [.create fname] ++ l.map (.write fname) ++ [.close fname] := by
  have : Saver.init (D := D) fname 0 = ([.create fname], ⟨some fname⟩) := by simp [Saver.init, hf]
  unfold Saver.session
  rw [this]
  dsimp only
  congr 2
  induction l with
  | nil => rfl
  | cons a l ih => exact congrArg _ ih

theorem session_none (fname : String) (r : Nat) (h : r ≠ 0 ∨ fname = "") (l : List D) :
    Saver.session fname r l = [] := by
  have : Saver.init (D := D) fname r = ([], ⟨none⟩) := by
    unfold Saver.init
    rw [if_neg]
    rcases h with h | h
    · exact fun h' => h h'.1
    · exact fun h' => h'.2 h
  unfold Saver.session
  rw [this]
  dsimp only
  induction l with
  | nil => rfl
  | cons a l ih => exact ih

/-! ### Extension names -/

/-- Base and suffix determine the name and conversely. -/
theorem name_inj {b b' s s' : String} (hb : '-' ∉ b.toList) (hb' : '-' ∉ b'.toList)
    (hs : s.toList = [] ∨ ∃ t, s.toList = '-' :: t) (hs' : s'.toList = [] ∨ ∃ t, s'.toList = '-' :: t)
    (h : b ++ s = b' ++ s') : b = b' ∧ s = s' := by
  have h1 : b.toList ++ s.toList = b'.toList ++ s'.toList := by
    rw [← String.toList_append, ← String.toList_append, h]
  have key : ∀ {l t : List Char}, '-' ∉ l → (t = [] ∨ ∃ u, t = '-' :: u) →
      (l ++ t).takeWhile (fun c => c ≠ '-') = l := by
    intro l t hl ht
    rw [List.takeWhile_append_of_pos (fun a ha => by
      simp only [ne_eq, decide_eq_true_eq]
      rintro rfl
      exact hl ha)]
    rcases ht with rfl | ⟨u, rfl⟩ <;> simp
  have h2 := congrArg (List.takeWhile (fun c => decide (c ≠ '-'))) h1
  rw [key hb hs, key hb' hs'] at h2
  rw [h2] at h1
  exact ⟨String.toList_injective h2, String.toList_injective (List.append_cancel_left h1)⟩

/-- The bases of the extension names of one save. -/
def bases (hf : Bool) : List String :=
  ["CONT", "STACKED_FLUX", "STACKED_FLUX_RF"] ++ if hf then ["VAR_FUNC"] else []

/-- Base and suffix of all extensions. -/
def namePairs (hf : Bool) (k : Nat) : List (String × String) :=
  (List.range k).flatMap (fun i => (bases hf).map (·, suffix i)) ++ (bases hf).map (·, "") ++
    (if hf then [] else (bases true).map (·, "-fit")) ++ [("VAR_STATS", "")]

theorem names_saveExts (hf : Bool) (suff : String) (g : G) :
    (F.saveExts hf suff g).map Prod.fst = ((bases hf).map (·, suff)).map (fun p => p.1 ++ p.2) := by
  cases hf <;> rfl

theorem names_allExts (hf : Bool) (g : Nat → G) (k : Nat) (gf : G) :
    (allExts F hf g k gf).map Prod.fst = (namePairs hf k).map (fun p => p.1 ++ p.2) := by
  unfold allExts namePairs savedFrom
  simp only [List.map_append, List.map_flatMap, names_saveExts, Nat.zero_add]
  congr 1
  congr 1
  cases hf with
  | true => rfl
  | false => exact names_saveExts true "-fit" gf

theorem suffix_inj {i j : Nat} (h : suffix i = suffix j) : i = j := by
  have h1 : ("-" ++ Nat.repr (i + 1)).toList = ("-" ++ Nat.repr (j + 1)).toList := congrArg String.toList h
  rw [String.toList_append, String.toList_append] at h1
  have := Nat.repr_injective (String.toList_injective (List.append_cancel_left h1))
  omega

theorem suffix_toList (i : Nat) : (suffix i).toList = '-' :: (Nat.repr (i + 1)).toList := by
  unfold suffix
  rw [String.toList_append]
  rfl

theorem suffix_ne_fit (i : Nat) : suffix i ≠ "-fit" := by
  intro h
  have h1 := suffix_toList i
  rw [h] at h1
  have h2 : Nat.repr (i + 1) = "fit" := by
    apply String.toList_injective
    exact (List.cons.inj h1).2.symm
  have h3 : 'f' ∈ Nat.toDigits 10 (i + 1) := by
    rw [← Nat.toList_repr, h2]
    decide
  exact absurd (Nat.isDigit_of_mem_toDigits (by decide) (by decide) h3) (by decide)

theorem suffix_ne_empty (i : Nat) : suffix i ≠ "" := by
  intro h
  have h1 := suffix_toList i
  rw [h] at h1
  exact absurd h1 (by simp)

theorem bases_nodup (hf : Bool) : (bases hf).Nodup := by cases hf <;> decide

theorem nodup_namePairs (hf : Bool) (k : Nat) : (namePairs hf k).Nodup := by
  have hb := bases_nodup
  have inj : ∀ (hf : Bool) (s : String), ((bases hf).map (fun b => (b, s))).Nodup := fun hf s =>
    List.Nodup.map (fun a b h => (Prod.mk.inj h).1) (hb hf)
  have msuf : ∀ {hf : Bool} {s : String} {p : String × String}, p ∈ (bases hf).map (fun b => (b, s)) → p.2 = s := by
    intro hf s p hp
    obtain ⟨b, -, rfl⟩ := List.mem_map.mp hp
    rfl
  unfold namePairs
  rw [List.nodup_append, List.nodup_append, List.nodup_append]
  refine ⟨⟨⟨?_, inj hf "", ?_⟩, ?_, ?_⟩, List.nodup_singleton _, ?_⟩
  · rw [List.nodup_flatMap]
    refine ⟨fun i _ => inj hf _, ?_⟩
    refine List.Nodup.pairwise_of_forall_ne List.nodup_range fun i _ j _ hij => ?_
    intro p h1 h2
    exact hij (suffix_inj ((msuf h1).symm.trans (msuf h2)))
  · rintro p h1 q h2 rfl
    obtain ⟨i, -, h1⟩ := List.mem_flatMap.mp h1
    exact suffix_ne_empty i ((msuf h1).symm.trans (msuf h2))
  · cases hf
    · exact inj true _
    · exact List.nodup_nil
  · rintro p h1 q h2 rfl
    cases hf with
    | true => exact absurd h2 (by simp)
    | false =>
      simp only [Bool.false_eq_true, if_false] at h2
      have e := msuf h2
      rcases List.mem_append.mp h1 with h1 | h1
      · obtain ⟨i, -, h1⟩ := List.mem_flatMap.mp h1
        exact suffix_ne_fit i ((msuf h1).symm.trans e)
      · have := (msuf h1).symm.trans e
        exact absurd this (by decide)
  · rintro p h1 q h2 rfl
    rw [List.mem_singleton] at h2
    subst h2
    have mb : ∀ {hf : Bool} {s : String}, ("VAR_STATS", "") ∉ (bases hf).map (fun b => (b, s)) := by
      intro hf s h
      obtain ⟨b, hb, e⟩ := List.mem_map.mp h
      rw [(Prod.mk.inj e).1] at hb
      cases hf <;> exact absurd hb (by decide)
    rcases List.mem_append.mp h1 with h1 | h1
    · rcases List.mem_append.mp h1 with h1 | h1
      · obtain ⟨i, -, h1⟩ := List.mem_flatMap.mp h1
        exact mb h1
      · exact mb h1
    · cases hf with
      | true => exact absurd h1 (by simp)
      | false => exact mb h1

theorem namePairs_good {hf : Bool} {k : Nat} {p : String × String} (hp : p ∈ namePairs hf k) :
    '-' ∉ p.1.toList ∧ (p.2.toList = [] ∨ ∃ t, p.2.toList = '-' :: t) := by
  have hb : ∀ {hf : Bool} {b : String}, b ∈ bases hf → '-' ∉ b.toList := by
    intro hf b hb
    have hb : b ∈ bases true := by
      cases hf with
      | true => exact hb
      | false =>
        unfold bases at hb ⊢
        simp only [Bool.false_eq_true, if_false, List.append_nil, if_true] at hb ⊢
        exact List.mem_append_left _ hb
    have : ∀ b ∈ bases true, '-' ∉ b.toList := by decide
    exact this b hb
  unfold namePairs at hp
  rcases List.mem_append.mp hp with hp | hp
  · rcases List.mem_append.mp hp with hp | hp
    · rcases List.mem_append.mp hp with hp | hp
      · obtain ⟨i, -, h1⟩ := List.mem_flatMap.mp hp
        obtain ⟨b, hb', rfl⟩ := List.mem_map.mp h1
        exact ⟨hb hb', .inr ⟨_, suffix_toList i⟩⟩
      · obtain ⟨b, hb', rfl⟩ := List.mem_map.mp hp
        exact ⟨hb hb', .inl rfl⟩
    · cases hf with
      | true => exact absurd hp (by simp)
      | false =>
        obtain ⟨b, hb', rfl⟩ := List.mem_map.mp hp
        exact ⟨hb hb', .inr ⟨"fit".toList, (by decide : "-fit".toList = '-' :: "fit".toList)⟩⟩
  · rw [List.mem_singleton] at hp
    subst hp
    exact ⟨by decide, .inl rfl⟩

theorem nodup_names (hf : Bool) (g : Nat → G) (k : Nat) (gf : G) : ((allExts F hf g k gf).map Prod.fst).Nodup := by
  rw [names_allExts]
  refine List.Nodup.map_on (fun p hp q hq h => ?_) (nodup_namePairs hf k)
  obtain ⟨h1, h2⟩ := namePairs_good hp
  obtain ⟨h3, h4⟩ := namePairs_good hq
  obtain ⟨h5, h6⟩ := name_inj h1 h3 h2 h4 h
  exact Prod.ext h5 h6

theorem mem_saveExts (hf : Bool) (suff : String) (g : G) :
    ("CONT" ++ suff, F.dataCont g) ∈ F.saveExts hf suff g ∧
      ("STACKED_FLUX" ++ suff, F.dataFlux g) ∈ F.saveExts hf suff g ∧
      ("STACKED_FLUX_RF" ++ suff, F.dataFluxRf g) ∈ F.saveExts hf suff g ∧
      (hf = true → ("VAR_FUNC" ++ suff, F.dataVar g) ∈ F.saveExts hf suff g) := by
  unfold FitterFns.saveExts
  refine ⟨List.mem_append_left _ (List.mem_cons_self), List.mem_append_left _ (.tail _ (.head _)),
    List.mem_append_left _ (.tail _ (.tail _ (.head _))), ?_⟩
  rintro rfl
  exact List.mem_append_right _ (.head _)

theorem mem_allExts (hf : Bool) (g : Nat → G) (k : Nat) (gf : G) :
    (∀ i < k, ∀ p ∈ F.saveExts hf (suffix i) (g i), p ∈ allExts F hf g k gf) ∧
      (∀ p ∈ F.saveExts hf "" (g k), p ∈ allExts F hf g k gf) ∧
      (hf = false → ∀ p ∈ F.saveExts true "-fit" gf, p ∈ allExts F hf g k gf) ∧
      ("VAR_STATS", F.dataStats gf) ∈ allExts F hf g k gf := by
  unfold allExts savedFrom
  refine ⟨fun i hi p hp => ?_, fun p hp => ?_, ?_, List.mem_append_right _ (.head _)⟩
  · refine List.mem_append_left _ (List.mem_append_left _ (List.mem_append_left _ ?_))
    refine List.mem_flatMap.mpr ⟨i, List.mem_range.mpr hi, ?_⟩
    rwa [Nat.zero_add]
  · exact List.mem_append_left _ (List.mem_append_left _ (List.mem_append_right _ hp))
  · rintro rfl p hp
    exact List.mem_append_left _ (List.mem_append_right _ hp)

/-! ### The chi square catalog -/

theorem mapM_mem_left {ε α β : Type} {f : α → Except ε β} {l : List α} {bs : List β} (h : l.mapM f = .ok bs)
    {a : α} (ha : a ∈ l) : ∃ b, f a = .ok b := by
  have := mapM_ok_inv h
  clear h
  induction this with
  | nil => exact absurd ha (by simp)
  | cons h1 h2 ih =>
    rcases List.mem_cons.mp ha with rfl | ha
    · exact ⟨_, h1⟩
    · exact ih ha

/-- The row of a spectrum. -/
def rowOf {K : Type} [Zero K] (_corder rank : Nat) (s : ChiSpec K) : ChiRow K :=
  { targetid := s.targetid, z := s.z, hpxpixel := s.hpxpixel,
    arms := String.ofList ((",".intercalate (s.meanSnr.map Prod.fst)).toList.take 5),
    meanSnr := s.meanSnr.map Prod.snd ++ List.replicate (3 - (s.meanSnr.map Prod.snd).length) 0,
    rsnr := s.rsnr, rank := rank, valid := s.valid, chi2 := s.chi2, dof := s.dof, x := s.x, xcov := s.xcov }

theorem chiRow_ok {K : Type} [Zero K] (corder rank : Nat) (s : ChiSpec K) (h3 : s.meanSnr.length ≤ 3)
    (hx : s.x.length = corder) (hc : s.xcov.length = corder ^ 2) :
    chiRow corder rank s = .ok (rowOf corder rank s) := by
  unfold chiRow snrVec assignVec
  rw [if_pos (by rwa [List.length_map]), if_pos hx, if_pos hc]
  rfl

theorem isRow_rowOf {K : Type} [Zero K] (corder rank : Nat) (s : ChiSpec K) (h3 : s.meanSnr.length ≤ 3) :
    IsRow rank s (rowOf corder rank s) where
  targetid := rfl
  z := rfl
  hpxpixel := rfl
  arms := by unfold rowOf; simp
  snr_length := by unfold rowOf; simp; omega
  snr := fun i hi => by
    unfold rowOf
    dsimp only
    rw [List.getElem?_append]
    split
    · next h => rw [List.getElem?_eq_getElem h]; rfl
    · next h =>
      rw [List.getElem?_replicate, if_pos (by omega), List.getElem?_eq_none (l := List.map _ _) (by omega)]
      rfl
  rsnr := rfl
  rank := rfl
  valid := rfl
  chi2 := rfl
  dof := rfl
  x := rfl
  xcov := rfl

theorem sync_contchi2 {K : Type} [Zero K] (c : Codec (List (ChiRow K)) V) (outdir : String) (hout : outdir ≠ "")
    (corder n : Nat) (specs : Nat → List (ChiSpec K))
    (harm : ∀ r ≤ n, ∀ s ∈ specs r, s.meanSnr.length ≤ 3)
    (hx : ∀ r ≤ n, ∀ s ∈ specs r, s.x.length = corder ∧ s.xcov.length = corder ^ 2) :
    Sync n (fun r => saveContchi2 c outdir corder r (specs r)) (fun _ => .ok ())
      (fun r => if r = 0 then [.file (outdir ++ "/continuum_chi2_catalog.fits") "CHI2_CAT"
        ((List.range (n + 1)).map (fun r => (specs r).map (rowOf corder r))).flatten] else []) := by
  have h1 : Sync n (fun r => (.gather (c.enc ((specs r).map (rowOf corder r))) (chiWrite c outdir) :
      Prog V (ChiEv K) Unit)) (fun _ => .ok ())
      (fun r => if r = 0 then [.file (outdir ++ "/continuum_chi2_catalog.fits") "CHI2_CAT"
        ((List.range (n + 1)).map (fun r => (specs r).map (rowOf corder r))).flatten] else []) := by
    refine sync_gather _ ?_
    have h2 := sync_emits (fun r => if r = 0 then [ChiEv.file (outdir ++ "/continuum_chi2_catalog.fits") "CHI2_CAT"
        ((List.range (n + 1)).map (fun r => (specs r).map (rowOf corder r))).flatten] else [])
      (sync_ret (V := V) n (fun _ => ()))
    refine h2.congr (fun r _ => ?_) (fun _ _ => rfl) (fun r _ => by rw [List.append_nil])
    by_cases h0 : r = 0
    · rw [if_pos h0, if_pos h0]
      unfold chiWrite
      dsimp only
      rw [List.map_map]
      have : (c.dec ∘ fun r => c.enc ((specs r).map (rowOf corder r))) = fun r => (specs r).map (rowOf corder r) := by
        funext q; exact c.dec_enc _
      rw [this]
      rfl
    · rw [if_neg h0, if_neg h0]
      rfl
  refine h1.congr (fun r hr => ?_) (fun _ _ => rfl) (fun _ _ => rfl)
  unfold saveContchi2
  rw [if_neg hout]
  have : (specs r).mapM (chiRow corder r) = .ok ((specs r).map (rowOf corder r)) := by
    have hc : ∀ s ∈ specs r, chiRow corder r s = .ok (rowOf corder r s) := fun s hs =>
      chiRow_ok corder r s (harm r hr s hs) (hx r hr s hs).1 (hx r hr s hs).2
    exact mapM_eq_ok hc
  rw [this]
  rfl

end Verif.Proofs

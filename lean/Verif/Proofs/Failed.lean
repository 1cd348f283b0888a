import Verif.Proofs.RankFree
import Verif.Spec.Failed

/-!
# Lemmas: spectra whose fit fails
-/

namespace Verif.Proofs
open Verif.Model Verif.Model.Prog Verif.Model.FitterFns Verif.Spec

variable {G Sp R Q D V : Type}

theorem filter_drop {A : Type} (l : List A) (keep v : A → Bool) (h : ∀ x ∈ l, keep x = false → v x = false) :
    (l.filter keep).filter v = l.filter v := by
  rw [List.filter_filter]
  refine List.filter_congr fun x hx => ?_
  cases hk : keep x with
  | true => simp
  | false => simp [h x hx hk]

theorem validOf_drop (F : FitterFns G Sp R Q D) (l : List Sp) (keep : Sp → Bool) (f : Sp → Sp)
    (h : ∀ x ∈ l, keep x = false → F.valid (f x) = false) :
    validOf F ((l.filter keep).map f) = validOf F (l.map f) := by
  unfold validOf
  rw [List.filter_map, List.filter_map]
  congr 1
  exact filter_drop l keep _ h

theorem iterations_after {F : FitterFns G Sp R Q D} {n : Nat} {hf : Bool} {g : Nat → G} {s : Nat → Nat → List Sp}
    {conv : Nat → Bool} (h : Iterations F n hf g s conv) (i r : Nat) : s i r = (s 0 r).map (afterFits F g i) := by
  induction i with
  | zero => exact (List.map_id' _).symm
  | succ i ih =>
    rw [h.fit i r, ih, List.map_map]
    rfl

/-- Without spectra that are never valid the iterations are the same. -/
theorem iterations_drop {F : FitterFns G Sp R Q D} {n : Nat} {hf : Bool} {g g' : Nat → G}
    {s s' : Nat → Nat → List Sp} {conv conv' : Nat → Bool} (h : Iterations F n hf g s conv)
    (h' : Iterations F n hf g' s' conv') (hg : g' 0 = g 0) (keep : Sp → Bool)
    (hs : ∀ r, s' 0 r = (s 0 r).filter keep) (m : Nat)
    (hd : ∀ i, 0 < i → i ≤ m → ∀ r ≤ n, ∀ x ∈ s 0 r, keep x = false → F.valid (afterFits F g i x) = false) :
    ∀ i ≤ m, g' i = g i ∧ (∀ r, s' i r = ((s 0 r).filter keep).map (afterFits F g i)) ∧
      (0 < i → conv' i = conv i ∧ ∀ r ≤ n, validOf F (s' i r) = validOf F (s i r)) := by
  intro i
  induction i with
  | zero => exact fun _ => ⟨hg, fun r => by rw [hs r]; exact (List.map_id' _).symm, fun h0 => absurd h0 (by omega)⟩
  | succ i ih =>
    intro hi
    obtain ⟨e1, e2, -⟩ := ih (by omega)
    have a1 : ∀ r, s' (i + 1) r = ((s 0 r).filter keep).map (afterFits F g (i + 1)) := by
      intro r
      rw [h'.fit i r, e2 r, e1, List.map_map]
      rfl
    have a2 : ∀ r ≤ n, validOf F (s' (i + 1) r) = validOf F (s (i + 1) r) := by
      intro r hr
      rw [a1 r, iterations_after h (i + 1) r]
      exact validOf_drop F _ keep _ (hd (i + 1) (by omega) hi r hr)
    have a3 : ∀ {B : Type} (k : Nat → List Sp → B), (List.range (n + 1)).map (fun r => k r (validOf F (s' (i + 1) r)))
        = (List.range (n + 1)).map (fun r => k r (validOf F (s (i + 1) r))) := by
      intro B k
      refine List.map_congr_left fun r hr => ?_
      rw [a2 r (by have := List.mem_range.mp hr; omega)]
    refine ⟨?_, a1, fun _ => ⟨?_, a2⟩⟩
    · obtain ⟨q, hq, hgq⟩ := h.update i
      obtain ⟨q', hq', hgq'⟩ := h'.update i
      have : q' = q := by rw [hq, hq', e1, a3 (fun _ => F.stack (g i))]
      rw [hgq, hgq', this, a3 (fun r => F.varAcc r q)]
    · rw [h.converged i, h'.converged i, e1, a3 (fun _ => F.stack (g i))]

/-- What `iterate` does to one spectrum at the end. -/
def tweakOne (F : FitterFns G Sp R Q D) (g : G) (x : Sp) : Sp :=
  F.etaCalib g (if F.valid x then F.normalize g x else x)

theorem tweak_eq (F : FitterFns G Sp R Q D) (g : G) (l : List Sp) : F.tweak g l = l.map (tweakOne F g) := by
  unfold FitterFns.tweak
  rw [List.map_map]
  rfl

theorem savedFrom_congr (F : FitterFns G Sp R Q D) (hf : Bool) (g g' : Nat → G) (k : Nat) (h : ∀ i < k, g' i = g i) :
    savedFrom F hf g' 0 k = savedFrom F hf g 0 k := by
  unfold savedFrom
  refine List.flatMap_congr fun j hj => ?_
  rw [Nat.zero_add, h j (List.mem_range.mp hj)]

/-- The iterations without spectra that are never valid. -/
theorem sync_drop {F : FitterFns G Sp R Q D} (c : FitterCodecs R Q V) {n : Nat} {hf : Bool} {g : Nat → G}
    {s : Nat → Nat → List Sp} {conv : Nat → Bool} (h : Iterations F n hf g s conv)
    (hη : ∀ q x, F.valid x = false → F.valid (F.etaCalib q x) = false)
    (fname : String) (niter : Nat) (h0 : 0 < niter) :
    ∃ (x : Except Err (G × Nat × Bool)) (f : Sp → Sp) (ev : Nat → List (SaverEv (String × D))),
      Sync n (fun r => F.iterate c fname niter hf r (g 0) (s 0 r))
        (fun r => x.map (fun p => (p.1, (s 0 r).map f, p.2))) ev ∧
      ∀ keep : Sp → Bool, (∀ i, Performed F n niter s conv i → ∀ r ≤ n, ∀ x ∈ s 0 r, keep x = false →
          F.valid (afterFits F g i x) = false) →
        Sync n (fun r => F.iterate c fname niter hf r (g 0) ((s 0 r).filter keep))
          (fun r => x.map (fun p => (p.1, ((s 0 r).filter keep).map f, p.2))) ev := by
  have hsv : ∀ (s' : Nat → Nat → List Sp) i, (∀ r ≤ n, validOf F (s' i r) = validOf F (s i r)) →
      (SomeValid F n (s' i) ↔ SomeValid F n (s i)) := by
    intro s' i hi
    have : ∀ t : Nat → List Sp, SomeValid F n t ↔ ∃ r ≤ n, ∃ x, x ∈ validOf F (t r) := by
      intro t
      unfold SomeValid validOf
      simp only [List.mem_filter]
    rw [this, this]
    constructor
    · rintro ⟨r, hr, x, hx⟩; exact ⟨r, hr, x, by rw [← hi r hr]; exact hx⟩
    · rintro ⟨r, hr, x, hx⟩; exact ⟨r, hr, x, by rw [hi r hr]; exact hx⟩
  by_cases hv : ∀ j < niter, (∀ l, 0 < l → l ≤ j → conv l = false) → SomeValid F n (s (j + 1))
  · obtain ⟨k, hk, k1, k2, k3, k4⟩ := sync_iterate (c := c) h fname niter hv
    have hk0 := k1 h0
    refine ⟨.ok (finalG F n hf (g k) (fun r => F.tweak (g k) (s k r)), k, if k = 0 then false else conv k),
      tweakOne F (g k) ∘ afterFits F g k, _, k4.congr (fun _ _ => rfl) (fun r _ => ?_) (fun _ _ => rfl),
      fun keep hd => ?_⟩
    · rw [tweak_eq, iterations_after h k r, List.map_map]
      rfl
    obtain ⟨g', s', conv', h', hg0, hs0⟩ := exists_iterations F n hf (g 0) (fun r => (s 0 r).filter keep)
    have hs0' : ∀ r, s' 0 r = (s 0 r).filter keep := fun r => congrFun hs0 r
    have key := iterations_drop h h' hg0 keep hs0' k (fun i i1 i2 => hd i ⟨i1, by omega, fun l l1 l2 =>
      ⟨k2 l l1 (by omega), by
        obtain ⟨j, rfl⟩ : ∃ j, l = j + 1 := ⟨l - 1, by omega⟩
        exact hv j (by omega) fun q q1 q2 => k2 q q1 (by omega)⟩⟩)
    have hcc : ∀ i, 0 < i → i ≤ k → conv' i = conv i := fun i i1 i2 => ((key i i2).2.2 i1).1
    have hv' : ∀ j < niter, (∀ l, 0 < l → l ≤ j → conv' l = false) → SomeValid F n (s' (j + 1)) := by
      intro j hj hl
      have hjk : j < k := by
        by_contra hge
        rcases k3 with e | e
        · omega
        · rw [← hcc k hk0 le_rfl, hl k hk0 (by omega)] at e
          exact absurd e (by simp)
      refine (hsv s' _ ((key (j + 1) (by omega)).2.2 (by omega)).2).mpr (hv j hj fun l h1 h2 => ?_)
      rw [← hcc l h1 (by omega)]
      exact hl l h1 h2
    obtain ⟨k', hk', k1', k2', k3', k4'⟩ := sync_iterate (c := c) h' fname niter hv'
    obtain rfl : k' = k := by
      rcases Nat.lt_trichotomy k' k with hlt | he | hgt
      · exfalso
        rcases k3' with e | e
        · omega
        · rw [hcc k' (k1' h0) hlt.le, k2 k' (k1' h0) hlt] at e
          exact absurd e (by simp)
      · exact he
      · exfalso
        rcases k3 with e | e
        · omega
        · rw [← hcc k hk0 le_rfl, k2' k hk0 hgt] at e
          exact absurd e (by simp)
    obtain ⟨e1, e2, e3⟩ := key k' le_rfl
    have hb : (if k' = 0 then false else conv' k') = if k' = 0 then false else conv k' := by
      rw [(e3 hk0).1]
    have hfin : finalG F n hf (g k') (fun r => F.tweak (g k') (s' k' r)) =
        finalG F n hf (g k') (fun r => F.tweak (g k') (s k' r)) := by
      have hvo : ∀ r ≤ n, validOf F (F.tweak (g k') (s' k' r)) = validOf F (F.tweak (g k') (s k' r)) := by
        intro r hr
        rw [tweak_eq, tweak_eq, e2 r, iterations_after h k' r, List.map_map, List.map_map]
        refine validOf_drop F _ keep _ fun x hx hkx => ?_
        have hbad := hd k' ⟨hk0, hk, fun l l1 l2 => ⟨k2 l l1 l2, by
          obtain ⟨j, rfl⟩ : ∃ j, l = j + 1 := ⟨l - 1, by omega⟩
          exact hv j (by omega) fun q q1 q2 => k2 q q1 (by omega)⟩⟩ r hr x hx hkx
        change F.valid (tweakOne F (g k') (afterFits F g k' x)) = false
        unfold tweakOne
        rw [hbad]
        exact hη _ _ hbad
      have a3 : ∀ {B : Type} (q : Nat → List Sp → B),
          (List.range (n + 1)).map (fun r => q r (validOf F (F.tweak (g k') (s' k' r))))
            = (List.range (n + 1)).map (fun r => q r (validOf F (F.tweak (g k') (s k' r)))) := by
        intro B q
        refine List.map_congr_left fun r hr => ?_
        rw [hvo r (by have := List.mem_range.mp hr; omega)]
      unfold finalG
      dsimp only
      rw [a3 (fun r => F.varAcc r (F.newVar (g k')))]
      rw [a3 (fun _ => F.stack _)]
    have hexts : ∀ gf, allExts F hf g' k' gf = allExts F hf g k' gf := by
      intro gf
      unfold allExts
      rw [savedFrom_congr F hf g g' k' (fun i hi => (key i hi.le).1), e1]
    refine k4'.congr (fun r _ => ?_) (fun r _ => ?_) (fun r _ => ?_)
    · rw [hg0, hs0' r]
    · rw [e1, hb, hfin, tweak_eq, e2 r, List.map_map]
      rfl
    · rw [e1, hfin, hexts]
  · have hex : ∃ j, j < niter ∧ (∀ l, 0 < l → l ≤ j → conv l = false) ∧ ¬ SomeValid F n (s (j + 1)) := by
      push Not at hv
      obtain ⟨j, h1, h2, h3⟩ := hv
      exact ⟨j, h1, h2, h3⟩
    classical
    obtain ⟨h1, h2, h3⟩ := Nat.find_spec hex
    have hmin : ∀ l < Nat.find hex, SomeValid F n (s (l + 1)) := by
      intro l hl
      by_contra hbad
      exact Nat.find_min hex hl ⟨by omega, fun q q1 q2 => h2 q q1 (by omega), hbad⟩
    have r1 := sync_iterate_fail (c := c) h fname niter (Nat.find hex) h1 hmin
      (fun l hl => h2 (l + 1) (by omega) (by omega)) h3
    refine ⟨.error .qsonic, id, _, r1.congr (fun _ _ => rfl) (fun _ _ => rfl) (fun _ _ => rfl), fun keep hd => ?_⟩
    obtain ⟨g', s', conv', h', hg0, hs0⟩ := exists_iterations F n hf (g 0) (fun r => (s 0 r).filter keep)
    have hs0' : ∀ r, s' 0 r = (s 0 r).filter keep := fun r => congrFun hs0 r
    have key := iterations_drop h h' hg0 keep hs0' (Nat.find hex + 1) (fun i i1 i2 => hd i ⟨i1, by omega, fun l l1 l2 =>
      ⟨h2 l l1 (by omega), by
        obtain ⟨j, rfl⟩ : ∃ j, l = j + 1 := ⟨l - 1, by omega⟩
        exact hmin j (by omega)⟩⟩)
    have hsv' : ∀ l ≤ Nat.find hex, (SomeValid F n (s' (l + 1)) ↔ SomeValid F n (s (l + 1))) := fun l hl =>
      hsv s' _ ((key (l + 1) (by omega)).2.2 (by omega)).2
    have r2 := sync_iterate_fail (c := c) h' fname niter (Nat.find hex) h1 (fun l hl => (hsv' l hl.le).mpr (hmin l hl))
      (fun l hl => by
        rw [((key (l + 1) (by omega)).2.2 (by omega)).1]
        exact h2 (l + 1) (by omega) (by omega)) ((hsv' _ le_rfl).not.mpr h3)
    refine r2.congr (fun r _ => ?_) (fun _ _ => rfl) (fun r _ => ?_)
    · rw [hg0, hs0' r]
    · rw [savedFrom_congr F hf g g' (Nat.find hex + 1) (fun i hi => (key i hi.le).1)]

end Verif.Proofs

import Verif.Proofs.ArmOrderFit
import Verif.Props.Coadd

/-!
# Lemmas: the order of the arms in `coadd_arms_forest`
-/

namespace Verif.Proofs
open Verif Verif.Np Verif.Model Verif.Model.Spectrum Verif.Spec

/-! ### Loops that can fail -/

theorem foldlM_perm {α β : Type} {f : β → α → Except Err β} {I : β → Prop} {l l' : List α} (h : l.Perm l')
    (hI : ∀ b x b', x ∈ l → I b → f b x = .ok b' → I b')
    (hc : ∀ b x y, x ∈ l → y ∈ l → I b → ((f b x).bind fun c => f c y) = (f b y).bind fun c => f c x) {b : β} (hb : I b) :
    l.foldlM f b = l'.foldlM f b := by
  induction h generalizing b with
  | nil => rfl
  | cons a _ ih =>
    rw [List.foldlM_cons, List.foldlM_cons]
    cases e : f b a with
    | error e => rfl
    | ok c =>
      exact ih (fun b x b' hx => hI b x b' (List.mem_cons_of_mem _ hx))
        (fun b x y hx hy => hc b x y (List.mem_cons_of_mem _ hx) (List.mem_cons_of_mem _ hy))
        (hI b a c List.mem_cons_self hb e)
  | swap x y l =>
    have h1 := hc b y x (by simp) (by simp) hb
    rw [List.foldlM_cons, List.foldlM_cons]
    change (f b y).bind (fun c => List.foldlM f c (x :: l)) = (f b x).bind (fun c => List.foldlM f c (y :: l))
    have e : ∀ x y, (f b y).bind (fun c => List.foldlM f c (x :: l)) =
        ((f b y).bind fun c => f c x).bind (fun c => List.foldlM f c l) := by
      intro x y
      cases f b y with
      | error e => rfl
      | ok c => exact List.foldlM_cons
    rw [e, e, h1]
  | trans p q ih1 ih2 =>
    rw [ih1 hI hc hb]
    exact ih2 (fun b x b' hx => hI b x b' (p.symm.subset hx))
      (fun b x y hx hy => hc b x y (p.symm.subset hx) (p.symm.subset hy)) hb

theorem mapM_perm {α β : Type} {e0 : Err} {f : α → Except Err β} (hf : ∀ a e, f a = .error e → e = e0) {l l' : List α}
    (h : l.Perm l') : SameResult List.Perm (l.mapM f) (l'.mapM f) := by
  have herr : ∀ (l : List α) e, l.mapM f = .error e → e = e0 := by
    intro l
    induction l with
    | nil => intro e h; cases h
    | cons a l ih =>
      intro e h
      rw [List.mapM_cons] at h
      cases ha : f a with
      | error e1 =>
        rw [ha] at h
        cases h
        exact hf a _ ha
      | ok b =>
        rw [ha] at h
        change ((l.mapM f).bind fun m => Except.ok (b :: m)) = _ at h
        cases hl : l.mapM f with
        | error e2 =>
          rw [hl] at h
          cases h
          exact ih _ hl
        | ok m => rw [hl] at h; cases h
  have hok : ∀ {l l' : List α}, l.Perm l' → ∀ {m}, l.mapM f = .ok m → ∃ m', l'.mapM f = .ok m' ∧ m.Perm m' := by
    intro l l' h
    induction h with
    | nil => intro m hm; exact ⟨m, hm, .refl _⟩
    | cons a _ ih =>
      intro m hm
      rw [List.mapM_cons] at hm ⊢
      obtain ⟨b, hb, hm⟩ := except_bind_eq_ok.mp hm
      obtain ⟨t, ht, hm⟩ := except_bind_eq_ok.mp hm
      obtain ⟨t', ht', hp⟩ := ih ht
      cases hm
      refine ⟨b :: t', ?_, hp.cons b⟩
      rw [hb, ht']
      rfl
    | swap x y l =>
      intro m hm
      rw [List.mapM_cons] at hm
      obtain ⟨b, hb, hm⟩ := except_bind_eq_ok.mp hm
      obtain ⟨t, ht, hm⟩ := except_bind_eq_ok.mp hm
      cases hm
      rw [List.mapM_cons] at ht
      obtain ⟨b', hb', ht⟩ := except_bind_eq_ok.mp ht
      obtain ⟨t', ht', ht⟩ := except_bind_eq_ok.mp ht
      cases ht
      refine ⟨b' :: b :: t', ?_, .swap ..⟩
      rw [List.mapM_cons, List.mapM_cons, hb, hb', ht']
      rfl
    | trans _ _ ih1 ih2 =>
      intro m hm
      obtain ⟨m1, h1, p1⟩ := ih1 hm
      obtain ⟨m2, h2, p2⟩ := ih2 h1
      exact ⟨m2, h2, p1.trans p2⟩
  cases h1 : l.mapM f with
  | ok m =>
    obtain ⟨m', h2, hp⟩ := hok h h1
    rw [h2]
    exact hp
  | error e =>
    cases h2 : l'.mapM f with
    | ok m' =>
      obtain ⟨m, h3, -⟩ := hok h.symm h2
      rw [h1] at h3
      cases h3
    | error e' =>
      change e = e'
      rw [herr _ _ h1, herr _ _ h2]

/-! ### Scattered sums -/

section
variable {K : Type} [AddCommMonoid K]

/-- The value added at `k`. -/
def lastVal (js : List Nat) (v : List K) (k : Nat) : K :=
  (((js.zip v).filter (fun p => decide (p.1 = k))).getLast?.map Prod.snd).getD 0

/-- A value added at each position. -/
def bump (a : List K) (D : Nat → K) : List K := a.mapIdx (fun k x => x + D k)

@[simp] theorem bump_length (a : List K) (D : Nat → K) : (bump a D).length = a.length := by simp [bump]

theorem bump_comm (a : List K) (D E : Nat → K) : bump (bump a D) E = bump (bump a E) D := by
  unfold bump
  rw [List.mapIdx_mapIdx, List.mapIdx_mapIdx]
  congr 1
  funext k x
  simp only [Function.comp_apply]
  rw [add_right_comm]

theorem putAll_bump (a : List K) (js : List Nat) (v : List K) :
    putAll a ((js.zip v).map (fun p => (p.1, a.getD p.1 0 + p.2))) = bump a (lastVal js v) := by
  refine List.ext_getElem? fun k => ?_
  cases h : a[k]? with
  | none =>
    have hk : a.length ≤ k := List.getElem?_eq_none_iff.mp h
    rw [List.getElem?_eq_none (by rw [putAll_length]; exact hk), List.getElem?_eq_none (by rw [bump_length]; exact hk)]
  | some x =>
    rw [putAll_get _ _ h]
    unfold bump
    rw [List.getElem?_mapIdx, h]
    change some _ = some _
    congr 1
    unfold lastVal
    rw [List.filter_map, List.getLast?_map, Option.map_map]
    have e : (fun p : Nat × K => decide (p.1 = k)) ∘ (fun p : Nat × K => (p.1, a.getD p.1 0 + p.2)) =
        fun p : Nat × K => decide (p.1 = k) := rfl
    rw [e]
    cases hl : ((js.zip v).filter (fun p => decide (p.1 = k))).getLast? with
    | none => exact (add_zero x).symm
    | some p =>
      have hm := List.mem_of_getLast? hl
      have hp : p.1 = k := by simpa using (List.mem_filter.mp hm).2
      change a.getD p.1 0 + p.2 = x + p.2
      rw [hp, List.getD_eq_getElem?_getD, h]
      rfl

theorem normIdx_error {n : Nat} {i : Int} {e : Err} (h : normIdx n i = .error e) : e = .indexError := by
  unfold normIdx at h
  split at h
  · split at h
    · cases h
    · cases h; rfl
  · split at h
    · cases h
    · cases h; rfl

theorem mapM_normIdx_cases (n : Nat) (idx : List Int) :
    (∃ js, idx.mapM (normIdx n) = .ok js) ∨ idx.mapM (normIdx n) = .error .indexError := by
  induction idx with
  | nil => exact Or.inl ⟨[], rfl⟩
  | cons i idx ih =>
    rw [List.mapM_cons]
    cases h : normIdx n i with
    | error e =>
      rw [normIdx_error h]
      exact Or.inr rfl
    | ok j =>
      rcases ih with ⟨js, hj⟩ | hj
      · rw [hj]; exact Or.inl ⟨j :: js, rfl⟩
      · rw [hj]; exact Or.inr rfl

/-- `a[idx] += v` fails, or adds numbers that do not depend on `a`. -/
theorem scatterAdd_cases (n : Nat) (idx : List Int) :
    (∃ js, ∀ (a v : List K), a.length = n → scatterAdd a idx v = .ok (bump a (lastVal js v))) ∨
      ∀ (a v : List K), a.length = n → scatterAdd a idx v = .error .indexError := by
  rcases mapM_normIdx_cases n idx with ⟨js, h⟩ | h
  · refine Or.inl ⟨js, fun a v ha => ?_⟩
    unfold scatterAdd
    rw [ha, h]
    change Except.ok _ = Except.ok _
    rw [putAll_bump]
  · refine Or.inr fun a v ha => ?_
    unfold scatterAdd
    rw [ha, h]
    rfl

end

variable {K : Type} [Field K] [LinearOrder K] [FloorRing K]

/-- The three arrays have `n` elements. -/
def AccLen (n : Nat) (acc : CoaddAcc K) : Prop := acc.flux.length = n ∧ acc.ivar.length = n ∧ acc.norm.length = n

theorem coaddArm_cases (minWave dwave : K) (n : Nat) (pix : List (Pix K)) :
    (∃ D E F : Nat → K, ∀ acc, AccLen n acc →
      coaddArm minWave dwave acc pix = .ok ⟨bump acc.flux D, bump acc.ivar E, bump acc.norm F⟩) ∨
    ∀ acc, AccLen n acc → coaddArm minWave dwave acc pix = .error .indexError := by
  rcases scatterAdd_cases (K := K) n (pix.map (fun p => coaddIdx minWave dwave p.wave)) with ⟨js, h⟩ | h
  · refine Or.inl ⟨lastVal js (pix.map (fun p => p.weight * p.flux)), lastVal js (pix.map (fun p => p.weight ^ 2 * varOf p.ivar)),
      lastVal js (pix.map (fun p => p.weight)), fun acc ha => ?_⟩
    unfold coaddArm
    dsimp only
    rw [h _ _ ha.1, h _ _ ha.2.1, h _ _ ha.2.2]
    rfl
  · refine Or.inr fun acc ha => ?_
    unfold coaddArm
    dsimp only
    rw [h _ _ ha.1]
    rfl

theorem coaddArms_perm (minWave dwave : K) (n : Nat) {arms arms' : List (List (Pix K))} (h : arms.Perm arms') :
    coaddArms minWave dwave n arms = coaddArms minWave dwave n arms' := by
  unfold coaddArms
  dsimp only
  rw [foldlM_perm (I := AccLen n) h]
  · intro b x b' _ hb e
    rcases coaddArm_cases minWave dwave n x with ⟨D, E, F, hx⟩ | hx
    · rw [hx b hb] at e
      cases e
      exact ⟨by rw [bump_length]; exact hb.1, by rw [bump_length]; exact hb.2.1, by rw [bump_length]; exact hb.2.2⟩
    · rw [hx b hb] at e
      cases e
  · intro b x y _ _ hb
    have key : ∀ D E F : Nat → K, AccLen n (⟨bump b.flux D, bump b.ivar E, bump b.norm F⟩ : CoaddAcc K) := fun D E F =>
      ⟨by rw [bump_length]; exact hb.1, by rw [bump_length]; exact hb.2.1, by rw [bump_length]; exact hb.2.2⟩
    rcases coaddArm_cases minWave dwave n x with ⟨D, E, F, hx⟩ | hx
    · rcases coaddArm_cases minWave dwave n y with ⟨D', E', F', hy⟩ | hy
      · rw [hx b hb, hy b hb]
        change coaddArm minWave dwave _ y = coaddArm minWave dwave _ x
        rw [hy _ (key _ _ _), hx _ (key _ _ _), bump_comm, bump_comm b.ivar, bump_comm b.norm]
      · rw [hx b hb, hy b hb]
        exact hy _ (key _ _ _)
    · rcases coaddArm_cases minWave dwave n y with ⟨D', E', F', hy⟩ | hy
      · rw [hx b hb, hy b hb]
        exact (hx _ (key _ _ _)).symm
      · rw [hx b hb, hy b hb]
        rfl
  · exact ⟨List.length_replicate, List.length_replicate, List.length_replicate⟩

/-! ### The grid -/

theorem foldl_min_perm {l l' : List K} (h : l.Perm l') : listMin l = listMin l' := by
  have key : ∀ l : List K, listMin l = match l.min? with | none => .error .valueError | some x => .ok x := by
    intro l
    cases l with
    | nil => rfl
    | cons x l => rfl
  rw [key, key]
  have : l.min? = l'.min? := by
    cases h1 : l.min? with
    | none =>
      rw [List.min?_eq_none_iff] at h1
      subst h1
      rw [← h.nil_eq]
      rfl
    | some a =>
      symm
      rw [List.min?_eq_some_iff] at h1 ⊢
      exact ⟨h.subset h1.1, fun b hb => h1.2 b (h.symm.subset hb)⟩
  rw [this]

theorem foldl_max_perm {l l' : List K} (h : l.Perm l') : listMax l = listMax l' := by
  have key : ∀ l : List K, listMax l = match l.max? with | none => .error .valueError | some x => .ok x := by
    intro l
    cases l with
    | nil => rfl
    | cons x l => rfl
  rw [key, key]
  have : l.max? = l'.max? := by
    cases h1 : l.max? with
    | none =>
      rw [List.max?_eq_none_iff] at h1
      subst h1
      rw [← h.nil_eq]
      rfl
    | some a =>
      symm
      rw [List.max?_eq_some_iff] at h1 ⊢
      exact ⟨h.subset h1.1, fun b hb => h1.2 b (h.symm.subset hb)⟩
  rw [this]

theorem forestGrid_perm (dwave : K) {w w' : List (List K)} (h : w.Perm w') : forestGrid dwave w = forestGrid dwave w' := by
  have h1 : SameResult List.Perm (w.mapM firstElem) (w'.mapM firstElem) :=
    mapM_perm (e0 := .indexError) (by
      intro a e he
      unfold firstElem at he
      split at he
      · cases he
      · cases he; rfl) h
  have h2 : SameResult List.Perm (w.mapM lastElem) (w'.mapM lastElem) :=
    mapM_perm (e0 := .indexError) (by
      intro a e he
      unfold lastElem at he
      split at he
      · cases he
      · cases he; rfl) h
  unfold forestGrid
  generalize w.mapM firstElem = a at h1 ⊢
  generalize w'.mapM firstElem = a' at h1 ⊢
  generalize w.mapM lastElem = b at h2 ⊢
  generalize w'.mapM lastElem = b' at h2 ⊢
  cases a with
  | error e =>
    cases a' with
    | error e' => cases h1; rfl
    | ok y => exact h1.elim
  | ok x =>
    cases a' with
    | error e' => exact h1.elim
    | ok y =>
      change (listMin x).bind _ = (listMin y).bind _
      rw [foldl_min_perm h1]
      congr 1
      funext m
      cases b with
      | error e =>
        cases b' with
        | error e' => cases h2; rfl
        | ok y => exact h2.elim
      | ok u =>
        cases b' with
        | error e' => exact h2.elim
        | ok v =>
          change (listMax u).bind _ = (listMax v).bind _
          rw [foldl_max_perm h2]

/-! ### The resolution -/

omit [LinearOrder K] [FloorRing K] in
theorem zipWith_bump_comm (A : List (List K)) (D E : List (Nat → K)) :
    List.zipWith bump (List.zipWith bump A D) E = List.zipWith bump (List.zipWith bump A E) D := by
  induction A generalizing D E with
  | nil => rfl
  | cons a A ih =>
    cases D with
    | nil => cases E <;> rfl
    | cons d D =>
      cases E with
      | nil => rfl
      | cons e E =>
        change bump (bump a d) e :: _ = bump (bump a e) d :: _
        rw [bump_comm, ih]

/-- The matrix has `m` rows of `n` elements, the norm `n` elements. -/
def ResoLen (m n : Nat) (b : List (List K) × List K) : Prop :=
  b.1.length = m ∧ (∀ r ∈ b.1, r.length = n) ∧ b.2.length = n

omit [LinearOrder K] [FloorRing K] in
theorem resoLen_bump {m n : Nat} {b : List (List K) × List K} (h : ResoLen m n b) {D : List (Nat → K)} (hD : D.length = m)
    (E : Nat → K) : ResoLen m n (List.zipWith bump b.1 D, bump b.2 E) := by
  refine ⟨by rw [List.length_zipWith, h.1, hD, min_self], ?_, by rw [bump_length]; exact h.2.2⟩
  intro r hr
  rw [← List.map_uncurry_zip_eq_zipWith] at hr
  obtain ⟨q, hq, rfl⟩ := List.mem_map.mp hr
  change (bump q.1 q.2).length = n
  rw [bump_length]
  exact h.2.1 _ (List.of_mem_zip (a := q.1) (b := q.2) hq).1

theorem coaddResoArm_cases (eps minWave dwave : K) {m : Nat} (n : Nat) {a : ResoArm K}
    (hm : a.rows.length + 2 * ((m - a.rows.length) / 2) = m) :
    (∃ (D : List (Nat → K)) (E : Nat → K), D.length = m ∧ ∀ b, ResoLen m n b →
      coaddResoArm eps minWave dwave m b a = .ok (List.zipWith bump b.1 D, bump b.2 E)) ∨
    ∀ b, ResoLen m n b → coaddResoArm eps minWave dwave m b a = .error .indexError := by
  have hlen : (padRows ((m - a.rows.length) / 2) a.wave.length a.rows).length = m := by
    unfold padRows
    simp only [List.length_append, List.length_replicate]
    omega
  have e : ∀ b : List (List K) × List K, ResoLen m n b → coaddResoArm eps minWave dwave m b a =
      ((b.1.zip (padRows ((m - a.rows.length) / 2) a.wave.length a.rows)).mapM (fun p => scatterAdd p.1
        (a.wave.map (coaddIdx minWave dwave)) (List.zipWith (· * ·) (a.weight.map (resoWeight eps)) p.2))).bind
      (fun mat => (scatterAdd b.2 (a.wave.map (coaddIdx minWave dwave)) (a.weight.map (resoWeight eps))).bind
        (fun norm => .ok (mat, norm))) := by
    intro b hb
    unfold coaddResoArm
    dsimp only
    have : sameShape (padRows ((m - a.rows.length) / 2) a.wave.length a.rows).length b.1.length = .ok () := by
      unfold sameShape
      rw [if_pos (by rw [hlen, hb.1])]
    rw [this]
    rfl
  rcases scatterAdd_cases (K := K) n (a.wave.map (coaddIdx minWave dwave)) with ⟨js, h⟩ | h
  · refine Or.inl ⟨(padRows ((m - a.rows.length) / 2) a.wave.length a.rows).map
      (fun row => lastVal js (List.zipWith (· * ·) (a.weight.map (resoWeight eps)) row)),
      lastVal js (a.weight.map (resoWeight eps)), by rw [List.length_map, hlen], fun b hb => ?_⟩
    rw [e b hb, mapM_eq_ok (g := fun p : List K × List K =>
      bump p.1 (lastVal js (List.zipWith (· * ·) (a.weight.map (resoWeight eps)) p.2)))]
    · change ((scatterAdd b.2 _ _).bind _) = _
      rw [h _ _ hb.2.2]
      change Except.ok (_, _) = Except.ok (_, _)
      rw [List.zipWith_map_right, ← List.map_uncurry_zip_eq_zipWith]
      rfl
    · intro p hp
      exact h _ _ (hb.2.1 _ (List.of_mem_zip (a := p.1) (b := p.2) hp).1)
  · refine Or.inr fun b hb => ?_
    rw [e b hb]
    cases hz : b.1.zip (padRows ((m - a.rows.length) / 2) a.wave.length a.rows) with
    | nil =>
      change ((scatterAdd b.2 _ _).bind _) = _
      rw [h _ _ hb.2.2]
      rfl
    | cons p l =>
      have hp : p ∈ b.1.zip (padRows ((m - a.rows.length) / 2) a.wave.length a.rows) := by rw [hz]; exact List.mem_cons_self
      rw [List.mapM_cons, h _ _ (hb.2.1 _ (List.of_mem_zip (a := p.1) (b := p.2) hp).1)]
      rfl

theorem coaddReso_perm (nan eps minWave dwave : K) (n : Nat) {arms arms' : List (ResoArm K)} (h : arms.Perm arms')
    (hp : ∀ a ∈ arms, ∀ b ∈ arms, a.rows.length % 2 = b.rows.length % 2) :
    coaddReso nan eps minWave dwave n arms = coaddReso nan eps minWave dwave n arms' := by
  have hm : (arms.map (fun a => a.rows.length)).foldl max 0 = (arms'.map (fun a => a.rows.length)).foldl max 0 :=
    (h.map _).foldl_eq' (fun x _ y _ z => by omega) 0
  unfold coaddReso
  dsimp only
  rw [← hm]
  have hpar := Verif.Props.foldl_max_parity (l := arms.map (fun a => a.rows.length)) (by
    intro u hu v hv
    obtain ⟨x, hx, rfl⟩ := List.mem_map.mp hu
    obtain ⟨y, hy, rfl⟩ := List.mem_map.mp hv
    exact hp x hx y hy)
  generalize (arms.map (fun a => a.rows.length)).foldl max 0 = m at hpar ⊢
  have hrow : ∀ a ∈ arms, a.rows.length + 2 * ((m - a.rows.length) / 2) = m := by
    intro a ha
    have := hpar a.rows.length (List.mem_map.mpr ⟨a, ha, rfl⟩)
    omega
  rw [foldlM_perm (I := ResoLen m n) h]
  · intro b x b' hx hb e
    rcases coaddResoArm_cases eps minWave dwave n (hrow x hx) with ⟨D, E, hD, h1⟩ | h1
    · rw [h1 b hb] at e
      cases e
      exact resoLen_bump hb hD E
    · rw [h1 b hb] at e
      cases e
  · intro b x y hx hy hb
    rcases coaddResoArm_cases eps minWave dwave n (hrow x hx) with ⟨D, E, hD, h1⟩ | h1
    · rcases coaddResoArm_cases eps minWave dwave n (hrow y hy) with ⟨D', E', hD', h2⟩ | h2
      · rw [h1 b hb, h2 b hb]
        change coaddResoArm eps minWave dwave m _ y = coaddResoArm eps minWave dwave m _ x
        rw [h2 _ (resoLen_bump hb hD E), h1 _ (resoLen_bump hb hD' E'), zipWith_bump_comm, bump_comm]
      · rw [h1 b hb, h2 b hb]
        exact h2 _ (resoLen_bump hb hD E)
    · rcases coaddResoArm_cases eps minWave dwave n (hrow y hy) with ⟨D', E', hD', h2⟩ | h2
      · rw [h1 b hb, h2 b hb]
        exact (h1 _ (resoLen_bump hb hD' E')).symm
      · rw [h1 b hb, h2 b hb]
        rfl
  · refine ⟨List.length_replicate, fun r hr => ?_, List.length_replicate⟩
    rw [List.eq_of_mem_replicate hr, List.length_replicate]

/-! ### `coadd_arms_forest` -/

/-- The same coadded spectrum, or the same exception. -/
theorem coaddArmsForest_order (sqrt : K → K) (smooth : List K → K → List K) (junk : Nat → K) (nan eps : K)
    {s s' : Spectrum K} (h : ArmOrder s s') (hw : s.wave = s'.wave) (hf : s.flux = s'.flux) (hv : s.ivar = s'.ivar)
    (hr : s.reso = s'.reso) (hc : s.cont = [])
    (hp : ∀ a ∈ s.freso, ∀ b ∈ s.freso, a.2.length % 2 = b.2.length % 2) (varlss eta : K → K) :
    s.coaddArmsForest sqrt smooth junk nan eps varlss eta = s'.coaddArmsForest sqrt smooth junk nan eps varlss eta := by
  have hc' : s'.cont = [] := h.cont.eq_nil.mp hc
  unfold Spectrum.coaddArmsForest
  rw [forestGrid_perm _ (h.fwave.2.map Prod.snd), h.dwave]
  congr 1
  funext g
  have hpix : s.forestPix = s'.forestPix := by
    funext arm
    unfold Spectrum.forestPix
    rw [h.fwave.arr, h.fweight.arr, h.fflux.arr, h.fivar.arr]
  rw [coaddArms_perm _ _ _ (h.fwave.2.map (fun x => s.forestPix x.1)), hpix]
  congr 1
  funext fi
  have e1 : s.newCont junk g.1 g.2.2 = s'.newCont junk g.1 g.2.2 := by
    unfold Spectrum.newCont
    rw [if_pos hc, if_pos hc']
  have e2 : s.newReso nan eps g.1 g.2.2 = s'.newReso nan eps g.1 g.2.2 := by
    unfold Spectrum.newReso
    by_cases h0 : s.freso = []
    · rw [if_pos h0, if_pos (h.freso.eq_nil.mp h0)]
    · rw [if_neg h0, if_neg (fun e => h0 (h.freso.eq_nil.mpr e)), h.dwave]
      have e3 : (fun x : String × List (List K) => (⟨s.fwave.arr x.1, s.fweight.arr x.1, x.2⟩ : ResoArm K)) =
          fun x => ⟨s'.fwave.arr x.1, s'.fweight.arr x.1, x.2⟩ := by
        funext x
        rw [h.fwave.arr, h.fweight.arr]
      rw [e3, coaddReso_perm _ _ _ _ _ (h.freso.2.map _)]
      intro a ha b hb
      obtain ⟨x, hx, rfl⟩ := List.mem_map.mp ha
      obtain ⟨y, hy, rfl⟩ := List.mem_map.mp hb
      exact hp x hx y hy
  rw [e1, e2]
  congr 1
  funext cont
  congr 1
  funext reso
  have e4 : ∀ a b c d x,
      (((s.replaceForest a b c cont d).setSmoothForestivar smooth s.smoothing).setForestWeight varlss eta).withSnr x =
      (((s'.replaceForest a b c cont d).setSmoothForestivar smooth s'.smoothing).setForestWeight varlss eta).withSnr x := by
    intro a b c d x
    obtain ⟨h1, h2, -, -, -, -, -, -, -, -, -, -, h3, -, -, h4, h5, h6⟩ := h
    clear e1 e2 hpix hp hc hc'
    obtain ⟨_, _, _, _, _, _, _, _, _, _, _, _, _, _, _, _, _, _⟩ := s
    obtain ⟨_, _, _, _, _, _, _, _, _, _, _, _, _, _, _, _, _, _⟩ := s'
    dsimp only at hw hf hv hr h1 h2 h3 h4 h5 h6
    subst hw hf hv hr h1 h2 h3 h4 h5 h6
    unfold Spectrum.replaceForest Spectrum.setSmoothForestivar Spectrum.withSnr
    dsimp only
    split
    · unfold Spectrum.setForestWeight
      dsimp only
      split <;> rfl
    · unfold Spectrum.setForestWeight
      dsimp only
      split <;> rfl
  dsimp only
  rw [e4]

end Verif.Proofs

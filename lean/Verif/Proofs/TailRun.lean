import Verif.Proofs.ExposureRun
import Verif.Props.FitWeights
import Verif.Spec.SameJob
import Verif.Proofs.UnitsCoadd
import Verif.Proofs.ArmOrderCoadd
import Verif.Spec.TailRun

/-!
# Lemmas: the steps after the fit
-/

namespace Verif.Proofs
open Verif Verif.Np Verif.Model Verif.Model.Prog Verif.Spec Verif.Props

section
variable {K : Type} [Field K] [LinearOrder K] [FloorRing K]

/-! ### Exceptions -/

/-- All exceptions of `x` make `main` abort. -/
def Crashes {A : Type} (x : Except Err A) : Prop := ∀ e, x = .error e → Unexpected e

theorem Crashes.ok {A : Type} (a : A) : Crashes (Except.ok a : Except Err A) := fun _ h => by cases h

theorem Crashes.bind {A B : Type} {x : Except Err A} {f : A → Except Err B} (hx : Crashes x) (hf : ∀ a, Crashes (f a)) :
    Crashes (x >>= f) := by
  intro e h
  cases x with
  | error e' => cases h; exact hx e rfl
  | ok a => exact hf a e h

theorem Crashes.map {A B : Type} {x : Except Err A} (f : A → B) (hx : Crashes x) : Crashes (x.map f) := by
  intro e h
  cases x with
  | error e' => cases h; exact hx e rfl
  | ok a => cases h

theorem Crashes.mapM {A B : Type} {f : A → Except Err B} (hf : ∀ a, Crashes (f a)) (l : List A) : Crashes (l.mapM f) := by
  induction l with
  | nil => exact Crashes.ok _
  | cons a l ih =>
    rw [List.mapM_cons]
    exact (hf a).bind fun b => ih.bind fun _ => Crashes.ok _

theorem Crashes.foldlM {A B : Type} {f : B → A → Except Err B} (hf : ∀ b a, Crashes (f b a)) (l : List A) (b : B) :
    Crashes (l.foldlM f b) := by
  induction l generalizing b with
  | nil => exact Crashes.ok _
  | cons a l ih =>
    rw [List.foldlM_cons]
    exact (hf b a).bind fun b => ih b

theorem crash_normIdx (n : Nat) (i : Int) : Crashes (normIdx n i) := by
  intro e h
  unfold normIdx at h
  repeat' split at h
  all_goals
    cases h
    try exact ⟨rfl, by simp⟩

theorem crash_scatterAdd (a : List K) (idx : List Int) (v : List K) : Crashes (scatterAdd a idx v) :=
  (Crashes.mapM (crash_normIdx _) idx).bind fun _ => Crashes.ok _

theorem crash_scatterSet (a : List K) (idx : List Int) (v : List K) : Crashes (scatterSet a idx v) :=
  (Crashes.mapM (crash_normIdx _) idx).bind fun _ => Crashes.ok _

theorem crash_grid (d : K) (w : List (List K)) : Crashes (forestGrid d w) := by
  have h1 : ∀ l : List K, Crashes (firstElem l) := by
    intro l e h
    unfold firstElem at h
    split at h
    · cases h
    · cases h; exact ⟨rfl, by simp⟩
  have h2 : ∀ l : List K, Crashes (lastElem l) := by
    intro l e h
    unfold lastElem at h
    split at h
    · cases h
    · cases h; exact ⟨rfl, by simp⟩
  have h3 : ∀ l : List K, Crashes (listMin l) := by
    intro l e h
    unfold listMin at h
    split at h
    · cases h; exact ⟨rfl, by simp⟩
    · cases h
  have h4 : ∀ l : List K, Crashes (listMax l) := by
    intro l e h
    unfold listMax at h
    split at h
    · cases h; exact ⟨rfl, by simp⟩
    · cases h
  unfold forestGrid
  exact (Crashes.mapM h1 _).bind fun _ => (h3 _).bind fun _ => (Crashes.mapM h2 _).bind fun _ => (h4 _).bind fun _ =>
    Crashes.ok _

theorem crash_coaddArms (m d : K) (n : Nat) (arms : List (List (Pix K))) : Crashes (coaddArms m d n arms) := by
  unfold coaddArms
  refine (Crashes.foldlM (fun acc pix => ?_) _ _).bind fun _ => Crashes.ok _
  unfold coaddArm
  exact (crash_scatterAdd _ _ _).bind fun _ => (crash_scatterAdd _ _ _).bind fun _ => (crash_scatterAdd _ _ _).bind fun _ =>
    Crashes.ok _

theorem crash_newCont (junk : Nat → K) (m : K) (n : Nat) (s : Spectrum K) : Crashes (s.newCont junk m n) := by
  unfold Spectrum.newCont
  split
  · exact Crashes.ok _
  · exact (Crashes.foldlM (fun _ _ => crash_scatterSet _ _ _) _ _).bind fun _ => Crashes.ok _

theorem crash_newReso (nan eps m : K) (n : Nat) (s : Spectrum K) : Crashes (s.newReso nan eps m n) := by
  unfold Spectrum.newReso
  split
  · exact Crashes.ok _
  · refine Crashes.bind ?_ fun _ => Crashes.ok _
    unfold coaddReso
    refine (Crashes.foldlM (fun acc a => ?_) _ _).bind fun _ => Crashes.ok _
    unfold coaddResoArm
    refine Crashes.bind ?_ fun _ => (Crashes.mapM (fun _ => crash_scatterAdd _ _ _) _).bind fun _ =>
      (crash_scatterAdd _ _ _).bind fun _ => Crashes.ok _
    intro e h
    unfold sameShape at h
    split at h
    · cases h
    · cases h; exact ⟨rfl, by simp⟩

theorem crash_coadd (T : TailFns K) (varlss eta : K → K) (s : Spectrum K) : Crashes (tailCoaddOne T varlss eta s) := by
  unfold tailCoaddOne
  refine Crashes.map _ ?_
  unfold Spectrum.coaddArmsForest
  exact (crash_grid _ _).bind fun _ => (crash_coaddArms _ _ _ _).bind fun _ => (crash_newCont _ _ _ _).bind fun _ =>
    (crash_newReso _ _ _ _ _).bind fun _ => Crashes.ok _

/-! ### One spectrum -/

/-- The additive noise calibration of one spectrum. -/
def noiseOne (c : NoiseCal K) (s : Spectrum K) : Except Err (Spectrum K) :=
  match c.varlss with
  | some varlss => if s.cont.isEmpty then .error .exception else s.fwave.foldlM (additiveArm c.eta varlss) s
  | none => .ok (s.fwave.foldl (etaArm c.eta) s)

/-- Noise calibration and weights of one spectrum. -/
def noiseTail (T : TailFns K) (varlss eta : K → K) (ncal : Option (NoiseCal K)) (s : Spectrum K) :
    Except Err (Spectrum K) :=
  match ncal with
  | none => .ok s
  | some c => (noiseOne c s).map (reweigh T varlss eta)

/-- Coadding of one spectrum. -/
def coaddTail (T : TailFns K) (varlss eta : K → K) (after : Bool) (s : Spectrum K) : Except Err (Spectrum K) :=
  if after then tailCoaddOne T varlss eta s else .ok s

/-- All steps for one spectrum. -/
def tailOne (T : TailFns K) (ncal : Option (NoiseCal K)) (after : Bool) (varlss eta : K → K) (s : Spectrum K) :
    Except Err (Spectrum K) :=
  (noiseTail T varlss eta ncal s).bind (coaddTail T varlss eta after)

theorem crash_noiseOne (c : NoiseCal K) (s : Spectrum K) : Crashes (noiseOne c s) := by
  unfold noiseOne
  split
  · split
    · intro e h; cases h; exact ⟨rfl, by simp⟩
    · refine Crashes.foldlM (fun s x => ?_) _ _
      unfold additiveArm
      refine Crashes.bind ?_ fun _ => Crashes.ok _
      intro e h
      cases hl : s.cont.lookup x.1 with
      | none => rw [hl] at h; cases h; exact ⟨rfl, by simp⟩
      | some a => rw [hl] at h; cases h
  · exact Crashes.ok _

omit [FloorRing K] in
theorem apply_eq (c : NoiseCal K) (l : List (Spectrum K)) :
    (∀ t : Spectrum K → Spectrum K, (∀ s ∈ l, noiseOne c s = .ok (t s)) → c.apply l = .ok (l.map t)) ∧
    ((∃ s ∈ l, ∃ e, noiseOne c s = .error e) → ∃ e, c.apply l = .error e) := by
  unfold NoiseCal.apply noiseOne
  cases hv : c.varlss with
  | none =>
    refine ⟨fun t ht => ?_, ?_⟩
    · refine congrArg Except.ok (List.map_congr_left fun s hs => ?_)
      exact Except.ok.inj (ht s hs)
    · rintro ⟨s, -, e, h⟩
      cases h
  | some v =>
    dsimp only
    constructor
    · intro t ht
      have hall : (l.all fun s => !s.cont.isEmpty) = true := by
        rw [List.all_eq_true]
        intro s hs
        by_contra h0
        have := ht s hs
        rw [if_pos (by simpa using h0)] at this
        cases this
      rw [if_pos hall]
      refine mapM_eq_ok fun s hs => ?_
      rw [← ht s hs, if_neg]
      have := List.all_eq_true.mp hall s hs
      simpa using this
    · rintro ⟨s, hs, e, h⟩
      by_cases h0 : s.cont.isEmpty
      · rw [if_neg]
        · exact ⟨_, rfl⟩
        · intro hall
          have := List.all_eq_true.mp hall s hs
          rw [h0] at this
          cases this
      · rw [if_neg h0] at h
        split
        · exact mapM_error hs h
        · exact ⟨_, rfl⟩

/-- The steps for a list, from those for its spectra. -/
theorem fitTail_ok (T : TailFns K) (ncal : Option (NoiseCal K)) (after : Bool) (varlss eta : K → K)
    {l : List (Spectrum K)} {t : Spectrum K → Spectrum K}
    (h : ∀ s ∈ l, tailOne T ncal after varlss eta s = .ok (t s)) :
    fitTail T ncal after varlss eta l = .ok (l.map t) := by
  have h1 : ∀ s ∈ l, ∃ m, noiseTail T varlss eta ncal s = .ok m ∧ coaddTail T varlss eta after m = .ok (t s) := by
    intro s hs
    have := h s hs
    unfold tailOne at this
    cases hm : noiseTail T varlss eta ncal s with
    | error e => rw [hm] at this; cases this
    | ok m => rw [hm] at this; exact ⟨m, rfl, this⟩
  choose! m hm hc using h1
  have h2 : tailNoise T varlss eta l ncal = .ok (l.map m) := by
    unfold tailNoise
    cases ncal with
    | none =>
      refine congrArg Except.ok ?_
      conv_lhs => rw [← List.map_id l]
      exact List.map_congr_left fun s hs => Except.ok.inj (hm s hs)
    | some c =>
      have h3 : ∀ s ∈ l, ∃ a, noiseOne c s = .ok a ∧ reweigh T varlss eta a = m s := by
        intro s hs
        have := hm s hs
        unfold noiseTail at this
        dsimp only at this
        cases ha : noiseOne c s with
        | error e => rw [ha] at this; cases this
        | ok a => rw [ha] at this; exact ⟨a, rfl, Except.ok.inj this⟩
      choose! a ha ha' using h3
      dsimp only
      rw [(apply_eq c l).1 a ha]
      change Except.ok ((l.map a).map (reweigh T varlss eta)) = _
      rw [List.map_map]
      exact congrArg Except.ok (List.map_congr_left fun s hs => ha' s hs)
  unfold fitTail
  rw [h2]
  change tailCoadd T varlss eta (l.map m) after = _
  unfold tailCoadd
  unfold coaddTail at hc
  cases after with
  | false =>
    refine congrArg Except.ok (List.map_congr_left fun s hs => ?_)
    exact Except.ok.inj (hc s hs)
  | true =>
    rw [if_pos rfl]
    have : (l.map m).mapM (tailCoaddOne T varlss eta) = l.mapM (fun s => tailCoaddOne T varlss eta (m s)) := by
      rw [List.mapM_map]
      rfl
    rw [this]
    exact mapM_eq_ok fun s hs => hc s hs

theorem crash_fitTail (T : TailFns K) (ncal : Option (NoiseCal K)) (after : Bool) (varlss eta : K → K)
    (l : List (Spectrum K)) : Crashes (fitTail T ncal after varlss eta l) := by
  unfold fitTail
  refine Crashes.bind ?_ fun l' => ?_
  · unfold tailNoise
    cases ncal with
    | none => exact Crashes.ok _
    | some c =>
      dsimp only
      refine Crashes.map _ ?_
      by_cases hb : ∃ s ∈ l, ∃ e, noiseOne c s = .error e
      · intro e' he'
        unfold NoiseCal.apply at he'
        split at he'
        · split at he'
          · have : Crashes (l.mapM (fun s => s.fwave.foldlM (additiveArm c.eta (by assumption)) s)) := by
              refine Crashes.mapM (fun s => ?_) l
              refine Crashes.foldlM (fun s x => ?_) _ _
              unfold additiveArm
              refine Crashes.bind ?_ fun _ => Crashes.ok _
              intro e h
              cases hl : s.cont.lookup x.1 with
              | none => rw [hl] at h; cases h; exact ⟨rfl, by simp⟩
              | some a => rw [hl] at h; cases h
            exact this e' he'
          · cases he'; exact ⟨rfl, by simp⟩
        · cases he'
      · push Not at hb
        have h3 : ∀ s ∈ l, ∃ a, noiseOne c s = .ok a := by
          intro s hs
          cases ha : noiseOne c s with
          | error e => exact absurd ha (hb s hs e)
          | ok a => exact ⟨a, rfl⟩
        choose! a ha using h3
        rw [(apply_eq c l).1 a ha]
        exact Crashes.ok _
  · unfold tailCoadd
    split
    · exact Crashes.mapM (crash_coadd T varlss eta) _
    · exact Crashes.ok _

theorem fitTail_bad (T : TailFns K) (ncal : Option (NoiseCal K)) (after : Bool) (varlss eta : K → K)
    {l : List (Spectrum K)} {s : Spectrum K} (hs : s ∈ l) {e : Err} (h : tailOne T ncal after varlss eta s = .error e) :
    ∃ e', Unexpected e' ∧ fitTail T ncal after varlss eta l = .error e' := by
  have hcr := crash_fitTail T ncal after varlss eta l
  suffices ∃ e', fitTail T ncal after varlss eta l = .error e' from this.imp fun e' he' => ⟨hcr e' he', he'⟩
  by_cases hb : ∃ s ∈ l, ∃ e, noiseTail T varlss eta ncal s = .error e
  · obtain ⟨s, hs, e, he⟩ := hb
    unfold noiseTail at he
    cases ncal with
    | none => cases he
    | some c =>
      dsimp only at he
      cases ha : noiseOne c s with
      | ok a => rw [ha] at he; cases he
      | error e =>
        obtain ⟨e', h'⟩ := (apply_eq c l).2 ⟨s, hs, e, ha⟩
        refine ⟨e', ?_⟩
        unfold fitTail tailNoise
        dsimp only
        rw [h']
        rfl
  · push Not at hb
    have h1 : ∀ s ∈ l, ∃ m, noiseTail T varlss eta ncal s = .ok m := by
      intro s hs
      cases hm : noiseTail T varlss eta ncal s with
      | error e => exact absurd hm (hb s hs e)
      | ok m => exact ⟨m, rfl⟩
    choose! m hm using h1
    have hbad : coaddTail T varlss eta after (m s) = .error e := by
      unfold tailOne at h
      rw [hm s hs] at h
      exact h
    have h2 : fitTail T ncal false varlss eta l = .ok (l.map m) := by
      refine fitTail_ok T ncal false varlss eta fun s hs => ?_
      unfold tailOne
      rw [hm s hs]
      rfl
    have h3 : tailNoise T varlss eta l ncal = .ok (l.map m) := by
      unfold fitTail at h2
      cases hn : tailNoise T varlss eta l ncal with
      | error e => rw [hn] at h2; cases h2
      | ok l1 => rw [hn] at h2; exact h2
    unfold fitTail
    rw [h3]
    change ∃ e', tailCoadd T varlss eta (l.map m) after = .error e'
    unfold coaddTail at hbad
    unfold tailCoadd
    cases after with
    | false => cases hbad
    | true =>
      rw [if_pos rfl]
      exact mapM_error (List.mem_map.mpr ⟨s, hs, rfl⟩) hbad

/-! ### Two pairs of interpolators -/

/-- A spectrum without weights and chi square. -/
def bare (s : Spectrum K) : Spectrum K := { s with weight := none, chi2 := 0 }

/-- The fields that do not depend on the weights. -/
structure SameCore (s t : Spectrum K) : Prop where
  z : s.z = t.z
  dwave : s.dwave = t.dwave
  valid : s.valid = t.valid
  fwave : s.fwave = t.fwave
  cont : s.cont = t.cont
  x0 : s.x0 = t.x0

omit [LinearOrder K] [FloorRing K] in
theorem sfw_bare (v e v' e' : K → K) (s : Spectrum K) :
    bare (s.setForestWeight v e) = bare (s.setForestWeight v' e') := by
  unfold Spectrum.setForestWeight
  split <;> rfl

omit [LinearOrder K] [FloorRing K] in
theorem chi2_bare (s : Spectrum K) : bare s.calcContinuumChi2 = bare s := by
  unfold Spectrum.calcContinuumChi2
  split <;> rfl

omit [LinearOrder K] [FloorRing K] in
theorem SameCore.of_bare {s t : Spectrum K} (h : bare s = bare t) : SameCore s t :=
  ⟨by simpa [bare] using congrArg Spectrum.z h, by simpa [bare] using congrArg Spectrum.dwave h,
    by simpa [bare] using congrArg Spectrum.valid h, by simpa [bare] using congrArg Spectrum.fwave h,
    by simpa [bare] using congrArg Spectrum.cont h, by simpa [bare] using congrArg Spectrum.x0 h⟩

theorem SameResult.refl_eq {A : Type} (x : Except Err A) : SameResult Eq x x := by
  cases x with
  | error e => exact rfl
  | ok a => exact rfl

theorem sameResult_imp {A B : Type} {R S : A → B → Prop} (h : ∀ a b, R a b → S a b) {x : Except Err A} {y : Except Err B}
    (hx : SameResult R x y) : SameResult S x y := by
  cases x with
  | error e =>
    cases y with
    | error e' => exact hx
    | ok b => exact hx.elim
  | ok a =>
    cases y with
    | error e' => exact hx.elim
    | ok b => exact h a b hx

theorem sameResult_map {A B A' B' : Type} {R : A → B → Prop} {S : A' → B' → Prop} {x : Except Err A} {y : Except Err B}
    (h : SameResult R x y) {f : A → A'} {g : B → B'} (hf : ∀ a b, R a b → S (f a) (g b)) :
    SameResult S (x.map f) (y.map g) := by
  cases x with
  | error e =>
    cases y with
    | error e' => exact h
    | ok b => exact h.elim
  | ok a =>
    cases y with
    | error e' => exact h.elim
    | ok b => exact hf a b h

/-- Coadding a spectrum with two pairs of interpolators. -/
theorem coadd_bare (T : TailFns K) (v e v' e' : K → K) (s : Spectrum K) :
    SameResult (fun t t' => bare t = bare t') (tailCoaddOne T v e s) (tailCoaddOne T v' e' s) := by
  unfold tailCoaddOne
  refine sameResult_map (R := fun t t' => bare t = bare t') ?_ fun a b h => by rw [chi2_bare, chi2_bare, h]
  unfold Spectrum.coaddArmsForest
  refine sameResult_bind (SameResult.refl_eq _) ?_
  rintro g _ rfl
  refine sameResult_bind (SameResult.refl_eq _) ?_
  rintro fi _ rfl
  refine sameResult_bind (SameResult.refl_eq _) ?_
  rintro c _ rfl
  refine sameResult_bind (SameResult.refl_eq _) ?_
  rintro r _ rfl
  exact congrArg (fun s : Spectrum K => s.withSnr (Spectrum.coaddSnr T.sqrt T.nan fi.1 fi.2)) (sfw_bare v e v' e' _)

/-! ### Coadding with other weights -/

omit [FloorRing K] in
theorem scatterAdd_len {a a' : List K} (h : a.length = a'.length) (idx : List Int) (x y : List K) :
    SameResult (fun b b' => b.length = a.length ∧ b'.length = a.length) (scatterAdd a idx x) (scatterAdd a' idx y) := by
  rcases scatterAdd_cases (K := K) a.length idx with ⟨js, hj⟩ | hj
  · rw [hj a x rfl, hj a' y h.symm]
    exact ⟨bump_length _ _, (bump_length _ _).trans h.symm⟩
  · rw [hj a x rfl, hj a' y h.symm]
    exact rfl

theorem foldlM_same {A A' B B' : Type} {R : A → A' → Prop} {S : B → B' → Prop} {f : B → A → Except Err B}
    {g : B' → A' → Except Err B'} (h : ∀ b b' a a', S b b' → R a a' → SameResult S (f b a) (g b' a'))
    {l : List A} {l' : List A'} (hl : List.Forall₂ R l l') : ∀ {b : B} {b' : B'}, S b b' →
      SameResult S (l.foldlM f b) (l'.foldlM g b') := by
  induction hl with
  | nil => intro b b' hb; exact hb
  | cons hab _ ih =>
    intro b b' hb
    rw [List.foldlM_cons, List.foldlM_cons]
    exact sameResult_bind (h _ _ _ _ hb hab) fun c c' hc => ih hc

theorem coaddArms_len (m d : K) (n : Nat) {arms arms' : List (List (Pix K))}
    (h : List.Forall₂ (fun a a' => a.map (fun p => p.wave) = a'.map (fun p => p.wave)) arms arms') :
    SameResult (fun _ _ => True) (coaddArms m d n arms) (coaddArms m d n arms') := by
  unfold coaddArms
  refine sameResult_bind (R := fun a a' => AccLen n a ∧ AccLen n a') ?_ fun a b _ => trivial
  refine foldlM_same (fun b b' a a' hb ha => ?_) h
    ⟨⟨List.length_replicate, List.length_replicate, List.length_replicate⟩,
      ⟨List.length_replicate, List.length_replicate, List.length_replicate⟩⟩
  have hidx : a'.map (fun p => coaddIdx m d p.wave) = a.map (fun p => coaddIdx m d p.wave) := by
    have := congrArg (List.map (coaddIdx m d)) ha
    rw [List.map_map, List.map_map] at this
    exact this.symm
  unfold coaddArm
  dsimp only
  rw [hidx]
  obtain ⟨⟨b1, b2, b3⟩, ⟨c1, c2, c3⟩⟩ := hb
  refine sameResult_bind (scatterAdd_len (b1.trans c1.symm) _ _ _) fun x x' hx => ?_
  refine sameResult_bind (scatterAdd_len (b2.trans c2.symm) _ _ _) fun y y' hy => ?_
  refine sameResult_bind (scatterAdd_len (b3.trans c3.symm) _ _ _) fun z z' hz => ?_
  exact ⟨⟨hx.1.trans b1, hy.1.trans b2, hz.1.trans b3⟩, ⟨hx.2.trans b1, hy.2.trans b2, hz.2.trans b3⟩⟩

theorem coaddReso_len (nan eps m d : K) (n : Nat) {arms arms' : List (ResoArm K)}
    (h : List.Forall₂ (fun a a' => a.wave = a'.wave ∧ a.rows = a'.rows) arms arms') :
    SameResult (fun _ _ => True) (coaddReso nan eps m d n arms) (coaddReso nan eps m d n arms') := by
  have hmax : arms.map (fun a => a.rows.length) = arms'.map (fun a => a.rows.length) := by
    induction h with
    | nil => rfl
    | cons h _ ih => rw [List.map_cons, List.map_cons, ih, h.2]
  unfold coaddReso
  rw [hmax]
  dsimp only
  refine sameResult_bind (R := fun a a' => List.Forall₂ (fun r r' => r.length = r'.length) a.1 a'.1 ∧ a.2.length = a'.2.length)
    ?_ fun a b _ => trivial
  refine foldlM_same (fun b b' a a' hb ha => ?_) h ⟨List.forall₂_same.mpr fun _ _ => rfl, rfl⟩
  unfold coaddResoArm
  dsimp only
  rw [ha.1, ha.2, hb.1.length_eq]
  refine sameResult_bind (SameResult.refl_eq _) fun _ _ _ => ?_
  refine sameResult_bind (R := List.Forall₂ (fun r r' => r.length = r'.length)) ?_ fun x x' hx =>
    sameResult_bind (scatterAdd_len hb.2 _ _ _) fun y y' hy => ⟨hx, hy.1.trans hy.2.symm⟩
  refine mapM_sameResult (R := fun p p' : List K × List K => p.1.length = p'.1.length) (fun p p' hp => ?_) ?_
  · exact sameResult_imp (fun x y h => h.1.trans h.2.symm) (scatterAdd_len hp _ _ _)
  · have : ∀ (l l' rows : List (List K)), List.Forall₂ (fun r r' => r.length = r'.length) l l' →
        List.Forall₂ (fun p p' : List K × List K => p.1.length = p'.1.length) (l.zip rows) (l'.zip rows) := by
      intro l l' rows h
      induction h generalizing rows with
      | nil => simp
      | cons h _ ih =>
        cases rows with
        | nil => simp
        | cons r rows => exact .cons h (ih rows)
    exact this _ _ _ hb.1

omit [LinearOrder K] [FloorRing K] in
theorem pixelsOf_wave (wave flux ivar : List K) {w w' : List K} (h : w.length = w'.length) :
    (pixelsOf wave w flux ivar).map (fun p => p.wave) = (pixelsOf wave w' flux ivar).map (fun p => p.wave) := by
  unfold pixelsOf
  generalize flux.zip ivar = fi
  induction wave generalizing w w' fi with
  | nil => rfl
  | cons x wave ih =>
    cases w with
    | nil =>
      cases w' with
      | nil => rfl
      | cons b w' => simp at h
    | cons a w =>
      cases w' with
      | nil => simp at h
      | cons b w' =>
        cases fi with
        | nil => rfl
        | cons y fi =>
          have := ih (w := w) (w' := w') (by simpa using h) fi
          simp only [List.zip_cons_cons, List.zipWith_cons_cons, List.map_cons]
          rw [this]

theorem coadd_core (T : TailFns K) (v e v' e' : K → K) (a : Spectrum K) :
    SameResult SameCore (tailCoaddOne T v e (a.setForestWeight v e)) (tailCoaddOne T v' e' (a.setForestWeight v' e')) := by
  have hb := sfw_bare v e v' e' a
  have hw : ∀ arm, ((a.setForestWeight v e).fweight.arr arm).length = ((a.setForestWeight v' e').fweight.arr arm).length := by
    intro arm
    unfold Spectrum.setForestWeight
    split
    · rfl
    · change ((a.fwave.mapVals (fun arm wave => Spectrum.armWeight v e wave (a.cont.arr arm) (a.fivarSm.arr arm))).arr
        arm).length = ((a.fwave.mapVals (fun arm wave => Spectrum.armWeight v' e' wave (a.cont.arr arm)
          (a.fivarSm.arr arm))).arr arm).length
      unfold Dict.arr
      rw [lookup_mapVals, lookup_mapVals]
      cases a.fwave.lookup arm with
      | none => rfl
      | some x => simp [Spectrum.armWeight]
  generalize a.setForestWeight v e = s at hb hw
  generalize a.setForestWeight v' e' = s' at hb hw
  have q1 : s.fwave = s'.fwave := by simpa [bare] using congrArg Spectrum.fwave hb
  have q2 : s.fflux = s'.fflux := by simpa [bare] using congrArg Spectrum.fflux hb
  have q3 : s.fivar = s'.fivar := by simpa [bare] using congrArg Spectrum.fivar hb
  have q4 : s.freso = s'.freso := by simpa [bare] using congrArg Spectrum.freso hb
  have q5 : s.cont = s'.cont := by simpa [bare] using congrArg Spectrum.cont hb
  have q6 : s.dwave = s'.dwave := by simpa [bare] using congrArg Spectrum.dwave hb
  have q7 : s.z = s'.z := by simpa [bare] using congrArg Spectrum.z hb
  have q8 : s.valid = s'.valid := by simpa [bare] using congrArg Spectrum.valid hb
  have q9 : s.x0 = s'.x0 := by simpa [bare] using congrArg Spectrum.x0 hb
  unfold tailCoaddOne
  refine sameResult_map (R := SameCore) ?_ fun x y h => ?_
  · unfold Spectrum.coaddArmsForest
    rw [q1, q6]
    refine sameResult_bind (SameResult.refl_eq _) ?_
    rintro g _ rfl
    refine sameResult_bind (coaddArms_len _ _ _ ?_) fun fi fi' _ => ?_
    · rw [List.forall₂_map_left_iff, List.forall₂_map_right_iff, List.forall₂_same]
      intro x _
      unfold Spectrum.forestPix
      rw [q1, q2, q3]
      exact pixelsOf_wave _ _ _ (hw x.1)
    have hc : s.newCont T.junk g.1 g.2.2 = s'.newCont T.junk g.1 g.2.2 := by
      unfold Spectrum.newCont
      rw [q5, q1, q6]
    rw [hc]
    refine sameResult_bind (SameResult.refl_eq _) ?_
    rintro c _ rfl
    refine sameResult_bind (R := fun _ _ => True) ?_ fun r r' _ => ?_
    · unfold Spectrum.newReso
      rw [q4]
      split
      · trivial
      · rw [q6]
        refine sameResult_bind (coaddReso_len _ _ _ _ _ ?_) fun _ _ _ => trivial
        rw [List.forall₂_map_left_iff, List.forall₂_map_right_iff, List.forall₂_same]
        intro x _
        exact ⟨by rw [q1], rfl⟩
    · have hz : ∀ (x : Spectrum K) (a b : K → K), SameCore (x.setForestWeight a b) x := by
        intro x a b
        unfold Spectrum.setForestWeight
        split <;> exact ⟨rfl, rfl, rfl, rfl, rfl, rfl⟩
      have hy : ∀ (x : Spectrum K) (k : K), SameCore (x.setSmoothForestivar T.smooth k) x := by
        intro x k
        unfold Spectrum.setSmoothForestivar
        split <;> exact ⟨rfl, rfl, rfl, rfl, rfl, rfl⟩
      have key : ∀ (x : Spectrum K) (w fl iv : List K) (re : Dict (List (List K))) (a b : K → K) (k y : K),
          SameCore ((((x.replaceForest w fl iv c re).setSmoothForestivar T.smooth k).setForestWeight a b).withSnr y)
            (x.replaceForest w fl iv c re) := by
        intro x w fl iv re a b k y
        have h1 := hz ((x.replaceForest w fl iv c re).setSmoothForestivar T.smooth k) a b
        have h2 := hy (x.replaceForest w fl iv c re) k
        exact ⟨h1.z.trans h2.z, h1.dwave.trans h2.dwave, h1.valid.trans h2.valid, h1.fwave.trans h2.fwave,
          h1.cont.trans h2.cont, h1.x0.trans h2.x0⟩
      have k1 := key s (linspace g.1 g.2.1 g.2.2) fi.1 fi.2 r v e s.smoothing (Spectrum.coaddSnr T.sqrt T.nan fi.1 fi.2)
      have k2 := key s' (linspace g.1 g.2.1 g.2.2) fi'.1 fi'.2 r' v' e' s'.smoothing
        (Spectrum.coaddSnr T.sqrt T.nan fi'.1 fi'.2)
      exact ⟨k1.z.trans (q7.trans k2.z.symm), k1.dwave.trans (q6.trans k2.dwave.symm),
        k1.valid.trans (q8.trans k2.valid.symm), k1.fwave.trans k2.fwave.symm, k1.cont.trans k2.cont.symm,
        k1.x0.trans (q9.trans k2.x0.symm)⟩
  · obtain ⟨a1, a2, a3, -, -, -, a7, -⟩ := chi2_same x
    obtain ⟨b1, b2, b3, -, -, -, b7, -⟩ := chi2_same y
    have hd : ∀ x : Spectrum K, x.calcContinuumChi2.dwave = x.dwave := by
      intro x
      unfold Spectrum.calcContinuumChi2
      split <;> rfl
    have h0 : ∀ x : Spectrum K, x.calcContinuumChi2.x0 = x.x0 := by
      intro x
      unfold Spectrum.calcContinuumChi2
      split <;> rfl
    exact ⟨a7.trans (h.z.trans b7.symm), (hd x).trans (h.dwave.trans (hd y).symm), a1.trans (h.valid.trans b1.symm),
      a3.trans (h.fwave.trans b3.symm), a2.trans (h.cont.trans b2.symm),
      (h0 x).trans (h.x0.trans (h0 y).symm)⟩

/-- All steps for one spectrum, with two pairs of interpolators. -/
theorem tailOne_same (T : TailFns K) (ncal : Option (NoiseCal K)) (after : Bool) (v e v' e' : K → K) (s : Spectrum K) :
    SameResult (fun t t' => SameCore t t' ∧ (ncal = none ∨ after = false → bare t = bare t'))
      (tailOne T ncal after v e s) (tailOne T ncal after v' e' s) := by
  unfold tailOne noiseTail coaddTail
  cases ncal with
  | none =>
    change SameResult _ (if after then tailCoaddOne T v e s else .ok s) (if after then tailCoaddOne T v' e' s else .ok s)
    cases after with
    | false => exact ⟨⟨rfl, rfl, rfl, rfl, rfl, rfl⟩, fun _ => rfl⟩
    | true => exact sameResult_imp (fun a b h => ⟨.of_bare h, fun _ => h⟩) (coadd_bare T v e v' e' s)
  | some c =>
    dsimp only
    cases noiseOne c s with
    | error e => exact rfl
    | ok a =>
      change SameResult _ (if after then tailCoaddOne T v e (reweigh T v e a) else .ok (reweigh T v e a))
        (if after then tailCoaddOne T v' e' (reweigh T v' e' a) else .ok (reweigh T v' e' a))
      unfold reweigh
      cases after with
      | false =>
        have := sfw_bare v e v' e' (a.setSmoothForestivar T.smooth a.smoothing)
        exact ⟨.of_bare this, fun _ => this⟩
      | true =>
        exact sameResult_imp (fun a b h => ⟨h, fun h' => by simp at h'⟩) (coadd_core T v e v' e' _)

/-! ### Dropping short arms -/

theorem drop_bare (s : Spectrum K) (a b c : K) : (bare s).dropShortArms a b c = bare (s.dropShortArms a b c) := by
  change (shortArms s a b c).foldl Spectrum.dropArm (bare s) = bare ((shortArms s a b c).foldl Spectrum.dropArm s)
  generalize shortArms s a b c = l
  induction l generalizing s with
  | nil => rfl
  | cons k l ih => exact ih (s.dropArm k)

theorem drop_keeps (s : Spectrum K) (a b c : K) :
    (s.dropShortArms a b c).z = s.z ∧ (s.dropShortArms a b c).dwave = s.dwave ∧ (s.dropShortArms a b c).valid = s.valid := by
  change ((shortArms s a b c).foldl Spectrum.dropArm s).z = _ ∧ ((shortArms s a b c).foldl Spectrum.dropArm s).dwave = _ ∧
    ((shortArms s a b c).foldl Spectrum.dropArm s).valid = _
  generalize shortArms s a b c = l
  induction l generalizing s with
  | nil => exact ⟨rfl, rfl, rfl⟩
  | cons k l ih => exact ih (s.dropArm k)

theorem coadd_one_arm {T : TailFns K} {v e : K → K} {s t : Spectrum K} (h : tailCoaddOne T v e s = .ok t) :
    ∃ w iv, t.fwave = [("brz", w)] ∧ t.fivar = [("brz", iv)] := by
  unfold tailCoaddOne at h
  cases hc : s.coaddArmsForest T.sqrt T.smooth T.junk T.nan T.eps v e with
  | error e => rw [hc] at h; cases h
  | ok u =>
    rw [hc] at h
    obtain rfl := Except.ok.inj h
    obtain ⟨w, fl, iv, co, re, x, rfl⟩ := coadd_shape hc
    refine ⟨w, iv, ?_, ?_⟩
    · obtain ⟨-, -, h3, -⟩ := chi2_same ((((s.replaceForest w fl iv co re).setSmoothForestivar T.smooth
        s.smoothing).setForestWeight v e).withSnr x)
      rw [h3]
      change (((s.replaceForest w fl iv co re).setSmoothForestivar T.smooth s.smoothing).setForestWeight v e).fwave = _
      rw [(sfw_same v e _).2.2.1]
      unfold Spectrum.setSmoothForestivar
      split <;> rfl
    · obtain ⟨-, -, -, -, h5, -⟩ := chi2_same ((((s.replaceForest w fl iv co re).setSmoothForestivar T.smooth
        s.smoothing).setForestWeight v e).withSnr x)
      rw [h5]
      change (((s.replaceForest w fl iv co re).setSmoothForestivar T.smooth s.smoothing).setForestWeight v e).fivar = _
      rw [(sfw_same v e _).2.2.2.2.1]
      unfold Spectrum.setSmoothForestivar
      split <;> rfl

theorem drop_one_arm {t : Spectrum K} {w iv : List K} (h1 : t.fwave = [("brz", w)]) (h2 : t.fivar = [("brz", iv)])
    (a b c : K) : t.dropShortArms a b c = t ∨ (t.dropShortArms a b c).fwave = [] := by
  have : shortArms t a b c = [] ∨ shortArms t a b c = ["brz"] := by
    unfold shortArms
    rw [h2, List.filter_cons]
    split
    · exact .inr rfl
    · exact .inl rfl
  change (shortArms t a b c).foldl Spectrum.dropArm t = t ∨ ((shortArms t a b c).foldl Spectrum.dropArm t).fwave = []
  rcases this with h | h
  · rw [h]; exact .inl rfl
  · rw [h]
    right
    change t.fwave.pop "brz" = []
    rw [h1]
    rfl

theorem tail_dropped {T : TailFns K} {ncal : Option (NoiseCal K)} {after : Bool} {v e v' e' : K → K} {s t t' : Spectrum K}
    (h : tailOne T ncal after v e s = .ok t) (h' : tailOne T ncal after v' e' s = .ok t') (a b c : K) :
    SameOrDropped (t.dropShortArms a b c) (t'.dropShortArms a b c) := by
  have hs := tailOne_same T ncal after v e v' e' s
  rw [h, h'] at hs
  obtain ⟨hs, hb⟩ := (hs : SameCore t t' ∧ _)
  cases after with
  | false =>
    have := congrArg (fun s : Spectrum K => s.dropShortArms a b c) (hb (.inr rfl))
    rw [drop_bare, drop_bare] at this
    have := SameCore.of_bare this
    exact .inl ⟨this.fwave, this.cont⟩
  | true =>
    have key : ∀ {v e : K → K} {t : Spectrum K}, tailOne T ncal true v e s = .ok t →
        t.dropShortArms a b c = t ∨ (t.dropShortArms a b c).fwave = [] := by
      intro v e t h
      unfold tailOne at h
      cases hn : noiseTail T v e ncal s with
      | error e => rw [hn] at h; cases h
      | ok m =>
        rw [hn] at h
        obtain ⟨w, iv, h1, h2⟩ := coadd_one_arm (h : tailCoaddOne T v e m = .ok t)
        exact drop_one_arm h1 h2 a b c
    rcases key h with k | k
    · rcases key h' with k' | k'
      · rw [k, k']
        exact .inl ⟨hs.fwave, hs.cont⟩
      · exact .inr (.inr k')
    · exact .inr (.inl k)

end

section
variable {Val K : Type} [LinearOrder Val] [Field K] [LinearOrder K] [FloorRing K] [IsStrictOrderedRing K]

/-- Saved spectra seen through `φ`. -/
def seenBy (φ : ReadSpec K → ReadSpec K) (s : SavedSpec Val (ReadSpec K)) : SavedSpec Val (ReadSpec K) :=
  { s with data := φ s.data }

omit [LinearOrder K] [FloorRing K] [IsStrictOrderedRing K] [Field K] in
theorem filesBy_facts (φ : ReadSpec K → ReadSpec K) {F : List (DeltaName Val × List (SavedSpec Val (ReadSpec K)))}
    {S : List (SavedSpec Val (ReadSpec K))}
    (h : (F.map Prod.fst).Nodup ∧ (∀ s ∈ S, ∃ f ∈ F, f.1 = .pix s.hpix) ∧
      ∀ f ∈ F, ∃ p, f.1 = .pix p ∧ (∃ s ∈ S, s.hpix = p) ∧ f.2.Perm (S.filter (fun s => s.valid ∧ s.hpix = p))) :
    ((filesBy φ F).map Prod.fst).Nodup ∧ (∀ s ∈ S.map (seenBy φ), ∃ f ∈ filesBy φ F, f.1 = .pix s.hpix) ∧
      ∀ f ∈ filesBy φ F, ∃ p, f.1 = .pix p ∧ (∃ s ∈ S.map (seenBy φ), s.hpix = p) ∧
        f.2.Perm ((S.map (seenBy φ)).filter (fun s => s.valid ∧ s.hpix = p)) := by
  obtain ⟨h1, h2, h3⟩ := h
  refine ⟨?_, ?_, ?_⟩
  · unfold filesBy
    rw [List.map_map]
    exact h1
  · intro s hs
    obtain ⟨s', hs', rfl⟩ := List.mem_map.mp hs
    obtain ⟨f, hf, e⟩ := h2 s' hs'
    exact ⟨_, List.mem_map.mpr ⟨f, hf, rfl⟩, e⟩
  · intro f hf
    obtain ⟨f', hf', rfl⟩ := List.mem_map.mp hf
    obtain ⟨p, e, ⟨s, hs, e'⟩, hp⟩ := h3 f' hf'
    refine ⟨p, e, ⟨_, List.mem_map.mpr ⟨s, hs, rfl⟩, e'⟩, ?_⟩
    rw [List.filter_map]
    exact hp.map _

/-- What follows the fit. -/
def tailEnd {V W : Type} (C : TailCfg Val K) (night : Option Val) (r : Nat) (_q : List (List (Row Val)))
    (l : List (ReadSpec K)) (w : FullState K × List (Spectrum K) × Nat × Bool) : Prog V W (WholeOut Val K) :=
  C.ending night r l w

theorem tailEnd_eq {V W : Type} (C : TailCfg Val K) {c : Catalog Val} {f : Val → List (ReadSpec K)}
    {u : Spectrum K → Spectrum K} {night : Option Val} {r j : Nat} {b : Bool} {gf : FullState K}
    {q : List (List (Row Val))} :
    (tailEnd C night r q (prepQueue C.run c f q) (gf, ((prepQueue C.run c f q).map (·.spec)).map u, j, b) :
      Prog V W (WholeOut Val K)) =
    fin ((fitTail C.fns C.ncal C.after gf.varlss gf.eta ((fittedRank C.run c f u q).map (·.spec))).bind fun t =>
      (C.run.save r ((SelectCfg.setSpecs (fittedRank C.run c f u q) t).map (fun x => { x with
        spec := x.spec.dropShortArms C.run.sel.forestW1 C.run.sel.forestW2 C.run.sel.skip }))).bind fun files =>
        .ok ⟨night, j, b, (SelectCfg.setSpecs (fittedRank C.run c f u q) t).map (fun x => { x with
        spec := x.spec.dropShortArms C.run.sel.forestW1 C.run.sel.forestW2 C.run.sel.skip }), files⟩) := by
  unfold tailEnd TailCfg.ending TailCfg.finish
  dsimp only
  rw [setSpecs_map]
  change (ofExcept ((fitTail C.fns C.ncal C.after gf.varlss gf.eta ((fittedRank C.run c f u q).map (·.spec))).bind
    _)).bind _ = _
  cases fitTail C.fns C.ncal C.after gf.varlss gf.eta ((fittedRank C.run c f u q).map (·.spec)) with
  | error e => rfl
  | ok t =>
    change (ofExcept (C.run.save r ((SelectCfg.setSpecs (fittedRank C.run c f u q) t).map (fun x => { x with
        spec := x.spec.dropShortArms C.run.sel.forestW1 C.run.sel.forestW2 C.run.sel.skip })))).bind _ =
      fin ((C.run.save r ((SelectCfg.setSpecs (fittedRank C.run c f u q) t).map (fun x => { x with
        spec := x.spec.dropShortArms C.run.sel.forestW1 C.run.sel.forestW2 C.run.sel.skip }))).bind _)
    cases C.run.save r ((SelectCfg.setSpecs (fittedRank C.run c f u q) t).map (fun x => { x with
        spec := x.spec.dropShortArms C.run.sel.forestW1 C.run.sel.forestW2 C.run.sel.skip })) with
    | error e => rfl
    | ok fl => rfl

end
end Verif.Proofs

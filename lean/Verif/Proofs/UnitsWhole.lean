import Verif.Proofs.UnitsCoadd
import Verif.Model.Smooth

/-!
# Units of flux: the whole run
-/

namespace Verif.Proofs
open Verif Verif.Np Verif.Model Verif.Model.Prog Verif.Spec

variable {K : Type} [Field K] [LinearOrder K] [IsStrictOrderedRing K] [FloorRing K]

theorem sameResult_mono {A B : Type} {R S : A → B → Prop} (hRS : ∀ a b, R a b → S a b) {x : Except Err A} {y : Except Err B}
    (h : SameResult R x y) : SameResult S x y := by
  cases x with
  | error e =>
    cases y with
    | error e' => exact h
    | ok b => exact h.elim
  | ok a =>
    cases y with
    | error e' => exact h.elim
    | ok b => exact hRS a b h

theorem select_rel {Cat : Type} (C : SelectCfg K) (hs : SqrtScales C.sqrt)
    (heta : ∀ eta, C.eta = some eta → ∀ w, 0 < eta w)
    {reader reader' : Cat → Except Err (List (ReadSpec K))} {queue : List Cat} (ids : List Int)
    (h : ∀ q ∈ queue, SameResult (List.Forall₂ (RelRead C)) (reader q) (reader' q)) :
    SameResult (List.Forall₂ RelSel) (C.select reader ids queue) (C.select reader' ids queue) := by
  rw [select_eq, select_eq]
  refine sameResult_bind (readLocal_rel C hs h) fun l l' hl => ?_
  have h1 : List.Forall₂ RelSel (l.map (treatOne C ids)) (l'.map (treatOne C ids)) := by
    refine forall₂_map_rel (fun x x' hx => ?_) hl
    exact ⟨nn_treatOne C heta ids hx.1, treatOne_rel C ids hx.2⟩
  exact filter_rel (fun x x' hx => keepTreated_rel C hx.2) h1

/-- The spectra as the fit gets them. -/
def RelFit (x x' : ReadSpec K) : Prop := IvarNonneg x.spec ∧ ReadUnits x x'

theorem smooth_scale {smooth : List K → K → List K} (hs : SmoothScales smooth) {c : K} (hc : 0 < c) (y size : K)
    (s : Spectrum K) : (rescale c y s).setSmoothForestivar smooth size = rescale c y (s.setSmoothForestivar smooth size) := by
  unfold Spectrum.setSmoothForestivar
  split
  · rfl
  · have key : ∀ d d' : Dict (List K), d' = times (1 / c ^ 2) d →
        ({ rescale c y s with smoothing := size, ivarSm := some d', weight := none } : Spectrum K) =
          rescale c y { s with smoothing := size, ivarSm := some d, weight := none } := by
      intro d d' e
      rw [e]
      rfl
    refine key _ _ ?_
    change (times (1 / c ^ 2) s.fivar).mapVals (fun _ v => smooth v (size / s.dwave)) = _
    unfold times Dict.mapVals
    rw [List.map_map, List.map_map]
    refine List.map_congr_left fun a _ => ?_
    simp only [Function.comp_apply]
    rw [hs c a.2 _ hc]

variable {Val : Type} [LinearOrder Val]

omit [LinearOrder Val] in
theorem smooth_rel (C : WholeCfg Val K) (hs : SmoothScales C.sel.smooth)
    (hn : ∀ l p, ∀ v ∈ C.sel.smooth l p, 0 ≤ v) {x x' : ReadSpec K} (h : RelSel x x') :
    RelFit (C.smooth x) (C.smooth x') := by
  obtain ⟨⟨n1, n2⟩, h1, h2, c, y, hc, e⟩ := h
  unfold WholeCfg.smooth
  split
  · rename_i hp
    refine ⟨?_, h1, h2, c, y, hc, ?_⟩
    · dsimp only
      unfold Spectrum.setSmoothForestivar
      rw [if_neg (not_le.mpr hp)]
      intro a ha v hv
      replace ha : a ∈ x.spec.fivar.mapVals (fun _ v => C.sel.smooth v (C.smoothing / x.spec.dwave)) := ha
      unfold Dict.mapVals at ha
      obtain ⟨b, -, rfl⟩ := List.mem_map.mp ha
      exact hn _ _ v hv
    · dsimp only
      rw [e]
      exact smooth_scale hs hc y _ _
  · refine ⟨?_, h1, h2, c, y, hc, e⟩
    intro a ha v hv
    unfold Spectrum.fivarSm at ha
    rw [n2] at ha
    exact n1 a ha v hv

theorem prepare_rel (C : WholeCfg Val K) (hs : SqrtScales C.sel.sqrt)
    (heta : ∀ eta, C.sel.eta = some eta → ∀ w, 0 < eta w) (hsm : SmoothScales C.sel.smooth)
    (hn : ∀ l p, ∀ v ∈ C.sel.smooth l p, 0 ≤ v) {reader' : List (Row Val) → Except Err (List (ReadSpec K))}
    (h : ∀ q, SameResult (List.Forall₂ (RelRead C.sel)) (C.reader q) (reader' q)) (q : List (List (Row Val))) :
    SameResult (List.Forall₂ RelFit) (C.prepare q) (({ C with reader := reader' } : WholeCfg Val K).prepare q) := by
  have e : ∀ D : WholeCfg Val K, D.prepare q = (D.maskIds q).bind (fun ids => (D.sel.select D.reader ids q).bind
      (fun l => .ok (l.map D.smooth))) := fun D => rfl
  rw [e, e]
  change SameResult _ _ ((C.maskIds q).bind (fun ids => (C.sel.select reader' ids q).bind (fun l => .ok (l.map C.smooth))))
  cases C.maskIds q with
  | error e => exact rfl
  | ok ids =>
    change SameResult _ ((C.sel.select C.reader ids q).bind _) ((C.sel.select reader' ids q).bind _)
    refine sameResult_bind (select_rel C.sel hs heta ids (fun b _ => h b)) fun l l' hl => ?_
    exact forall₂_map_rel (fun x x' hx => smooth_rel C hsm hn hx) hl

/-! ### The delta files -/

/-- The rest of a spectrum replaced. -/
def mapData {κ S T : Type} (g : S → T) (x : SavedSpec κ S) : SavedSpec κ T := ⟨x.hpix, x.valid, g x.data⟩

theorem fancy_map' {α β : Type} (g : α → β) (l : List α) (idx : List Nat) :
    fancy (l.map g) idx = (fancy l idx).map (List.map g) := by
  induction idx with
  | nil => rfl
  | cons i is ih =>
    unfold fancy
    rw [ih, List.getElem?_map]
    cases l[i]? with
    | none => cases fancy l is <;> rfl
    | some x => cases fancy l is <;> rfl

theorem splitFrom_map {α β : Type} (g : α → β) (l : List α) (st : Nat) (idx : List Nat) :
    splitFrom (l.map g) st idx = (splitFrom l st idx).map (List.map g) := by
  induction idx generalizing st with
  | nil => unfold splitFrom; simp
  | cons i is ih =>
    unfold splitFrom
    rw [ih, List.map_cons]
    unfold slice
    rw [List.map_drop, List.map_take]

theorem validSpectra_map' {κ S T : Type} (g : S → T) (l : List (SavedSpec κ S)) :
    validSpectra (l.map (mapData g)) = (validSpectra l).map (mapData g) := by
  unfold validSpectra
  rw [List.filter_map]
  rfl

/-- `save_deltas` does not look into the spectra. -/
theorem saveDeltas_map {κ S T : Type} [LinearOrder κ] (g : S → T) (argsort : List κ → List Nat) (b : Bool)
    (l : List (SavedSpec κ S)) (outdir byHpx : Bool) (rank : Option Nat) :
    saveDeltas argsort b (l.map (mapData g)) outdir byHpx rank =
      (saveDeltas argsort b l outdir byHpx rank).map (List.map (fun f => (f.1, f.2.map (mapData g)))) := by
  unfold saveDeltas
  split
  · rfl
  split
  · have ek : ∀ m : List (SavedSpec κ S), (m.map (mapData g)).map (·.hpix) = m.map (·.hpix) := by
      intro m
      rw [List.map_map]
      rfl
    dsimp only
    rw [ek, fancy_map']
    cases fancy l (argsort (l.map (·.hpix))) with
    | error e => rfl
    | ok m =>
      change (if b = false then _ else _) = Except.map _ (if b = false then _ else _)
      split
      · rfl
      · change Except.ok _ = Except.ok _
        congr 1
        rw [ek]
        unfold splitByKey split
        rw [ek, splitFrom_map, List.zip_map_right, List.map_map, List.map_map]
        refine List.map_congr_left fun x _ => ?_
        simp only [Function.comp_apply, Prod.map_fst, Prod.map_snd, id_eq]
        rw [validSpectra_map']
  · split
    · rfl
    · split
      · rfl
      · rw [validSpectra_map']
        rfl

/-- Two lists in relation are those of a list of pairs. -/
theorem forall₂_pairs {A B : Type} {R : A → B → Prop} {l : List A} {l' : List B} (h : List.Forall₂ R l l') :
    ∃ m : List { p : A × B // R p.1 p.2 }, l = m.map (fun p => p.1.1) ∧ l' = m.map (fun p => p.1.2) := by
  induction h with
  | nil => exact ⟨[], rfl, rfl⟩
  | cons hab _ ih =>
    obtain ⟨m, e1, e2⟩ := ih
    exact ⟨⟨(_, _), hab⟩ :: m, by rw [e1, List.map_cons], by rw [e2, List.map_cons]⟩

theorem pairs_forall₂ {A B C D : Type} {R : A → B → Prop} {S : C → D → Prop} {f : { p : A × B // R p.1 p.2 } → C}
    {g : { p : A × B // R p.1 p.2 } → D} (h : ∀ p, S (f p) (g p)) (m : List { p : A × B // R p.1 p.2 }) :
    List.Forall₂ S (m.map f) (m.map g) := by
  induction m with
  | nil => exact .nil
  | cons a m ih => exact .cons (h a) ih

/-- A spectrum at the end of the runs. -/
def RelEnd (x x' : ReadSpec K) : Prop := x.spec.valid = x'.spec.valid ∧ ReadUnits x x'

theorem forall₂_map_any {α A B : Type} {S : A → B → Prop} {f : α → A} {g : α → B} (h : ∀ a, S (f a) (g a)) (l : List α) :
    List.Forall₂ S (l.map f) (l.map g) := by
  induction l with
  | nil => exact .nil
  | cons a m ih => exact .cons (h a) ih

theorem save_rel (C : WholeCfg Val K) (rank : Nat) {l l' : List (ReadSpec K)} (h : List.Forall₂ RelEnd l l') :
    SameResult (List.Forall₂ FileUnits) (C.save rank l) (C.save rank l') := by
  obtain ⟨m, rfl, rfl⟩ := forall₂_pairs h
  unfold WholeCfg.save
  rw [List.map_map, List.map_map]
  have e1 : m.map ((fun x : ReadSpec K => (⟨C.pix x.row.targetid, x.spec.valid, x⟩ : SavedSpec Val (ReadSpec K))) ∘
      fun p => p.1.1) =
      (m.map (fun p => (⟨C.pix p.1.1.row.targetid, p.1.1.spec.valid, p⟩ :
        SavedSpec Val { p : ReadSpec K × ReadSpec K // RelEnd p.1 p.2 }))).map (mapData (fun p => p.1.1)) := by
    rw [List.map_map]
    rfl
  have e2 : m.map ((fun x : ReadSpec K => (⟨C.pix x.row.targetid, x.spec.valid, x⟩ : SavedSpec Val (ReadSpec K))) ∘
      fun p => p.1.2) =
      (m.map (fun p => (⟨C.pix p.1.1.row.targetid, p.1.1.spec.valid, p⟩ :
        SavedSpec Val { p : ReadSpec K × ReadSpec K // RelEnd p.1 p.2 }))).map (mapData (fun p => p.1.2)) := by
    rw [List.map_map]
    refine List.map_congr_left fun p _ => ?_
    simp only [Function.comp_apply, mapData]
    rw [← p.2.1, ← p.2.2.1]
  rw [e1, e2, saveDeltas_map, saveDeltas_map]
  generalize saveDeltas C.argsort true _ C.outdir C.byHpx (some rank) = files
  cases files with
  | error e => exact rfl
  | ok files =>
    change List.Forall₂ FileUnits (List.map _ files) (List.map _ files)
    refine forall₂_map_any (fun f => ⟨rfl, ?_⟩) files
    exact forall₂_map_any (fun p => ⟨rfl, rfl, p.data.2.2⟩) f.2

theorem setSpecs_rel {l l' : List (ReadSpec K)} {t t' : List (Spectrum K)} (h : List.Forall₂ RelFit l l')
    (ht : List.Forall₂ OtherUnits t t') :
    List.Forall₂ ReadUnits (SelectCfg.setSpecs l t) (SelectCfg.setSpecs l' t') := by
  unfold SelectCfg.setSpecs
  induction h generalizing t t' with
  | nil => exact .nil
  | cons hab _ ih =>
    cases ht with
    | nil => exact .nil
    | cons h1 h2 => exact .cons ⟨hab.2.1, hab.2.2.1, h1⟩ (ih h2)

omit [LinearOrder Val] in
theorem finish_rel (C : WholeCfg Val K) {l l' : List (ReadSpec K)} (h : List.Forall₂ ReadUnits l l') :
    List.Forall₂ RelEnd (C.finish l) (C.finish l') := by
  unfold WholeCfg.finish
  refine forall₂_map_rel (T := ReadUnits) ?_ (filter_rel ?_ h)
  · rintro x x' ⟨h1, h2, c, y, hc, e⟩
    have e' : x'.spec.dropShortArms C.sel.forestW1 C.sel.forestW2 C.sel.skip =
        rescale c y (x.spec.dropShortArms C.sel.forestW1 C.sel.forestW2 C.sel.skip) := by
      rw [e, dropShortArms_rescale hc]
    refine ⟨?_, h1, h2, c, y, hc, e'⟩
    dsimp only
    rw [e']
    rfl
  · rintro x x' ⟨h1, h2, c, y, hc, e⟩
    rw [e]
    rfl

theorem RelP.refl {V W A : Type} (p : Prog V W A) : RelP (fun x y => x = y) p p := by
  induction p with
  | ret a => exact .ret rfl
  | raise e => exact .raise e
  | abort => exact .abort
  | emit w k ih => exact .emit w ih
  | bcast v k ih => exact .bcast v ih
  | scatter v k ih => exact .scatter v ih
  | gather v k ih => exact .gather v ih
  | reduce op v k ih => exact .reduce op v ih
  | allreduce op v k ih => exact .allreduce op v ih

theorem RelP.ofExcept {V W A B : Type} {R : A → B → Prop} {x : Except Err A} {y : Except Err B} (h : SameResult R x y) :
    RelP (V := V) (W := W) R (Prog.ofExcept x) (Prog.ofExcept y) := by
  cases x with
  | error e =>
    cases y with
    | error e' => cases h; exact .raise e
    | ok b => exact h.elim
  | ok a =>
    cases y with
    | error e' => exact h.elim
    | ok b => exact .ret h

theorem whole_rel (C : WholeCfg Val K) {Q D V : Type} {P : FitterFns (FullState K) (Spectrum K) (StackSums K) Q D}
    (hs : SqrtScales C.sel.sqrt)
    (heta : ∀ eta, C.sel.eta = some eta → ∀ w, 0 < eta w) (hsm : SmoothScales C.sel.smooth)
    (hn : ∀ l p, ∀ v ∈ C.sel.smooth l p, 0 ≤ v)
    (hres : C.fit.residual = true) (hlog : ∀ a b : K, 0 < a → 0 < b → C.fit.log (a * b) = C.fit.log a + C.fit.log b)
    (hmin : FindsMinimum C.fit.minimize) (hP : SeesDeltas P)
    (cs : Codec Bool V) (cq : Codec (List (List (Row Val))) V) (cn : Codec Val V)
    (c : FitterCodecs (StackSums K) Q V) (read : Except Err (Catalog Val)) (fname : String) {g0 : FullState K}
    (hg : GoodVar g0) (size rank : Nat) {reader' : List (Row Val) → Except Err (List (ReadSpec K))}
    (h : ∀ q, SameResult (List.Forall₂ (RelRead C.sel)) (C.reader q) (reader' q)) :
    RelP OutUnits (C.run P cs cq cn c read fname g0 size rank)
      (({ C with reader := reader' } : WholeCfg Val K).run P cs cq cn c read fname g0 size rank) := by
  unfold WholeCfg.run
  refine (RelP.refl _).bind ?_
  rintro q _ rfl
  refine RelP.bind (R := fun x y => x = y) (RelP.refl (C.blinding cn q)) ?_
  rintro night _ rfl
  refine (RelP.ofExcept (prepare_rel C hs heta hsm hn h q)).bind ?_
  intro l l' hl
  have hl' : List.Forall₂ RelSpec (l.map (·.spec)) (l'.map (·.spec)) :=
    forall₂_map_rel (fun x x' hx => ⟨hx.1, hx.2.2.2⟩) hl
  refine RelP.bind (iterate_rel (C := C.fit) hres hlog hmin hP c fname C.niter rank false
    (fun hf => by cases hf) hg hl') ?_
  rintro ⟨g1, s1, k1⟩ ⟨g1', s1', k1'⟩ ⟨-, h2, h3⟩
  dsimp only at h2 h3 ⊢
  subst h3
  have he := finish_rel C (setSpecs_rel hl h2)
  refine (RelP.ofExcept (save_rel C rank he)).bind ?_
  intro files files' hf
  exact .ret ⟨rfl, rfl, rfl, he.imp (fun _ _ hx => hx.2), hf⟩

end Verif.Proofs

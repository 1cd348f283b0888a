import Verif.Proofs.ReadImage
import Verif.Props.Readers

/-!
# C103: arrays read from the images of a spectra file
-/

namespace Verif.Props
open Verif.Np Verif.Model Verif.Proofs Verif.Spec List

variable {α Val : Type} [LinearOrder Val]

theorem copyOf_filled {n : Nat} {row : List α} {o : List (Option α)} (h : CopyOf n row o) :
    o.length = n ∧ none ∉ o := by
  rcases h with ⟨h, rfl⟩ | ⟨x, -, rfl⟩
  · exact ⟨by simpa using h, by simp⟩
  · exact ⟨by simp, by simp [List.mem_replicate]⟩

theorem rowsAre_filled {R : List α → List (Option α) → Prop} {n : Nat}
    (hR : ∀ row o, R row o → CopyOf n row o) {J : List Nat} {image : List (List α)}
    {out : List (List (Option α))} (h : RowsAre R J image out) : Filled n out := by
  intro o ho
  obtain ⟨k, hk⟩ := List.mem_iff_getElem?.mp ho
  have hlt : k < J.length := by
    rw [← h.1]
    exact (List.getElem?_eq_some_iff.mp hk).1
  obtain ⟨row, o', -, ho', hr⟩ := h.2 k J[k] (List.getElem?_eq_getElem hlt)
  rw [hk] at ho'
  obtain rfl := Option.some.inj ho'
  exact copyOf_filled (hR _ _ hr)

theorem readImageHdu_rows {image : List (List α)} {J : List Nat} {n : Nat}
    {out : List (List (Option α))} (h : readImageHdu image J n = .ok out) :
    RowsAre (CopyOf n) J image out := by
  obtain ⟨h1, h2⟩ := fillRows_rows h
  refine ⟨h1, fun k i hk => ?_⟩
  obtain ⟨row, o, a, b, c⟩ := h2 k i hk
  exact ⟨row, o, a, b, assignRow_copy c⟩

theorem assignMat_copy {nd n : Nat} {m : List (List α)} {o : List (List (Option α))}
    (h : assignMat nd n m = .ok o) : CopyMat nd n m o := by
  unfold assignMat at h
  obtain ⟨rows, hr, h⟩ := except_ok_bind h
  refine ⟨rows, (mapM_ok_inv hr).imp fun _ _ => assignRow_copy, ?_⟩
  split at h
  · rename_i hn
    exact Or.inl ⟨hn, (Except.ok.inj h).symm⟩
  · split at h
    · exact Or.inr ⟨_, rfl, (Except.ok.inj h).symm⟩
    · cases h

theorem copyMat_filled {nd n : Nat} {m : List (List α)} {o : List (List (Option α))}
    (h : CopyMat nd n m o) : o.length = nd ∧ Filled n o := by
  obtain ⟨o', hF, h⟩ := h
  have hf : Filled n o' := by
    intro x hx
    clear h
    induction hF with
    | nil => simp at hx
    | cons h1 _ ih =>
      rcases List.mem_cons.mp hx with rfl | hx
      · exact copyOf_filled h1
      · exact ih hx
  rcases h with ⟨h, rfl⟩ | ⟨r, rfl, rfl⟩
  · exact ⟨h, hf⟩
  · refine ⟨by simp, fun x hx => ?_⟩
    rw [List.eq_of_mem_replicate hx]
    exact hf r (by simp)

theorem forall₂_right {β γ : Type} {R : β → γ → Prop} {l : List β} {m : List γ}
    (h : List.Forall₂ R l m) {d : γ} (hd : d ∈ m) : ∃ a ∈ l, R a d := by
  induction h with
  | nil => simp at hd
  | cons h1 _ ih =>
    rcases List.mem_cons.mp hd with rfl | hd
    · exact ⟨_, by simp, h1⟩
    · obtain ⟨a, ha, hr⟩ := ih hd
      exact ⟨a, by simp [ha], hr⟩

theorem forall₂_left {β γ : Type} {R : β → γ → Prop} {l : List β} {m : List γ}
    (h : List.Forall₂ R l m) {a : β} (ha : a ∈ l) : ∃ d ∈ m, R a d := by
  induction h with
  | nil => simp at ha
  | cons h1 _ ih =>
    rcases List.mem_cons.mp ha with rfl | ha
    · exact ⟨_, by simp, h1⟩
    · obtain ⟨d, hd, hr⟩ := ih ha
      exact ⟨d, by simp [hd], hr⟩

theorem readArmShaped_inv {file : SpecFile Val (List α) (List α) (List (List α))} {J : List Nat}
    {skip : Bool} {arm : String} {d : ArmData (List α) (List (Option α)) (List (List (Option α)))}
    (e : readArmShaped file J skip arm = .ok d) :
    d.arm = arm ∧ ∃ h, file.arms arm = some h ∧ d.wave = h.wave ∧
      readImageHdu h.flux J h.wave.length = .ok d.flux ∧
      readImageHdu h.ivar J h.wave.length = .ok d.ivar ∧
      readImageHdu h.mask J h.wave.length = .ok d.mask ∧
      readArmReso skip h.reso J h.wave.length = .ok d.reso := by
  unfold readArmShaped at e
  split at e
  · cases e
  · rename_i h hh
    obtain ⟨fl, h1, e⟩ := except_ok_bind e
    obtain ⟨iv, h2, e⟩ := except_ok_bind e
    obtain ⟨ma, h3, e⟩ := except_ok_bind e
    obtain ⟨re, h4, e⟩ := except_ok_bind e
    obtain rfl := Except.ok.inj e
    exact ⟨rfl, h, hh, rfl, h1, h2, h3, h4⟩

theorem healpixShaped_inv {argsort : List Val → List Nat} {ids : List Val}
    {file : SpecFile Val (List α) (List α) (List (List α))} {arms : List String} {skip : Bool}
    {data : List (ArmData (List α) (List (Option α)) (List (List (Option α))))}
    {idxCat : List Nat} {fbr : List (Row Val)}
    (e : readHealpixShaped argsort ids (some file) arms skip = .ok (data, idxCat, fbr)) :
    ∃ J : List Nat, J.map (fun i => file.fibermap[i]?) = fbr.map some ∧
      List.Forall₂ (fun arm d => readArmShaped file J skip arm = .ok d) arms data := by
  unfold readHealpixShaped at e
  obtain ⟨x, -, e⟩ := except_ok_bind e
  obtain ⟨J, -, e⟩ := except_ok_bind e
  obtain ⟨d, hd, e⟩ := except_ok_bind e
  obtain ⟨f, hf, e⟩ := except_ok_bind e
  have e := Except.ok.inj e
  simp only [Prod.mk.injEq] at e
  obtain ⟨rfl, -, rfl⟩ := e
  exact ⟨J, fancy_ok_iff.mp hf, mapM_ok_inv hd⟩

/-- **C103.** For every file, whatever the widths of its images: if `_read_onehealpix_file` returns,
then for every arm asked for the flux, ivar and mask have one row for each FIBERMAP row returned, as
many elements as the wavelength array, no element left as `np.empty` made it, and row `k` is the row of
the file that belongs to FIBERMAP row `k` (repeated if the image has one pixel). The same for the
matrices of the resolution. -/
theorem C103_read_partial {argsort : List Val → List Nat} {ids : List Val}
    {file : SpecFile Val (List α) (List α) (List (List α))} {arms : List String} {skip : Bool}
    {data : List (ArmData (List α) (List (Option α)) (List (List (Option α))))}
    {idxCat : List Nat} {fbr : List (Row Val)}
    (e : readHealpixShaped argsort ids (some file) arms skip = .ok (data, idxCat, fbr)) :
    ∃ J : List Nat, J.map (fun i => file.fibermap[i]?) = fbr.map some ∧ data.map (·.arm) = arms ∧
      ∀ d ∈ data, ∃ h, file.arms d.arm = some h ∧ d.wave = h.wave ∧
        Filled d.wave.length d.flux ∧ Filled d.wave.length d.ivar ∧ Filled d.wave.length d.mask ∧
        RowsAre (CopyOf d.wave.length) J h.flux d.flux ∧
        RowsAre (CopyOf d.wave.length) J h.ivar d.ivar ∧
        RowsAre (CopyOf d.wave.length) J h.mask d.mask ∧
        ((d.reso = none ∧ (skip = true ∨ h.reso = none)) ∨
          ∃ r l nd, skip = false ∧ h.reso = some r ∧ d.reso = some (.rows l) ∧
            (∀ m ∈ l, m.length = nd ∧ Filled d.wave.length m) ∧
            RowsAre (CopyMat nd d.wave.length) J r l) := by
  obtain ⟨J, hJ, hF⟩ := healpixShaped_inv e
  refine ⟨J, hJ, ?_, ?_⟩
  · clear e hJ
    induction hF with
    | nil => rfl
    | cons h _ ih => rw [List.map_cons, ih, (readArmShaped_inv h).1]
  · intro d hd
    obtain ⟨arm, -, ha⟩ := forall₂_right hF hd
    obtain ⟨rfl, h, hh, hw, h1, h2, h3, h4⟩ := readArmShaped_inv ha
    rw [hw]
    have r1 := readImageHdu_rows h1
    have r2 := readImageHdu_rows h2
    have r3 := readImageHdu_rows h3
    refine ⟨h, hh, rfl, rowsAre_filled (fun _ _ => id) r1, rowsAre_filled (fun _ _ => id) r2,
      rowsAre_filled (fun _ _ => id) r3, r1, r2, r3, ?_⟩
    cases skip with
    | true => exact Or.inl ⟨(Except.ok.inj h4).symm, Or.inl rfl⟩
    | false =>
      cases hr : h.reso with
      | none =>
        rw [hr] at h4
        exact Or.inl ⟨(Except.ok.inj h4).symm, Or.inr rfl⟩
      | some r =>
        rw [hr] at h4
        simp only [readArmReso] at h4
        cases hl : readResoImage r J h.wave.length with
        | error x => rw [hl] at h4; cases h4
        | ok l =>
          rw [hl] at h4
          have r4 := fillRows_rows hl
          have r5 : RowsAre (CopyMat (r.headD []).length h.wave.length) J r l := by
            refine ⟨r4.1, fun k i hk => ?_⟩
            obtain ⟨row, o, a, b, c⟩ := r4.2 k i hk
            exact ⟨row, o, a, b, assignMat_copy c⟩
          refine Or.inr ⟨r, l, (r.headD []).length, rfl, rfl, (Except.ok.inj h4).symm, ?_, r5⟩
          intro m hm
          obtain ⟨k, hk, rfl⟩ := List.mem_iff_getElem.mp hm
          have hkJ : k < J.length := by rw [← r5.1]; exact hk
          obtain ⟨row, o, -, b, c⟩ := r5.2 k J[k] (List.getElem?_eq_getElem hkJ)
          rw [List.getElem?_eq_getElem hk] at b
          obtain rfl := Option.some.inj b
          exact copyMat_filled c

/-- **C103, refusal.** An image with another width than the wavelength array (and not one) is refused,
as soon as one of the targets is in the file: reading never cuts or pads a row. `bad` is the flux,
ivar or mask of one of the arms. -/
theorem C103_refused {argsort : List Val → List Nat} (hA : ∀ k, IsArgsort k (argsort k))
    {ids : List Val} {file : SpecFile Val (List α) (List α) (List (List α))} {arms : List String}
    (skip : Bool) {t : Val} (ht : t ∈ ids) (hf : t ∈ file.fibermap.map (· "TARGETID"))
    {arm : String} (ha : arm ∈ arms) {h : ArmHdus (List α) (List α) (List (List α))}
    (hh : file.arms arm = some h) {bad : List (List α)}
    (hb : bad = h.flux ∨ bad = h.ivar ∨ bad = h.mask) {w : Nat} (hw : Width w bad)
    (h1 : w ≠ 1) (hn : w ≠ h.wave.length) :
    ∃ x, readHealpixShaped argsort ids (some file) arms skip = .error x := by
  cases e : readHealpixShaped argsort ids (some file) arms skip with
  | error x => exact ⟨x, rfl⟩
  | ok o =>
    exfalso
    obtain ⟨data, idxCat, fbr⟩ := o
    have hne : ∃ J : List Nat, J ≠ [] ∧
        List.Forall₂ (fun arm d => readArmShaped file J skip arm = .ok d) arms data := by
      unfold readHealpixShaped at e
      obtain ⟨x, hx, e⟩ := except_ok_bind e
      obtain ⟨J, hJ, e⟩ := except_ok_bind e
      obtain ⟨d, hd, e⟩ := except_ok_bind e
      obtain ⟨f, -, e⟩ := except_ok_bind e
      have e := Except.ok.inj e
      simp only [Prod.mk.injEq] at e
      obtain ⟨rfl, -, -⟩ := e
      refine ⟨J, ?_, mapM_ok_inv hd⟩
      rintro rfl
      have hlen := fancy_length hJ
      have hp := (hA x).perm.length_eq
      rw [List.length_range, fancy_length hx] at hp
      obtain ⟨i, hi⟩ := List.mem_iff_getElem?.mp hf
      have hmem : i ∈ isinIdx (file.fibermap.map (· "TARGETID")) ids := mem_isinIdx.mpr ⟨t, hi, ht⟩
      have := List.length_pos_of_mem hmem
      simp only [List.length_nil] at hlen
      omega
    obtain ⟨J, hJ, hF⟩ := hne
    obtain ⟨d, -, hd⟩ := forall₂_left hF ha
    obtain ⟨-, h', hh', -, e1, e2, e3, -⟩ := readArmShaped_inv hd
    rw [hh] at hh'
    obtain rfl := Option.some.inj hh'
    obtain ⟨out, ho⟩ : ∃ out, readImageHdu bad J h.wave.length = .ok out := by
      rcases hb with rfl | rfl | rfl
      · exact ⟨_, e1⟩
      · exact ⟨_, e2⟩
      · exact ⟨_, e3⟩
    obtain ⟨i, is, rfl⟩ := List.exists_cons_of_ne_nil hJ
    obtain ⟨row, o, hrow, -, hc⟩ := (readImageHdu_rows ho).2 0 i rfl
    have hlen := hw row (List.mem_of_getElem? hrow)
    rcases hc with ⟨hc, -⟩ | ⟨x, rfl, -⟩
    · exact hn (by rw [← hlen, hc])
    · exact h1 (by rw [← hlen]; rfl)

theorem readImageHdu_eq {image : List (List α)} {n : Nat} (hw : Width n image) (J : List Nat) :
    readImageHdu image J n = (fancy image J).map (·.map (·.map some)) := by
  unfold readImageHdu
  rw [fillRows_eq (g := (·.map some)) (fun row hr => assignRow_width (hw row hr)) J 0 _ (by simp)]
  simp

theorem readResoImage_eq {image : List (List (List α))} {nd n : Nat}
    (hw : ∀ m ∈ image, m.length = nd ∧ Width n m) (J : List Nat) :
    readResoImage image J n = (fancy image J).map (·.map (·.map (·.map some))) := by
  unfold readResoImage
  have hg : ∀ m ∈ image, assignMat (image.headD []).length n m = .ok (m.map (·.map some)) := by
    intro m hm
    refine assignMat_width ?_ (hw m hm).2
    cases image with
    | nil => simp at hm
    | cons a l => rw [(hw m hm).1]; exact (hw a (by simp)).1.symm
  dsimp only
  rw [fillRows_eq (g := (·.map (·.map some))) hg J 0 _ (by simp)]
  simp

theorem readArmShaped_eq {file : SpecFile Val (List α) (List α) (List (List α))}
    {arms : List String} (hs : ShapesOk file arms) (J : List Nat) (skip : Bool) {arm : String}
    (ha : arm ∈ arms) : readArmShaped file J skip arm = (readArm file J skip arm).map written := by
  unfold readArmShaped readArm
  cases hh : file.arms arm with
  | none => rfl
  | some h =>
    obtain ⟨h1, h2, h3, h4⟩ := hs arm ha h hh
    dsimp only
    rw [readImageHdu_eq h1, readImageHdu_eq h2, readImageHdu_eq h3]
    cases fancy h.flux J with
    | error e => rfl
    | ok fl =>
      cases fancy h.ivar J with
      | error e => rfl
      | ok iv =>
        cases fancy h.mask J with
        | error e => rfl
        | ok ma =>
          cases skip with
          | true => rfl
          | false =>
            cases hr : h.reso with
            | none => rfl
            | some r =>
              obtain ⟨nd, hnd⟩ := h4 r hr
              simp only [readArmReso, readResoImage_eq hnd]
              cases fancy r J with
              | error e => rfl
              | ok l => rfl

/-- **C103, files of one width.** For a file whose images have the width of the wavelength array, the
arrays read are the rows chosen by `readOneHealpixFile`, the function of C13 to C15, element by element;
it fails for the same files with the same exception. -/
theorem C103_same_rows (argsort : List Val → List Nat) (ids : List Val)
    {file : SpecFile Val (List α) (List α) (List (List α))} {arms : List String}
    (hs : ShapesOk file arms) (skip : Bool) :
    readHealpixShaped argsort ids (some file) arms skip =
      (readOneHealpixFile argsort ids (some file) arms skip).map
        (fun o => (o.1.map written, o.2)) := by
  have hm : ∀ J, arms.mapM (readArmShaped file J skip) =
      (arms.mapM (readArm file J skip)).map (·.map written) := by
    intro J
    have : ∀ l : List String, (∀ a ∈ l, a ∈ arms) → l.mapM (readArmShaped file J skip) =
        (l.mapM (readArm file J skip)).map (·.map written) := by
      intro l hl
      induction l with
      | nil => rfl
      | cons a l ih =>
        rw [List.mapM_cons, List.mapM_cons, readArmShaped_eq hs J skip (hl a (by simp)),
          ih (fun x hx => hl x (by simp [hx]))]
        cases readArm file J skip a with
        | error e => rfl
        | ok d =>
          cases l.mapM (readArm file J skip) with
          | error e => rfl
          | ok ds => rfl
    exact this arms (fun _ h => h)
  unfold readHealpixShaped readOneHealpixFile
  dsimp only
  cases fancy (file.fibermap.map (· "TARGETID"))
      (isinIdx (file.fibermap.map (· "TARGETID")) ids) with
  | error e => rfl
  | ok x =>
    simp only [except_bind_ok]
    cases fancy (isinIdx (file.fibermap.map (· "TARGETID")) ids) (argsort x) with
    | error e => rfl
    | ok J =>
      simp only [except_bind_ok, hm]
      cases arms.mapM (readArm file J skip) with
      | error e => rfl
      | ok ds =>
        simp only [Except.map, except_bind_ok]
        cases fancy file.fibermap J with
        | error e => rfl
        | ok f => rfl

/-! ### Examples -/

/-- Two fibers, targets 5 and 3; three wavelengths; `w` is the width of the ivar image. -/
def c103File (w : Nat) : SpecFile Nat (List Nat) (List Nat) (List (List Nat)) :=
  { fibermap := [fun c => if c = "TARGETID" then 5 else 0, fun c => if c = "TARGETID" then 3 else 0]
    arms := fun a => if a = "B" then some
      { wave := [3600, 3601, 3602], flux := [[51, 52, 53], [31, 32, 33]]
        ivar := [List.replicate w 500, List.replicate w 300], mask := [[0, 0, 0], [0, 1, 0]]
        reso := some [[[1, 2, 3], [4, 5, 6]], [[7, 8, 9], [10, 11, 12]]] } else none }

theorem c103File_shapes : ShapesOk (c103File 3) ["B"] := by
  intro arm ha h hh
  obtain rfl := List.mem_singleton.mp ha
  simp only [c103File, if_true, Option.some.injEq] at hh
  subst hh
  refine ⟨by unfold Width; decide, by unfold Width; decide, by unfold Width; decide, ?_⟩
  intro r hr
  simp only [Option.some.injEq] at hr
  subst hr
  exact ⟨2, by unfold Width; decide⟩

/-- The rows of target 3 come first. -/
example : ((readHealpixShaped argsortStable [3, 5] (some (c103File 3)) ["B"] false).map
      (fun o => o.1.map (fun d => (d.flux, d.ivar)))) =
    .ok [([[some 31, some 32, some 33], [some 51, some 52, some 53]],
      [[some 300, some 300, some 300], [some 500, some 500, some 500]])] := by decide

/-- Width two is refused, by the theorem. -/
example : ∃ x, readHealpixShaped argsortStable [3, 5] (some (c103File 2)) ["B"] true = .error x :=
  C103_refused argsortStable_isArgsort true (t := 3) (by simp) (by decide) (arm := "B") (by simp)
    (h := _) rfl (bad := [[500, 500], [300, 300]]) (Or.inr (Or.inl rfl)) (w := 2)
    (by unfold Width; decide) (by decide) (by decide)

/-- **C103, what does not hold.** An image of one pixel is not refused although the wavelength array
has three: its value is repeated. -/
theorem C103_one_pixel_refuted :
    Width 1 [[500], [300]] ∧ ((c103File 1).arms "B").map (·.ivar) = some [[500], [300]] ∧
    ((c103File 1).arms "B").map (·.wave.length) = some 3 ∧
    ((readHealpixShaped argsortStable [3, 5] (some (c103File 1)) ["B"] true).map
      (fun o => o.1.map (fun d => d.ivar))) =
    .ok [[[some 300, some 300, some 300], [some 500, some 500, some 500]]] := by
  refine ⟨by unfold Width; decide, by decide, by decide, by decide⟩

/-- Without a target in the file the widths are not looked at. -/
example : (readHealpixShaped argsortStable [7] (some (c103File 2)) ["B"] true).isOk = true := by
  decide

end Verif.Props

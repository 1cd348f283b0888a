import Verif.Proofs.DeltaFiles
import Mathlib.Data.Rat.Floor

/-!
# C29, C30: blinding and delta files
-/

namespace Verif.Props
open Verif.Np Verif.Model Verif.Spec Verif.Proofs

variable {K : Type} [Field K] [LinearOrder K]

/-! ### C29 -/

/-- **C29.** After any sequence of calls of `set_blinding`, of which one was for an analysis that must
be blinded, every table that `Spectrum.write` makes has the blinded column name and not the plain one;
without such a call it has the plain one. The header carries the strategy of the last call. -/
theorem C29_spectrum_files (lya : K) (calls : List (Nat × BlindArgs K)) {id : Ident K}
    {meanReso : String → K} {rsnr : K} {s : Spectrum K} {hdus : List (Hdu K)}
    (h : s.write (calls.foldl (fun st c => setBlinding lya st c.1 c.2) ClassState.init)
      id meanReso rsnr = .ok hdus) {x : Hdu K} (hx : x ∈ hdus) :
    ((∃ c ∈ calls, MustBlind lya c.1 c.2) →
      "DELTA_BLIND" ∈ x.cols.keys ∧ "DELTA" ∉ x.cols.keys) ∧
    ((∀ c ∈ calls, ¬ MustBlind lya c.1 c.2) →
      "DELTA" ∈ x.cols.keys ∧ "DELTA_BLIND" ∉ x.cols.keys) ∧
    (∀ c, calls.getLast? = some c →
      List.lookup "BLINDING" x.header = some (.str (blindingOf lya c.1 c.2))) := by
  obtain ⟨a, -, snr, cont, ha⟩ := write_mem h hx
  obtain ⟨h1, h2, -, -⟩ := armHdu_inv ha
  rw [colnames_eq] at h1
  rw [h1]
  refine ⟨fun hb => ?_, fun hb => ?_, fun c hc => ?_⟩
  · rw [if_pos hb]
    refine ⟨by simp, ?_⟩
    intro hm
    simp [List.mem_replicate] at hm
  · have hb' : ¬ ∃ c ∈ calls, MustBlind lya c.1 c.2 := by push Not; exact hb
    rw [if_neg hb']
    refine ⟨by simp, ?_⟩
    intro hm
    simp [List.mem_replicate] at hm
  · rw [h2]
    obtain ⟨l, rfl⟩ : ∃ l, calls = l ++ [c] := by
      have := List.dropLast_append_getLast? c (by rw [hc]; rfl)
      exact ⟨_, this.symm⟩
    rw [List.foldl_append]
    rfl

/-- **C29.** What must be blinded: data (no mocks) in the Lya forest with any spectrum observed after
May 13, 2021. Then, and only then, the strategy is not `"none"`. -/
theorem C29_strategy (lya : K) (maxlastnight : Nat) (a : BlindArgs K) :
    (setBlinding lya ClassState.init maxlastnight a).blinding ≠ none ∧
    ((setBlinding lya ClassState.init maxlastnight a).blinding ≠ some "none" ↔
      a.mockAnalysis = false ∧ a.forestW1 ≤ lya ∧ 20210514 ≤ maxlastnight) := by
  refine ⟨by simp [setBlinding], ?_⟩
  simp only [setBlinding, ne_eq, Option.some.injEq]
  unfold blindingOf
  by_cases h1 : a.mockAnalysis = true
  · simp [h1]
  · by_cases h2 : a.forestW1 > lya
    · simp [h2, not_le.mpr h2]
    · rw [if_neg (by simp [h1, h2])]
      have h2' : a.forestW1 ≤ lya := not_lt.mp h2
      have h1' : a.mockAnalysis = false := by simpa using h1
      by_cases h3 : maxlastnight < 20210514
      · simp [h3, not_le.mpr h3]
      · have h3' : 20210514 ≤ maxlastnight := not_lt.mp h3
        simp only [h3, if_false, h1', h2', h3', true_and, and_self, iff_true]
        split
        · simp
        · split <;> simp

/-- **C29.** If `set_blinding` is called twice (with resolution), the list of names has the resolution
twice, and no table can be written any more. -/
theorem C29_twice_fails (lya : K) {n1 n2 : Nat} {a1 a2 : BlindArgs K} (h1 : a1.skipResomat = false)
    (h2 : a2.skipResomat = false) {id : Ident K} {meanReso : String → K} {rsnr : K} {s : Spectrum K}
    {hdus : List (Hdu K)}
    (h : s.write (setBlinding lya (setBlinding lya ClassState.init n1 a1) n2 a2)
      id meanReso rsnr = .ok hdus) : hdus = [] := by
  have e : setBlinding lya (setBlinding lya ClassState.init n1 a1) n2 a2 =
      ([(n1, a1), (n2, a2)].foldl (fun st c => setBlinding lya st c.1 c.2) ClassState.init) := rfl
  rw [e] at h
  by_contra hne
  obtain ⟨x, l, rfl⟩ := List.exists_cons_of_ne_nil hne
  obtain ⟨a, -, snr, cont, ha⟩ := write_mem h (x := x) (by simp)
  obtain ⟨-, -, h3, h4⟩ := armHdu_inv ha
  rw [colnames_eq] at h3 h4
  simp only [List.countP_cons, List.countP_nil, h1, h2] at h3 h4
  by_cases hr : s.freso = []
  · have := h3 hr; simp at this
  · have := h4 hr; simp at this

/-- **C29.** A delta read from a blinded file is blinded, and written it is blinded again. -/
theorem C29_read_write {pick : List String → Option String} (hp : IsPick pick) {pow10 : K → K}
    {name : HVal K → String} {h o : Hdu K} {d : Delta K} (hr : Delta.read pick pow10 h = .ok d)
    (hb : "DELTA_BLIND" ∈ h.cols.keys ∧ "DELTA" ∉ h.cols.keys) (hw : d.write name = .ok o) :
    "DELTA_BLIND" ∈ o.cols.keys ∧ "DELTA" ∉ o.cols.keys := by
  obtain ⟨-, -, -, ⟨k, hk, hkb⟩, -⟩ := read_inv hr
  have : k = "DELTA_BLIND" := by
    have := hp.mem hk
    rw [List.mem_filter] at this
    obtain ⟨h1, h2⟩ := this
    simp only [List.mem_cons, List.not_mem_nil, or_false] at h1
    rcases h1 with rfl | rfl
    · exact absurd (by simpa using h2) hb.2
    · rfl
  have hbl : d.blinded = true := by rw [hkb, this]; rfl
  obtain ⟨-, -, -, hkeys⟩ := dwrite_inv hw
  rw [hkeys, hbl]
  cases d.reso <;> simp [stdNames]

/-- **C29, partial.** Reading any number of blinded files, coadding the deltas in any order and writing
the result gives a blinded file. Missing: if only some are blinded the result is blinded exactly if the
first one is, see `C29_leak_refuted`. -/
theorem C29_coadd_partial [FloorRing K] {pick : List String → Option String} (hp : IsPick pick)
    {pow10 sqrt : K → K} {nan eps dwave : K} {name : HVal K → String} {h : Hdu K} {hs : List (Hdu K)}
    {o : Hdu K} {d t : Delta K} {ds : List (Delta K)} (hr : Delta.read pick pow10 h = .ok d)
    (_hrs : hs.mapM (Delta.read pick pow10) = .ok ds)
    (hb : ∀ x ∈ h :: hs, "DELTA_BLIND" ∈ x.cols.keys ∧ "DELTA" ∉ x.cols.keys)
    (ht : ds.foldlM (fun a b => a.coadd sqrt nan eps dwave b) d = .ok t)
    (hw : t.write name = .ok o) :
    "DELTA_BLIND" ∈ o.cols.keys ∧ "DELTA" ∉ o.cols.keys := by
  obtain ⟨o', ho'⟩ := dwrite_ok name d
  have h1 := C29_read_write hp hr (hb h (by simp)) ho'
  obtain ⟨-, -, -, k1⟩ := dwrite_inv ho'
  obtain ⟨-, -, -, k2⟩ := dwrite_inv hw
  rw [k1] at h1
  rw [k2, coadd_fold_blinded ht]
  cases hdb : d.blinded with
  | true => cases t.reso <;> simp [stdNames]
  | false => rw [hdb] at h1; cases hx : d.reso <;> rw [hx] at h1 <;> simp [stdNames] at h1

/-! ### C30 -/

/-- The arms of the forest that have signal. -/
def armsWithSignal (s : Spectrum K) : Dict (List K) :=
  s.fwave.filter (fun x => decide (s.meanSnr.lookup x.1 ≠ some 0))

/-- The dictionaries a written spectrum needs: for every arm of the forest signal to noise and
continuum, resolution for all arms or none. -/
structure Writable (s : Spectrum K) : Prop where
  snr : ∀ x ∈ s.fwave, x.1 ∈ s.meanSnr.keys
  cont : ∀ x ∈ s.fwave, x.1 ∈ s.cont.keys
  reso : s.freso ≠ [] → ∀ x ∈ s.fwave, x.1 ∈ s.freso.keys

/-- What must be in the file for one arm, as read back. -/
structure ReadBack (id : Ident K) (s : Spectrum K) (blind : Bool) (x : String × List K)
    (d : Delta K) : Prop where
  targetid : d.targetid = .int id.targetid
  snr : ∃ r, s.meanSnr.lookup x.1 = some r ∧ d.meanSnr = .num r
  ra : d.header.lookup "RA" = some (.num id.ra)
  dec : d.header.lookup "DEC" = some (.num id.dec)
  z : d.header.lookup "Z" = some (.num id.z)
  dwave : d.header.lookup "DELTA_LAMBDA" = some (.num s.dwave)
  wave : d.wave = x.2
  blinded : d.blinded = blind
  cont : s.cont.lookup x.1 = some d.cont
  reso : d.reso = s.freso.lookup x.1
  pixel : ∀ (i : Nat) (f v w c : K), (s.fflux.arr x.1)[i]? = some f → (s.fivar.arr x.1)[i]? = some v →
    (s.fweight.arr x.1)[i]? = some w → (s.cont.arr x.1)[i]? = some c →
    d.ivar[i]? = some (v * c ^ 2) ∧ d.weight[i]? = some (w * c ^ 2) ∧
    (v * c ^ 2 ≠ 0 → d.delta[i]? = some (f / c - 1)) ∧ (v * c ^ 2 = 0 → d.delta[i]? = some 0)
  size : (s.fflux.arr x.1).length = x.2.length → (s.fivar.arr x.1).length = x.2.length →
    (s.fweight.arr x.1).length = x.2.length → (s.cont.arr x.1).length = x.2.length →
    d.delta.length = x.2.length ∧ d.ivar.length = x.2.length ∧ d.weight.length = x.2.length

theorem zeroMasked_deltaOf {flux cont ivar : List K} : zeroMasked (deltaOf flux cont ivar) ivar =
    deltaOf flux cont ivar := by
  unfold zeroMasked deltaOf
  generalize flux.zip cont = z
  induction z generalizing ivar with
  | nil => rfl
  | cons a z ih =>
    cases ivar with
    | nil => rfl
    | cons v ivar =>
      simp only [List.zipWith_cons_cons]
      rw [ih]
      by_cases hv : v = 0 <;> simp [hv]

/-- **C30.** `Spectrum.write` makes one table for every arm with signal, in order, and reading it back
gives the identity, pixel size, wavelengths, continuum and resolution, delta = flux / continuum - 1 in every pixel
with ivar (0 in the others), and ivar and weight times the squared continuum. -/
theorem C30_spectrum_roundtrip (lya : K) (maxlastnight : Nat) (a : BlindArgs K)
    {pick : List String → Option String} (hp : IsPick pick) (pow10 : K → K) (id : Ident K)
    (meanReso : String → K) (rsnr : K) {s : Spectrum K} (hs : Writable s)
    (hskip : a.skipResomat = true ↔ s.freso = [])
    (hextra : ∀ k ∈ id.extra.keys, k ∈ ["TILEID", "FIBER", "PETAL_LOC", "EXPID", "NIGHT"]) :
    ∃ hdus, s.write (setBlinding lya ClassState.init maxlastnight a) id meanReso rsnr = .ok hdus ∧
      List.Forall₂ (fun x h => h.extname = extName id x.1 ∧ ∃ d, Delta.read pick pow10 h = .ok d ∧
        ReadBack id s (decide (MustBlind lya maxlastnight a)) x d) (armsWithSignal s) hdus := by
  set st := setBlinding lya ClassState.init maxlastnight a with hst
  have hnames : st.colnames = stdNames (decide (MustBlind lya maxlastnight a)) (decide (s.freso ≠ [])) := by
    have := colnames_eq lya [(maxlastnight, a)]
    simp only [List.foldl_cons, List.foldl_nil] at this
    rw [← hst] at this
    rw [this]
    by_cases hr : s.freso = []
    · have h1 : a.skipResomat = true := hskip.mpr hr
      simp [stdNames, h1, hr]
    · have h1 : a.skipResomat = false := by
        rw [← Bool.not_eq_true]; exact fun hc => hr (hskip.mp hc)
      simp [stdNames, h1, hr]
  -- one arm
  have arm : ∀ x ∈ s.fwave, ∃ l, writeArm st id meanReso rsnr s x.1 x.2 = .ok l ∧
      (s.meanSnr.lookup x.1 = some 0 ∧ l = [] ∨
        s.meanSnr.lookup x.1 ≠ some 0 ∧ ∃ h, l = [h] ∧ h.extname = extName id x.1 ∧
          ∃ d, Delta.read pick pow10 h = .ok d ∧
          ReadBack id s (decide (MustBlind lya maxlastnight a)) x d) := by
    intro x hx
    obtain ⟨snr, hsnr⟩ := lookup_isSome (hs.snr x hx)
    obtain ⟨cont, hcont⟩ := lookup_isSome (hs.cont x hx)
    unfold writeArm
    rw [dictGet_ok.mpr hsnr, except_bind_ok]
    by_cases h0 : snr = 0
    · subst h0
      rw [if_pos rfl]
      exact ⟨[], rfl, Or.inl ⟨hsnr, rfl⟩⟩
    rw [if_neg h0, dictGet_ok.mpr hcont, except_bind_ok]
    set iv := timesContSq (s.fivar.arr x.1) cont with hiv
    set we := timesContSq (s.fweight.arr x.1) cont with hwe
    set de := deltaOf (s.fflux.arr x.1) cont iv with hde
    -- the table
    have table : ∃ hdr, armHdu st id (meanReso x.1) rsnr s x.1 x.2 snr cont =
          .ok ⟨extName id x.1, hdr, (stdNames (decide (MustBlind lya maxlastnight a))
            (s.freso.lookup x.1).isSome).zip ([Col.vec x.2, .vec de, .vec iv, .vec we, .vec cont] ++
              ((s.freso.lookup x.1).map Col.mat).toList)⟩ ∧
        (∀ k, k ≠ "MEANRESO" → List.lookup k hdr =
          List.lookup k (deltaHeader st id rsnr s.dwave s.smoothing snr)) := by
      unfold armHdu
      dsimp only
      rw [← hiv, ← hwe, ← hde]
      by_cases hr : s.freso = []
      · refine ⟨deltaHeader st id rsnr s.dwave s.smoothing snr, ?_, fun _ _ => rfl⟩
        rw [if_pos hr, hnames]
        unfold makeHdu
        simp [stdNames, hr]
      · obtain ⟨r, hr'⟩ := lookup_isSome (hs.reso hr x hx)
        refine ⟨(deltaHeader st id rsnr s.dwave s.smoothing snr).set "MEANRESO"
          (.num (meanReso x.1)), ?_, fun k hk => ?_⟩
        · rw [if_neg hr, dictGet_ok.mpr hr', except_bind_ok, hnames]
          unfold makeHdu
          simp [stdNames, hr, hr']
        · rw [lookup_set, if_neg hk]
    obtain ⟨hdr, htab, hlook⟩ := table
    rw [htab, except_bind_ok, except_pure]
    refine ⟨_, rfl, Or.inr ⟨?_, _, rfl, rfl, ?_⟩⟩
    · rw [hsnr]; simpa using h0
    have hkeys : ∀ k, k ≠ "MEANRESO" → (k ∈ hdr.keys ↔
        k ∈ (deltaHeader st id rsnr s.dwave s.smoothing snr).keys) := by
      intro k hk
      have h1 := lookup_eq_none_iff (d := hdr) (a := k)
      have h2 := lookup_eq_none_iff (d := deltaHeader st id rsnr s.dwave s.smoothing snr) (a := k)
      rw [hlook k hk] at h1
      exact not_iff_not.mp (h1.symm.trans h2)
    have hno : ∀ k ∈ ["MOCKID", "THING_ID"],
        k ∉ (deltaHeader st id rsnr s.dwave s.smoothing snr).keys := by
      intro k hk hmem
      unfold deltaHeader Dict.keys at hmem
      rw [List.map_append, List.mem_append] at hmem
      rcases hmem with hmem | hmem
      · simp only [List.mem_cons, List.not_mem_nil, or_false] at hk
        rcases hk with rfl | rfl <;> simp at hmem
      · have := hextra k hmem
        simp only [List.mem_cons, List.not_mem_nil, or_false] at hk
        rcases hk with rfl | rfl <;> simp at this
    have hpick : pick (["MOCKID", "TARGETID", "THING_ID"].filter
        (fun k => decide (k ∈ hdr.keys))) = some "TARGETID" := by
      have e1 : ("MOCKID" ∈ hdr.keys) = False := by
        rw [hkeys _ (by decide), eq_iff_iff, iff_false]; exact hno _ (by simp)
      have e2 : ("THING_ID" ∈ hdr.keys) = False := by
        rw [hkeys _ (by decide), eq_iff_iff, iff_false]; exact hno _ (by simp)
      have e3 : ("TARGETID" ∈ hdr.keys) = True := by
        rw [hkeys _ (by decide), eq_iff_iff, iff_true]
        simp [deltaHeader, Dict.keys]
      simp only [List.filter_cons, List.filter_nil, e1, e2, e3, decide_false, decide_true, if_true]
      exact hp.single _
    refine ⟨_, read_std hp pow10 (extName id x.1) hdr (decide (MustBlind lya maxlastnight a)) x.2 de iv
      we cont (s.freso.lookup x.1) hpick (by rw [hlook _ (by decide)]; rfl)
      (by rw [hlook _ (by decide)]; rfl), ?_⟩
    refine ⟨rfl, ⟨snr, hsnr, rfl⟩, by dsimp only; rw [hlook _ (by decide)]; rfl,
      by dsimp only; rw [hlook _ (by decide)]; rfl, by dsimp only; rw [hlook _ (by decide)]; rfl,
      by dsimp only; rw [hlook _ (by decide)]; rfl, rfl, rfl, hcont, rfl, ?_, ?_⟩
    swap
    · intro z1 z2 z3 z4
      rw [arr_of_lookup hcont] at z4
      dsimp only
      rw [hde, zeroMasked_deltaOf, hiv, hwe]
      unfold deltaOf timesContSq
      simp [z1, z2, z3, z4]
    intro i f v w c hf hv hw hc
    have hc' : s.cont.arr x.1 = cont := arr_of_lookup hcont
    rw [hc'] at hc
    have hiv' : iv[i]? = some (v * c ^ 2) := by
      rw [hiv]; unfold timesContSq; rw [List.getElem?_zipWith, hv, hc]
    refine ⟨hiv', ?_, ?_, ?_⟩
    · dsimp only
      rw [hwe]; unfold timesContSq; rw [List.getElem?_zipWith, hw, hc]
    · intro hne
      dsimp only
      rw [hde, zeroMasked_deltaOf]
      unfold deltaOf
      rw [List.getElem?_zipWith, hiv', List.getElem?_zip_eq_some (z := (f, c)) |>.mpr ⟨hf, hc⟩]
      simp [hne]
    · intro he
      dsimp only
      rw [hde, zeroMasked_deltaOf]
      unfold deltaOf
      rw [List.getElem?_zipWith, hiv', List.getElem?_zip_eq_some (z := (f, c)) |>.mpr ⟨hf, hc⟩]
      simp [he]
  -- all arms
  unfold Spectrum.write armsWithSignal
  generalize s.fwave = fw at arm ⊢
  induction fw with
  | nil => exact ⟨[], rfl, .nil⟩
  | cons x fw ih =>
    obtain ⟨hdus, hw, hF⟩ := ih (fun y hy => arm y (by simp [hy]))
    obtain ⟨l, hl, hcase⟩ := arm x (by simp)
    obtain ⟨ls, hls, hw⟩ := except_bind_eq_ok.mp hw
    rw [except_pure] at hw
    cases hw
    refine ⟨(l :: ls).flatten, ?_, ?_⟩
    · rw [List.mapM_cons, hl, except_bind_ok, hls]
      rfl
    · rcases hcase with ⟨h0, rfl⟩ | ⟨h0, h, rfl, hread⟩
      · simp only [List.filter_cons, h0, ne_eq, not_true_eq_false, decide_false, List.flatten_cons,
          List.nil_append]
        exact hF
      · simp only [List.filter_cons, h0, ne_eq, not_false_eq_true, decide_true, if_true,
          List.flatten_cons, List.singleton_append]
        exact .cons hread hF

/-- **C30.** So flux, ivar and weight of every pixel with ivar can be recovered from what is read. -/
theorem C30_flux_recovered {id : Ident K} {s : Spectrum K} {blind : Bool} {x : String × List K}
    {d : Delta K} (h : ReadBack id s blind x d) {i : Nat} {f v w c : K}
    (hf : (s.fflux.arr x.1)[i]? = some f) (hv : (s.fivar.arr x.1)[i]? = some v)
    (hw : (s.fweight.arr x.1)[i]? = some w) (hc : (s.cont.arr x.1)[i]? = some c) (hv0 : v ≠ 0)
    (hc0 : c ≠ 0) :
    ∃ c' δ v' w', d.cont[i]? = some c' ∧ d.delta[i]? = some δ ∧ d.ivar[i]? = some v' ∧
      d.weight[i]? = some w' ∧ f = c' * (1 + δ) ∧ v = v' / c' ^ 2 ∧ w = w' / c' ^ 2 := by
  obtain ⟨h1, h2, h3, -⟩ := h.pixel i f v w c hf hv hw hc
  have hcont : d.cont[i]? = some c := by
    rw [← hc, arr_of_lookup h.cont]
  refine ⟨c, f / c - 1, v * c ^ 2, w * c ^ 2, hcont, h3 (by simp [hv0, hc0]), h1, h2, ?_, ?_, ?_⟩
  · field_simp; ring
  · field_simp
  · field_simp

/-- **C30.** `Delta.write` and reading back gives the same object, for every delta that was read from a
file and coadded any number of times. -/
theorem C30_delta_roundtrip [IsStrictOrderedRing K] [FloorRing K] {pick : List String → Option String}
    (hp : IsPick pick)
    {pow10 sqrt : K → K} {nan eps : K} (name : HVal K → String) {d : Delta K}
    (hd : Loaded pick pow10 sqrt nan eps d) :
    ∃ h, d.write name = .ok h ∧ Delta.read pick pow10 h = .ok d := by
  have inv : (∃ k, pick (["MOCKID", "TARGETID", "THING_ID"].filter
        (fun k => decide (k ∈ d.header.keys))) = some k ∧ List.lookup k d.header = some d.targetid) ∧
      List.lookup "MEANSNR" d.header = some d.meanSnr ∧ zeroMasked d.delta d.ivar = d.delta := by
    induction hd with
    | read e =>
      obtain ⟨h1, h2, h3, -, x, hx⟩ := read_inv e
      rw [h1]
      refine ⟨h2, h3, ?_⟩
      rw [hx]
      unfold zeroMasked
      rename_i h d
      generalize d.ivar = iv
      clear h1 h2 h3 hx e
      induction x generalizing iv with
      | nil => rfl
      | cons a x ih =>
        cases iv with
        | nil => rfl
        | cons v iv =>
          simp only [List.zipWith_cons_cons]
          rw [ih]
          by_cases hv : v = 0 <;> simp [hv]
    | @coadd w0 dwave j1 j2 d e t hd h0 h1 h2 ht ih =>
      obtain ⟨⟨k, hk, hkt⟩, hm, -⟩ := ih
      obtain ⟨lo, hi, -, -, -, -, hform⟩ := coadd_form sqrt nan eps h0 h1 h2
      rw [hform] at ht
      cases hr : coaddDeltaReso nan eps lo dwave
          (max (j1 + d.wave.length) (j2 + e.wave.length) - min j1 j2) d e with
      | error x => rw [hr] at ht; simp [Except.map] at ht
      | ok r =>
        rw [hr] at ht
        simp only [Except.map, Except.ok.injEq] at ht
        have hkeys : ∀ v, (d.header.set "MEANSNR" v).keys = d.header.keys := by
          intro v
          rw [keys_set, if_pos (mem_keys_of_lookup hm)]
        subst ht
        dsimp only
        refine ⟨⟨k, by rw [hkeys]; exact hk, ?_⟩, ?_, ?_⟩
        · rw [lookup_set, if_neg, hkt]
          rintro rfl
          have := hp.mem hk
          simp at this
        · rw [lookup_set, if_pos rfl]
        · unfold zeroMasked
          rw [List.zipWith_map, List.zipWith_self]
          apply List.map_congr_left
          intro i _
          have hok : PixOk (both j1 j2 d e (min j1 j2 + i)) := by
            intro q hq
            simp only [both, List.mem_append, Option.mem_toList] at hq
            rcases hq with hq | hq
            · exact h1.nonneg q (pixAt_mem hq)
            · exact h2.nonneg q (pixAt_mem hq)
          rcases (dweight_nonneg hok).eq_or_lt with hz | hW
          · rw [coaddPix_zero hok hz.symm]; simp
          · rw [if_neg (coaddPix_pos hok hW).2.2.2.ne']
  obtain ⟨⟨k, hk, hkt⟩, hm, hz⟩ := inv
  obtain ⟨h, hw⟩ := dwrite_ok name d
  refine ⟨h, hw, ?_⟩
  obtain ⟨h1, h2, h3, -⟩ := dwrite_inv hw
  have : h = ⟨h.extname, d.header, (stdNames d.blinded d.reso.isSome).zip
      ([Col.vec d.wave, .vec d.delta, .vec d.ivar, .vec d.weight, .vec d.cont] ++
        (d.reso.map Col.mat).toList)⟩ := by
    cases h
    simp only at h1 h2 h3
    subst h2 h3
    rfl
  rw [this, read_std hp pow10 h.extname d.header d.blinded d.wave d.delta d.ivar d.weight d.cont d.reso
    hk hkt hm, hz]

/-! ### Cases -/

/-- The first element can be taken from a set. -/
theorem head_isPick : IsPick List.head? :=
  ⟨fun h => List.mem_of_mem_head? h, fun {l} h => by cases l <;> simp_all⟩

/-- A table of a file. -/
def c29Hdu (blind : Bool) : Hdu ℚ :=
  { extname := "7", header := [("TARGETID", .int 7), ("MEANSNR", .num 2)]
    cols := [("LAMBDA", .vec [100, 101]), (if blind then "DELTA_BLIND" else "DELTA", .vec [1, 0]),
      ("IVAR", .vec [1, 0]), ("WEIGHT", .vec [1, 0]), ("CONT", .vec [1, 1])] }

/-- **C29, refuted.** Coadding a blinded delta to one that is not gives a file that is not blinded. -/
theorem C29_leak_refuted : ∃ (h1 h2 o : Hdu ℚ) (d e t : Delta ℚ),
    Delta.read List.head? id h1 = .ok d ∧ Delta.read List.head? id h2 = .ok e ∧
    "DELTA_BLIND" ∈ h2.cols.keys ∧ "DELTA" ∉ h2.cols.keys ∧
    d.coadd id 0 (1 / 100) 1 e = .ok t ∧ t.write (fun _ => "7") = .ok o ∧ "DELTA" ∈ o.cols.keys := by
  have key : (do
      let d ← Delta.read List.head? id (c29Hdu false)
      let e ← Delta.read List.head? id (c29Hdu true)
      let t ← d.coadd id 0 (1 / 100) 1 e
      let o ← t.write (fun _ => "7")
      pure (o.cols.keys) : Except Err _) =
      .ok ["LAMBDA", "DELTA", "IVAR", "WEIGHT", "CONT"] := by decide +kernel
  obtain ⟨d, hd, key⟩ := except_bind_eq_ok.mp key
  obtain ⟨e, he, key⟩ := except_bind_eq_ok.mp key
  obtain ⟨t, ht, key⟩ := except_bind_eq_ok.mp key
  obtain ⟨o, ho, key⟩ := except_bind_eq_ok.mp key
  rw [except_pure, Except.ok.injEq] at key
  refine ⟨_, _, o, d, e, t, hd, he, by decide +kernel, by decide +kernel, ht, ho, ?_⟩
  rw [key]
  simp

example : ∃ d, Delta.read List.head? id (c29Hdu true) = .ok d ∧ d.blinded = true ∧
    d.delta = [1, 0] ∧ ∃ o t, d.coadd id 0 (1 / 100) 1 d = .ok t ∧ t.write (fun _ => "7") = .ok o ∧
    "DELTA_BLIND" ∈ o.cols.keys := by
  have hr : (Delta.read List.head? id (c29Hdu true)).isOk = true := by decide +kernel
  cases hd : Delta.read List.head? id (c29Hdu true) with
  | error x => rw [hd] at hr; simp [Except.isOk, Except.toBool] at hr
  | ok d =>
    have e : d = ⟨[("TARGETID", .int 7), ("MEANSNR", .num 2)], .int 7, .num 2, [100, 101], true, [1, 0],
        [1, 0], [1, 0], [1, 1], none⟩ := by
      have : Delta.read List.head? id (c29Hdu true) = .ok ⟨[("TARGETID", .int 7), ("MEANSNR", .num 2)],
        .int 7, .num 2, [100, 101], true, [1, 0], [1, 0], [1, 0], [1, 1], none⟩ := by decide +kernel
      rw [hd] at this
      exact Except.ok.inj this
    have hc : (d.coadd id 0 (1 / 100) 1 d).isOk = true := by rw [e]; decide +kernel
    cases ht : d.coadd id 0 (1 / 100) 1 d with
    | error x => rw [ht] at hc; simp [Except.isOk, Except.toBool] at hc
    | ok t =>
      obtain ⟨o, ho⟩ := dwrite_ok (fun _ => "7") t
      refine ⟨d, rfl, by rw [e], by rw [e], o, t, ht, ho, ?_⟩
      exact (C29_coadd_partial (h := c29Hdu true) (hs := [c29Hdu true]) (ds := [d])
        (sqrt := id) (nan := 0) (eps := 1 / 100) (dwave := 1) head_isPick hd
        (by simp [List.mapM_cons, hd]) (by decide +kernel)
        (by rw [List.foldlM_cons, ht]; rfl) ho).1

/-- A spectrum with two arms, of which the second has no signal. -/
def c30Spec : Spectrum ℚ :=
  { z := 2, dwave := 1, wave := [], flux := [], ivar := [], reso := []
    fwave := [("B", [100, 101]), ("R", [102])]
    fflux := [("B", [3, 5]), ("R", [0])]
    fivar := [("B", [2, 0]), ("R", [0])]
    freso := [], ivarSm := none, weight := some [("B", [1, 0]), ("R", [0])], smoothing := 0
    meanSnr := [("B", 3), ("R", 0)], cont := [("B", [2, 4]), ("R", [1])]
    valid := true, chi2 := 0, x0 := 1 }

def c30Id : Ident ℚ := ⟨39, 1, 2, 3, [("TILEID", .int 5)], none⟩

example : Writable c30Spec ∧ ((⟨false, 1040, true⟩ : BlindArgs ℚ).skipResomat = true ↔ c30Spec.freso = []) ∧
    (∀ k ∈ c30Id.extra.keys, k ∈ ["TILEID", "FIBER", "PETAL_LOC", "EXPID", "NIGHT"]) ∧
    (armsWithSignal c30Spec).keys = ["B"] ∧ MustBlind (1215 : ℚ) 20220901 ⟨false, 1040, true⟩ ∧
    (c30Spec.write (setBlinding (1215 : ℚ) ClassState.init 20220901 ⟨false, 1040, true⟩) c30Id
      (fun _ => 0) 0).toOption.map (fun l => l.map (fun h => (h.extname, h.cols))) =
      some [("39-B", [("LAMBDA", .vec [100, 101]), ("DELTA_BLIND", .vec [1 / 2, 0]),
        ("IVAR", .vec [8, 0]), ("WEIGHT", .vec [4, 0]), ("CONT", .vec [2, 4])])] := by
  refine ⟨⟨by decide +kernel, by decide +kernel, fun h => absurd rfl h⟩, by decide +kernel,
    by decide +kernel, by decide +kernel, by decide +kernel, by decide +kernel⟩

end Verif.Props

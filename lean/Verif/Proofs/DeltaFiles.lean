import Verif.Proofs.Delta
import Verif.Proofs.Dict

/-! Lemmas about writing and reading deltas. -/

namespace Verif.Proofs
open Verif.Np Verif.Model Verif.Spec List

variable {K : Type} [Field K] [LinearOrder K]

theorem _root_.Verif.Spec.IsPick.single {pick : List String → Option String} (h : IsPick pick) (x : String) :
    pick [x] = .some x := by
  obtain ⟨y, hy⟩ := h.some (l := [x]) (by simp)
  have := h.mem hy
  simp only [List.mem_singleton] at this
  rw [hy, this]

/-- The columns of the files. -/
def stdNames (blind : Bool) (reso : Bool) : List String :=
  ["LAMBDA", if blind then "DELTA_BLIND" else "DELTA", "IVAR", "WEIGHT", "CONT"] ++
    if reso then ["RESOMAT"] else []

/-- Reading a table with the standard columns. -/
theorem read_std {pick : List String → Option String} (hp : IsPick pick) (pow10 : K → K)
    (name : String) (hdr : Dict (HVal K)) (blind : Bool) (w de iv we co : List K)
    (reso : Option (List (List K))) {k : String} {tid snr : HVal K}
    (hk : pick (["MOCKID", "TARGETID", "THING_ID"].filter (fun k => decide (k ∈ hdr.keys))) = some k)
    (ht : List.lookup k hdr = some tid) (hs : List.lookup "MEANSNR" hdr = some snr) :
    Delta.read pick pow10 ⟨name, hdr, (stdNames blind reso.isSome).zip
      ([Col.vec w, .vec de, .vec iv, .vec we, .vec co] ++ (reso.map Col.mat).toList)⟩ =
    .ok { header := hdr, targetid := tid, meanSnr := snr, wave := w, blinded := blind
          delta := zeroMasked de iv, ivar := iv, weight := we, cont := co, reso := reso } := by
  unfold Delta.read
  have h1 : pickKey pick ["MOCKID", "TARGETID", "THING_ID"] hdr.keys = .ok k := by
    unfold pickKey; rw [hk]
  dsimp only
  rw [h1, except_bind_ok, dictGet_ok.mpr ht, except_bind_ok, dictGet_ok.mpr hs, except_bind_ok]
  cases blind <;> cases reso <;>
  · simp [stdNames, pickKey, Dict.keys, hp.single, except_bind_ok, vecCol, matCol, List.lookup]

/-! ### Blinding -/

/-- The names after any calls of `set_blinding`. -/
theorem colnames_eq (lya : K) (calls : List (Nat × BlindArgs K)) :
    (calls.foldl (fun st c => setBlinding lya st c.1 c.2) ClassState.init).colnames =
      ["LAMBDA", if ∃ c ∈ calls, MustBlind lya c.1 c.2 then "DELTA_BLIND" else "DELTA", "IVAR",
        "WEIGHT", "CONT"] ++
        List.replicate (calls.countP (fun c => decide (c.2.skipResomat = false))) "RESOMAT" := by
  have hb : ∀ c : Nat × BlindArgs K, blindingOf lya c.1 c.2 ≠ "none" ↔ MustBlind lya c.1 c.2 := by
    intro c
    unfold blindingOf MustBlind
    split
    · rename_i h
      rcases h with h | h
      · simp [h]
      · simp only [ne_eq, not_true_eq_false, false_iff, not_and, not_le]
        intro _ h2
        exact absurd h2 (not_le.mpr h)
    · rename_i h
      push Not at h
      have h' : c.2.mockAnalysis = false := by simpa using h.1
      split
      · rename_i h2
        simp only [ne_eq, not_true_eq_false, false_iff, not_and, not_le]
        intro _ _; exact h2
      · rename_i h2
        have : 20210514 ≤ c.1 := not_lt.mp h2
        split
        · simp [h', h.2, this]
        · split <;> simp [h', h.2, this]
  induction calls using List.reverseRecOn with
  | nil => simp [ClassState.init]
  | append_singleton l c ih =>
    rw [List.foldl_append]
    simp only [List.foldl_cons, List.foldl_nil]
    generalize l.foldl (fun st c => setBlinding lya st c.1 c.2) ClassState.init = st at ih ⊢
    unfold setBlinding
    dsimp only
    rw [ih]
    by_cases h : blindingOf lya c.1 c.2 ≠ "none"
    · have h' := (hb c).mp h
      have he : ∃ c' ∈ l ++ [c], MustBlind lya c'.1 c'.2 := ⟨c, by simp, h'⟩
      rw [if_pos h, if_pos he]
      by_cases hs : c.2.skipResomat = true
      · simp [hs]
      · simp only [hs, List.countP_append, List.cons_append, List.nil_append]
        simp [hs, List.replicate_succ']
    · have h' : ¬ MustBlind lya c.1 c.2 := fun hc => h ((hb c).mpr hc)
      have he : (∃ c' ∈ l ++ [c], MustBlind lya c'.1 c'.2) ↔ ∃ c' ∈ l, MustBlind lya c'.1 c'.2 := by
        constructor
        · rintro ⟨x, hx, hx'⟩
          rcases List.mem_append.mp hx with hx | hx
          · exact ⟨x, hx, hx'⟩
          · simp only [List.mem_singleton] at hx
            subst hx
            exact absurd hx' h'
        · rintro ⟨x, hx, hx'⟩
          exact ⟨x, by simp [hx], hx'⟩
      rw [if_neg h]
      simp only [he]
      by_cases hs : c.2.skipResomat = true
      · simp [hs]
      · simp only [hs, List.countP_append]
        simp [hs, List.replicate_succ']

omit [Field K] [LinearOrder K] in
theorem makeHdu_inv {name : String} {hdr : Dict (HVal K)} {names : List String} {cols : List (Col K)}
    {h : Hdu K} (e : makeHdu name hdr names cols = .ok h) :
    h.extname = name ∧ h.header = hdr ∧ h.cols.keys = names ∧ names.length = cols.length ∧
      h.cols = names.zip cols := by
  unfold makeHdu at e
  split at e
  · rename_i hl
    cases e
    refine ⟨rfl, rfl, ?_, hl, rfl⟩
    unfold Dict.keys
    dsimp only
    rw [List.map_fst_zip (by omega)]
  · cases e

theorem mapM_mem {ε α β : Type} {f : α → Except ε β} {l : List α} {bs : List β} (h : l.mapM f = .ok bs)
    {b : β} (hb : b ∈ bs) : ∃ a ∈ l, f a = .ok b := by
  have := mapM_ok_inv h
  clear h
  induction this with
  | nil => simp at hb
  | cons h1 _ ih =>
    rcases List.mem_cons.mp hb with rfl | hb
    · exact ⟨_, by simp, h1⟩
    · obtain ⟨a, ha, hf⟩ := ih hb
      exact ⟨a, by simp [ha], hf⟩

/-- Every table `Spectrum.write` makes comes from `armHdu` of an arm with signal. -/
theorem write_mem {st : ClassState} {id : Ident K} {meanReso : String → K} {rsnr : K} {s : Spectrum K}
    {hdus : List (Hdu K)} (h : s.write st id meanReso rsnr = .ok hdus) {x : Hdu K} (hx : x ∈ hdus) :
    ∃ a ∈ s.fwave, ∃ snr cont, armHdu st id (meanReso a.1) rsnr s a.1 a.2 snr cont = .ok x := by
  unfold Spectrum.write at h
  obtain ⟨l, hl, h⟩ := except_bind_eq_ok.mp h
  rw [except_pure] at h
  cases h
  obtain ⟨g, hg, hx⟩ := List.mem_flatten.mp hx
  obtain ⟨a, ha, hw⟩ := mapM_mem hl hg
  unfold writeArm at hw
  obtain ⟨snr, -, hw⟩ := except_bind_eq_ok.mp hw
  split at hw
  · rw [except_pure] at hw
    cases hw
    simp at hx
  · obtain ⟨cont, -, hw⟩ := except_bind_eq_ok.mp hw
    obtain ⟨y, hy, hw⟩ := except_bind_eq_ok.mp hw
    rw [except_pure] at hw
    cases hw
    simp only [List.mem_singleton] at hx
    subst hx
    exact ⟨a, ha, snr, cont, hy⟩

theorem armHdu_inv {st : ClassState} {id : Ident K} {meanReso rsnr : K} {s : Spectrum K} {arm : String}
    {wave : List K} {snr : K} {cont : List K} {x : Hdu K}
    (h : armHdu st id meanReso rsnr s arm wave snr cont = .ok x) :
    x.cols.keys = st.colnames ∧
    List.lookup "BLINDING" x.header = some (.str (st.blinding.getD "None")) ∧
    (s.freso = [] → st.colnames.length = 5) ∧ (s.freso ≠ [] → st.colnames.length = 6) := by
  unfold armHdu at h
  dsimp only at h
  by_cases hr : s.freso = []
  · rw [if_pos hr] at h
    obtain ⟨-, h1, h2, h3, -⟩ := makeHdu_inv h
    refine ⟨h2, ?_, fun _ => by simpa using h3, fun h => absurd hr h⟩
    rw [h1]; rfl
  · rw [if_neg hr] at h
    obtain ⟨r, -, h⟩ := except_bind_eq_ok.mp h
    obtain ⟨-, h1, h2, h3, -⟩ := makeHdu_inv h
    refine ⟨h2, ?_, fun h => absurd h hr, fun _ => by simpa using h3⟩
    rw [h1, lookup_set]; rfl

/-- `coadd` keeps the blinding of the first. -/
theorem coadd_blinded [FloorRing K] {sqrt : K → K} {nan eps dwave : K} {d e t : Delta K}
    (h : d.coadd sqrt nan eps dwave e = .ok t) : t.blinded = d.blinded := by
  unfold Delta.coadd at h
  obtain ⟨g, -, h⟩ := except_bind_eq_ok.mp h
  obtain ⟨a, -, h⟩ := except_bind_eq_ok.mp h
  obtain ⟨b, -, h⟩ := except_bind_eq_ok.mp h
  obtain ⟨r, -, h⟩ := except_bind_eq_ok.mp h
  rw [except_pure] at h
  cases h
  rfl

theorem coadd_fold_blinded [FloorRing K] {sqrt : K → K} {nan eps dwave : K} {l : List (Delta K)}
    {d t : Delta K} (h : l.foldlM (fun a b => a.coadd sqrt nan eps dwave b) d = .ok t) :
    t.blinded = d.blinded := by
  induction l generalizing d with
  | nil => simp only [List.foldlM_nil, except_pure] at h; cases h; rfl
  | cons x l ih =>
    rw [List.foldlM_cons] at h
    obtain ⟨u, hu, h⟩ := except_bind_eq_ok.mp h
    rw [ih h, coadd_blinded hu]

theorem dwrite_inv {name : HVal K → String} {d : Delta K} {h : Hdu K} (e : d.write name = .ok h) :
    h.extname = name d.targetid ∧ h.header = d.header ∧
    h.cols = (stdNames d.blinded d.reso.isSome).zip
      ([Col.vec d.wave, .vec d.delta, .vec d.ivar, .vec d.weight, .vec d.cont] ++
        (d.reso.map Col.mat).toList) ∧ h.cols.keys = stdNames d.blinded d.reso.isSome := by
  unfold Delta.write at e
  dsimp only at e
  cases hr : d.reso with
  | none =>
    rw [hr] at e
    obtain ⟨h0, h1, h2, -, h3⟩ := makeHdu_inv e
    exact ⟨h0, h1, h3, h2⟩
  | some r =>
    rw [hr] at e
    obtain ⟨h0, h1, h2, -, h3⟩ := makeHdu_inv e
    exact ⟨h0, h1, h3, h2⟩

theorem dwrite_ok (name : HVal K → String) (d : Delta K) : ∃ h, d.write name = .ok h := by
  unfold Delta.write makeHdu
  cases d.reso <;> simp

theorem read_inv {pick : List String → Option String} {pow10 : K → K} {h : Hdu K} {d : Delta K}
    (e : Delta.read pick pow10 h = .ok d) :
    d.header = h.header ∧
    (∃ k, pick (["MOCKID", "TARGETID", "THING_ID"].filter (fun k => decide (k ∈ h.header.keys))) =
      some k ∧ List.lookup k h.header = some d.targetid) ∧
    List.lookup "MEANSNR" h.header = some d.meanSnr ∧
    (∃ k, pick (["DELTA", "DELTA_BLIND"].filter (fun k => decide (k ∈ h.cols.keys))) = some k ∧
      d.blinded = decide (k = "DELTA_BLIND")) ∧
    (∃ x, d.delta = zeroMasked x d.ivar) := by
  unfold Delta.read at e
  obtain ⟨k, hk, e⟩ := except_bind_eq_ok.mp e
  obtain ⟨tid, ht, e⟩ := except_bind_eq_ok.mp e
  obtain ⟨snr, hs, e⟩ := except_bind_eq_ok.mp e
  obtain ⟨wk, hwk, e⟩ := except_bind_eq_ok.mp e
  obtain ⟨w, hw, e⟩ := except_bind_eq_ok.mp e
  obtain ⟨dk, hdk, e⟩ := except_bind_eq_ok.mp e
  obtain ⟨de, hde, e⟩ := except_bind_eq_ok.mp e
  obtain ⟨iv, hiv, e⟩ := except_bind_eq_ok.mp e
  obtain ⟨we, hwe, e⟩ := except_bind_eq_ok.mp e
  obtain ⟨co, hco, e⟩ := except_bind_eq_ok.mp e
  obtain ⟨r, hr, e⟩ := except_bind_eq_ok.mp e
  rw [except_pure] at e
  cases e
  refine ⟨rfl, ⟨k, ?_, dictGet_ok.mp ht⟩, dictGet_ok.mp hs, ⟨dk, ?_, rfl⟩, de, rfl⟩
  · unfold pickKey at hk
    split at hk
    · rename_i x hx
      cases hk
      exact hx
    · cases hk
  · unfold pickKey at hdk
    split at hdk
    · rename_i x hx
      cases hdk
      exact hx
    · cases hdk

end Verif.Proofs

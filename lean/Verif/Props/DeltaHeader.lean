import Verif.Spec.DeltaHeader
import Verif.Props.DeltaFiles

/-!
# C92: headers of delta tables
-/

namespace Verif.Props
open Verif Verif.Np Verif.Model Verif.Spec Verif.Proofs

variable {K : Type} [Field K] [LinearOrder K]

theorem blinding_strategy (lya : K) (night : Nat) (a : BlindArgs K) :
    (setBlinding lya ClassState.init night a).blinding = some (strategy lya night a) := by
  change some (blindingOf lya night a) = _
  unfold blindingOf strategy
  by_cases h1 : a.mockAnalysis = true ∨ a.forestW1 > lya
  · rw [if_pos h1, if_pos]
    rintro ⟨h2, h3, -⟩
    rcases h1 with h1 | h1
    · simp [h1] at h2
    · exact absurd h1 (not_lt.mpr h3)
  · rw [if_neg h1]
    push Not at h1
    have h2 : a.mockAnalysis = false := by simpa using h1.1
    by_cases h3 : night < 20210514
    · rw [if_pos h3, if_pos]
      rintro ⟨-, -, h4⟩
      omega
    · have hm : MustBlind lya night a := ⟨h2, h1.2, not_lt.mp h3⟩
      rw [if_neg h3, if_neg (not_not.mpr hm)]
      by_cases h4 : night < 20210801
      · rw [if_pos h4, if_neg (by omega), if_neg (by omega)]
      · rw [if_neg h4]
        by_cases h5 : night < 20220801
        · rw [if_pos h5, if_neg (by omega), if_pos (by omega)]
        · rw [if_neg h5, if_pos (by omega)]

/-- **C92.** Every table that is written has the identity of its quasar, the blinding strategy, the signal-to-noise of its
own arm, pixel size and smoothing in the header, and the mean resolution exactly if there is a resolution. -/
theorem C92_header (lya : K) (night : Nat) (a : BlindArgs K) {id : Ident K} {meanReso : String → K} {rsnr : K}
    {s : Spectrum K} {hdus : List (Hdu K)}
    (hextra : ∀ k ∈ id.extra.keys, k ∈ ["TILEID", "FIBER", "PETAL_LOC", "EXPID", "NIGHT"])
    (h : s.write (setBlinding lya ClassState.init night a) id meanReso rsnr = .ok hdus) :
    List.Forall₂ (fun x t => HeaderOk id (strategy lya night a) rsnr s x.1 t)
      (s.fwave.filter (fun x => decide (s.meanSnr.lookup x.1 ≠ some 0))) hdus := by
  set st := setBlinding lya ClassState.init night a with hst
  have hb : st.blinding = some (strategy lya night a) := blinding_strategy lya night a
  have hne : ∀ k, k ∉ ["TILEID", "FIBER", "PETAL_LOC", "EXPID", "NIGHT"] → id.extra.lookup k = none := by
    intro k hk
    exact lookup_eq_none_iff.mpr fun hm => hk (hextra k hm)
  have hdr : ∀ (snr : K), ∀ k ∈ ["TILEID", "FIBER", "PETAL_LOC", "EXPID", "NIGHT"],
      List.lookup k (deltaHeader st id rsnr s.dwave s.smoothing snr) = id.extra.lookup k := by
    intro snr k hk
    unfold deltaHeader
    rw [List.lookup_append]
    simp only [List.mem_cons, List.not_mem_nil, or_false] at hk
    rcases hk with rfl | rfl | rfl | rfl | rfl <;> rfl
  have key : ∀ x : String × List K, ∀ l, writeArm st id meanReso rsnr s x.1 x.2 = .ok l →
      (s.meanSnr.lookup x.1 = some 0 ∧ l = []) ∨ (s.meanSnr.lookup x.1 ≠ some 0 ∧ ∃ t, l = [t] ∧
        HeaderOk id (strategy lya night a) rsnr s x.1 t) := by
    intro x l hl
    unfold writeArm at hl
    obtain ⟨snr, hsnr, hl⟩ := except_bind_eq_ok.mp hl
    rw [dictGet_ok] at hsnr
    by_cases h0 : snr = 0
    · subst h0
      rw [if_pos rfl] at hl
      cases hl
      exact Or.inl ⟨hsnr, rfl⟩
    rw [if_neg h0] at hl
    obtain ⟨cont, hcont, hl⟩ := except_bind_eq_ok.mp hl
    obtain ⟨t, ht, hl⟩ := except_bind_eq_ok.mp hl
    cases hl
    refine Or.inr ⟨by rw [hsnr]; simpa using h0, t, rfl, ?_⟩
    have hh : t.header = if s.freso = [] then deltaHeader st id rsnr s.dwave s.smoothing snr
        else (deltaHeader st id rsnr s.dwave s.smoothing snr).set "MEANRESO" (.num (meanReso x.1)) := by
      unfold armHdu at ht
      dsimp only at ht
      unfold makeHdu at ht
      split at ht
      · rename_i hr
        rw [if_pos hr]
        split at ht
        · cases ht; rfl
        · cases ht
      · rename_i hr
        rw [if_neg hr]
        obtain ⟨r, -, ht⟩ := except_bind_eq_ok.mp ht
        split at ht
        · cases ht; rfl
        · cases ht
    have hlook : ∀ k, k ≠ "MEANRESO" → t.header.lookup k =
        List.lookup k (deltaHeader st id rsnr s.dwave s.smoothing snr) := by
      intro k hk
      rw [hh]
      split
      · rfl
      · rw [lookup_set, if_neg hk]
    refine ⟨?_, ?_, ?_, ?_, ?_, ?_, ?_, ⟨snr, hsnr, ?_⟩, ?_, ?_, ?_, ?_, ?_⟩
    · rw [hlook _ (by decide)]; rfl
    · rw [hlook _ (by decide)]; rfl
    · rw [hlook _ (by decide)]; rfl
    · rw [hlook _ (by decide)]; rfl
    · rw [hlook _ (by decide)]; rfl
    · rw [hlook _ (by decide)]
      change some (HVal.str (st.blinding.getD "None")) = _
      rw [hb]
      rfl
    · rw [hlook _ (by decide)]; rfl
    · rw [hlook _ (by decide)]; rfl
    · rw [hlook _ (by decide)]; rfl
    · rw [hlook _ (by decide)]; rfl
    · rw [hlook _ (by decide)]; rfl
    · intro k hk
      rw [hlook k ?_, hdr snr k hk]
      rintro rfl
      simp at hk
    · rw [hh]
      by_cases hr : s.freso = []
      · rw [if_pos hr]
        refine iff_of_true ?_ hr
        unfold deltaHeader
        rw [List.lookup_append, hne "MEANRESO" (by simp)]
        rfl
      · rw [if_neg hr, lookup_set, if_pos rfl]
        exact iff_of_false (by simp) hr
  unfold Spectrum.write at h
  obtain ⟨ls, hls, h⟩ := except_bind_eq_ok.mp h
  cases h
  clear h
  generalize s.fwave = arms at hls
  induction arms generalizing ls with
  | nil => cases hls; exact .nil
  | cons x arms ih =>
    rw [List.mapM_cons] at hls
    obtain ⟨l, hl, hls⟩ := except_bind_eq_ok.mp hls
    obtain ⟨ls', hls', hls⟩ := except_bind_eq_ok.mp hls
    cases hls
    rw [List.filter_cons, List.flatten_cons]
    rcases key x l hl with ⟨h1, rfl⟩ | ⟨h1, t, rfl, h2⟩
    · rw [if_neg (by simp [h1])]
      exact ih _ hls'
    · rw [if_pos (by simpa using h1)]
      exact .cons h2 (ih _ hls')

/-! ### A concrete case -/

/-- Two arms, one without signal, in the first year of the survey. -/
example :
    ({ Spectrum.blank 2 1 [] [] [] [] with
        fwave := [("b", [3600]), ("r", [5800])], fflux := [("b", [6]), ("r", [0])], fivar := [("b", [1]), ("r", [0])]
        cont := [("b", [4]), ("r", [4])], meanSnr := [("b", 6), ("r", 0)], ivarSm := none, weight := none } : Spectrum ℚ).write
      (setBlinding (121567 / 100) ClassState.init 20220110 ⟨false, 1040, true⟩)
      ⟨7, 1, 2, 3, [("NIGHT", .int 20220110)], none⟩ (fun _ => 0) 5 =
    .ok [⟨"7-b", [("LOS_ID", .int 7), ("TARGETID", .int 7), ("RA", .num 1), ("DEC", .num 2), ("Z", .num 3),
      ("BLINDING", .str "desi_y1"), ("WAVE_SOLUTION", .str "lin"), ("MEANSNR", .num 6), ("RSNR", .num 5),
      ("DELTA_LAMBDA", .num 1), ("SMSCALE", .num 0), ("NIGHT", .int 20220110)],
      [("LAMBDA", .vec [3600]), ("DELTA_BLIND", .vec [1 / 2]), ("IVAR", .vec [16]), ("WEIGHT", .vec [16]),
        ("CONT", .vec [4])]⟩] := by
  decide +kernel

end Verif.Props

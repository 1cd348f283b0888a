import Verif.Proofs.InputCont
import Verif.Props.ContFit
import Verif.Props.Interp

/-!
# C20: input continua are paired with their own target
-/

namespace Verif.Props
open Verif Verif.Np Verif.Model Verif.Model.Spectrum Verif.Spec Verif.Proofs

section
variable {Val K : Type} [LinearOrder Val] [Zero K] [DecidableEq K]

omit [DecidableEq K] in
theorem idxOf_first {l : List Val} {x : Val} {k : Nat} (h : l[k]? = some x) (hf : ∀ j < k, l[j]? ≠ some x) :
    l.idxOf x = k := by
  obtain ⟨hk, he⟩ := List.getElem?_eq_some_iff.mp h
  have hm : x ∈ l := List.mem_of_getElem? h
  have hlt := List.idxOf_lt_length_iff.mpr hm
  rcases Nat.lt_trichotomy (l.idxOf x) k with h1 | h1 | h1
  · exact absurd (by rw [List.getElem?_eq_getElem hlt, List.getElem_idxOf]) (hf _ h1)
  · exact h1
  · have := List.not_of_lt_findIdx (xs := l) (p := fun t => t == x) (i := k) h1
    simp [he] at this

/-- **C20.** Whatever order the sort takes among equals, if in every file that is read FIBERMAP and CONTINUA have
the same number of rows, `init_spectra` succeeds on a list of one or more spectra. Every quasar then has the row of
its own TARGETID in the file of its own pixel (the first one), with the grid of that file; it is invalid and has
nothing if the file cannot be read, has `WAVE1` zero, or has no row for it. -/
theorem C20_pairing {argsort : List (Lex (Val × Val)) → List Nat} (hA : ∀ k, IsArgsort k (argsort k))
    {files : Val → Option (ContFile Val K)} {specs : List (ContSpec Val)} (hne : specs ≠ [])
    (hshape : ∀ s ∈ specs, ∀ f, files s.pix = some f → f.ids.length = f.continua.length) :
    ∃ st, readContinua argsort files specs = .ok st ∧ ∀ (i : Nat) s, specs[i]? = some s →
      (∀ f (k : Nat) c, files s.pix = some f → f.wave1 ≠ 0 → f.ids[k]? = some s.targetid →
        (∀ j < k, f.ids[j]? ≠ some s.targetid) → f.continua[k]? = some c →
        st i = ⟨true, some (f.wave1, f.dwave, c)⟩) ∧
      ((∀ f, files s.pix = some f → f.wave1 = 0 ∨ s.targetid ∉ f.ids) → st i = ⟨false, none⟩) := by
  obtain ⟨hgr, m1, m2⟩ := sorted_groups hA hne
  have key := groups_ok (files := files) (specs := specs) _ hgr.nonempty hgr.homogeneous
    (fun g hg x hx => m1 x (by rw [← hgr.flatten]; exact List.mem_flatten.mpr ⟨g, hg, hx⟩))
    (fun g hg x hx f hf => hshape x.2 (List.mem_of_getElem?
      (m1 x (by rw [← hgr.flatten]; exact List.mem_flatten.mpr ⟨g, hg, hx⟩))) f hf) (fun _ => ⟨false, none⟩)
  obtain ⟨st, h1, h2⟩ := key
  refine ⟨st, ?_, fun i s hs => ?_⟩
  · unfold readContinua
    obtain ⟨a, l, rfl⟩ := List.exists_cons_of_ne_nil hne
    exact h1
  · have hi : st i = after files specs i ⟨false, none⟩ := by
      rw [h2 i, if_pos]
      rw [hgr.flatten]
      exact List.mem_map.mpr ⟨(i, s), m2 i s hs, rfl⟩
    unfold after at hi
    rw [hs, Option.bind_some] at hi
    constructor
    · intro f k c hf hw hk hfirst hc
      have : found files s = some (f.wave1, f.dwave, c) := by
        unfold found
        rw [hf]
        dsimp only
        rw [if_neg (by push Not; exact ⟨hw, List.mem_of_getElem? hk⟩), idxOf_first hk hfirst, hc]
        rfl
      rw [hi, this]
    · intro h
      have : found files s = none := by
        unfold found
        split
        · rfl
        · rename_i f hf
          rw [if_pos (h f hf)]
      rw [hi, this]

/-- **C20.** If a file that is needed has different numbers of rows in FIBERMAP and CONTINUA, `init_spectra` raises:
no quasar gets a continuum of another row by mistake. -/
theorem C20_mismatch {argsort : List (Lex (Val × Val)) → List Nat} (hA : ∀ k, IsArgsort k (argsort k))
    {files : Val → Option (ContFile Val K)} {specs : List (ContSpec Val)}
    (h : ∃ s ∈ specs, ∃ f, files s.pix = some f ∧ f.ids.length ≠ f.continua.length) :
    readContinua argsort files specs = .error .exception := by
  obtain ⟨s, hs, f, hf, hl⟩ := h
  have hne : specs ≠ [] := List.ne_nil_of_mem hs
  obtain ⟨hgr, m1, m2⟩ := sorted_groups hA hne
  obtain ⟨i, hi⟩ := List.mem_iff_getElem?.mp hs
  have key := groups_error (files := files) (specs := specs) _ hgr.nonempty hgr.homogeneous
    (fun g hg x hx => m1 x (by rw [← hgr.flatten]; exact List.mem_flatten.mpr ⟨g, hg, hx⟩))
    (by
      have := m2 i s hi
      rw [← hgr.flatten] at this
      obtain ⟨g, hg, hx⟩ := List.mem_flatten.mp this
      exact ⟨g, hg, (i, s), hx, f, hf, hl⟩) (fun _ => ⟨false, none⟩)
  unfold readContinua
  obtain ⟨a, l, rfl⟩ := List.exists_cons_of_ne_nil hne
  exact key

/-- **C20.** `init_spectra` of the input model raises `ValueError` on a rank without spectra. -/
theorem C20_no_spectra (argsort : List (Lex (Val × Val)) → List Nat) (files : Val → Option (ContFile Val K)) :
    readContinua argsort files [] = .error .valueError := rfl

end

/-- **C20.** The fit after reading: a continuum that was read on four or more points is used through a function
that is continuous, goes through the points that were read and is a cubic between them, at the rest wavelengths of
the own pixels, and the fit is valid exactly if that function is positive there. A quasar for which nothing was
read stays invalid, without continuum. -/
theorem C20_wavelengths (junk : Nat → ℝ) (meanflux varlss eta : ℝ → ℝ) {s : Spectrum ℝ} (hn : s.fwave.keys.Nodup) :
    (∀ (w1 dw : ℝ) (data : List ℝ), 0 < dw → 4 ≤ data.length → ∃ f : ℝ → ℝ, Continuous f ∧
      (∀ (i : Nat) (y : ℝ), data[i]? = some y → f (w1 + i * dw) = y) ∧
      (∀ i : Nat, i + 1 < data.length → ∃ a b c d : ℝ, ∀ x, w1 + i * dw ≤ x → x ≤ w1 + (i + 1) * dw →
        f x = a + b * x + c * x ^ 2 + d * x ^ 3) ∧
      ((inputFitState junk meanflux varlss eta ⟨true, some (w1, dw, data)⟩ s).valid = true ↔
        ∀ a ∈ s.fwave, ∀ w ∈ a.2, 0 < f (w / (1 + s.z))) ∧
      ((inputFitState junk meanflux varlss eta ⟨true, some (w1, dw, data)⟩ s).valid = true →
        ∀ arm w, s.fwave.lookup arm = some w →
        (inputFitState junk meanflux varlss eta ⟨true, some (w1, dw, data)⟩ s).cont.lookup arm =
          some (w.map (fun x => f (x / (1 + s.z)) * meanflux x)))) ∧
    (inputFitState junk meanflux varlss eta ⟨false, none⟩ s).valid = false ∧
    (inputFitState junk meanflux varlss eta ⟨false, none⟩ s).cont = [] := by
  refine ⟨fun w1 dw data hd hl => ?_, rfl, rfl⟩
  obtain ⟨f, h1, h2, h3, h4, -⟩ := C43_spline junk (xp0 := w1) hd hl
  refine ⟨f, h2, h3, h4, ?_⟩
  have hf : dataInterp junk (w1, dw, data) = f := by
    funext x
    unfold dataInterp
    rw [h1 x]
    rfl
  unfold inputFitState
  dsimp only
  rw [hf]
  have := C53_input_values f meanflux varlss eta (s := s.setCont (true, [])) hn
  exact ⟨this.1.trans ⟨fun h => h.2, fun h => ⟨rfl, h⟩⟩, this.2⟩

/-- Two files, of pixels 5 and 7; the second has no target 12. -/
def c20Files : Nat → Option (ContFile Nat ℚ) := fun p =>
  if p = 5 then some ⟨[31, 30], 1000, 1, [[1, 2], [3, 4]]⟩
  else if p = 7 then some ⟨[11], 1000, 2, [[5, 6]]⟩ else none

def c20Specs : List (ContSpec Nat) := [⟨30, 5⟩, ⟨12, 7⟩, ⟨31, 5⟩, ⟨11, 7⟩, ⟨40, 9⟩]

example : c20Specs ≠ [] ∧ ∀ s ∈ c20Specs, ∀ f, c20Files s.pix = some f → f.ids.length = f.continua.length := by
  refine ⟨by simp [c20Specs], ?_⟩
  intro s hs f hf
  unfold c20Files at hf
  split at hf
  · cases hf; rfl
  · split at hf
    · cases hf; rfl
    · cases hf

example : ((readContinua (fun _ => [2 - 2, 2, 3, 1, 4]) c20Files c20Specs).map
    (fun st => (List.range 5).map st)).toOption = some
    [⟨true, some (1000, 1, [3, 4])⟩, ⟨false, none⟩, ⟨true, some (1000, 1, [1, 2])⟩,
      ⟨true, some (1000, 2, [5, 6])⟩, ⟨false, none⟩] := by decide +kernel

end Verif.Props

import Verif.Model.SpectrumInit
import Verif.Model.Delta
import Verif.Proofs.ArmOrder
import Verif.Proofs.ArmOrderRead

/-!
# Lemmas: the order of the arms in the tables
-/

namespace Verif.Proofs
open Verif Verif.Np Verif.Model Verif.Model.Spectrum Verif.Spec

variable {K : Type} [Field K] [LinearOrder K]

theorem dictGet_order {α : Type} {d d' : Dict α} (h : SameItems d d') (k : String) : dictGet d k = dictGet d' k := by
  unfold dictGet
  rw [h.lookup]

theorem armHdu_order {s s' : Spectrum K} (h : ArmOrder s s') (st : ClassState) (id : Ident K) (m rsnr : K) (arm : String)
    (wave : List K) (snr : K) (cont : List K) :
    armHdu st id m rsnr s arm wave snr cont = armHdu st id m rsnr s' arm wave snr cont := by
  unfold armHdu
  have hw : s.fweight.arr arm = s'.fweight.arr arm := (h.fweight).arr arm
  have hr : s.freso = [] ↔ s'.freso = [] := by
    constructor
    · intro e; have := h.freso.2; rw [e] at this; exact this.symm.eq_nil
    · intro e; have := h.freso.2; rw [e] at this; exact this.eq_nil
  simp only [hw, h.fivar.arr, h.fflux.arr, h.dwave, h.smoothing, hr, dictGet_order h.freso]

theorem writeArm_order {s s' : Spectrum K} (h : ArmOrder s s') (st : ClassState) (id : Ident K) (m : String → K) (rsnr : K)
    (arm : String) (wave : List K) : writeArm st id m rsnr s arm wave = writeArm st id m rsnr s' arm wave := by
  unfold writeArm
  simp only [dictGet_order h.meanSnr, dictGet_order h.cont, armHdu_order h]

theorem write_order {s s' : Spectrum K} (h : ArmOrder s s') (st : ClassState) (id : Ident K) (m : String → K) (rsnr : K) :
    OkRel List.Perm (s.write st id m rsnr) (s'.write st id m rsnr) := by
  unfold Spectrum.write
  simp only [writeArm_order h]
  refine OkRel.bind (OkRel.mapM_perm h.fwave.2) fun x y hxy => ?_
  intro z hz
  cases hz
  exact ⟨_, rfl, hxy.flatten⟩

theorem rsnr_order (sqrt : K → K) (eps lya z : K) {wave wave' flux flux' ivar ivar' : Dict (List K)}
    (hw : SameItems wave wave') (hf : SameItems flux flux') (hi : SameItems ivar ivar') :
    rsnr sqrt eps lya z wave flux ivar = rsnr sqrt eps lya z wave' flux' ivar' := by
  unfold rsnr
  simp only [hf.arr, hi.arr]
  have hp := hw.2.map (fun x : String × List K => rsnrArm sqrt ((1 + z) * lya) x.2 (flux'.arr x.1) (ivar'.arr x.1))
  rw [(hp.map Prod.fst).sum_eq, (hp.map Prod.snd).sum_eq]

theorem _root_.Verif.Spec.ArmOrder.symm' {s s' : Spectrum K} (h : ArmOrder s s') : ArmOrder s' s := by
  have opt : ∀ {a b : Option (Dict (List K))}, SameItems? a b → SameItems? b a := by
    intro a b hab
    cases a <;> cases b
    · trivial
    · exact hab.elim
    · exact hab.elim
    · exact SameItems.symm hab
  exact ⟨h.z.symm, h.dwave.symm, h.wave.symm, h.flux.symm, h.ivar.symm, h.reso.symm, h.fwave.symm, h.fflux.symm,
    h.fivar.symm, h.freso.symm, opt h.ivarSm, opt h.weight, h.smoothing.symm, h.meanSnr.symm, h.cont.symm, h.valid.symm,
    h.chi2.symm, h.x0.symm⟩

end Verif.Proofs

import Verif.Spec.StackFl
import Verif.Proofs.Stack

/-!
# Lemmas: stacks of spectra with special values
-/

namespace Verif.Np.Fl

variable {K : Type} [Field K]

theorem add_comm' (a b : Fl K) : add a b = add b a := by
  cases a <;> cases b <;> first | rfl | (simp only [add]; rw [_root_.add_comm])

theorem add_assoc' (a b c : Fl K) : add (add a b) c = add a (add b c) := by
  cases a <;> cases b <;> cases c <;> first | rfl | (simp only [add]; rw [_root_.add_assoc])

theorem zero_add' (a : Fl K) : add (fin 0) a = a := by cases a <;> simp [add]

theorem add_zero' (a : Fl K) : add a (fin 0) = a := by rw [add_comm', zero_add']

theorem add_nan (a : Fl K) : add a nan = nan := by cases a <;> rfl

theorem nan_add (a : Fl K) : add nan a = nan := by cases a <;> rfl

theorem foldl_add (l : List (Fl K)) (a : Fl K) : l.foldl add a = add a (sum l) := by
  unfold sum
  induction l generalizing a with
  | nil => exact (add_zero' a).symm
  | cons b l ih => rw [List.foldl_cons, List.foldl_cons, ih, ih (add (fin 0) b), zero_add', add_assoc']

theorem sum_cons (a : Fl K) (l : List (Fl K)) : sum (a :: l) = add a (sum l) := by
  rw [show sum (a :: l) = l.foldl add (add (fin 0) a) from rfl, zero_add', foldl_add]

theorem sum_append (l m : List (Fl K)) : sum (l ++ m) = add (sum l) (sum m) := by
  rw [show sum (l ++ m) = (l ++ m).foldl add (fin 0) from rfl, List.foldl_append, foldl_add]
  rfl

theorem sum_nan {l : List (Fl K)} (h : nan ∈ l) : sum l = nan := by
  induction l with
  | nil => simp at h
  | cons a l ih =>
    rw [sum_cons]
    rcases List.mem_cons.mp h with rfl | h
    · exact nan_add _
    · rw [ih h, add_nan]

theorem sum_fin {α : Type} (g : α → K) (l : List α) : sum (l.map (fun x => fin (g x))) = fin (l.map g).sum := by
  induction l with
  | nil => rfl
  | cons a l ih => rw [List.map_cons, sum_cons, ih, List.map_cons, List.sum_cons]; rfl

end Verif.Np.Fl

namespace Verif.Proofs
open Verif.Np Verif.Model Verif.Spec

variable {K : Type} [Field K] [LinearOrder K] [IsStrictOrderedRing K] [FloorRing K]

omit [LinearOrder K] [IsStrictOrderedRing K] [FloorRing K] in
theorem flBinAdd_get {α : Type} (a : List (Fl K)) (l : List α) (f : α → Int) (g : α → Fl K) (k : Nat) :
    (flBinAdd a (l.map f) (l.map g))[k]? =
      a[k]?.map (fun x => Fl.add x (Fl.sum ((l.filter (fun p => decide (f p = k))).map g))) := by
  unfold flBinAdd
  rw [List.getElem?_map]
  by_cases hk : k < a.length
  · have e : ((List.map f l).zip (List.map g l)).filter (fun p => decide (p.1 = (k : Int))) =
        (l.filter (fun p => decide (f p = k))).map (fun p => (f p, g p)) := by
      rw [List.zip_map', List.filter_map]
      rfl
    rw [List.getElem?_range hk]
    simp only [e, List.map_map, List.getElem?_eq_getElem hk, Option.map_some, Option.getD_some]
    rfl
  · rw [List.getElem?_eq_none (by simpa using hk), List.getElem?_eq_none (by simpa using hk)]
    rfl

/-- All four arrays are filled like this one. -/
theorem stackFold (C : FlStackCfg K) (proj : FlStack K → List (Fl K)) (f : K → FlPix K → Int) (g : FlPix K → Fl K)
    (hp : ∀ z st l, proj (C.add z st l) = flBinAdd (proj st) (l.map (f z)) (l.map g)) (k : Nat) (l : List (FlSpec K))
    (st : FlStack K) :
    (proj (l.foldl (fun st s => s.arms.foldl (C.add s.z) st) st))[k]? = (proj st)[k]?.map (fun x => Fl.add x
      (Fl.sum (((flPixels l).filter (fun p => decide (f p.1 p.2 = k))).map (fun p => g p.2)))) := by
  have harm : ∀ (z : K) (arms : List (List (FlPix K))) (st : FlStack K),
      (proj (arms.foldl (C.add z) st))[k]? = (proj st)[k]?.map (fun x => Fl.add x
        (Fl.sum ((arms.flatten.filter (fun p => decide (f z p = k))).map g))) := by
    intro z arms
    induction arms with
    | nil =>
      intro st
      have : (fun x : Fl K => Fl.add x (Fl.sum ((([] : List (FlPix K)).filter (fun p => decide (f z p = k))).map g))) = id := by
        funext x; exact Fl.add_zero' x
      rw [List.flatten_nil, this, Option.map_id]
      rfl
    | cons a arms ih =>
      intro st
      rw [List.foldl_cons, ih, hp, flBinAdd_get, Option.map_map, List.flatten_cons, List.filter_append, List.map_append,
        Fl.sum_append]
      congr 1
      funext x
      exact Fl.add_assoc' _ _ _
  induction l generalizing st with
  | nil =>
    have : (fun x : Fl K => Fl.add x (Fl.sum (((flPixels ([] : List (FlSpec K))).filter
        (fun p => decide (f p.1 p.2 = k))).map (fun p => g p.2)))) = id := by
      funext x; exact Fl.add_zero' x
    rw [this, Option.map_id]
    rfl
  | cons s l ih =>
    rw [List.foldl_cons, ih, harm, Option.map_map,
      show flPixels (s :: l) = s.arms.flatten.map (fun p => (s.z, p)) ++ flPixels l from rfl, List.filter_append,
      List.map_append, Fl.sum_append, List.filter_map, List.map_map]
    congr 1
    funext x
    exact Fl.add_assoc' _ _ _

theorem stackGet (C : FlStackCfg K) (proj : FlStack K → List (Fl K)) (f : K → FlPix K → Int) (g : FlPix K → Fl K)
    (n : Nat) (h0 : proj C.zero = List.replicate n (.fin 0))
    (hp : ∀ z st l, proj (C.add z st l) = flBinAdd (proj st) (l.map (f z)) (l.map g)) {k : Nat} (hk : k < n)
    (l : List (FlSpec K)) :
    (proj (C.stack l))[k]?.getD (.fin 0) =
      Fl.sum (((flPixels l).filter (fun p => decide (f p.1 p.2 = k))).map (fun p => g p.2)) := by
  unfold FlStackCfg.stack
  rw [stackFold C proj f g hp, h0, List.getElem?_replicate_of_lt hk, Option.map_some, Option.getD_some, Fl.zero_add']

/-- The sum over the ranks is that over all their spectra. -/
theorem ranksGet (C : FlStackCfg K) (proj : FlStack K → List (Fl K)) (f : K → FlPix K → Int) (g : FlPix K → Fl K)
    (n : Nat) (h0 : proj C.zero = List.replicate n (.fin 0))
    (hp : ∀ z st l, proj (C.add z st l) = flBinAdd (proj st) (l.map (f z)) (l.map g)) {k : Nat} (hk : k < n)
    (ranks : List (List (FlSpec K))) :
    (FlStackCfg.sumArrays n ((ranks.map C.stack).map proj))[k]? =
      some (Fl.sum (((flPixels ranks.flatten).filter (fun p => decide (f p.1 p.2 = k))).map (fun p => g p.2))) := by
  unfold FlStackCfg.sumArrays
  rw [List.getElem?_map, List.getElem?_range hk, Option.map_some]
  congr 1
  induction ranks with
  | nil => rfl
  | cons r ranks ih =>
    rw [List.map_cons, List.map_cons, List.map_cons, Fl.sum_cons, ih, stackGet C proj f g n h0 hp hk, List.flatten_cons,
      show flPixels (r ++ ranks.flatten) = flPixels r ++ flPixels ranks.flatten from List.flatMap_append ..,
      List.filter_append, List.map_append, Fl.sum_append]

/-- The pixels of all ranks in bin `k` of the observed frame. -/
def inObs (C : FlStackCfg K) (k : Nat) (l : List (FlSpec K)) : List (K × FlPix K) :=
  (flPixels l).filter (fun p => decide (C.obs.idx p.2.wave = k))

/-- The pixels of all ranks in bin `k` of the rest frame. -/
def inRf (C : FlStackCfg K) (k : Nat) (l : List (FlSpec K)) : List (K × FlPix K) :=
  (flPixels l).filter (fun p => decide (C.rf.idx (p.2.wave / (1 + p.1)) = k))

/-- `fp / ep` in a bin. -/
def ratio (f e : Fl K) : Fl K := if Fl.lt (.fin 0) e then Fl.div f e else .fin 0

theorem calc_fp (C : FlStackCfg K) (sqrt : K → K) (ranks : List (List (FlSpec K))) {k : Nat} (hk : k < C.obs.n) :
    (C.calculate sqrt (ranks.map C.stack)).fp[k]? =
      some (ratio (Fl.sum ((inObs C k ranks.flatten).map (fun p => p.2.wflux C.varlss C.eta)))
        (Fl.sum ((inObs C k ranks.flatten).map (fun p => p.2.weight C.varlss C.eta)))) := by
  have h1 := ranksGet C FlStack.fp (fun _ p => C.obs.idx p.wave) (FlPix.wflux C.varlss C.eta) _ rfl
    (fun _ _ _ => rfl) hk ranks
  have h2 := ranksGet C FlStack.ep (fun _ p => C.obs.idx p.wave) (FlPix.weight C.varlss C.eta) _ rfl
    (fun _ _ _ => rfl) hk ranks
  unfold FlStackCfg.calculate FlStackCfg.divPos
  dsimp only
  rw [List.getElem?_zipWith, h1, h2]
  rfl

theorem calc_fpRf (C : FlStackCfg K) (sqrt : K → K) (ranks : List (List (FlSpec K))) {k : Nat} (hk : k < C.rf.n) :
    (C.calculate sqrt (ranks.map C.stack)).fpRf[k]? =
      some (ratio (Fl.sum ((inRf C k ranks.flatten).map (fun p => p.2.wcont C.residual C.varlss C.eta)))
        (Fl.sum ((inRf C k ranks.flatten).map (fun p => p.2.weight C.varlss C.eta)))) ∧
    (C.calculate sqrt (ranks.map C.stack)).epRf[k]? =
      some (let e := Fl.sum ((inRf C k ranks.flatten).map (fun p => p.2.weight C.varlss C.eta))
        if Fl.lt (.fin 0) e then Fl.div (.fin 1) (Fl.sqrtOf sqrt e) else e) := by
  have h1 := ranksGet C FlStack.fpRf (fun z p => C.rf.idx (p.wave / (1 + z))) (FlPix.wcont C.residual C.varlss C.eta)
    _ rfl (fun _ _ _ => rfl) hk ranks
  have h2 := ranksGet C FlStack.epRf (fun z p => C.rf.idx (p.wave / (1 + z))) (FlPix.weight C.varlss C.eta) _ rfl
    (fun _ _ _ => rfl) hk ranks
  unfold FlStackCfg.calculate FlStackCfg.divPos
  dsimp only
  constructor
  · rw [List.getElem?_zipWith, h1, h2]
    rfl
  · rw [List.getElem?_map, h2]
    rfl

end Verif.Proofs

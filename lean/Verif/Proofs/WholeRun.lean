import Verif.Spec.WholeRun
import Verif.Props.Catalog
import Verif.Props.RankFree
import Verif.Props.Save
import Verif.Props.Select

/-!
# Lemmas: the whole run for two numbers of processes
-/

namespace Verif.Proofs
open Verif Verif.Np Verif.Model Verif.Model.Prog Verif.Spec Verif.Props

section
variable {Val K : Type} [LinearOrder Val] [Field K] [LinearOrder K] [FloorRing K]

/-! ### Queues -/

/-- The queues as seen by all ranks together. -/
theorem sync_queue {V W : Type} (cs : Codec Bool V) (cq : Codec (List (List (Row Val))) V) {c : Catalog Val}
    (tile : Bool) {n : Nat} {q : List (List (List (Row Val)))} (hq : makeQueues c tile (n + 1) = .ok q)
    (hlen : q.length = n + 1) :
    Sync n (fun r => mpiGetLocalQueue (W := W) cs cq (.ok c) tile (n + 1) r) (fun r => .ok (q.getD r []))
      (fun _ => []) := by
  have hP : ∀ r, mpiGetLocalQueue (W := W) cs cq (.ok c) tile (n + 1) r =
      .bcast (cs.enc (decide (r = 0))) (fun v => if cs.dec v = false then .raise .qsonic
        else .scatter (if r = 0 then some (q.map cq.enc) else none)
          fun v => .ret (cq.dec v)) := by
    intro r
    unfold mpiGetLocalQueue
    by_cases hr : r = 0
    · simp [hr, hq]
    · simp [hr]
  have h0 : Sync n (fun r => (.bcast (cs.enc (decide (r = 0))) (fun v => if cs.dec v = false then .raise .qsonic
        else .scatter (if r = 0 then some (q.map cq.enc) else none)
          fun v => .ret (cq.dec v)) : Prog V W (List (List (Row Val))))) (fun r => .ok (q.getD r [])) (fun _ => []) := by
    refine sync_bcast (fun r => cs.enc (decide (r = 0))) ?_
    simp only [cs.dec_enc, decide_true, Bool.true_eq_false, if_false]
    refine sync_scatter (fun r => if r = 0 then some (q.map cq.enc) else none) (fun r => cq.enc (q.getD r [])) ?_ ?_
    · simp only [if_true, Option.some.injEq]
      refine List.ext_getElem (by simp [hlen]) ?_
      intro i h1 h2
      simp only [List.length_map] at h1
      simp [List.getD_eq_getElem?_getD, h1]
    · simp only [cq.dec_enc]
      exact sync_ret n _
  exact h0.congr (fun r _ => hP r) (fun _ _ => rfl) (fun _ _ => rfl)

theorem pooled_getD {α : Type} {n : Nat} {q : List (List α)} (hlen : q.length = n + 1) :
    (List.range (n + 1)).flatMap (fun r => q.getD r []) = q.flatten := by
  rw [← hlen, List.flatMap_def]
  congr 1
  refine List.ext_getElem (by simp) ?_
  intro i h1 h2
  simp [List.getD_eq_getElem?_getD, h2]

/-- The queues of a catalog that was read. -/
theorem queues_ok {ang2pix : Nat → Val → Val → Val} {file : Except Err (Catalog Val)} {isMock tile : Bool}
    {ks : Option (List Val)} {zmin zmax : Val} {c : Catalog Val}
    (h : readQuasarCatalog ang2pix file isMock tile ks zmin zmax = .ok c) (n : Nat) :
    ∃ q, makeQueues c tile (n + 1) = .ok q ∧ q.length = n + 1 ∧ q.flatten.flatten.Perm c.rows ∧
      q.flatten.Perm ((catPixels tile c).map (catPixelRows tile c)) ∧
      (n + 1 ≤ (catPixels tile c).length → ∀ b ∈ q, b ≠ []) := by
  have hsorted : c.rows.Pairwise (fun r s => r (splitCol tile) ≤ s (splitCol tile)) := by
    obtain ⟨cat, -, -, -, -, -, -, hs⟩ := read_ok_inv h
    refine hs.imp fun {r s} hrs => ?_
    have : ∃ tl, sortOrder cat.cols ks tile = splitCol tile :: tl := by
      unfold sortOrder splitCol
      cases tile
      · simp only [Bool.false_eq_true, if_false]
        cases ks with
        | none => exact ⟨_, rfl⟩
        | some l => simp only; split <;> exact ⟨_, rfl⟩
      · exact ⟨_, rfl⟩
    obtain ⟨tl, e⟩ := this
    rw [e] at hrs
    exact rowLe_le hrs
  have hG := splitByKey_isGrouping (fun r : Row Val => r (splitCol tile)) c.rows (C08_never_empty h) hsorted
  obtain ⟨q, hq, hlen, hperm⟩ := C01_balance_load_partitions
    (Np.splitByKey (fun r : Row Val => r (splitCol tile)) c.rows) (n + 1) (Nat.succ_pos n)
  have hpieces : (Np.splitByKey (fun r : Row Val => r (splitCol tile)) c.rows).Perm
      ((catPixels tile c).map (catPixelRows tile c)) := by
    unfold catPixels catPixelRows
    obtain ⟨keys, hk, hmem, hF⟩ := isGrouping_keys hG
    have e : Np.splitByKey (fun r : Row Val => r (splitCol tile)) c.rows =
        keys.map (fun p => c.rows.filter (fun s => s (splitCol tile) = p)) := by
      generalize Np.splitByKey (fun r : Row Val => r (splitCol tile)) c.rows = groups at hG hF
      clear hk hmem
      have hF' : List.Forall₂ (fun g k => g = c.rows.filter (fun s => s (splitCol tile) = k)) groups keys := by
        refine hF.imp fun g k hgk => ?_
        obtain ⟨x, hx⟩ := List.exists_mem_of_ne_nil _ (hG.nonempty g hgk.1)
        have := isGrouping_eq_filter hG hgk.1 hx
        rw [((hgk.2 x).mp hx).2] at this
        exact this
      have h2 := List.forall₂_map_right_iff.mpr hF'
      rwa [List.forall₂_eq_eq_eq] at h2
    rw [e]
    refine List.Perm.map _ ?_
    rw [List.perm_ext_iff_of_nodup (hk.imp fun h => ne_of_lt h) (List.nodup_dedup _)]
    intro k
    rw [hmem, List.mem_dedup, List.mem_map]
  refine ⟨q, hq, hlen, ?_, hperm.trans hpieces, ?_⟩
  · refine hperm.flatten.trans ?_
    rw [hG.flatten]
  · intro hle
    refine C03_balance_load_no_idle _ (n + 1) (Nat.succ_pos n) hG.nonempty ?_ q hq
    rw [hpieces.length_eq, List.length_map]
    exact hle

/-! ### Blinding -/

theorem max_spec {l : List Val} {a : Val} (h : l.max? = some a) : a ∈ l ∧ ∀ b ∈ l, b ≤ a := by
  cases l with
  | nil => simp at h
  | cons x xs =>
    rw [List.max?_cons', Option.some.injEq] at h
    subst h
    have key : ∀ (l : List Val) (x : Val), (l.foldl max x = x ∨ l.foldl max x ∈ l) ∧ x ≤ l.foldl max x ∧
        ∀ b ∈ l, b ≤ l.foldl max x := by
      intro l
      induction l with
      | nil => intro x; simp
      | cons y l ih =>
        intro x
        obtain ⟨h1, h2, h3⟩ := ih (max x y)
        rw [List.foldl_cons]
        refine ⟨?_, le_trans (le_max_left x y) h2, fun b hb => ?_⟩
        · rcases h1 with h1 | h1
          · rw [h1]
            rcases max_choice x y with e | e
            · exact .inl e
            · right; rw [e]; simp
          · exact .inr (by simp [h1])
        · rcases List.mem_cons.mp hb with rfl | hb
          · exact le_trans (le_max_right x b) h2
          · exact h3 b hb
    obtain ⟨h1, h2, h3⟩ := key xs x
    refine ⟨by rcases h1 with e | e <;> simp [e], fun b hb => ?_⟩
    rcases List.mem_cons.mp hb with rfl | hb
    · exact h2
    · exact h3 b hb

theorem mapM_option {α β : Type} {f : α → Option β} {g : α → β} {l : List α} (h : ∀ a ∈ l, f a = some (g a)) :
    l.mapM f = some (l.map g) := by
  induction l with
  | nil => rfl
  | cons a l ih =>
    rw [List.mapM_cons, h a (by simp), ih (fun b hb => h b (by simp [hb]))]
    rfl

theorem maxNight_spec {q : List (List (Row Val))} (hne : q ≠ []) (hc : ∀ ch ∈ q, ch ≠ []) :
    ∃ m, WholeCfg.maxNight q = some m ∧ (∃ r ∈ q.flatten, r "LASTNIGHT" = m) ∧ ∀ r ∈ q.flatten, r "LASTNIGHT" ≤ m := by
  have h1 : ∀ ch ∈ q, ∃ v, (ch.map (· "LASTNIGHT")).max? = some v := by
    intro ch hch
    have := List.isSome_max?_of_ne_nil (l := ch.map (· "LASTNIGHT")) (by simpa using hc ch hch)
    exact Option.isSome_iff_exists.mp this
  have ⟨r0, hr0⟩ : ∃ r : Row Val, r ∈ q.flatten := by
    obtain ⟨ch, hch⟩ := List.exists_mem_of_ne_nil _ hne
    obtain ⟨r, hr⟩ := List.exists_mem_of_ne_nil _ (hc ch hch)
    exact ⟨r, List.mem_flatten.mpr ⟨ch, hch, hr⟩⟩
  have h2 : ∀ ch ∈ q, (ch.map (· "LASTNIGHT")).max? = some ((ch.map (· "LASTNIGHT")).max?.getD (r0 "LASTNIGHT")) := by
    intro ch hch
    obtain ⟨v, hv⟩ := h1 ch hch
    rw [hv]
    rfl
  unfold WholeCfg.maxNight
  rw [mapM_option h2]
  simp only [Option.bind_some]
  have h3 := List.isSome_max?_of_ne_nil (l := q.map (fun ch => (ch.map (· "LASTNIGHT")).max?.getD (r0 "LASTNIGHT")))
    (by simpa using hne)
  obtain ⟨m, hm⟩ := Option.isSome_iff_exists.mp h3
  obtain ⟨m1, m2⟩ := max_spec hm
  refine ⟨m, hm, ?_, ?_⟩
  · obtain ⟨ch, hch, e⟩ := List.mem_map.mp m1
    obtain ⟨v, hv⟩ := h1 ch hch
    rw [hv] at e
    obtain ⟨r, hr, hrv⟩ := List.mem_map.mp (max_spec hv).1
    exact ⟨r, List.mem_flatten.mpr ⟨ch, hch, hr⟩, hrv.trans e⟩
  · intro r hr
    obtain ⟨ch, hch, hrc⟩ := List.mem_flatten.mp hr
    obtain ⟨v, hv⟩ := h1 ch hch
    refine le_trans ((max_spec hv).2 _ (List.mem_map.mpr ⟨r, hrc, rfl⟩)) (m2 _ (List.mem_map.mpr ⟨ch, hch, ?_⟩))
    rw [hv]
    rfl

theorem sync_blinding {V W : Type} (C : WholeCfg Val K) (cn : Codec Val V) {c : Catalog Val} {n : Nat}
    (Q : Nat → List (List (Row Val))) (hrows : ((List.range (n + 1)).flatMap (fun r => (Q r).flatten)).Perm c.rows)
    (hne : C.mock = false → ∀ r ≤ n, Q r ≠ []) (hch : ∀ r ≤ n, ∀ ch ∈ Q r, ch ≠ []) :
    ∃ night, Sync n (fun r => C.blinding (W := W) cn (Q r)) (fun _ => .ok night) (fun _ => []) ∧
      (C.mock = true → night = none) ∧ (C.mock = false → ∃ m, night = some m ∧ IsLastNight c m) := by
  by_cases hm : C.mock = true
  · refine ⟨none, ?_, fun _ => rfl, fun h => by rw [hm] at h; cases h⟩
    exact (sync_ret n (fun _ => none)).congr (fun r _ => by unfold WholeCfg.blinding; rw [if_pos hm])
      (fun _ _ => rfl) (fun _ _ => rfl)
  · have hmf : C.mock = false := by simpa using hm
    obtain ⟨v0, h0, -⟩ := maxNight_spec (hne hmf 0 (by omega)) (hch 0 (by omega))
    have hv : ∀ r ≤ n, WholeCfg.maxNight (Q r) = some ((WholeCfg.maxNight (Q r)).getD v0) ∧
        (∃ x ∈ (Q r).flatten, x "LASTNIGHT" = (WholeCfg.maxNight (Q r)).getD v0) ∧
        ∀ x ∈ (Q r).flatten, x "LASTNIGHT" ≤ (WholeCfg.maxNight (Q r)).getD v0 := by
      intro r hr
      obtain ⟨m, h1, h2, h3⟩ := maxNight_spec (hne hmf r hr) (hch r hr)
      rw [h1]
      exact ⟨rfl, h2, h3⟩
    generalize hvv : (fun r => (WholeCfg.maxNight (Q r)).getD v0) = v
    have hvr : ∀ r, (WholeCfg.maxNight (Q r)).getD v0 = v r := fun r => congrFun hvv r
    simp only [hvr] at hv
    have hs := List.isSome_max?_of_ne_nil (l := (List.range (n + 1)).map v) (by simp)
    obtain ⟨m, hmm⟩ := Option.isSome_iff_exists.mp hs
    obtain ⟨m1, m2⟩ := max_spec hmm
    refine ⟨some m, ?_, fun h => absurd h hm, fun _ => ⟨m, rfl, ?_, ?_⟩⟩
    · have := sync_allreduce (W := W) (n := n) (fun r l => cn.enc ((List.map cn.dec l).max?.getD (v r)))
        (fun r => cn.enc (v r)) (k := fun _ m => .ret (some (cn.dec m))) (sync_ret n _)
      refine this.congr (fun r hr => ?_) (fun r hr => ?_) (fun _ _ => rfl)
      · unfold WholeCfg.blinding
        rw [if_neg hm, (hv r hr).1]
      · rw [List.map_map]
        simp only [Function.comp_def, cn.dec_enc]
        rw [hmm]
        rfl
    · obtain ⟨r, hr, e⟩ := List.mem_map.mp m1
      obtain ⟨x, hx, hxe⟩ := (hv r (by simpa [Nat.lt_succ_iff] using hr)).2.1
      exact ⟨x, hrows.mem_iff.mp (List.mem_flatMap.mpr ⟨r, hr, hx⟩), hxe.trans e⟩
    · intro x hx
      obtain ⟨r, hr, hxr⟩ := List.mem_flatMap.mp (hrows.mem_iff.mpr hx)
      exact le_trans ((hv r (by simpa [Nat.lt_succ_iff] using hr)).2.2 x hxr) (m2 _ (List.mem_map.mpr ⟨r, hr, rfl⟩))

theorem lastNight_unique {c : Catalog Val} {m m' : Val} (h : IsLastNight c m) (h' : IsLastNight c m') : m = m' := by
  obtain ⟨r, hr, rfl⟩ := h.1
  obtain ⟨r', hr', rfl⟩ := h'.1
  exact le_antisymm (h'.2 r hr) (h.2 r' hr')

/-! ### Selection -/

/-- The spectra of a chunk of rows. -/
def chunkSpectra (tile : Bool) (f : Val → List (ReadSpec K)) (ch : List (Row Val)) : List (ReadSpec K) :=
  match ch.head? with
  | some r => f (r (splitCol tile))
  | none => []

omit [Field K] [LinearOrder K] [FloorRing K] in
theorem chunkSpectra_eq {tile : Bool} {c : Catalog Val} (f : Val → List (ReadSpec K)) {p : Val}
    (hp : p ∈ catPixels tile c) : chunkSpectra tile f (catPixelRows tile c p) = f p := by
  unfold catPixels at hp
  obtain ⟨r, hr, rfl⟩ := List.mem_map.mp (List.mem_dedup.mp hp)
  have hm : r ∈ catPixelRows tile c (r (splitCol tile)) := List.mem_filter.mpr ⟨hr, by simp⟩
  unfold chunkSpectra
  cases h : catPixelRows tile c (r (splitCol tile)) with
  | nil => rw [h] at hm; simp at hm
  | cons a l =>
    have : a ∈ catPixelRows tile c (r (splitCol tile)) := by rw [h]; simp
    have := (List.mem_filter.mp this).2
    simp only [decide_eq_true_eq] at this
    simp [this]

variable [IsStrictOrderedRing K]

/-- What becomes of a spectrum before the fit; `ids` are the targets of the catalog. -/
def prepOne (C : WholeCfg Val K) (ids : List Int) (x : ReadSpec K) : ReadSpec K :=
  C.smooth (treatOne C.sel ids (prepRead C.sel x))

/-- The spectra of a queue before the fit. -/
def prepQueue (C : WholeCfg Val K) (c : Catalog Val) (f : Val → List (ReadSpec K)) (Q : List (List (Row Val))) :
    List (ReadSpec K) :=
  ((Q.flatMap (chunkSpectra C.tile f)).filter (fun x => decide (PassesCuts C.sel x))).map
    (prepOne C (c.rows.map C.tid))

theorem select_queue (C : WholeCfg Val K) {c : Catalog Val} {f : Val → List (ReadSpec K)} {dw dr : K}
    (hC : PlainRun C dw dr) (hr : ReadsPixels C c f) {Q : List (List (Row Val))}
    (hQ : ∀ ch ∈ Q, ∃ p ∈ catPixels C.tile c, ch = catPixelRows C.tile c p) :
    (C.sel.select C.reader (Q.flatten.map C.tid) Q).map (fun l => l.map C.smooth) = .ok (prepQueue C c f Q) := by
  have hread : ∀ ch ∈ Q, C.reader ch = .ok (chunkSpectra C.tile f ch) := by
    intro ch hch
    obtain ⟨p, hp, rfl⟩ := hQ ch hch
    rw [hr.ok p hp, chunkSpectra_eq f hp]
  have hx : ∀ ch ∈ Q, ∀ x ∈ chunkSpectra C.tile f ch, x.row.targetid ∈ Q.flatten.map C.tid ∧
      x.row.targetid ∈ c.rows.map C.tid ∧ Spec.DataOk x.spec ∧ Fresh x.spec ∧ 0 < 1 + x.spec.z := by
    intro ch hch x hx
    obtain ⟨p, hp, rfl⟩ := hQ ch hch
    rw [chunkSpectra_eq f hp] at hx
    obtain ⟨r, hrm, e, -⟩ := hr.row p hp x hx
    refine ⟨List.mem_map.mpr ⟨r, List.mem_flatten.mpr ⟨_, hch, hrm⟩, e⟩,
      List.mem_map.mpr ⟨r, (List.mem_filter.mp hrm).1, e⟩, hr.data p hp x hx⟩
  have hcr : C.sel.coaddBefore = true → ∀ ch ∈ Q, ∀ x ∈ chunkSpectra C.tile f ch, CoaddReady C.sel x.spec := by
    intro hb ch hch x hx
    obtain ⟨p, hp, rfl⟩ := hQ ch hch
    rw [chunkSpectra_eq f hp] at hx
    exact hr.coadd hb p hp x hx
  have hall : ∀ x ∈ Q.flatMap (chunkSpectra C.tile f), x.row.targetid ∈ c.rows.map C.tid ∧ ReadOk x ∧
      (C.sel.coaddBefore = true → CoaddReady C.sel x.spec) := by
    intro x hm
    obtain ⟨ch, hch, hxc⟩ := List.mem_flatMap.mp hm
    obtain ⟨-, a1, a2, a3, a4⟩ := hx ch hch x hxc
    exact ⟨a1, ⟨a2, a3, a4⟩, fun hb => hcr hb ch hch x hxc⟩
  rw [C87_ids C.sel hC.sqrt hC.eta hC.stack hread (ids' := c.rows.map C.tid) hx hcr, select_eq,
    readLocal_ok C.sel hC.sqrt hread (fun x hm => (hall x hm).2)]
  change Except.ok _ = Except.ok _
  congr 1
  unfold prepQueue
  generalize Q.flatMap (chunkSpectra C.tile f) = l at hall
  rw [List.map_map, List.filter_map, List.filter_filter]
  dsimp only
  rw [List.map_map]
  have e : l.filter (fun a => ((keepTreated C.sel) ∘ (treatOne C.sel (c.rows.map C.tid) ∘ prepRead C.sel)) a &&
      C.sel.keepRead (C.sel.setForest a)) = l.filter (fun x => decide (PassesCuts C.sel x)) := by
    refine List.filter_congr fun x hm => ?_
    rw [← keep_iff C.sel (hall x hm).2.1 (hall x hm).2.2 (hall x hm).1 hC.sqrt hC.eta hC.stack, Bool.and_comm]
    rfl
  rw [e]
  rfl

theorem prepare_queue (C : WholeCfg Val K) {c : Catalog Val} {f : Val → List (ReadSpec K)} {dw dr : K}
    (hC : PlainRun C dw dr) (hr : ReadsPixels C c f) {Q : List (List (Row Val))}
    (hQ : ∀ ch ∈ Q, ∃ p ∈ catPixels C.tile c, ch = catPixelRows C.tile c p) (hne : IdleOk C ∨ Q ≠ []) :
    C.prepare Q = if C.sel.bal = true ∧ balCheckCatalog C.cols ≠ .ok () then .error .qsonic
      else .ok (prepQueue C c f Q) := by
  have h1 := select_queue C hC hr hQ
  have hb : C.balStep Q = if C.sel.bal = true then balCheckCatalog C.cols else .ok () := by
    unfold WholeCfg.balStep
    by_cases hbal : C.sel.bal = true
    · rw [if_pos hbal, if_pos hbal, if_neg]
      rcases hne with h | h
      · rw [h.2.1] at hbal; cases hbal
      · simpa using h
    · rw [if_neg hbal, if_neg hbal]
  have hd : C.dlaStep Q = .ok () := by
    unfold WholeCfg.dlaStep
    rw [if_neg]
    rcases hne with h | h
    · rw [h.2.2]; simp
    · simp [h]
  unfold WholeCfg.prepare WholeCfg.maskIds
  rw [hb, hd]
  have hq : ∀ x : Except Err Unit, x = balCheckCatalog C.cols → x = .ok () ∨ x = .error .qsonic := by
    rintro x rfl
    unfold balCheckCatalog
    split
    · exact .inl rfl
    · exact .inr rfl
  by_cases hbal : C.sel.bal = true
  · rw [if_pos hbal]
    rcases hq _ rfl with e | e
    · rw [e, if_neg (by simp)]
      rw [← h1]
      rfl
    · rw [e, if_pos ⟨hbal, by simp⟩]
      rfl
  · rw [if_neg hbal, if_neg (by simp [hbal]), ← h1]
    rfl

/-! ### Pixels -/

omit [LinearOrder Val] [IsStrictOrderedRing K] [FloorRing K] in
theorem mem_foldl_pop {α : Type} (l : List String) {d : Dict α} {a : String × α}
    (h : a ∈ l.foldl (fun d k => Dict.pop d k) d) : a ∈ d := by
  rw [foldl_pop_eq] at h
  exact (List.mem_filter.mp h).1

omit [LinearOrder Val] in
theorem masks_fwave (dlaFlux : K → K → K → K) (row : MaskRow K) (m : List (Masker K))
    {s : Spectrum K} (hs : Aligned s) (hz : 0 < 1 + s.z) :
    ∀ a ∈ (applyMasks dlaFlux row m s).fwave, a ∈ s.fwave := by
  cases m with
  | nil => exact fun a h => h
  | cons m l =>
    have h : applyMasks dlaFlux row (m :: l) s =
      ((m :: l).foldl (fun t m => m.apply dlaFlux row t) s).dropShortArms 0 0 0 := rfl
    rw [h, maskers_foldl_eq _ _ _ hs hz]
    set t := updAll (scaled fun w => ((m :: l).map fun m => (factors dlaFlux row s.z m).1 w).prod)
      (scaled fun w => ((m :: l).map fun m => (factors dlaFlux row s.z m).2 w).prod) s with ht
    have ht' : t.dropShortArms 0 0 0 = (shortArms t 0 0 0).foldl Spectrum.dropArm t := rfl
    intro a ha
    rw [ht', (foldl_dropArm (shortArms t 0 0 0) t).1] at ha
    exact mem_foldl_pop _ ha

theorem smooth_same (C : WholeCfg Val K) (x : ReadSpec K) : (C.smooth x).spec.fwave = x.spec.fwave ∧
    (C.smooth x).spec.z = x.spec.z ∧ (C.smooth x).row = x.row := by
  unfold WholeCfg.smooth
  split
  · unfold Spectrum.setSmoothForestivar
    split <;> exact ⟨rfl, rfl, rfl⟩
  · exact ⟨rfl, rfl, rfl⟩

theorem prepOne_inForest (C : WholeCfg Val K) {dw dr : K} (hC : PlainRun C dw dr) (ids : List Int) {x : ReadSpec K}
    (hx : ReadOk x) (hc : C.sel.coaddBefore = true → CoaddReady C.sel x.spec) (hp : PassesCuts C.sel x) :
    PixelsInForest C.sel.wave1 C.sel.wave2 C.sel.forestW1 C.sel.forestW2 (prepOne C ids x).spec := by
  obtain ⟨-, a1, a2, -, -, -, a7, -⟩ := prep_same C.sel hx hc hC.sqrt hp.1
  obtain ⟨b1, b2, -, -, b5, -⟩ := etaOne_same C.sel hC.eta a1
  obtain ⟨c1, c2, -, -, c5, -⟩ := fluxOne_same C.sel hC.stack b1
  have hz : (fluxOne C.sel (etaOne C.sel (prepRead C.sel x).spec)).z = x.spec.z := by rw [c2, b2, a2]
  have hz0 : 0 < 1 + (fluxOne C.sel (etaOne C.sel (prepRead C.sel x).spec)).z := by rw [hz]; exact hx.zpos
  have hw := masks_fwave C.sel.dlaFlux (prepRead C.sel x).row (C.sel.maskers ids) c1 hz0
  obtain ⟨-, d2, -⟩ := masks_same C.sel.dlaFlux (prepRead C.sel x).row (C.sel.maskers ids) c1 hz0
  obtain ⟨e1, e2, -⟩ := smooth_same C (treatOne C.sel ids (prepRead C.sel x))
  have hz' : (prepOne C ids x).spec.z = x.spec.z := e2.trans (d2.trans hz)
  refine ⟨by rw [hz']; exact hx.zpos, ?_⟩
  rw [hz']
  intro a ha w hwa
  refine a7 a ?_ w hwa
  have : a ∈ (prepOne C ids x).spec.fwave := ha
  unfold prepOne at this
  rw [e1] at this
  have := hw a this
  rwa [c5, b5] at this

/-! ### The end of the run -/

/-- What becomes of a spectrum after the fit `g`. -/
def endOne (C : WholeCfg Val K) (g : Spectrum K → Spectrum K) (x : ReadSpec K) : ReadSpec K :=
  { x with spec := (g x.spec).dropShortArms C.sel.forestW1 C.sel.forestW2 C.sel.skip }

omit [LinearOrder Val] [IsStrictOrderedRing K] in
theorem dropShort_valid (s : Spectrum K) (a b c : K) : (s.dropShortArms a b c).valid = s.valid :=
  (foldl_dropArm (shortArms s a b c) s).2.2.2.2.2.2.2.2.2.2

theorem finish_eq (C : WholeCfg Val K) (g : Spectrum K → Spectrum K) (l : List (ReadSpec K)) :
    C.finish (SelectCfg.setSpecs l ((l.map (·.spec)).map g)) =
      (l.map (endOne C g)).filter (fun x => x.spec.valid) := by
  rw [setSpecs_map]
  unfold WholeCfg.finish
  rw [List.filter_map, List.filter_map, List.map_map]
  have e : ((fun x : ReadSpec K => x.spec.valid) ∘ endOne C g) =
      ((fun x => x.spec.valid) ∘ fun x : ReadSpec K => { x with spec := g x.spec }) := by
    funext x
    exact dropShort_valid _ _ _ _
  rw [e]
  rfl

/-- What is given to `save_deltas`. -/
def savedOf (C : WholeCfg Val K) (l : List (ReadSpec K)) : List (SavedSpec Val (ReadSpec K)) :=
  l.map (fun x => ⟨C.pix x.row.targetid, x.spec.valid, x⟩)

theorem save_ok (C : WholeCfg Val K) (hA : ∀ k, IsArgsort k (C.argsort k)) (r : Nat) (l : List (ReadSpec K)) :
    ∃ files, C.save r l = .ok files ∧ (C.outdir = true → C.byHpx = true →
      (files.map Prod.fst).Nodup ∧ (∀ s ∈ savedOf C l, ∃ f ∈ files, f.1 = .pix s.hpix) ∧
      (∀ f ∈ files, ∃ p, f.1 = .pix p ∧ (∃ s ∈ savedOf C l, s.hpix = p) ∧
        f.2.Perm ((savedOf C l).filter (fun s => s.valid ∧ s.hpix = p)))) := by
  unfold WholeCfg.save
  by_cases ho : C.outdir = true
  · by_cases hb : C.byHpx = true
    · obtain ⟨files, h1, h2, h3, h4, -⟩ := C17_by_pixel hA (savedOf C l) (some r)
      rw [ho, hb]
      exact ⟨files, h1, fun _ _ => ⟨h2, h3, h4⟩⟩
    · have : C.byHpx = false := by simpa using hb
      rw [ho, this]
      exact ⟨_, C17_by_rank _ _ _, fun _ h => absurd h (by simp)⟩
  · have : C.outdir = false := by simpa using ho
    rw [this]
    exact ⟨_, C17_no_outdir _ _ _ _ _, fun h => absurd h (by simp)⟩

omit [LinearOrder Val] [Field K] [LinearOrder K] [FloorRing K] [IsStrictOrderedRing K] in
theorem flatMap_single {α β : Type} {l : List α} {g : α → List β} {a : α} (hn : l.Nodup) (ha : a ∈ l)
    (h : ∀ b ∈ l, b ≠ a → g b = []) : l.flatMap g = g a := by
  induction l with
  | nil => simp at ha
  | cons x l ih =>
    rw [List.nodup_cons] at hn
    rw [List.flatMap_cons]
    rcases List.mem_cons.mp ha with rfl | hal
    · have : l.flatMap g = [] := by
        rw [List.flatMap_eq_nil_iff]
        intro b hb
        refine h b (by simp [hb]) ?_
        rintro rfl
        exact hn.1 hb
      rw [this, List.append_nil]
    · rw [h x (by simp) (by rintro rfl; exact hn.1 hal), List.nil_append]
      exact ih hn.2 hal fun b hb hne => h b (by simp [hb]) hne

/-- The files of all ranks, if no pixel is on two ranks. -/
theorem files_pooled (C : WholeCfg Val K) {n : Nat} {D : Nat → List (ReadSpec K)}
    {files : Nat → List (DeltaName Val × List (SavedSpec Val (ReadSpec K)))}
    (hf : ∀ r, (((files r).map Prod.fst).Nodup ∧ (∀ s ∈ savedOf C (D r), ∃ f ∈ files r, f.1 = .pix s.hpix) ∧
      (∀ f ∈ files r, ∃ p, f.1 = .pix p ∧ (∃ s ∈ savedOf C (D r), s.hpix = p) ∧
        f.2.Perm ((savedOf C (D r)).filter (fun s => s.valid ∧ s.hpix = p)))))
    (hdis : ∀ i ≤ n, ∀ j ≤ n, i ≠ j → ∀ x ∈ D i, ∀ y ∈ D j, C.pix x.row.targetid ≠ C.pix y.row.targetid) :
    let F := (List.range (n + 1)).flatMap files
    let S := savedOf C ((List.range (n + 1)).flatMap D)
    (F.map Prod.fst).Nodup ∧ (∀ s ∈ S, ∃ f ∈ F, f.1 = .pix s.hpix) ∧
      ∀ f ∈ F, ∃ p, f.1 = .pix p ∧ (∃ s ∈ S, s.hpix = p) ∧ f.2.Perm (S.filter (fun s => s.valid ∧ s.hpix = p)) := by
  intro F S
  have hS : S = (List.range (n + 1)).flatMap (fun r => savedOf C (D r)) := by
    change savedOf C _ = _
    unfold savedOf
    rw [List.map_flatMap]
  have hdis' : ∀ i ≤ n, ∀ j ≤ n, i ≠ j → ∀ s ∈ savedOf C (D i), ∀ t ∈ savedOf C (D j), s.hpix ≠ t.hpix := by
    intro i hi j hj hij s hs t ht
    obtain ⟨x, hx, rfl⟩ := List.mem_map.mp hs
    obtain ⟨y, hy, rfl⟩ := List.mem_map.mp ht
    exact hdis i hi j hj hij x hx y hy
  have hrange : ∀ r, r ∈ List.range (n + 1) ↔ r ≤ n := fun r => by simp [Nat.lt_succ_iff]
  refine ⟨?_, ?_, ?_⟩
  · change (List.map Prod.fst ((List.range (n + 1)).flatMap files)).Nodup
    rw [List.map_flatMap, List.nodup_flatMap]
    refine ⟨fun r _ => (hf r).1, ?_⟩
    refine (List.pairwise_iff_forall_sublist.mpr ?_)
    intro i j hij
    have hlt : i < j := by
      have h := List.pairwise_lt_range (n := n + 1)
      exact (List.pairwise_iff_forall_sublist.mp h) hij
    have hi := (hrange i).mp (hij.subset (by simp))
    have hj := (hrange j).mp (hij.subset (by simp))
    intro k hk1 hk2
    obtain ⟨f, hf1, rfl⟩ := List.mem_map.mp hk1
    obtain ⟨g, hg1, e⟩ := List.mem_map.mp hk2
    obtain ⟨p, hp, ⟨s, hs, hsp⟩, -⟩ := (hf i).2.2 f hf1
    obtain ⟨p', hp', ⟨s', hs', hsp'⟩, -⟩ := (hf j).2.2 g hg1
    rw [hp, hp'] at e
    cases e
    exact hdis' i hi j hj hlt.ne s hs s' hs' (hsp.trans hsp'.symm)
  · intro s hs
    rw [hS] at hs
    obtain ⟨r, hr, hsr⟩ := List.mem_flatMap.mp hs
    obtain ⟨f, hf1, hf2⟩ := (hf r).2.1 s hsr
    exact ⟨f, List.mem_flatMap.mpr ⟨r, hr, hf1⟩, hf2⟩
  · intro f hfm
    obtain ⟨r, hr, hfr⟩ := List.mem_flatMap.mp hfm
    obtain ⟨p, hp, ⟨s, hs, hsp⟩, hperm⟩ := (hf r).2.2 f hfr
    refine ⟨p, hp, ⟨s, by rw [hS]; exact List.mem_flatMap.mpr ⟨r, hr, hs⟩, hsp⟩, ?_⟩
    rw [hS, List.filter_flatMap, flatMap_single (a := r) List.nodup_range hr]
    · exact hperm
    · intro j hj hne
      rw [List.filter_eq_nil_iff]
      intro t ht hh
      have : t.valid = true ∧ t.hpix = p := by simpa using hh
      exact hdis' j ((hrange j).mp hj) r ((hrange r).mp hr) hne t ht s hs (this.2.trans hsp.symm)

/-- The files of two runs. -/
theorem sameFiles_of {C : WholeCfg Val K} {F F' : List (DeltaName Val × List (SavedSpec Val (ReadSpec K)))}
    {S S' : List (SavedSpec Val (ReadSpec K))}
    (h : (F.map Prod.fst).Nodup ∧ (∀ s ∈ S, ∃ f ∈ F, f.1 = .pix s.hpix) ∧
      ∀ f ∈ F, ∃ p, f.1 = .pix p ∧ (∃ s ∈ S, s.hpix = p) ∧ f.2.Perm (S.filter (fun s => s.valid ∧ s.hpix = p)))
    (h' : (F'.map Prod.fst).Nodup ∧ (∀ s ∈ S', ∃ f ∈ F', f.1 = .pix s.hpix) ∧
      ∀ f ∈ F', ∃ p, f.1 = .pix p ∧ (∃ s ∈ S', s.hpix = p) ∧ f.2.Perm (S'.filter (fun s => s.valid ∧ s.hpix = p)))
    (hp : S.Perm S') : SameFiles F F' := by
  have key : ∀ (F F' : List (DeltaName Val × List (SavedSpec Val (ReadSpec K))))
      (S S' : List (SavedSpec Val (ReadSpec K))),
      (∀ f ∈ F, ∃ p, f.1 = .pix p ∧ (∃ s ∈ S, s.hpix = p) ∧ f.2.Perm (S.filter (fun s => s.valid ∧ s.hpix = p))) →
      (∀ s ∈ S', ∃ f ∈ F', f.1 = .pix s.hpix) →
      (∀ f ∈ F', ∃ p, f.1 = .pix p ∧ (∃ s ∈ S', s.hpix = p) ∧
        f.2.Perm (S'.filter (fun s => s.valid ∧ s.hpix = p))) →
      S.Perm S' → ∀ x ∈ F, ∃ y ∈ F', y.1 = x.1 ∧ y.2.Perm x.2 := by
    intro F F' S S' a1 a2 a3 hp x hx
    obtain ⟨p, e, ⟨s, hs, rfl⟩, hperm⟩ := a1 x hx
    obtain ⟨y, hy, e'⟩ := a2 s (hp.mem_iff.mp hs)
    obtain ⟨p', e'', -, hperm'⟩ := a3 y hy
    rw [e'] at e''
    cases e''
    exact ⟨y, hy, e'.trans e.symm, hperm'.trans ((hp.symm.filter _).trans hperm.symm)⟩
  exact ⟨h.1, h'.1, key F F' S S' h.2.2 h'.2.1 h'.2.2 hp, key F' F S' S h'.2.2 h.2.1 h.2.2 hp.symm⟩

/-! ### All together -/

theorem ofExcept_eq_fin {V W A : Type} (x : Except Err A) : (ofExcept x : Prog V W A) = fin x := by
  cases x <;> rfl

theorem sync_ofExcept_eq {V W A : Type} {n : Nat} {x y : Nat → Except Err A} (h : ∀ r ≤ n, x r = y r) :
    Sync n (fun r => (ofExcept (x r) : Prog V W A)) y (fun _ => []) :=
  (sync_fin n y).congr (fun r hr => by rw [h r hr, ofExcept_eq_fin]) (fun _ _ => rfl) (fun _ _ => rfl)

/-- The stages before the fit: what the ranks hold together. -/
structure Prepared (C : WholeCfg Val K) (c : Catalog Val) (f : Val → List (ReadSpec K)) (n : Nat)
    (Q : Nat → List (List (Row Val))) : Prop where
  perm : ((List.range (n + 1)).flatMap (fun r => prepQueue C c f (Q r))).Perm
    ((((catPixels C.tile c).flatMap f).filter (fun x => decide (PassesCuts C.sel x))).map
      (prepOne C (c.rows.map C.tid)))
  prep : ∀ r ≤ n, C.prepare (Q r) = if C.sel.bal = true ∧ balCheckCatalog C.cols ≠ .ok () then .error .qsonic
      else .ok (prepQueue C c f (Q r))
  pix : C.tile = false → ∀ i ≤ n, ∀ j ≤ n, i ≠ j → ∀ x ∈ prepQueue C c f (Q i), ∀ y ∈ prepQueue C c f (Q j),
    C.pix x.row.targetid ≠ C.pix y.row.targetid
  chunk : ∀ r ≤ n, ∀ ch ∈ Q r, ∃ p ∈ catPixels C.tile c, ch = catPixelRows C.tile c p
  full : n + 1 ≤ (catPixels C.tile c).length → ∀ r ≤ n, Q r ≠ []

theorem prepOne_row (C : WholeCfg Val K) (ids : List Int) (x : ReadSpec K) : (prepOne C ids x).row = x.row :=
  (smooth_same C _).2.2.trans (prepRead_row C.sel x).1

theorem catPixelRows_inj {tile : Bool} {c : Catalog Val} {p p' : Val} (hp : p ∈ catPixels tile c)
    (h : catPixelRows tile c p = catPixelRows tile c p') : p = p' := by
  unfold catPixels at hp
  obtain ⟨r, hr, rfl⟩ := List.mem_map.mp (List.mem_dedup.mp hp)
  have hm : r ∈ catPixelRows tile c (r (splitCol tile)) := List.mem_filter.mpr ⟨hr, by simp⟩
  rw [h] at hm
  simpa using (List.mem_filter.mp hm).2

theorem prepared (C : WholeCfg Val K) {c : Catalog Val} {f : Val → List (ReadSpec K)} {dw dr : K}
    (hC : PlainRun C dw dr) (hr : ReadsPixels C c f) {n : Nat} {q : List (List (List (Row Val)))}
    (hlen : q.length = n + 1) (hq : q.flatten.Perm ((catPixels C.tile c).map (catPixelRows C.tile c)))
    (hne : IdleOk C ∨ ∀ b ∈ q, b ≠ []) (hfull : n + 1 ≤ (catPixels C.tile c).length → ∀ b ∈ q, b ≠ []) :
    Prepared C c f n (fun r => q.getD r []) := by
  have hQ : ∀ ch ∈ q.flatten, ∃ p ∈ catPixels C.tile c, ch = catPixelRows C.tile c p := by
    intro ch hch
    obtain ⟨p, hp, e⟩ := List.mem_map.mp (hq.mem_iff.mp hch)
    exact ⟨p, hp, e.symm⟩
  have hget : ∀ r ≤ n, q.getD r [] ∈ q := by
    intro r hr
    have h : r < q.length := by omega
    rw [List.getD_eq_getElem?_getD, List.getElem?_eq_getElem h]
    exact List.getElem_mem h
  have hQr : ∀ r ≤ n, ∀ ch ∈ q.getD r [], ch ∈ q.flatten := by
    intro r hr ch hch
    exact List.mem_flatten.mpr ⟨_, hget r hr, hch⟩
  refine ⟨?_, ?_, ?_, fun r hrn ch hch => hQ ch (hQr r hrn ch hch), fun hl r hrn => hfull hl _ (hget r hrn)⟩
  · unfold prepQueue
    rw [← List.map_flatMap, ← List.filter_flatMap, ← List.flatMap_assoc, pooled_getD hlen]
    refine ((List.Perm.flatMap_right _ hq).trans (List.Perm.of_eq ?_)).filter _ |>.map _
    rw [List.flatMap_map]
    refine List.flatMap_congr fun p hp => chunkSpectra_eq f hp
  · intro r hrn
    refine prepare_queue C hC hr (fun ch hch => hQ ch (hQr r hrn ch hch)) ?_
    exact hne.imp id fun h => h _ (hget r hrn)
  · intro ht i hi j hj hij x hx y hy e
    have hnd : q.flatten.Nodup := by
      refine hq.nodup_iff.mpr ?_
      exact List.Nodup.map_on (fun p hp p' _ h => catPixelRows_inj hp h) (List.nodup_dedup _)
    have hpd := (List.nodup_flatten.mp hnd).2
    have hor : ∀ r ≤ n, ∀ x ∈ prepQueue C c f (q.getD r []), ∃ ch ∈ q.getD r [],
        ch = catPixelRows C.tile c (C.pix x.row.targetid) := by
      intro r hrn x hx
      obtain ⟨z, hz, rfl⟩ := List.mem_map.mp hx
      rw [prepOne_row]
      obtain ⟨ch, hch, hzc⟩ := List.mem_flatMap.mp (List.mem_filter.mp hz).1
      obtain ⟨p, hp, rfl⟩ := hQ ch (hQr r hrn ch hch)
      rw [chunkSpectra_eq f hp] at hzc
      obtain ⟨w, hw, -, hpix⟩ := hr.row p hp z hzc
      have hwp : w (splitCol C.tile) = p := by simpa using (List.mem_filter.mp hw).2
      refine ⟨_, hch, ?_⟩
      rw [hpix, ← hwp, ht]
      rfl
    obtain ⟨ch, h1, h2⟩ := hor i hi x hx
    obtain ⟨ch', h1', h2'⟩ := hor j hj y hy
    rw [← e, ← h2] at h2'
    subst h2'
    have hil : i < q.length := by omega
    have hjl : j < q.length := by omega
    rw [List.getD_eq_getElem?_getD, List.getElem?_eq_getElem hil] at h1
    rw [List.getD_eq_getElem?_getD, List.getElem?_eq_getElem hjl] at h1'
    rw [List.pairwise_iff_getElem] at hpd
    rcases Nat.lt_or_gt_of_ne hij with h | h
    · exact hpd i j hil hjl h h1 h1'
    · exact hpd j i hjl hil h h1' h1

/-- Both runs up to the fit, and the result in the two cases. -/
theorem sync_before {V W A : Type} (C : WholeCfg Val K) {c : Catalog Val} {f : Val → List (ReadSpec K)}
    {dw dr : K} (hC : PlainRun C dw dr) (hr : ReadsPixels C c f) (cs : Codec Bool V)
    (cq : Codec (List (List (Row Val))) V) (cn : Codec Val V)
    {ang2pix : Nat → Val → Val → Val} {file : Except Err (Catalog Val)} {isMock : Bool}
    {ks : Option (List Val)} {zmin zmax : Val}
    (h : readQuasarCatalog ang2pix file isMock C.tile ks zmin zmax = .ok c) (n : Nat)
    (hidle : IdleOk C ∨ n + 1 ≤ (catPixels C.tile c).length) :
    ∃ (Q : Nat → List (List (Row Val))) (night : Option Val), Prepared C c f n Q ∧
      (C.mock = true → night = none) ∧ (C.mock = false → ∃ m, night = some m ∧ IsLastNight c m) ∧
      ((C.sel.bal = true ∧ balCheckCatalog C.cols ≠ .ok ()) →
        ∀ k : Option Val → Nat → List (List (Row Val)) → List (ReadSpec K) → Prog V W A,
        Sync n (fun r => (mpiGetLocalQueue cs cq (.ok c) C.tile (n + 1) r).bind fun q =>
          (C.blinding cn q).bind fun night => (ofExcept (C.prepare q)).bind fun l => k night r q l)
          (fun _ => .error .qsonic) (fun _ => [])) ∧
      (¬ (C.sel.bal = true ∧ balCheckCatalog C.cols ≠ .ok ()) →
        ∀ (k : Option Val → Nat → List (List (Row Val)) → List (ReadSpec K) → Prog V W A) (y : Nat → Except Err A) (M : Nat → List W),
        Sync n (fun r => k night r (Q r) (prepQueue C c f (Q r))) y M →
        Sync n (fun r => (mpiGetLocalQueue cs cq (.ok c) C.tile (n + 1) r).bind fun q =>
          (C.blinding cn q).bind fun night => (ofExcept (C.prepare q)).bind fun l => k night r q l) y M) := by
  obtain ⟨q, hq, hlen, hrows, hperm, hfull⟩ := queues_ok h n
  have hP := prepared C hC hr hlen hperm (hidle.imp id hfull) hfull
  have hchunk : ∀ r ≤ n, ∀ ch ∈ q.getD r [], ch ≠ [] := by
    intro r hrn ch hch
    have hl : r < q.length := by omega
    rw [List.getD_eq_getElem?_getD, List.getElem?_eq_getElem hl] at hch
    have : ch ∈ q.flatten := List.mem_flatten.mpr ⟨_, List.getElem_mem hl, hch⟩
    obtain ⟨p, hp, rfl⟩ := List.mem_map.mp (hperm.mem_iff.mp this)
    unfold catPixels at hp
    obtain ⟨x, hx, rfl⟩ := List.mem_map.mp (List.mem_dedup.mp hp)
    exact List.ne_nil_of_mem (List.mem_filter.mpr ⟨hx, by simp⟩)
  have hpool : ((List.range (n + 1)).flatMap (fun r => (q.getD r []).flatten)).Perm c.rows := by
    refine (List.Perm.of_eq ?_).trans hrows
    rw [← pooled_getD hlen]
    generalize List.range (n + 1) = l
    induction l with
    | nil => rfl
    | cons a l ih => rw [List.flatMap_cons, List.flatMap_cons, List.flatten_append, ih]
  obtain ⟨night, hn1, hn2, hn3⟩ := sync_blinding (W := W) C cn (fun r => q.getD r []) hpool (fun hm r hrn => by
    rcases hidle with h1 | h1
    · rw [h1.1] at hm; cases hm
    · have hl : r < q.length := by omega
      refine hfull h1 _ ?_
      rw [List.getD_eq_getElem?_getD, List.getElem?_eq_getElem hl]
      exact List.getElem_mem hl) hchunk
  have hq1 := sync_queue (W := W) cs cq C.tile hq hlen
  refine ⟨_, night, hP, hn2, hn3, ?_, ?_⟩
  · intro hbad k
    have h3 : Sync n (fun r => (ofExcept (C.prepare (q.getD r [])) : Prog V W (List (ReadSpec K))))
        (fun _ => .error .qsonic) (fun _ => []) := sync_ofExcept_eq fun r hrn => by
      rw [hP.prep r hrn, if_pos hbad]
    have h4 := hn1.bind (f := fun r night => (ofExcept (C.prepare (q.getD r []))).bind fun l => k night r (q.getD r []) l)
      (h3.bind_error (fun r l => k night r (q.getD r []) l))
    have h5 := hq1.bind (f := fun r q => (C.blinding cn q).bind fun night =>
      (ofExcept (C.prepare q)).bind fun l => k night r q l) h4
    exact h5.congr (fun _ _ => rfl) (fun _ _ => rfl) (fun _ _ => rfl)
  · intro hgood k y M hk
    have h3 : Sync n (fun r => (ofExcept (C.prepare (q.getD r [])) : Prog V W (List (ReadSpec K))))
        (fun r => .ok (prepQueue C c f (q.getD r []))) (fun _ => []) := sync_ofExcept_eq fun r hrn => by
      rw [hP.prep r hrn, if_neg hgood]
    have h4 := hn1.bind (f := fun r night => (ofExcept (C.prepare (q.getD r []))).bind fun l => k night r (q.getD r []) l)
      (h3.bind (f := fun r l => k night r (q.getD r []) l) hk)
    have h5 := hq1.bind (f := fun r q => (C.blinding cn q).bind fun night =>
      (ofExcept (C.prepare q)).bind fun l => k night r q l) h4
    exact h5.congr (fun _ _ => rfl) (fun _ _ => rfl) (fun _ _ => by simp)

/-- The run on two numbers of processes. -/
theorem whole_sync {Q D V : Type} (C : WholeCfg Val K) {c : Catalog Val} {f : Val → List (ReadSpec K)}
    {dw dr : K} (hC : PlainRun C dw dr) (hr : ReadsPixels C c f) (hA : ∀ k, IsArgsort k (C.argsort k))
    (P : FitterFns (FullState K) (Spectrum K) (StackSums K) Q D) (cs : Codec Bool V)
    (cq : Codec (List (List (Row Val))) V) (cn : Codec Val V) (fc : FitterCodecs (StackSums K) Q V)
    {ang2pix : Nat → Val → Val → Val} {file : Except Err (Catalog Val)} {isMock : Bool}
    {ks : Option (List Val)} {zmin zmax : Val}
    (h : readQuasarCatalog ang2pix file isMock C.tile ks zmin zmax = .ok c) (n n' : Nat)
    (hidle : IdleOk C ∨ (n + 1 ≤ (catPixels C.tile c).length ∧ n' + 1 ≤ (catPixels C.tile c).length))
    (fname : String) (g0 : FullState K) :
    (∃ (night : Option Val) (k : Nat) (b : Bool) (g : ReadSpec K → ReadSpec K) (D1 D2 : Nat → List (ReadSpec K))
      (F1 F2 : Nat → List (DeltaName Val × List (SavedSpec Val (ReadSpec K)))) (exts tail tail' : List (String × D)),
      Sync n (fun r => C.run P cs cq cn fc (.ok c) fname g0 (n + 1) r)
        (fun r => .ok ⟨night, k, b, D1 r, F1 r⟩)
        (fun r => if r = 0 ∧ fname ≠ "" then
          [.create fname] ++ (exts ++ tail).map (.write fname) ++ [.close fname] else []) ∧
      Sync n' (fun r => C.run P cs cq cn fc (.ok c) fname g0 (n' + 1) r)
        (fun r => .ok ⟨night, k, b, D2 r, F2 r⟩)
        (fun r => if r = 0 ∧ fname ≠ "" then
          [.create fname] ++ (exts ++ tail').map (.write fname) ++ [.close fname] else []) ∧
      (C.mock = true → night = none) ∧ (C.mock = false → ∃ m, night = some m ∧ IsLastNight c m) ∧
      (∀ x, (g x).row = x.row ∧ (g x).rsnr = x.rsnr) ∧
      ((List.range (n + 1)).flatMap D1).Perm
        (((((catPixels C.tile c).flatMap f).filter (fun x => decide (PassesCuts C.sel x))).map g).filter
          (fun x => x.spec.valid)) ∧
      ((List.range (n' + 1)).flatMap D2).Perm
        (((((catPixels C.tile c).flatMap f).filter (fun x => decide (PassesCuts C.sel x))).map g).filter
          (fun x => x.spec.valid)) ∧
      (C.outdir = true → C.byHpx = true → C.tile = false →
        SameFiles ((List.range (n + 1)).flatMap F1) ((List.range (n' + 1)).flatMap F2)) ∧
      tail.map Prod.fst = ["CONT-fit", "STACKED_FLUX-fit", "STACKED_FLUX_RF-fit", "VAR_FUNC-fit", "VAR_STATS"] ∧
      tail'.map Prod.fst = tail.map Prod.fst) ∨
    (∃ ev : List (SaverEv (String × D)),
      Sync n (fun r => C.run P cs cq cn fc (.ok c) fname g0 (n + 1) r) (fun _ => .error .qsonic)
        (fun r => if r = 0 ∧ fname ≠ "" then ev else []) ∧
      Sync n' (fun r => C.run P cs cq cn fc (.ok c) fname g0 (n' + 1) r) (fun _ => .error .qsonic)
        (fun r => if r = 0 ∧ fname ≠ "" then ev else [])) := by
  obtain ⟨Q1, night, hP1, na1, na2, ne, ns⟩ := sync_before (W := SaverEv (String × D)) (A := WholeOut Val K) C hC hr
    cs cq cn h n (hidle.imp id And.left)
  obtain ⟨Q2, night', hP2, nb1, nb2, ne', ns'⟩ := sync_before (W := SaverEv (String × D)) (A := WholeOut Val K) C hC hr
    cs cq cn h n' (hidle.imp id And.right)
  have hnn : night' = night := by
    by_cases hm : C.mock = true
    · rw [na1 hm, nb1 hm]
    · have hm : C.mock = false := by simpa using hm
      obtain ⟨m, rfl, hm1⟩ := na2 hm
      obtain ⟨m', rfl, hm2⟩ := nb2 hm
      rw [lastNight_unique hm1 hm2]
  subst hnn
  by_cases hbad : C.sel.bal = true ∧ balCheckCatalog C.cols ≠ .ok ()
  · exact .inr ⟨[], (ne hbad _).congr (fun _ _ => rfl) (fun _ _ => rfl) (fun _ _ => by simp),
      (ne' hbad _).congr (fun _ _ => rfl) (fun _ _ => rfl) (fun _ _ => by simp)⟩
  have ns1 := ns hbad
  have ns2 := ns' hbad
  clear ne ne' ns ns'
  set cat := ((catPixels C.tile c).flatMap f).filter (fun x => decide (PassesCuts C.sel x)) with hcat
  set ids := c.rows.map C.tid with hids
  have hpool : ∀ (m : Nat) (Q : Nat → List (List (Row Val))), Prepared C c f m Q →
      (pooled m (fun r => (prepQueue C c f (Q r)).map (·.spec))).Perm ((cat.map (prepOne C ids)).map (·.spec)) := by
    intro m Q hP
    unfold pooled
    rw [← List.map_flatMap]
    exact hP.perm.map _
  have hforest : ∀ s ∈ pooled n (fun r => (prepQueue C c f (Q1 r)).map (·.spec)),
      PixelsInForest C.sel.wave1 C.sel.wave2 C.sel.forestW1 C.sel.forestW2 s := by
    intro s hs
    obtain ⟨y, hy, rfl⟩ := List.mem_map.mp ((hpool n Q1 hP1).mem_iff.mp hs)
    obtain ⟨x, hx, rfl⟩ := List.mem_map.mp hy
    obtain ⟨p, hp, hxp⟩ := List.mem_flatMap.mp (List.mem_filter.mp hx).1
    obtain ⟨a1, a2, a3⟩ := hr.data p hp x hxp
    exact prepOne_inForest C hC ids ⟨a1, a2, a3⟩ (fun hb => hr.coadd hb p hp x hxp)
      (of_decide_eq_true (List.mem_filter.mp hx).2)
  have hfit := sync_pool (F := C.fit.fns P) (F' := C.fit.fns P)
    (P := PixelsInForest C.sel.wave1 C.sel.wave2 C.sel.forestW1 C.sel.forestW2)
    ⟨rfl, rfl, rfl, fun g s hs => by
      obtain ⟨e1, e2⟩ := fitOne_same C.fit g s
      change PixelsInForest C.sel.wave1 C.sel.wave2 C.sel.forestW1 C.sel.forestW2 (C.fit.fitOne g s)
      unfold PixelsInForest
      rw [e1, e2]
      exact hs, fun g m m' q q' hq hq' => addSums_pool C.fit hC.obs hC.obsPos hC.rf hC.rfPos m m' q q' hq hq'⟩
    rfl rfl ⟨rfl, rfl, rfl⟩ fc fc n n' g0 _ _ ((hpool n Q1 hP1).trans (hpool n' Q2 hP2).symm) hforest fname C.niter
  rcases hfit with ⟨k, b, u, gfin, gfin', exts, tail, tail', s1, s2, t1, t2⟩ | ⟨ev, s1, s2⟩
  · left
    have hD : ∀ l : List (ReadSpec K), C.finish (SelectCfg.setSpecs l ((l.map (·.spec)).map u)) =
        (l.map (endOne C u)).filter (fun x => x.spec.valid) := finish_eq C u
    have hsv : ∀ (r : Nat) (l : List (ReadSpec K)), ∃ files, C.save r l = .ok files ∧ _ := fun r l => save_ok C hA r l
    choose files hfiles hfp using hsv
    have hrun : ∀ (m : Nat) (Q : Nat → List (List (Row Val))) (gf : FullState K) (M : Nat → List (SaverEv (String × D))),
        Sync m (fun r => (C.fit.fns P).iterate fc fname C.niter false r g0 ((prepQueue C c f (Q r)).map (·.spec)))
          (fun r => .ok (gf, ((prepQueue C c f (Q r)).map (·.spec)).map u, k, b)) M →
        Sync m (fun r => ((C.fit.fns P).iterate fc fname C.niter false r g0
          ((prepQueue C c f (Q r)).map (·.spec))).bind fun w =>
            (Prog.ofExcept (C.save r (C.finish (SelectCfg.setSpecs (prepQueue C c f (Q r)) w.2.1)))).bind fun fl =>
            .ret (⟨night', w.2.2.1, w.2.2.2, C.finish (SelectCfg.setSpecs (prepQueue C c f (Q r)) w.2.1), fl⟩ :
              WholeOut Val K))
          (fun r => .ok ⟨night', k, b, ((prepQueue C c f (Q r)).map (endOne C u)).filter (fun x => x.spec.valid),
            files r (((prepQueue C c f (Q r)).map (endOne C u)).filter (fun x => x.spec.valid))⟩) M := by
      intro m Q gf M hs
      have hs2 := hs.bind (f := fun r w =>
        (Prog.ofExcept (C.save r (C.finish (SelectCfg.setSpecs (prepQueue C c f (Q r)) w.2.1)))).bind fun fl =>
            .ret (⟨night', w.2.2.1, w.2.2.2, C.finish (SelectCfg.setSpecs (prepQueue C c f (Q r)) w.2.1), fl⟩ :
              WholeOut Val K)) (N := fun _ => [])
        (y := fun r => .ok ⟨night', k, b, ((prepQueue C c f (Q r)).map (endOne C u)).filter (fun x => x.spec.valid),
            files r (((prepQueue C c f (Q r)).map (endOne C u)).filter (fun x => x.spec.valid))⟩) (by
          refine (sync_ret m _).congr (fun r _ => ?_) (fun _ _ => rfl) (fun _ _ => rfl)
          dsimp only
          rw [hD, hfiles]
          rfl)
      exact hs2.congr (fun _ _ => rfl) (fun _ _ => rfl) (fun _ _ => by simp)
    refine ⟨night', k, b, endOne C u ∘ prepOne C ids, _, _, _, _, exts, tail, tail', ns1 _ _ _ (hrun n Q1 gfin _ s1),
      ns2 _ _ _ (hrun n' Q2 gfin' _ s2), na1, na2, fun x => ⟨prepOne_row C ids x, ?_⟩, ?_, ?_, ?_, t1, t2⟩
    · change (C.smooth (treatOne C.sel ids (prepRead C.sel x))).rsnr = x.rsnr
      unfold WholeCfg.smooth
      split <;> exact (prepRead_row C.sel x).2
    · rw [← List.map_map, ← List.filter_flatMap, ← List.map_flatMap]
      exact (hP1.perm.map _).filter _
    · rw [← List.map_map, ← List.filter_flatMap, ← List.map_flatMap]
      exact (hP2.perm.map _).filter _
    · intro ho hb ht
      have hfp' : ∀ (m : Nat) (Q : Nat → List (List (Row Val))), Prepared C c f m Q → _ := fun m Q hP =>
        files_pooled C (n := m)
          (D := fun r => ((prepQueue C c f (Q r)).map (endOne C u)).filter (fun x => x.spec.valid))
          (files := fun r => files r (((prepQueue C c f (Q r)).map (endOne C u)).filter (fun x => x.spec.valid)))
          (fun r => hfp r _ ho hb) (fun i hi j hj hij x hx y hy => by
            obtain ⟨x', hx', rfl⟩ := List.mem_map.mp (List.mem_filter.mp hx).1
            obtain ⟨y', hy', rfl⟩ := List.mem_map.mp (List.mem_filter.mp hy).1
            exact hP.pix ht i hi j hj hij x' hx' y' hy')
      refine sameFiles_of (C := C) (hfp' n Q1 hP1) (hfp' n' Q2 hP2) ?_
      unfold savedOf
      refine List.Perm.map _ ?_
      rw [← List.filter_flatMap, ← List.map_flatMap, ← List.filter_flatMap, ← List.map_flatMap]
      exact ((hP1.perm.trans hP2.perm.symm).map _).filter _
  · right
    refine ⟨ev, ns1 _ _ _ (s1.bind_error fun r w =>
            (Prog.ofExcept (C.save r (C.finish (SelectCfg.setSpecs (prepQueue C c f (Q1 r)) w.2.1)))).bind fun fl =>
            .ret (⟨night', w.2.2.1, w.2.2.2, C.finish (SelectCfg.setSpecs (prepQueue C c f (Q1 r)) w.2.1), fl⟩ :
              WholeOut Val K)), ns2 _ _ _ (s2.bind_error fun r w =>
            (Prog.ofExcept (C.save r (C.finish (SelectCfg.setSpecs (prepQueue C c f (Q2 r)) w.2.1)))).bind fun fl =>
            .ret (⟨night', w.2.2.1, w.2.2.2, C.finish (SelectCfg.setSpecs (prepQueue C c f (Q2 r)) w.2.1), fl⟩ :
              WholeOut Val K))⟩

end
end Verif.Proofs

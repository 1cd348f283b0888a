import Verif.Spec.CalibEnds
import Verif.Props.CalibWhole
import Verif.Proofs.ExposureRun

/-!
# Lemmas on the ends of `qsonic-calib`
-/

namespace Verif.Proofs
open Verif Verif.Np Verif.Model Verif.Model.Prog Verif.Spec Verif.Props

/-! ### Jobs -/

section
variable {V W A B : Type}

/-- The logs of an aborted job. -/
theorem runFam_abort_eq (n : Nat) (P : Nat → Prog V W A) (L : Nat → List W)
    (h : ∃ r ≤ n, (peel (P r)).2 = .abort) :
    runFam n P L = (.aborted, logs n (fun r => L r ++ (peel (P r)).1)) := by
  obtain ⟨r, hr, h⟩ := h
  rw [runFam_peel]
  have hl : ∀ (Q : Nat → Prog V W A) (M : Nat → List W), (∀ r, peel (Q r) = ([], Q r)) → (∃ r ≤ n, Q r = .abort) →
      runFam n Q M = (.aborted, logs n M) := by
    intro Q M hQ hr
    obtain ⟨r, hr, h⟩ := hr
    have h0 := hQ 0
    have ho : List.zipWith (· ++ ·) ((List.range n).map (fun i => M (i + 1)))
        (((List.range n).map (fun i => Q (i + 1))).map (fun p => (peel p).1)) =
        (List.range n).map (fun i => M (i + 1)) := by
      simp only [List.map_map, Function.comp_def, hQ, zipWith_range_map, List.append_nil]
    cases r with
    | zero =>
      unfold runFam logs
      rw [h]
      simp only [run, ho]
    | succ r =>
      have hany : (((List.range n).map (fun i => Q (i + 1))).map (fun p => (peel p).2)).any isAbort = true := by
        rw [List.any_eq_true]
        refine ⟨Q (r + 1), ?_, by simp [h, isAbort]⟩
        refine List.mem_map.mpr ⟨Q (r + 1), List.mem_map.mpr ⟨r, by simp; omega, rfl⟩, ?_⟩
        rw [hQ]
      unfold runFam logs
      generalize Q 0 = p at h0
      cases p with
      | emit w k => simp [peel] at h0
      | abort => simp only [run, ho]
      | _ => simp only [run, ho, hany, if_true]
  refine hl _ _ (fun r => peel_peel _) ⟨r, hr, h⟩

theorem runJob_logs (n : Nat) (P : Nat → Prog V W A) {x : Outcome A} {M : Nat → List W}
    (h : runFam n P (fun _ => []) = (x, logs n M)) : runJob n P = (x, (List.range (n + 1)).map M) := by
  rw [runJob_eq_runFam, h]
  simp [logs, List.range_succ_eq_map, Function.comp_def]

/-- A job that comes in step to a point where a rank raises an unexpected exception before its next communication. -/
theorem main_crash {n : Nat} {P : Nat → Prog V W A} {a : Nat → A} {M N : Nat → List W} {f : Nat → A → Prog V W B}
    (h : Sync n P (fun r => .ok (a r)) M) (hN : ∀ r ≤ n, (peel (f r (a r))).1 = N r)
    {r : Nat} (hr : r ≤ n) {e : Err} (he : Unexpected e) (hf : (peel (f r (a r))).2 = .raise e) :
    runJob n (fun r => mainProg ((P r).bind (f r))) =
      (.aborted, (List.range (n + 1)).map (fun r => M r ++ N r)) := by
  have hp : ∀ (p : Prog V W B), (peel (seqE p (onErr mainHandler))).1 = (peel p).1 ++
      (peel (seqE (peel p).2 (onErr (A := B) (mainHandler (V := V) (W := W))))).1 ∧
      (peel (seqE p (onErr mainHandler))).2 = (peel (seqE (peel p).2 (onErr mainHandler))).2 := by
    intro p
    induction p with
    | emit w k ih =>
      refine ⟨?_, ih.2⟩
      change w :: (peel (seqE k (onErr mainHandler))).1 = w :: (peel k).1 ++ _
      rw [ih.1]
      rfl
    | _ => exact ⟨rfl, rfl⟩
  have hm : ∀ (e : Err), (peel (mainHandler e : Prog V W B)).1 = [] := by
    intro e
    cases e <;> rfl
  have hq : ∀ (p : Prog V W B), (∀ w k, p ≠ .emit w k) → (peel (seqE p (onErr mainHandler))).1 = [] := by
    intro p hp
    cases p with
    | emit w k => exact absurd rfl (hp w k)
    | raise e => exact hm e
    | _ => rfl
  have hne : ∀ (p : Prog V W B) w k, (peel p).2 ≠ .emit w k := by
    intro p
    induction p with
    | emit w k ih => exact ih
    | _ => intro w k h; cases h
  have key : ∀ (p : Prog V W B), (peel (seqE p (onErr mainHandler))).1 = (peel p).1 := by
    intro p
    rw [(hp p).1, hq _ (hne p), List.append_nil]
  refine runJob_logs n _ ?_
  unfold mainProg
  simp only [catch_eq_seqE, bind_eq_seqE, seqE_assoc]
  rw [h B (fun r x => seqE (onOk (f r) x) (onErr mainHandler)) (fun _ => [])]
  change runFam n (fun r => seqE (f r (a r)) (onErr mainHandler)) _ = _
  rw [runFam_abort_eq]
  · congr 1
    unfold logs
    simp only [key, List.nil_append, hN 0 (Nat.zero_le n)]
    congr 1
    refine List.map_congr_left fun i hi => ?_
    rw [hN (i + 1) (by have := List.mem_range.mp hi; omega)]
  · refine ⟨r, hr, ?_⟩
    rw [(hp _).2, hf]
    change (peel (mainHandler e)).2 = _
    rw [handler_abort he]
    rfl

/-- All ranks end with the exception of the package. -/
theorem main_exit {n : Nat} {P : Nat → Prog V W A} {M : Nat → List W} (h : Sync n P (fun _ => .error .qsonic) M) :
    runJob n (fun r => mainProg (P r)) = (.done (List.replicate (n + 1) (.error (.systemExit 1))),
      (List.range (n + 1)).map M) := by
  have : Sync n (fun r => mainProg (P r)) (fun _ => .error (.systemExit 1)) M := by
    intro B k L
    unfold mainProg
    simp only [catch_eq_seqE, seqE_assoc]
    rw [h B (fun r x => seqE (onErr mainHandler x) (k r)) L]
    rfl
  rw [this.job]
  congr 2
  simp

end

/-! ### Files -/

theorem filter_slice {α : Type} (l : List α) (s a b : Nat) :
    ((l.zipIdx s).filter (fun p => decide (a ≤ p.2 ∧ p.2 < b))).map Prod.fst =
      (l.drop (a - s)).take (b - max a s) := by
  induction l generalizing s with
  | nil => simp
  | cons x l ih =>
    rw [List.zipIdx_cons, List.filter_cons]
    by_cases h1 : s < a
    · rw [if_neg (by simp; omega), ih, show a - s = (a - (s + 1)) + 1 by omega, List.drop_succ_cons,
        show max a (s + 1) = max a s by omega]
    · rw [show a - s = 0 by omega, List.drop_zero]
      by_cases h2 : s < b
      · rw [if_pos (by simp; omega), List.map_cons, ih, show a - (s + 1) = 0 by omega, List.drop_zero,
          show b - max a s = (b - max a (s + 1)) + 1 by omega, List.take_succ_cons]
      · rw [if_neg (by simp; omega), ih, show b - max a (s + 1) = 0 by omega, show b - max a s = 0 by omega,
          List.take_zero, List.take_zero]

theorem share_eq {α : Type} (files : List α) (size rank : Nat) :
    filesThisRank files rank size = fileShare files size rank := by
  unfold filesThisRank fileShare
  dsimp only
  generalize hk : max 1 (files.length / size) = k
  have hk0 : 0 < k := by omega
  have h := filter_slice files 0 (k * rank) (k * rank + k)
  rw [show k * rank - 0 = k * rank by omega, show k * rank + k - max (k * rank) 0 = k by omega] at h
  have h2 : (files.drop (k * rank)).take (min files.length (k * rank + k) - k * rank) = (files.drop (k * rank)).take k := by
    by_cases h3 : k * rank + k ≤ files.length
    · rw [show min files.length (k * rank + k) - k * rank = k by omega]
    · rw [List.take_of_length_le (i := k) (by rw [List.length_drop]; omega),
        List.take_of_length_le (by rw [List.length_drop]; omega)]
  rw [h2, ← h]
  congr 1
  refine List.filter_congr fun p _ => decide_eq_decide.mpr ?_
  rw [Nat.div_eq_iff hk0, Nat.mul_comm]
  constructor <;> intro _ <;> omega

/-- With fewer files than ranks a rank has none. -/
theorem share_few {α : Type} (files : List α) {N r : Nat} (h : files.length < N + 1) (hr : files.length ≤ r) :
    fileShare files (N + 1) r = [] := by
  rw [← share_eq]
  unfold filesThisRank
  dsimp only
  rw [Nat.div_eq_of_lt h, Nat.max_eq_left (by omega), Nat.one_mul, List.drop_eq_nil_of_le hr, List.take_nil]

/-! ### The parts of the run -/

section
variable {K : Type} [Field K] [LinearOrder K] {V W : Type}

theorem prog_bind_bind {A B D : Type} (p : Prog V W A) (f : A → Prog V W B) (g : B → Prog V W D) :
    (p.bind f).bind g = p.bind (fun a => (f a).bind g) := by
  simp only [bind_eq_seqE, seqE_assoc]
  congr 1
  funext x
  cases x with
  | ok a => simp only [onOk, bind_eq_seqE]
  | error e => rfl

/-- What the root reads for all, up to the columns of the catalog. -/
def calibOpen (C : CalibCfg K) (c : CalibCodecs K C.nsub C.var V) (called : W) (inp : CalibIn K) (rank : Nat) :
    Prog V W (List Int × Option (List (CalRow K))) :=
  (C.listedIds c called inp rank).bind fun listed =>
  (C.readCat c called inp rank).bind fun rows =>
  (ofExcept C.balColumns).bind fun _ => .ret (listed, rows)

/-- From the reading of the deltas to the statistics. -/
def calibStats [FloorRing K] (C : CalibCfg K) (c : CalibCodecs K C.nsub C.var V) (called : W) (inp : CalibIn K)
    (size rank : Nat) (x : List Int × Option (List (CalRow K))) :
    Prog V W (List (CalDelta K) × VarLss K C.nsub C.var) :=
  (readAllDeltas c.glob called inp.glob inp.read rank size).bind fun lists =>
  (C.addKept size rank (C.kept x.1 x.2 lists)).bind fun obj =>
  (obj.statsProg C.eps C.useCov c.sums).bind fun s => .ret (C.kept x.1 x.2 lists, s)

/-- From the fit on. -/
def calibTail (C : CalibCfg K) (c : CalibCodecs K C.nsub C.var V) (ev : SaverEv (CalHdu K) → W) (fname : String)
    [FloorRing K] (rank : Nat) (x : List (CalDelta K) × VarLss K C.nsub C.var) : Prog V W (CalibOut K) :=
  (ofExcept (C.fitStats x.2)).bind fun fit =>
  (ofExcept (writeTable C.sqrt C.useCov x.2)).bind fun table =>
  let saver := Saver.init (D := CalHdu K) fname rank
  .emits ((saver.1 ++ saver.2.write (CalHdu.stats table) ++
    saver.2.write (CalHdu.func ((List.range C.var.nw).map C.var.center) fit.1 fit.2)).map ev) <|
  (stackFluxes c.arr C.var.w1 C.var.w2 x.1).bind fun st =>
  .emits ((saver.2.write (CalHdu.stack st.1 st.2) ++ saver.2.close).map ev) <|
  .ret ⟨x.1, table, fit, st⟩

theorem calib_split [FloorRing K] (C : CalibCfg K) (c : CalibCodecs K C.nsub C.var V) (called : W)
    (ev : SaverEv (CalHdu K) → W) (fname : String) (inp : CalibIn K) (size rank : Nat) :
    C.run c called ev fname inp size rank = ((calibOpen C c called inp rank).bind
      (calibStats C c called inp size rank)).bind (calibTail C c ev fname rank) := by
  unfold calibOpen calibStats
  simp only [prog_bind_bind]
  rfl

/-- Calls announced before the names of the files. -/
def openCalls (C : CalibCfg K) : Nat := (if C.removeList then 1 else 0) + (if C.catalog then 1 else 0)

theorem balColumns_cases (C : CalibCfg K) : C.balColumns = .ok () ∨ C.balColumns = .error .qsonic := by
  unfold CalibCfg.balColumns balCheckCatalog
  split
  · split
    · exact .inl rfl
    · exact .inr rfl
  · exact .inl rfl

theorem balColumns_ok_inv (C : CalibCfg K) (h : C.balColumns = .ok ()) (h1 : C.catalog = true) (h2 : C.removeBal = true) :
    "VMIN_CIV_450" ∈ C.cols ∧ "VMAX_CIV_450" ∈ C.cols ∧ "VMIN_CIV_2000" ∈ C.cols ∧ "VMAX_CIV_2000" ∈ C.cols := by
  unfold CalibCfg.balColumns balCheckCatalog at h
  rw [if_pos (by rw [h1, h2]; rfl)] at h
  split at h
  · rename_i h3
    simpa using h3
  · cases h

theorem sync_open (C : CalibCfg K) (c : CalibCodecs K C.nsub C.var V) (called : W) {N : Nat} {inp : Nat → CalibIn K}
    {ids : List Int} {rows : Option (List (CalRow K))}
    (h1 : if C.removeList then (inp 0).ids = .ok ids else ids = [])
    (h2 : if C.catalog then ∃ l, (inp 0).cat = .ok l ∧ rows = some l else rows = none) (h3 : C.balColumns = .ok ()) :
    Sync N (fun r => calibOpen C c called (inp r) r) (fun _ => .ok (ids, rows))
      (fun r => if r = 0 then List.replicate (openCalls C) called else []) := by
  refine ((sync_listedIds (W := W) C c called h1).bind ((sync_readCat (W := W) C c called h2).bind
    ((sync_ofExcept_eq (y := fun _ => .ok ()) (fun _ _ => h3)).bind (f := fun _ _ => .ret (ids, rows))
      (sync_ret N _)))).congr (fun _ _ => rfl) (fun _ _ => rfl) (fun r _ => ?_)
  by_cases h0 : r = 0
  · subst h0
    simp only [if_true, List.append_nil]
    rw [List.replicate_append_replicate]
    rfl
  · simp [h0]

/-- All ranks end with the exception if the root cannot read. -/
theorem sync_open_error (C : CalibCfg K) (c : CalibCodecs K C.nsub C.var V) (called : W) {N : Nat} {inp : Nat → CalibIn K}
    (he1 : ∀ e, (inp 0).ids = .error e → e.isException = true) (he2 : ∀ e, (inp 0).cat = .error e → e.isException = true) :
    (∃ ids rows, (if C.removeList then (inp 0).ids = .ok ids else ids = []) ∧
      (if C.catalog then ∃ l, (inp 0).cat = .ok l ∧ rows = some l else rows = none) ∧ C.balColumns = .ok ()) ∨
    ∃ j, Sync N (fun r => calibOpen C c called (inp r) r) (fun _ => .error .qsonic)
      (fun r => if r = 0 then List.replicate j called else []) := by
  by_cases hi : ∃ ids, if C.removeList then (inp 0).ids = .ok ids else ids = []
  · obtain ⟨ids, hi⟩ := hi
    have s1 := sync_listedIds (W := W) C c called (N := N) hi
    by_cases hr : ∃ rows, if C.catalog then ∃ l, (inp 0).cat = .ok l ∧ rows = some l else rows = none
    · obtain ⟨rows, hr⟩ := hr
      have s2 := sync_readCat (W := W) C c called (N := N) hr
      rcases balColumns_cases C with hb | hb
      · exact .inl ⟨ids, rows, hi, hr, hb⟩
      · refine .inr ⟨openCalls C, ?_⟩
        refine (s1.bind (s2.bind ((sync_ofExcept_eq (y := fun _ => .error .qsonic) (fun _ _ => hb)).bind_error
          (fun _ _ => .ret (ids, rows))))).congr (fun _ _ => rfl) (fun _ _ => rfl) (fun r _ => ?_)
        by_cases h0 : r = 0
        · subst h0
          simp only [if_true, List.append_nil]
          rw [List.replicate_append_replicate]
          rfl
        · simp [h0]
    · have hc : C.catalog = true := by
        by_contra hc
        exact hr ⟨none, by rw [if_neg hc]⟩
      cases hcat : (inp 0).cat with
      | ok l => exact absurd ⟨some l, by rw [if_pos hc]; exact ⟨l, hcat, rfl⟩⟩ hr
      | error e =>
        have s2 := sync_fncBcast_error (W := W) N c.cat called (fun r => (inp r).cat) hcat (he2 e hcat)
        have s3 : Sync N (fun r => C.readCat c called (inp r) r) (fun _ => .error .qsonic)
            (fun r => if r = 0 then [called] else []) := by
          refine (s2.bind_error (fun _ l => (.ret (some l) : Prog V W _))).congr (fun r _ => ?_) (fun _ _ => rfl)
            (fun _ _ => rfl)
          unfold CalibCfg.readCat
          rw [if_pos hc]
        refine .inr ⟨(if C.removeList then 1 else 0) + 1, ?_⟩
        refine (s1.bind (s3.bind_error (fun _ rows => (ofExcept C.balColumns).bind fun _ => .ret (ids, rows)))).congr
          (fun _ _ => rfl) (fun _ _ => rfl) (fun r _ => ?_)
        by_cases h0 : r = 0
        · subst h0
          simp only [if_true]
          rw [show [called] = List.replicate 1 called from rfl, List.replicate_append_replicate]
        · simp [h0]
  · have hc : C.removeList = true := by
      by_contra hc
      exact hi ⟨[], by rw [if_neg hc]⟩
    cases hids : (inp 0).ids with
    | ok l => exact absurd ⟨l, by rw [if_pos hc]; exact hids⟩ hi
    | error e =>
      have s2 := sync_fncBcast_error (W := W) N c.ids called (fun r => (inp r).ids) hids (he1 e hids)
      refine .inr ⟨1, ?_⟩
      refine (s2.bind_error (fun r listed => (C.readCat c called (inp r) r).bind fun rows =>
        (Prog.ofExcept C.balColumns).bind fun _ => (.ret (listed, rows) : Prog V W _))).congr (fun r _ => ?_) (fun _ _ => rfl) (fun _ _ => rfl)
      unfold calibOpen CalibCfg.listedIds
      rw [if_pos hc]

section
variable [FloorRing K] [IsStrictOrderedRing K]

/-- Reading of the deltas and the statistics in step. -/
theorem sync_calibStats (C : CalibCfg K) (c : CalibCodecs K C.nsub C.var V) (hc : GoodBins C.var) (called : W)
    {N : Nat} {inp : Nat → CalibIn K} (ids : List Int) (rows : Option (List (CalRow K))) {files : List String}
    {data : Nat → String → List (CalDelta K)} (hg : (inp 0).glob = .ok files)
    (hd : ∀ r ≤ N, ∀ f ∈ fileShare files (N + 1) r, (inp r).read f = .ok (data r f)) :
    Sync N (fun r => calibStats C c called (inp r) (N + 1) r (ids, rows))
      (fun r => .ok (usedBy C ids rows files (data r) (N + 1) r, rankStats C.var C.nsub_pos C.eps C.useCov N
        (fun r => (usedBy C ids rows files (data r) (N + 1) r).map CalDelta.vpix) r))
      (fun r => if r = 0 then [called] else []) := by
  have hkept : ∀ r, C.kept ids rows ((fileShare files (N + 1) r).map (data r)) = usedBy C ids rows files (data r) (N + 1) r := by
    intro r
    rw [kept_eq]
    rfl
  have h1 := sync_fncBcast (W := W) N c.glob called (fun r => (inp r).glob) hg
  have h2 : Sync N (fun r => readAllDeltas c.glob called (inp r).glob (inp r).read r (N + 1))
      (fun r => .ok ((fileShare files (N + 1) r).map (data r))) (fun r => if r = 0 then [called] else []) := by
    refine (h1.bind (f := fun r fs => (ofExcept ((filesThisRank fs r (N + 1)).mapM (inp r).read) : Prog V W _))
      (y := fun r => .ok ((fileShare files (N + 1) r).map (data r))) (N := fun _ => []) (sync_ofExcept_eq (fun r hr => by
        rw [share_eq]
        exact mapM_eq_ok fun f hf => hd r hr f hf))).congr (fun _ _ => rfl) (fun _ _ => rfl) (fun r _ => ?_)
    rw [List.append_nil]
  have h3 := h2.bind (f := fun r lists => (C.addKept (N + 1) r (C.kept ids rows lists)).bind fun obj =>
    (obj.statsProg C.eps C.useCov c.sums).bind fun s => (.ret (C.kept ids rows lists, s) : Prog V W _)) (by
      simp only [hkept]
      exact (sync_addKept C hc N _).bind ((sync_stats hc C.nsub_pos C.eps C.useCov c.sums N _).bind (sync_ret N _)))
  refine h3.congr (fun _ _ => rfl) (fun _ _ => rfl) (fun r _ => ?_)
  simp

end
end

end Verif.Proofs

import Verif.Proofs.CommandLine
import Verif.Props.Args
import Verif.Props.MpiCalls

/-!
# C108: command lines
-/

namespace Verif.Props
open Verif.Np Verif.Model Verif.Model.Cli Verif.Spec Verif.Proofs Verif.Proofs.Cli

section
variable {K : Type} [Field K] [LinearOrder K] [IsStrictOrderedRing K]

/-- **C108.** What `parse_args` does with any command line: it returns a namespace exactly if the words can be read as
options with their values that are all accepted, with all required options, and then every option has its last value, or
its default if it is not given. `T` is any list of options. -/
theorem C108_meaning (cv : Conv K) (T : List (Opt K)) (hT : TableOk T) (ts : List Word) (ns : List (Word × Val K)) :
    parseArgs cv T ts = some ns ↔ ∃ bs, Reads T ts bs ∧ Means cv T bs ns := by
  have lists : ∀ bs, Reads T ts bs → ∀ o ws, (o, ws) ∈ bs → ∀ x, stored cv o ws = some x ↔ Accepts cv o ws x :=
    fun bs hr o ws hm x => stored_iff cv o ws (reads_mem hr _ hm).2.1 x
  have hn : ((T.filter (fun o => !o.help)).map (fun o => o.name)).Nodup :=
    hT.names.sublist (List.filter_sublist.map _)
  unfold parseArgs
  constructor
  · intro h
    obtain ⟨bs, hs, h⟩ := Option.bind_eq_some_iff.mp h
    have hr := (settings_iff hT _ ts bs le_rfl).mp hs
    have hb : ∀ b ∈ bs, b.1 ∈ T := fun b hb => (reads_mem hr b hb).1
    split at h
    swap
    · cases h
    next hc =>
    simp only [Bool.and_eq_true, List.all_eq_true, Bool.or_eq_true, Bool.not_eq_true'] at hc
    obtain ⟨hc1, hc2⟩ := hc
    have h := (Option.some.inj h).symm
    refine ⟨bs, hr, ?_, ?_, ?_, ?_⟩
    · intro o ws hm
      obtain ⟨x, hx⟩ := Option.isSome_iff_exists.mp (hc1 (o, ws) hm)
      exact ⟨x, (lists bs hr o ws hm x).mp hx⟩
    · intro o ho hreq
      rcases hc2 o ho with h' | h'
      · rw [h'] at hreq; cases hreq
      · by_contra hno
        push Not at hno
        rw [(lastOf_none hT hb ho).mpr hno] at h'
        cases h'
    · rw [h, List.map_map]
      rfl
    · intro o ho hh
      refine ⟨_, h ▸ List.mem_map.mpr ⟨o, List.mem_filter.mpr ⟨ho, by rw [hh]; rfl⟩, rfl⟩, ?_⟩
      cases hl : lastOf bs o with
      | none => exact .inl ⟨(lastOf_none hT hb ho).mp hl, rfl⟩
      | some ws =>
        obtain ⟨l, l', hbs, hno⟩ := (lastOf_some hT hb ho ws).mp hl
        have hm : (o, ws) ∈ bs := by rw [hbs]; simp
        obtain ⟨x, hx⟩ := Option.isSome_iff_exists.mp (hc1 (o, ws) hm)
        refine .inr ⟨l, ws, l', hbs, hno, ?_⟩
        dsimp only at hx
        rw [Option.bind_some, hx, Option.getD_some]
        exact (lists bs hr o ws hm x).mp hx
  · rintro ⟨bs, hr, hm⟩
    have hb : ∀ b ∈ bs, b.1 ∈ T := fun b hb => (reads_mem hr b hb).1
    rw [(settings_iff hT _ ts bs le_rfl).mpr hr, Option.bind_some, if_pos]
    · refine congrArg some (table_of_names _ hn hm.names ?_).symm
      intro o ho
      obtain ⟨ho, hh⟩ := List.mem_filter.mp ho
      obtain ⟨x, hx, h⟩ := hm.value o ho (by simpa using hh)
      rcases h with ⟨h, rfl⟩ | ⟨l, ws, l', hbs, hno, hacc⟩
      · rw [(lastOf_none hT hb ho).mpr h]
        exact hx
      · rw [(lastOf_some hT hb ho ws).mpr ⟨l, l', hbs, hno⟩, Option.bind_some,
          (lists bs hr o ws (by rw [hbs]; simp) x).mpr hacc]
        exact hx
    · simp only [Bool.and_eq_true, List.all_eq_true, Bool.or_eq_true, Bool.not_eq_true']
      refine ⟨fun b hb' => ?_, fun o ho => ?_⟩
      · obtain ⟨x, hx⟩ := hm.accepted b.1 b.2 hb'
        rw [(lists bs hr b.1 b.2 hb' x).mpr hx]
        rfl
      · by_cases hreq : o.required = true
        · obtain ⟨ws, hws⟩ := hm.required o ho hreq
          refine .inr ?_
          cases hl : lastOf bs o with
          | none => exact absurd hws ((lastOf_none hT hb ho).mp hl ws)
          | some _ => rfl
        · exact .inl (by simpa using hreq)

/-- **C108.** The order of the options does not matter if none is given twice: command lines that are read as the same
options in another order have the same result. -/
theorem C108_order (cv : Conv K) (T : List (Opt K)) (hT : TableOk T) (ts ts' : List Word)
    (bs bs' : List (Opt K × List Word)) (hr : Reads T ts bs) (hr' : Reads T ts' bs') (hp : bs.Perm bs')
    (hn : (bs.map Prod.fst).Nodup) : parseArgs cv T ts = parseArgs cv T ts' := by
  have key : ∀ ts ts' bs bs', Reads T ts bs → Reads T ts' bs' → bs.Perm bs' → (bs.map Prod.fst).Nodup →
      ∀ ns, parseArgs cv T ts = some ns → parseArgs cv T ts' = some ns := by
    intro ts ts' bs bs' hr hr' hp hn ns h
    obtain ⟨b, hb, hm⟩ := (C108_meaning cv T hT ts ns).mp h
    have : b = bs := by
      have h1 := (settings_iff hT _ ts b le_rfl).mpr hb
      rw [(settings_iff hT _ ts bs le_rfl).mpr hr] at h1
      exact (Option.some.inj h1).symm
    subst this
    refine (C108_meaning cv T hT ts' ns).mpr ⟨bs', hr', ?_, ?_, hm.names, ?_⟩
    · exact fun o ws hmem => hm.accepted o ws (hp.mem_iff.mpr hmem)
    · intro o ho hreq
      obtain ⟨ws, hws⟩ := hm.required o ho hreq
      exact ⟨ws, hp.mem_iff.mp hws⟩
    · intro o ho hh
      obtain ⟨x, hx, h⟩ := hm.value o ho hh
      refine ⟨x, hx, ?_⟩
      rcases h with ⟨h, h'⟩ | ⟨l, ws, l', hbs, hno, hacc⟩
      · exact .inl ⟨fun ws hw => h ws (hp.mem_iff.mpr hw), h'⟩
      · have hmem : (o, ws) ∈ bs' := hp.mem_iff.mp (by rw [hbs]; simp)
        obtain ⟨s, s', hs⟩ := List.append_of_mem hmem
        refine .inr ⟨s, ws, s', hs, fun ws' hw => ?_, hacc⟩
        have hn' := (hp.map Prod.fst).nodup hn
        rw [hs, List.map_append, List.map_cons] at hn'
        have := (List.nodup_cons.mp (List.nodup_append.mp hn').2.1).1
        exact this (List.mem_map.mpr ⟨(o, ws'), hw, rfl⟩)
  have hn' := (hp.map Prod.fst).nodup hn
  cases h : parseArgs cv T ts with
  | some ns => exact (key ts ts' bs bs' hr hr' hp hn ns h).symm
  | none =>
    cases h' : parseArgs cv T ts' with
    | none => rfl
    | some ns =>
      rw [key ts' ts bs' bs hr' hr hp.symm hn' ns h'] at h
      cases h

end

/-! ### The lists of options of the programs -/

/-- The names and letters of options. -/
def shape {K : Type} (T : List (Opt K)) : List (Word × Option Char) := T.map (fun o => (o.name, o.short))

theorem tableOk_of {K : Type} {T : List (Opt K)} {L : List (Word × Option Char)} (h : shape T = L)
    (h1 : L.all (fun x => ['-', '-'].isPrefixOf x.1 && decide (3 ≤ x.1.length) && !x.1.contains '=' &&
      decide (x.2 ≠ some '-') && decide (x.2 ≠ some '=')) = true)
    (h2 : (L.map Prod.fst).Nodup) (h3 : (L.filterMap Prod.snd).Nodup) : TableOk T := by
  have hm : ∀ o ∈ T, (o.name, o.short) ∈ L := fun o ho => h ▸ List.mem_map.mpr ⟨o, ho, rfl⟩
  have ha : ∀ o ∈ T, _ := fun o ho => List.all_eq_true.mp h1 _ (hm o ho)
  simp only [Bool.and_eq_true, decide_eq_true_eq, Bool.not_eq_true', List.isPrefixOf_iff_prefix] at ha
  refine ⟨fun o ho => ?_, fun o ho => ?_, ?_, ?_⟩
  · obtain ⟨⟨⟨⟨a, b⟩, c⟩, -⟩, -⟩ := ha o ho
    exact ⟨a, b, fun hm => by rw [List.contains_iff_mem.mpr hm] at c; cases c⟩
  · obtain ⟨⟨-, d⟩, e⟩ := ha o ho
    exact ⟨d, e⟩
  · rw [← h] at h2
    unfold shape at h2
    rw [List.map_map] at h2
    exact h2
  · rw [← h] at h3
    unfold shape at h3
    rw [List.filterMap_map] at h3
    exact h3

theorem fit_tableOk {K : Type} [Field K] : TableOk (fitParser : List (Opt K)) :=
  tableOk_of (L := shape (fitParser : List (Opt ℚ))) rfl (by decide +kernel) (by decide +kernel) (by decide +kernel)

theorem calib_tableOk {K : Type} [Field K] : TableOk (calibParser : List (Opt K)) :=
  tableOk_of (L := shape (calibParser : List (Opt ℚ))) rfl (by decide +kernel) (by decide +kernel) (by decide +kernel)

theorem coadd_tableOk {K : Type} : TableOk (coaddParser : List (Opt K)) :=
  tableOk_of (L := shape (coaddParser : List (Opt ℚ))) rfl (by decide +kernel) (by decide +kernel) (by decide +kernel)

section
variable {K : Type} [Field K] [LinearOrder K] [IsStrictOrderedRing K]

omit [Field K] [LinearOrder K] [IsStrictOrderedRing K] in
theorem get_of_mem {ns : List (Word × Val K)} (hn : (ns.map Prod.fst).Nodup) {name : String} {x : Val K}
    (h : (name.toList, x) ∈ ns) : get ns name = x := by
  have : ns.lookup name.toList = some x := by
    induction ns with
    | nil => cases h
    | cons y ns ih =>
      rw [List.map_cons, List.nodup_cons] at hn
      rw [List.lookup_cons]
      rcases List.mem_cons.mp h with rfl | h
      · simp
      · have hne : name.toList ≠ y.1 := fun he => hn.1 (he ▸ List.mem_map.mpr ⟨_, h, rfl⟩)
        rw [beq_eq_false_iff_ne.mpr hne]
        exact ih hn.2 h
  unfold Cli.get
  rw [this]
  rfl

/-- The value of an option: the default, or what is accepted. -/
theorem get_cases (cv : Conv K) (T : List (Opt K)) (hT : TableOk T) (ts : List Word) (ns : List (Word × Val K))
    (h : parseArgs cv T ts = some ns) (name : String) (o : Opt K) (ho : o ∈ T) (hh : o.help = false)
    (hname : o.name = name.toList) :
    (o.required = false ∧ get ns name = o.default) ∨
      ∃ ws, (o.nargs = .plus → ws ≠ []) ∧ Accepts cv o ws (get ns name) := by
  obtain ⟨bs, hr, hm⟩ := (C108_meaning cv T hT ts ns).mp h
  obtain ⟨x, hx, hc⟩ := hm.value o ho hh
  have hn : (ns.map Prod.fst).Nodup := by
    rw [hm.names]
    exact hT.names.sublist (List.filter_sublist.map _)
  rw [hname] at hx
  rw [get_of_mem hn hx]
  rcases hc with ⟨hno, rfl⟩ | ⟨l, ws, l', hbs, -, hacc⟩
  · refine .inl ⟨?_, rfl⟩
    by_contra hreq
    obtain ⟨ws, hws⟩ := hm.required o ho (by simpa using hreq)
    exact hno ws hws
  · exact .inr ⟨ws, fun hp => (reads_mem hr (o, ws) (by rw [hbs]; simp)).2.2 hp, hacc⟩

theorem get_choice (cv : Conv K) (T : List (Opt K)) (hT : TableOk T) (ts : List Word) (ns : List (Word × Val K))
    (h : parseArgs cv T ts = some ns) (name d : String) (ch : List String) (hd : d ∈ ch)
    (ho : { name := name.toList, choices := ch, default := .str d } ∈ T) :
    ∃ s ∈ ch, get ns name = .str s := by
  rcases get_cases cv T hT ts ns h name _ ho rfl rfl with ⟨-, h⟩ | ⟨ws, -, w, -, ha, h⟩
  · exact ⟨d, hd, h⟩
  · refine ⟨String.ofList w, ?_, h⟩
    rcases ha with ha | ha
    · dsimp only at ha
      subst ha
      cases hd
    · exact ha

/-- **C108.** Every command line that `qsonic-fit` accepts: there is an input directory and a catalog, at least one survey
is to be kept, at least one arm is to be read and all of them are B, R or Z, the options with choices have one of them,
and the ratio for short spectra is not outside of the range from 0 to 1. -/
theorem C108_fit (cv : Conv K) (ts : List Word) (ns : List (Word × Val K)) (h : parseArgs cv fitParser ts = some ns) :
    (∃ s, get ns "--input-dir" = .str s) ∧ (∃ s, get ns "--catalog" = .str s) ∧
    (∃ l, get ns "--keep-surveys" = .strs l ∧ l ≠ []) ∧
    (∃ l, get ns "--arms" = .strs l ∧ l ≠ [] ∧ ∀ a ∈ l, a ∈ ["B", "R", "Z"]) ∧
    (∃ s ∈ ["before", "after", "disable"], get ns "--coadd-arms" = .str s) ∧
    (∃ s ∈ ["before", "after", "disable"], get ns "--exposures" = .str s) ∧
    (∃ s ∈ ["picca", "true", "input"], get ns "--continuum-model" = .str s) ∧
    (∃ s ∈ ["iminuit", "l_bfgs_b"], get ns "--minimizer" = .str s) ∧
    (∃ y, get ns "--skip" = .num y ∧ InUnit y) := by
  have hT := fit_tableOk (K := K)
  refine ⟨?_, ?_, ?_, ?_, ?_, ?_, ?_, ?_, ?_⟩
  · rcases get_cases cv _ hT ts ns h "--input-dir"
      { name := "--input-dir".toList, short := some 'i', required := true } (by simp [fitParser, ioOpts]) rfl rfl with
      ⟨h, -⟩ | ⟨ws, -, w, -, -, h⟩
    · cases h
    · exact ⟨_, h⟩
  · rcases get_cases cv _ hT ts ns h "--catalog"
      { name := "--catalog".toList, required := true } (by simp [fitParser, ioOpts]) rfl rfl with
      ⟨h, -⟩ | ⟨ws, -, w, -, -, h⟩
    · cases h
    · exact ⟨_, h⟩
  · rcases get_cases cv _ hT ts ns h "--keep-surveys"
      { name := "--keep-surveys".toList, nargs := .plus, default := .strs ["main"] } (by simp [fitParser, ioOpts]) rfl rfl with
      ⟨-, h⟩ | ⟨ws, hne, -, h⟩
    · exact ⟨_, h, by simp⟩
    · exact ⟨_, h, by simpa using hne rfl⟩
  · rcases get_cases cv _ hT ts ns h "--arms"
      { name := "--arms".toList, nargs := .plus, choices := ["B", "R", "Z"], default := .strs ["B", "R"] }
      (by simp [fitParser, ioOpts]) rfl rfl with
      ⟨-, h⟩ | ⟨ws, hne, ha, h⟩
    · exact ⟨_, h, by simp, by simp⟩
    · refine ⟨_, h, by simpa using hne rfl, fun a hm => ?_⟩
      obtain ⟨w, hw, rfl⟩ := List.mem_map.mp hm
      rcases ha w hw with h' | h'
      · cases h'
      · exact h'
  · exact get_choice cv _ hT ts ns h "--coadd-arms" "before" ["before", "after", "disable"] (by simp)
      (by simp [fitParser, ioOpts])
  · exact get_choice cv _ hT ts ns h "--exposures" "disable" ["before", "after", "disable"] (by simp)
      (by simp [fitParser, ioOpts])
  · exact get_choice cv _ hT ts ns h "--continuum-model" "picca" ["picca", "true", "input"] (by simp)
      (by simp [fitParser, continuumOpts])
  · exact get_choice cv _ hT ts ns h "--minimizer" "iminuit" ["iminuit", "l_bfgs_b"] (by simp)
      (by simp [fitParser, continuumOpts])
  · rcases get_cases cv _ hT ts ns h "--skip"
      { name := "--skip".toList, kind := .ratio, default := .num (.fin (1 / 5)) } (by simp [fitParser]) rfl rfl with
      ⟨-, h⟩ | ⟨ws, -, w, -, -, y, -, hy, h⟩
    · refine ⟨_, h, ?_, ?_⟩
      · positivity
      · rw [div_le_one (by positivity)]
        norm_num
    · exact ⟨y, h, hy⟩

omit [Field K] [IsStrictOrderedRing K] in
theorem flLe_iff (x y : Val K) : flLe x.number y.number = true ↔ NotLarger x y := by
  cases x with
  | num x =>
    cases y with
    | num y => cases x <;> cases y <;> simp [Val.number, flLe, NotLarger]
    | _ => cases x <;> simp [Val.number, flLe, NotLarger]
  | _ => simp [Val.number, flLe, NotLarger]

omit [Field K] [LinearOrder K] [IsStrictOrderedRing K] in
theorem isTrue_iff (x : Val K) : x.isTrue = true ↔ x = .flag true := by
  cases x <;> simp [Val.isTrue]

omit [Field K] [LinearOrder K] [IsStrictOrderedRing K] in
theorem file_iff (x : Val K) : given x.text? = true ↔ IsFile x := by
  unfold IsFile
  cases x <;> simp [Val.text?, given]

omit [Field K] [LinearOrder K] [IsStrictOrderedRing K] in
theorem text_iff (x : Val K) (s : String) (hs : s ≠ "") : (x.text?).getD "" = s ↔ x = .str s := by
  cases x <;> simp [Val.text?, Ne.symm hs]

omit [Field K] [IsStrictOrderedRing K] in
theorem logic_iff (setOrder : List String → List String) (ns : List (Word × Val K)) :
    (argsLogic setOrder (fitArgs ns)).2.2 = true ↔ Consistent (Cli.get ns) := by
  have ht := isTrue_iff (Cli.get ns "--true-continuum")
  have hm := text_iff (Cli.get ns "--continuum-model") "true" (by decide)
  have hk := isTrue_iff (Cli.get ns "--mock-analysis")
  have hf1 := file_iff (Cli.get ns "--fiducial-meanflux")
  have hf2 := file_iff (Cli.get ns "--fiducial-varlss")
  have hf3 := file_iff (Cli.get ns "--input-continuum-dir")
  have hw : (Cli.get ns "--wave2").number ≤ (Cli.get ns "--wave1").number ↔ _ :=
    flLe_iff (Cli.get ns "--wave2") (Cli.get ns "--wave1")
  have hf : (Cli.get ns "--forest-w2").number ≤ (Cli.get ns "--forest-w1").number ↔ _ :=
    flLe_iff (Cli.get ns "--forest-w2") (Cli.get ns "--forest-w1")
  have htf := isTrue_iff (Cli.get ns "--tile-format")
  have hh := isTrue_iff (Cli.get ns "--save-by-hpx")
  have he := text_iff (Cli.get ns "--exposures") "disable" (by decide)
  unfold argsLogic argConditions fitArgs
  dsimp only
  rw [List.isEmpty_iff, List.filter_eq_nil_iff]
  simp only [List.mem_cons, List.not_mem_nil, or_false, forall_eq_or_imp, forall_eq, Bool.and_eq_true,
    Bool.or_eq_true, decide_eq_true_eq, Bool.not_eq_true', not_and, Bool.not_eq_false, ht, hm, hk, hf1, hf2, hf3, hw, hf,
    htf, hh, he, ne_eq]
  constructor
  · rintro ⟨h1, h2, h3, h4, h5, h6, h7, h8, h9⟩
    exact ⟨fun h => ⟨h1 h, h2 h, h3 h, h4 h⟩, h5, h6, fun h => ⟨fun h' => h7 h' h, h8 h, by
      by_contra h'
      exact h9 h' h⟩⟩
  · rintro ⟨h1, h2, h3, h4⟩
    exact ⟨fun h => (h1 h).1, fun h => (h1 h).2.1, fun h => (h1 h).2.2.1, fun h => (h1 h).2.2.2, h2, h3,
      fun h h' => (h4 h').1 h, fun h => (h4 h).2.1, fun h h' => h (h4 h').2.2⟩

omit [Field K] [IsStrictOrderedRing K] in
theorem logic_worksWith (setOrder : List String → List String) (hs : ∀ l, (setOrder l).Nodup ∧ ∀ x, x ∈ setOrder l ↔ x ∈ l)
    (ns : List (Word × Val K)) : WorksWith (Cli.get ns) (argsLogic setOrder (fitArgs ns)).1 := by
  have ht := isTrue_iff (Cli.get ns "--true-continuum")
  have hm := text_iff (Cli.get ns "--continuum-model") "true" (by decide)
  have hf3 := file_iff (Cli.get ns "--input-continuum-dir")
  have htc : (argsLogic setOrder (fitArgs ns)).1.trueContinuum =
      ((Cli.get ns "--true-continuum").isTrue || decide (((Cli.get ns "--continuum-model").text?).getD "" = "true")) := rfl
  have hmodel : (argsLogic setOrder (fitArgs ns)).1.continuumModel =
      argModel (argsLogic setOrder (fitArgs ns)).1.trueContinuum (Cli.get ns "--input-continuum-dir").text?
        (((Cli.get ns "--continuum-model").text?).getD "") := rfl
  refine ⟨⟨(hs _).1, ?_⟩, ?_, ⟨?_, ?_, ?_⟩, isTrue_iff _, isTrue_iff _, isTrue_iff _, ?_, ⟨?_, ?_, ?_⟩, ?_, ?_⟩
  · intro l hl x
    have : (argsLogic setOrder (fitArgs ns)).1.arms = setOrder (Cli.get ns "--arms").list := rfl
    rw [this, hl]
    exact (hs l).2 x
  · rw [htc, Bool.or_eq_true, decide_eq_true_eq, ht, hm]
  · intro h
    rw [hmodel, argModel, if_pos (hf3.mpr h)]
  · intro h h'
    rw [hmodel, argModel, if_neg (fun hh => h (hf3.mp hh)), if_pos h']
  · intro h h' s hs'
    rw [hmodel, argModel, if_neg (fun hh => h (hf3.mp hh)), if_neg (by rw [h']; simp), hs']
    rfl
  · intro s h
    have : (argsLogic setOrder (fitArgs ns)).1.exposures = ((Cli.get ns "--exposures").text?).getD "" := rfl
    rw [this, h]
    rfl
  · intro s h
    have : (argsLogic setOrder (fitArgs ns)).1.fiducialMeanflux = (Cli.get ns "--fiducial-meanflux").text? := rfl
    rw [this, h]
    rfl
  · intro s h
    have : (argsLogic setOrder (fitArgs ns)).1.fiducialVarlss = (Cli.get ns "--fiducial-varlss").text? := rfl
    rw [this, h]
    rfl
  · intro s h
    have : (argsLogic setOrder (fitArgs ns)).1.inputContinuumDir = (Cli.get ns "--input-continuum-dir").text? := rfl
    rw [this, h]
    rfl
  · intro x y h h'
    have h1 : (argsLogic setOrder (fitArgs ns)).1.wave1 = (Cli.get ns "--wave1").number := rfl
    have h2 : (argsLogic setOrder (fitArgs ns)).1.wave2 = (Cli.get ns "--wave2").number := rfl
    rw [h1, h2, h, h']
    exact ⟨rfl, rfl⟩
  · intro x y h h'
    have h1 : (argsLogic setOrder (fitArgs ns)).1.forestW1 = (Cli.get ns "--forest-w1").number := rfl
    have h2 : (argsLogic setOrder (fitArgs ns)).1.forestW2 = (Cli.get ns "--forest-w2").number := rfl
    rw [h1, h2, h, h']
    exact ⟨rfl, rfl⟩

/-- **C108.** All ranks of `qsonic-fit` go on with the same options, if the command line has a meaning and its options do not
contradict each other: then with those of the command line; otherwise all of them leave. -/
theorem C108_ranks {V W : Type} (c : Codec (Option (List (Word × Val K) × FitArgs (Fl K))) V) (cv : Conv K)
    (setOrder : List String → List String) (hs : ∀ l, (setOrder l).Nodup ∧ ∀ x, x ∈ setOrder l ↔ x ∈ l)
    (ts : List Word) (n : Nat) :
    (∃ bs ns a, Reads fitParser ts bs ∧ Means cv fitParser bs ns ∧ Consistent (Cli.get ns) ∧ WorksWith (Cli.get ns) a ∧
      (runJob n (fitCommand (W := W) c cv setOrder ts)).1 = .done (List.replicate (n + 1) (.ok (ns, a)))) ∨
    ((¬ ∃ bs ns, Reads fitParser ts bs ∧ Means cv fitParser bs ns ∧ Consistent (Cli.get ns)) ∧
      (runJob n (fitCommand (W := W) c cv setOrder ts)).1 = .done (List.replicate (n + 1) (.error (.systemExit 0)))) := by
  have hT := fit_tableOk (K := K)
  have hrun := C05_parse_uniform (W := W) c
    (((parseArgs cv fitParser ts).map (fun ns => Except.ok (ns, fitArgs ns))).getD (.error (.systemExit 2)))
    (fun a => .ok ((argsLogic setOrder a.2).2.2, a.1, (argsLogic setOrder a.2).1))
    (by
      intro e he
      cases hp : parseArgs cv fitParser ts with
      | none => rw [hp] at he; exact ⟨2, (Except.error.inj he).symm⟩
      | some ns => rw [hp] at he; cases he)
    (by intro a e _ he; cases he) n
  have hrun : (runJob n (fitCommand (W := W) c cv setOrder ts)).1 = _ := hrun
  rw [hrun]
  cases hp : parseArgs cv fitParser ts with
  | none =>
    refine .inr ⟨?_, rfl⟩
    rintro ⟨bs, ns, h1, h2, -⟩
    rw [(C108_meaning cv _ hT ts ns).mpr ⟨bs, h1, h2⟩] at hp
    cases hp
  | some ns =>
    obtain ⟨bs, h1, h2⟩ := (C108_meaning cv _ hT ts ns).mp hp
    have hc := logic_iff setOrder ns
    cases hb : (argsLogic setOrder (fitArgs ns)).2.2 with
    | true =>
      refine .inl ⟨bs, ns, _, h1, h2, hc.mp hb, logic_worksWith setOrder hs ns, ?_⟩
      simp only [parsed, Option.map_some, Option.getD_some, hb]
    | false =>
      refine .inr ⟨?_, ?_⟩
      · rintro ⟨bs', ns', h1', h2', hno⟩
        have := (C108_meaning cv _ hT ts ns').mpr ⟨bs', h1', h2'⟩
        rw [hp] at this
        rw [← Option.some.inj this] at hno
        rw [hc.mpr hno] at hb
        cases hb
      · simp only [parsed, Option.map_some, Option.getD_some, hb]
end

/-! ### Where the claim is false, and examples -/

/-- **C108**, refuted: whatever is wrong with a command line, also if an option is not known or a required one is missing, the
status of all ranks is 0, that of success (`argparse` leaves with 2, which `mpi_parse` catches). -/
theorem C108_status_refuted {K V W : Type} [Field K] [LinearOrder K] [IsStrictOrderedRing K]
    (c : Codec (Option (List (Word × Val K) × FitArgs (Fl K))) V) (cv : Conv K) (setOrder : List String → List String)
    (ts : List Word) (h : parseArgs cv fitParser ts = none) (n : Nat) :
    (runJob n (fitCommand (W := W) c cv setOrder ts)).1 = .done (List.replicate (n + 1) (.error (.systemExit 0))) := by
  have hrun := C05_parse_uniform (W := W) c
    (((parseArgs cv fitParser ts).map (fun ns => Except.ok (ns, fitArgs ns))).getD (.error (.systemExit 2)))
    (fun a => .ok ((argsLogic setOrder a.2).2.2, a.1, (argsLogic setOrder a.2).1))
    (by intro e he; rw [h] at he; exact ⟨2, (Except.error.inj he).symm⟩)
    (by intro a e _ he; cases he) n
  have hrun : (runJob n (fitCommand (W := W) c cv setOrder ts)).1 = _ := hrun
  rw [hrun, h]
  rfl

/-- Words of texts. -/
def cliWords (l : List String) : List Word := l.map String.toList

/-- Conversions for a few texts. -/
def cliConv : Conv ℚ where
  float s := if s = "-1e-3" then some (.fin (-1 / 1000)) else if s = "-1" then some (.fin (-1)) else
    if s = "0.5" then some (.fin (1 / 2)) else if s = "4000" then some (.fin 4000) else if s = "nan" then some .nan else none
  int s := if s = "5" then some 5 else none

/-- A value of the result. -/
def cliGet (T : List (Opt ℚ)) (line : List String) (name : String) : Option (Val ℚ) :=
  (parseArgs cliConv T (cliWords line)).map (fun ns => Cli.get ns name)

/-- **C108**, refuted: not every number can be given as a value in the next word. A negative number with an exponent is taken
for an option that does not exist; after an equal sign it is accepted. -/
theorem C108_exponent_refuted :
    cliConv.float "-1e-3" = some (.fin (-1 / 1000)) ∧
    parseArgs cliConv fitParser (cliWords ["-i", "d", "--catalog", "c", "--min-rsnr", "-1e-3"]) = none ∧
    cliGet fitParser ["-i", "d", "--catalog", "c", "--min-rsnr=-1e-3"] "--min-rsnr" = some (.num (.fin (-1 / 1000))) := by
  decide +kernel

/-- **C108**, refuted: `qsonic-calib` keeps the targets of all surveys if the list is empty, for `qsonic-fit` there is no
command line for that. -/
theorem C108_surveys_refuted :
    cliGet calibParser ["-i", "d", "-o", "e", "--keep-surveys"] "--keep-surveys" = some (.strs []) ∧
    ∀ (cv : Conv ℚ) ts ns, parseArgs cv fitParser ts = some ns → Cli.get ns "--keep-surveys" ≠ .strs [] ∧
      Cli.get ns "--keep-surveys" ≠ .none := by
  refine ⟨by decide +kernel, fun cv ts ns h => ?_⟩
  obtain ⟨l, hl, hne⟩ := (C108_fit cv ts ns h).2.2.1
  rw [hl]
  exact ⟨fun hh => hne (by injection hh), fun hh => by cases hh⟩

/-- The last one counts; abbreviations, letters with their value in the same word; `--skip` is a name although another name
begins with it. -/
example : cliGet fitParser ["-id", "--cat=c", "--arms", "R", "Z", "--skip", "0.5", "--arms", "B", "R", "B"] "--arms" =
    some (.strs ["B", "R", "B"]) := by decide +kernel
example : cliGet fitParser ["-id", "--cat=c", "--arms", "R", "Z", "--skip", "0.5"] "--skip" = some (.num (.fin (1 / 2))) := by
  decide +kernel
example : cliGet fitParser ["-id", "--cat=c"] "--arms" = some (.strs ["B", "R"]) := by decide +kernel
/-- Refused: ambiguous, no choice, no value, not a number, required option missing, help. -/
example : (parseArgs cliConv fitParser (cliWords ["-id", "--cat=c", "--wave", "4000"]) = none ∧
    parseArgs cliConv fitParser (cliWords ["-id", "--cat=c", "--arms", "X"]) = none ∧
    parseArgs cliConv fitParser (cliWords ["-id", "--cat=c", "--keep-surveys"]) = none ∧
    parseArgs cliConv fitParser (cliWords ["-id", "--cat=c", "--wave1", "a"]) = none) ∧
    parseArgs cliConv fitParser (cliWords ["-id"]) = none ∧
    parseArgs cliConv fitParser (cliWords ["-id", "--cat=c", "-h"]) = none := by decide +kernel

/-- The arms and the model on all ranks, none where a rank leaves. -/
def cliRanks (line : List String) : Option (List (Option (List String × String))) :=
  match (runJob 1 (fitCommand (W := Unit) (Codec.refl _) cliConv List.dedup (cliWords line))).1 with
  | .done rs => some (rs.map (fun r => r.toOption.map (fun a => (a.2.arms, a.2.continuumModel))))
  | _ => none

/-- Options of two ranks, and a contradiction. -/
example : cliRanks ["-id", "--cat=c", "--arms", "B", "B", "--input-cont", "f"] =
      some [some (["B"], "input"), some (["B"], "input")] ∧
    cliRanks ["-id", "--cat=c", "--wave2", "0.5"] = some [none, none] := by decide +kernel

/-- The hypotheses of `C108_order`: the same two options in another order. -/
example : Reads (coaddParser : List (Opt ℚ)) (cliWords ["-i", "a", "b", "--nest"])
      [({ name := "--input-dirs".toList, short := some 'i', nargs := .plus, required := true }, cliWords ["a", "b"]),
        (flagOpt "--nest", [])] ∧
    Reads (coaddParser : List (Opt ℚ)) (cliWords ["--nest", "-i", "a", "b"])
      [(flagOpt "--nest", []),
        ({ name := "--input-dirs".toList, short := some 'i', nargs := .plus, required := true }, cliWords ["a", "b"])] :=
  ⟨(settings_iff coadd_tableOk 4 _ _ (by decide +kernel)).mp (by decide +kernel),
    (settings_iff coadd_tableOk 4 _ _ (by decide +kernel)).mp (by decide +kernel)⟩

end Verif.Props

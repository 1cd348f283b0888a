# qsonic: formal model and proofs

The subject is the python package in `/repo/py/qsonic` (qsonic, pinned commit). The model
and the proofs are in Lean 4 under `lean/Verif`; `properties.jsonl` holds the properties,
`MANIFEST.json` the theorem names per property, `seeded/LOG.jsonl` the record of mutation
tests of the theorems.

## Layout

| Directory | Contents |
|---|---|
| `Verif/Np` | numpy / python primitives used by qsonic (`searchsorted`, `unique`, `split`, `argmin`, `bincount`, dict with iteration check, ...) and their lemmas |
| `Verif/Model` | the model, one file per qsonic module, function by function, each definition citing file and lines |
| `Verif/Spec` | small independent specifications that the property theorems refer to |
| `Verif/Proofs` | helper lemmas |
| `Verif/Props` | the property theorems, each with a concrete `example` meeting its hypotheses |

## Trusted base

* The Lean 4.33.0 kernel. Every theorem depends on at most `propext`, `Classical.choice`
  and `Quot.sound`; no own axioms, no `sorry`, no `native_decide`, no `bv_decide`.
* The reading of the python code: the code was not run. Every model definition cites
  the lines it models and states its simplifications.
* numpy, mpi4py, fitsio, scipy, iminuit and numba behave as modelled in `Verif/Np` or as
  stated where they enter as parameters.

### What is modelled and what is not

* **Numbers.** Arithmetic is exact, over an arbitrary ordered field (`K`, with floor where
  the code truncates) or `ℚ`/`ℝ`. Rounding of floating point is outside the model. Where
  special values decide a branch (NaN, infinities in `Spectrum.__init__`, `_float_range`,
  continuum checks, divisions by zero) an extended float type with `nan`, `+inf`, `-inf`
  and finite values is used.
* **Arrays** are lists; python dicts are insertion-ordered association lists, and a change
  of size during iteration is an error value as in CPython. Aliasing of dicts in `Spectrum`
  is modelled with an explicit heap where a property depends on it.
  `np.empty` memory is an arbitrary parameter.
* **Exceptions** are values (`Except`). Warnings and logging are dropped.
* **MPI** programs are interaction trees over collectives, executed by a global runner which
  reports a deadlock when the ranks do not all enter the same collective. Message transport
  of mpi4py (pickling) is assumed faithful.
* **External functions** (FITS decoding, minimisers `iminuit`/`curve_fit`, `UnivariateSpline`,
  `CubicSpline`, FFT smoothing, healpy `ang2pix`, Voigt profile) are parameters; a theorem holds for
  every behaviour of them unless it states an assumption.
* **Not modelled:** file system failures, memory, performance, process scheduling other than
  the collective semantics, the text of messages.

## Properties: model and proof plan

| Id | What is modelled, how it is proved |
|---|---|
| C01 | `balance_load` as stable descending sort + fold with argmin; permutation by induction over the chunk list |
| C02 | the same fold; invariant "max ≤ min + largest"; the factor 4/3 − 1/(3n) against any assignment by induction along the fold: chunks of at most a third of the optimum by summation, larger ones by counting chunks per rank |
| C03 | the same fold; invariant on number of idle ranks |
| C04 | SPMD tree of `mpi_fnc_bcast`; the runner's outcome is computed for any number of ranks |
| C05 | SPMD tree of `mpi_parse`; same |
| C06 | SPMD tree of `mpi_get_local_queue`, `np.unique`/`np.split` model; lemma: splitting a sorted list at first occurrences gives the groups |
| C07 | trace of file writes for any op sequence |
| C08 | `_prime_catalog` as filters + sort; membership/permutation |
| C09 | lexicographic sort order, `Pairwise` |
| C10 | `_validate_adjust_column_names` size test; `Nodup` equivalence |
| C11 | column-name logic; decision theorem over all column sets |
| C12 | survey splitting of a chunk; proved for sorted (pixel, survey) chunks, refuted for `keep_surveys=None` (finding 1) |
| C13-C16 | reader models with `np.isin`, `np.intersect1d`/`searchsorted`/argsort; pairing theorems; C16 refuted when a target is missing |
| C17, C18 | `save_deltas` grouping, combination with C06 |
| C19 | decision table |
| C20 | input continuum reader, id matching |
| C21 | extended floats, pointwise |
| C22, C23 | `searchsorted` slices; C23 invariants over call sequences; C22 does not hold for a second call (stale arms) |
| C24 | counting thresholds, monotone under masks |
| C25 | ordered field inequalities |
| C26, C27 | scatter-add on the common grid, induction over arms |
| C28 | `Delta.coadd`; neutral element refuted for masked pixels (finding 3), associativity refuted |
| C29 | state machine; leak in `Delta.coadd` refuted with a witness |
| C30 | table of columns; round trip |
| C31 | refuted: the grid is compared with itself; partial: what is checked |
| C32 | heap model; refuted for shared storage, proved for separate storage |
| C33 | pointwise + outlier restore |
| C34 | sums of squares |
| C35-C38 | masks as index slices / predicates |
| C39, C40 | field algebra pointwise |
| C41 | floor index arithmetic |
| C42 | tridiagonal elimination by induction |
| C43 | the code uses tabulated elimination coefficients; backward error theorem; N=3 refuted (uninitialised memory) |
| C44-C46 | fold over measurements; sums; Gram matrix PSD |
| C47 | diagonal proved, off-diagonal refuted |
| C48-C51 | digitising and `bincount`, fold invariants |
| C52 | index bounds from forest limits |
| C53 | `_continuum` checks; refuted for zero/NaN in the picca model, proved for the input model |
| C54, C55 | SPMD loop with per-iteration collectives |
| C56 | data flow of the weights; refuted (finding 8) |
| C57 | gather of per-rank rows |
| C58, C59, C66 | decision logic and inequalities |
| C60 | file slices per rank; refuted (remainder files lost), disjointness proved |
| C61, C62 | index rounding, filter |
| C63 | integer slices, refuted parts (aliasing, iteration) |
| C64 | dictionary of deltas |
| C65 | control flow of qsonic-fit over all ranks: stages are arbitrary functions that may fail on any rank; an inductive predicate `Ends` on families of programs, closed under the stages |
| C67 | inequality on coadded pixels; refuted when weight exceeds ivar |
| C68 | sums over filtered pixel lists; starting amplitude: unique minimum of a quadratic |
| C69 | refuted: `mean_snr` is not updated after masks and `drop_arm` |
| C71 | control flow of qsonic-calib over all ranks with stages that fail arbitrarily; `Ends` induction as for C65 |
| C72 | invariant that ivar, smoothed ivar and weights are one dictionary, through slicing and writing; claim refuted |
| C73 | real analysis of the Voigt approximation in `masks.py` (`exp` is that of Mathlib); floating point cancellation near the line centre is not modelled |
| C74 | real DFT (`rfft`/`irfft` by definition), circular convolution, orthogonality of cosines; refuted scale (compared with the characteristic function of Mathlib's Gaussian) and positivity |
| C75 | specification of weights and chi square per pixel; final stages of `qsonic-fit`; refuted parts |
| C76 | `max` of jackknife and Gaussian variance per bin; refuted for the fallback of `--var-use-cov` |
| C77 | entries of the block covariance per pair of bins; positive semidefiniteness refuted |
| C78 | natural cubic spline on any grid by the tridiagonal system, integral tied to real interval integrals; unit mean for all inputs; for any order the removed modes are Mathlib's shifted Legendre polynomials (`Proofs/Legendre*`: differential equation, orthogonality, bounds on derivatives) and are left up to the error of the spline quadrature, order `d^2` (`Proofs/SplQuad`, `_partial`), exact removal refuted |
| C79 | the flag as a function of old and new continuum; bound for any number of bins, documented meaning up to 108 bins, refuted from 109 |
| C80 | stack, interpolation and multiplication; second stack for all data as a weighted mean, one where the stack is flat, bounds; refuted in general |
| C81 | number of good pixels before the fit and of the coadded spectrum; equal if and only if no cell has good pixels of two arms |
| C82 | model of `mean_resolution` over the reals; bounds for Gaussian columns of any widths and weights; refuted for pixels without resolution (gaps) and for fewer than five rows |
| C83 | broadcast of the table, grid check, linear interpolation and extrapolation; weights inside the table; refuted outside |
| C84 | columns of the table by row index, from the statistics of C50; order of var_pipe for bins with pixels; refuted for bins without |
| C85 | update of the mean continuum for any stack: independence of empty bins, errors, fixed point; smoothing is a parameter that leaves constants alone |
| C86 | the numeric models put into the MPI program of the fitter (`FullCfg.fns`); sums over ranks depend on the pooled spectra only, induction over iterations; false for the jackknife errors of the variance fit |
| C87 | functions of `qsonic_fit.py` between reading and fitting composed as one function; result compared with a filter and a map over the good pixels as read; locality by induction over the queue; with `--coadd-arms before` the pixels are those of the common grid, the result of `coadd_arms_forest` being known from C26 |
| C88 | `mpi_run_all` composed from the models of queues, blinding, selection, fit and saving; queues are permutations of the pixels of the catalog, selection is local, the fit depends on the pooled spectra only (C86); idle ranks abort, which is proved in general |
| C89 | files as lists of tables; `save_deltas` with contents composed with `read_deltas`, from C17 and C30; `set.pop()` is any function that takes an element; acceptance as an equivalence; two names for one quantity give a counterexample to determinism |
| C90 | a relation between the programs of two runs (same messages and events, related results), closed under bind, shown to carry over to jobs; spectra related by a factor through every step; the cost function shifts by a constant, so its minimum moves with the units; the starting amplitude has a constant with units (counterexample) |
| C91 | interpolators as objects on a heap, references of fitter and model; simulation between the program on objects and the one by value (relation of programs of C90); invariant on references for what the model sees after the final fit |
| C92 | specification of header and of strategy by date apart from the model; inversion of `write`, induction over arms |
| C93 | invariant (start index of subsamples, mean only if normalised) by induction over any list of calls on the ranks |
| C94 | moving median with reflected edges as in scipy; correspondence of good pixels and pixels by induction |
| C95 | real analysis; the atomic data and the physics of the line are written down in `Spec/Line` in CGS units, apart from the mixed units of the code |
| C96 | `Spec/ArmOrder` (spectra with the same dictionaries in another order), `Proofs/ArmOrder*`: every function of selection and fit respects this relation; coadding gives equal spectra since sums do not depend on the order; the relation is carried through all messages of the job by `RelP`. Readers: `mapM` over a permutation. Refuted for the jackknife errors. |
| C97 | `Spec/QuasarFit`: likelihood with Mathlib's `gaussianPDFReal`; cost identity by induction over arms and pixels; maximum under the contract that a successful minimizer returns a minimum |
| C98 | a moved file is a permutation of indices applied to all tables; the pairing theorems C13, C15 determine each spectrum, hence equality; the catalog sort is unique because targets are; index ranges and products of transmissions commute; whole run as equality of programs |
| C99 | Files as lists of extensions; the tables of `save` on the model with interpolator objects (C91). Invariant of the objects over the iterations, distinct extension names (C54), spacing test on an even grid (C39), independence of the spline from memory (C43). |
| C100 | Model/Select.lean and Model/Catalog.lean. withCuts replaces the three cuts; MeetsCuts says what a selected spectrum must meet. The cut on rsnr is before coadding and is moved behind it (mapM_filter); redshift and pixel size never change (SameScale). Catalog: permutation by the cuts, equal by uniqueness of the sorted order. |
| C101 | `Iterations` of the full run and of the run on the filtered lists are compared by induction (Proofs/Failed): the sums of the ranks take only valid spectra, so functions and verdicts agree up to the last iteration done; then `sync_iterate` or `sync_iterate_fail` for both. For any parts (`C101_parts`) and for the fitter with numerical parts (`C101_failed`). |
| C102 | `FitRec` adds `x`, `xcov`, `dof`, `method` to `Spectrum`; `piccaInit`, `trueInit`, `inputInit`, `fitRec` mirror `init_spectra` and `fit_continuum`, and the iterations of `FitterFns` run on these records (Model/FitParams). Induction over the iterations (`afterFits`), `C54_iterate` for the job and the extensions, `C57_catalog` for the file. |
| C103 | Model/ReadImage: the copying loop into an array of unwritten elements with numpy's rule for assignments. Loop invariant; refinement to the row choice of C13 to C15 for well formed files. |
| C104 | Non-interference: `C104_bad_pixels` (constructor), `C104_forest` (after `set_forest_region` and `remove_nonforest_pixels`, with `rsnr` as set by the constructor), `C104_select` and `C104_run` (all ranks, with errors). Agreement of the data is in Spec/Locality. Pixels redward of Lya matter through the cut on the SNR only (example). proved |
| C105 | Whole run with values: `Verif.Model.CalibWhole` puts the models of C48-C51, C60-C62 and C84 together; `sync_calib` shows that the ranks keep in step. `C105_partial`, `C105_distribution`, `C105_refuted`. Specification of the table and of the fit to its rows in Spec/CalibWhole. partial |
| C106 | `C106_written`: the sum over all tables written by `Spectrum.write` and read back by `Delta` is the weighted sum of squared differences of flux and continuum, if the continuum is nowhere zero, pixels without ivar have no weight and arms with mean signal-to-noise zero have none (`Spec/ChiDeltas`). `C106_partial`: after a job of `continuumFitting` without exception (any ranks, iterations, with `--eta-calib-ivar` or not), chi2 of every returned spectrum is this sum, with coadding, or without normalisation of the stacked flux. Refuted with witnesses: normalisation, additive noise calibration, dropped short arms, arms of mean signal-to-noise zero. |
| C107 | Model/VarSmooth.lean (`smoothFit`, `VarFuncs.update`) on top of `VarLss.fit`; the spline is a parameter. `C107_values` says what the smoothed values are, in terms of the list of fitted bins (`Spec.FittedBins`); `C107_partial` gives the bounds for splines that stay between the values they go through; counterexamples use the cubic through four points, which is what UnivariateSpline gives for four points. |
| C108 | Model/CommandLine.lean: the three parsers as lists of options and `parse_args` of Python 3.11 for parsers without positional arguments, word by word. Spec/CommandLine.lean says what a command line means as a relation (`Gives`, `Reads`, `Accepts`, `Means`); `C108_meaning` proves that the parser computes exactly this relation, for any list of options with different names. `C108_order`, `C108_fit` (consequences for all accepted command lines of qsonic-fit) and `C108_ranks` (with C05, all ranks: `Consistent`, `WorksWith`) follow from it. |
| C109 | Model/ExposureRun.lean continues the run of C88 with `mpi_read_exposures_after` (sorted local catalog, split by pixel, selection of C87, continua of C63). `C109_partial` compares the jobs on two numbers of processes with each other and with the runs without exposures: the queues of all ranks are the pixels of the catalog restricted to the targets with deltas (`rank_queue`, `pooled_queue`). `C109_idle_refuted`: a rank without deltas aborts the job. |
| C110 | Model/CatalogRun.lean: the run of C88 on spectra with parameters (C102), with `save_contchi2_catalog`. `C110_partial` compares the jobs on two numbers of processes: `sync_pool_inv` (the fit is one function of the spectra, and keeps what every step keeps), `prep_same` for what is before the fit, `gather` for the table. `C110_no_pixels_refuted`: a concrete run. |
| C111 | Model/TailRun.lean: the run of C88 with the steps of C56 after the fit. `C111_partial`: the fit is one function of the spectra (`fitted_sync`), the steps have no communication (`fitTail_ok`, `fitTail_bad` from one spectrum to a list), and two pairs of variance functions give spectra that differ only in weights (`tailOne_same`). `C111_plain`: without the options it is the run of C88. `C111_weights_refuted`, `C111_flux_refuted`: concrete runs on one process and on two. |
| C112 | Run of C105 under `main` (Model/CalibWhole.lean, Model/FitRun.lean `mainProg`). Spec/CalibEnds.lean gives the files of a rank by their position. The run is split at the statistics (`calib_split`); before that all ranks are in step or end with one exception (`sync_open_error`), and a rank that raises before its next communication aborts the job with known logs (`main_crash`). |
| C113 | Model/WrittenRun.lean: `WrittenCfg.runAll`, the whole run of C88 ending in `saveDeltaFiles` with the blinding of the run. Proofs/WrittenRun.lean: invariant `Stored` (arrays aligned, signal to noise of all arms, resolution of all arms or none) and `HasCont` (continuum of every arm of a valid spectrum, of the right length) through reading, coadding, calibration, masks, smoothing, fit, normalization and dropping of arms; closed with the iterations of the fitter (`sync_pool_inv`); `FromRead` (wavelengths, flux and ivar come from what was read) through the same steps; then C30 and C17 |
| C114 | Model/Pipeline.lean: `writtenFiles` (the directory that the ranks of `WrittenCfg.runAll` leave) and `readForCalib` (`read_deltas` of a file of it, as used by `qsonic-calib`); the second job is `CalibCfg.run` of C105. Proofs/Pipeline.lean: names of files do not occur twice, what is read of every file is a permutation of the arms written to it (C113, C30), pooled over the files a permutation of the arms of all deltas; the forest of a grid is a grid, coadded or not; then C105 and invariance of the statistics and the stack under permutations |
| C115 | Spec/CoaddFit.lean: `DirHas` (glob and read_deltas in the directory a run left), `ArmOk`. Proofs/CoaddFit.lean: what is read of all files of a run are its arms with signal, each once (`job_deltas`, from C113); deltas with weights between zero and ivar and the same kind of resolution can be coadded and the result is again such a delta (`coadd_coOk`, from C67 and C28). Then C64_written and C64_success over all directories |
| C116 | Proofs/Restart.lean: a fit changes validity, continuum, weights and chi square only (`fitOne_form`) and does not read them (`fitOne_withFit`); the state after k iterations is that of one iteration from the functions before the last, so the update is the same (`sync_restart`); one iteration is a map over the spectra (`written_alone`), and the masks of a quasar do not depend on the other targets (`prepOne_ids`) |
| C117 | Proofs/TwoCatalogs.lean: each run is its iterations on prepared spectra that do not depend on the other targets (`run_of_fit`, from `sync_before` and `prepOne_ids`); the iterations do not depend on the distribution of the spectra (`sync_pool`) |
| C118 | Model/FixedRun.lean: the run of C88 with the two models. Proofs/FixedRun.lean: fitting an input continuum again gives the same (`inputFit_history`, the dictionary of the last iteration is overwritten with the same values); iterations with such fits end with one fit of the first spectra (`sync_fixed`); `init_ok` and `given_iff` give the pairing of C20 for every rank; false with input continua and an idle rank (`C118_idle_refuted`) |
| C119 | Model/AllRun.lean: the run with the three steps and the catalog; objects shared by two lists are written back (`putBack`). Proofs/AllRun.lean: the run is the run up to the fit (`fitPart_sync`, common to the plain run by `cat_eq`) followed by `ending` (`sync_ending`); `match_same`: what a continuum gives to an exposure depends only on the wavelengths and the continuum of the fitted spectrum (`SameCore`), which calibration and coadding leave independent of the variance functions (`tailOne_same`); `tail_rows` compares the rows. `C119_plain`: without options it is the run of C110 |
| C120 | Model/FitterErr.lean: the loop of `iterate` where an update may raise, and the run with it (`AllCfg.runE`). Spec/RunEnds.lean: the causes. Proofs/FitterErr.lean: every step of the loop either goes on on all processes or raises the same exception on all of them, because all updates work on reduced sums (`AllOrNone`). Proofs/RunEnds.lean: walk through the run; a step of one process without communication may only raise ordinary exceptions (`Crashes`, `ordinary_read`), which abort the job; `ends_ok` puts the ends together. `C120_finishes`: on data as in C110 the only reasons not to finish are those listed. `C120_plain`: it is the run of C119 if no update fails |
| C121 | no new model: Model/CoaddDeltas.lean on delta files (`readDeltas`). Spec/Increment.lean: a disk, and a directory with new files. Proofs/Increment.lean: `main_iff` (C64 as an equivalence), what the second run reads is each coadded delta once (`reread`, with C30), coadding to a coadded prefix is coadding all (`coaddAll_append`). `C121_weights`: the condition on weights holds if all weights are at most the ivar or no target has more than two deltas |
| C122 | no new model: Model/Coadd.lean, Model/ContFit.lean, Model/FullFit.lean. Spec/CoaddWhen.lean: spectra before the fit, arms on a common grid, good pixels in a cell. Proofs/CoaddWhen.lean: a sum over pixels is the sum over the cells (`sum_classes`), the cost of a cell (`cell_cost`), mean and variance of a cell with the weights of the fit (`cell_weights`), both fits with the same coefficients (`fit_coadd`) |
| C123 | no new model: Model/FullFit.lean, Model/Fitter.lean, Model/Coadd.lean. Spec/CoaddLoop.lean: the good pixels of a spectrum, quasars with disjoint arms. Proofs/CoaddLoop.lean: the fit does not depend on the previous fit (`fitOne_again`), stacks depend on the good pixels only (`stackAll_same`), invariant of the iterations (`LoopFit`, `iterLoop_coadd`) |
| C124 | no new model: Model/FitTail.lean, Model/FullFit.lean. Spec/CoaddTail.lean: same forest. Proofs/CoaddTail.lean: a cell with at most one good pixel under any positive factors and weights (`cell_tuned`), spectra after fit and calibrations (`Tuned`), coadding them (`tuned_coadd`), invariant of the iterations (`iterLoop_tuned`) |
| C125 | Np/FloatArith.lean: +, *, /, sqrt with NaN and infinities, numbers exact, zero without sign. Model/StackFl.lean: weights, stack_spectra, FluxStacker.add, calculate, reset and the filling of empty bins on such values; indices outside of the bins are left to Model/Stack.lean. Spec/StackFl.lean. Proofs/StackFl.lean: the addition is associative and commutative (`Fl.add_assoc'`), every array is a sum over the pixels of all ranks (`ranksGet`). This closes what Model/Stack.lean leaves out (continuum zero) |
| C126 | Model/DeltaFl.lean: linear interpolation, normalisation, rows written and read, pixel of the stack of qsonic-calib on special values (Np/FloatArith.lean); the chain from a zero continuum through the stack of C125 to the tables of all quasars |
| C127 | Model/VarLssFl.lean: delta, ivar * cont**2, bin index and the sums of one `add`, the object with its subsamples, the sums over the ranks and the rows of `mean` and `variance` and the covariance on special values (Np/FloatArith.lean); Spec/VarLssFl.lean: the pixels that count; the index is that of an inner bin only if ivar * cont**2 is a positive number; the errors by refinement to the object without special values, the denominators of the jackknife means are positive |
| C128 | Model/CoaddFl.lean: masking in the constructor, then norm, flux and inverse variance of one cell of `simple_coadd` and `coadd_arms_forest` on special values (Np/FloatArith.lean); which pixels are in a cell is C26. Spec/CoaddFl.lean: the good pixels |
| C129 | Model/DeltaCoaddFl.lean: the arrays of `Delta.coadd` in one cell and `mean_snr` on special values (Np/FloatArith.lean), on the rows of C126; which rows are in a cell is C28 |
| C130 | Model/ContFitFl.lean: the loop over the arms with the test of each model, the multiplication with the mean flux, weights and chi square on special values (Np/FloatArith.lean); interpolators and minimizer are parameters. The loop is shown to be a test of all pixels and a map, then cases on the values |
| C131 | Model/SnrFl.lean: both signal-to-noise values and the comparison with the cut on special values (Np/FloatArith.lean); the root is a parameter. Cases on the values of a pixel, then sums; the searchsorted slice of increasing wavelengths is the filter of the specification |
| C132 | Model/AmpFl.lean: both amplitudes on special values (Np/FloatArith.lean). Cases on the values of a pixel, induction over the pixels, bound of a weighted mean |
| C133 | Model/CostFl.lean: the cost function on special values (Np/FloatArith.lean), the continuum and the logarithm are parameters. Induction over the pixels of an arm with the two sums kept apart, then the arms |

## Findings

Properties that the code violates; each has a machine-checked witness (listed in
`MANIFEST.json` notes) and a `_partial` theorem saying what does hold.

1. C12: `keep_surveys=None` (and the exposure re-read) leaves chunks unsorted in SURVEY while readers
   split at the first occurrences of each survey, so rows are read from the wrong survey's file.
2. C60: `mpi_read_all_deltas` reads `n // size` files per rank and drops the remainder.
3. C28: a masked pixel halves the weight of the good pixel it is coadded with; repeated coadding
   is order dependent if var_lss is nonzero.
4. C29: `Delta.coadd` keeps the blinding flag of the first operand only. `set_blinding` called twice appends the
   RESOMAT column twice and writing fails.
5. C32: `slice` cuts shared arrays repeatedly.
6. C63: `drop_arm` while iterating over the arm dict raises `RuntimeError`.
7. C31: the consistency check compares the stored grid with itself.
8. C56: `fit_final_varlss` replaces the interpolators that later stages use for weights.
9. C43: three nodes: the result depends on uninitialised memory.
10. C45: `get_mean` followed by covariance requests fails.
11. C47: off-diagonal elements are variances of products, not covariances of squares.
12. C53: the picca model accepts zero and NaN continua.
13. C16: rows shift when a target is missing in the resolution file.
14. C61: half-even rounding may map two pixels to one index and one is lost.
15. C66: NaN passes `_float_range`.
16. C22: a second `set_forest_region` call keeps arms of the first.
17. C67: coadding gives a negative weight when a pixel's weight exceeds its ivar.
18. C69: `mean_snr` is computed by `set_forest_region` only; masked pixels and dropped arms still count in
    the signal-to-noise cut.
19. C37: a DLA catalog with both `Z` and `Z_DLA` columns gives an arbitrary one of them (set order).
20. C39: the not-a-knot spline through a positive eta table can be negative between the nodes; without the
    additive term nothing clips the ivar. `C39_table_positive`: not if the values differ by less than 1.79.
21. C51: the number of quasars of a bin is the number of `add` calls with a pixel in it, i.e. the number of arms.
22. C49: `VarLSSFitter.add` after the statistics were computed raises, but the pixels are already counted.
23. C52: `FluxStacker.add` raises for a pixel exactly at the upper limit (the documentation excludes larger ones only).
24. C53: the true continuum is valid whatever its sign. For the picca model, a forest with flux zero has the zero
    continuum as its exact best fit, which is accepted; NaN passes the check as well.
25. C20: `init_spectra` of the input model raises `ValueError` on a rank without spectra.
26. C54: `--num-iterations 0` or a negative number is accepted: nothing is fit, and `iterate` ends with unfit spectra.
27. C57: the ARMS column of the chi square catalog is cut after five characters; more than three arms raise.
28. C58: `--continuum-model input` without `--input-continuum-dir` is accepted; NaN wavelength limits as well.
29. C59: a forest just outside of the automatic redshift range can be one pixel longer than the cut (and pixels of
    overlapping arms count twice).
30. C61: `mpi_stack_fluxes` indexes with the spacing of the deltas but reports `linspace(wave1, wave2)`: the wavelengths
    differ if the range is not a whole number of pixels. A rank without deltas raises `IndexError`.
31. C62: `--remove-bal-qsos` and `--keep-surveys` without `--catalog` are ignored silently (`C62_without_catalog`).
32. C63: the ivar of an exposure that has to be cut to the fitted spectrum is cut three times, since smoothed ivar and
    weights are the same object (`C63_ivar_refuted`); an arm missing in the fitted spectrum raises `RuntimeError`.
33. C64: `qsonic-coadd-deltas` coadds with the default pixel size 0.8 whatever the deltas have (`C64_pixel_size_refuted`).
34. C65: `mpi_read_masks` creates `SkyMask(args.sky_mask)` without `comm`, so every rank reads the file. If only some
    ranks fail, they raise `QsonicException` and exit while the others wait for ever (`C65_sky_mask_refuted`).
35. C72: exposures that are read after the fit get continuum and ivar, but their weights stay equal to the ivar
    (`set_forest_weight` is never called for them), whatever var_lss and eta are.
36. C75: `--eta-calib-ivar` divides ivar by eta, and then coadding arms after the fit or additive noise calibration divide
    by eta again in the weights. Without these, the weights are those of var_lss and eta before the last update, which is
    what is saved (`C75_last_update_refuted`).
37. C76: with `--var-use-cov`, when the covariance matrix is singular, the fit falls back to errors that have neither the
    error of the mean nor the Gaussian floor, and can be zero.
38. C77: the propagated covariance of a wavelength bin can be indefinite for any number of subsamples (consequence of 11).
39. C74: `fft_gaussian_smooth` multiplies by `exp(-(k sigma)**2 / 2)` with `k` in cycles per pixel, without the factor
    2 pi. The Gaussian has a sigma of `sigma_pix / (2 pi)` pixels, e.g. 3.2 instead of 20 (`C74_scale_refuted`). For small
    sigma the smoothed error of positive errors can be zero or negative (`C74_positive_refuted`).
40. C78: `_project_normalize_meancont` removes the Legendre polynomials one after the other with spline integrals, in which
    their products are not orthogonal: a small slope stays (`C78_slope_refuted`, at most `2 d^2` of the slope for steps `d`).
41. C79: convergence is also declared if the mean of (update / error)^2 is below 0.001 per bin; the sum is then below
    `nbins / 1000`, and with 109 bins or more (the default is 162) one update can exceed 0.33 errors.
42. C80: the stack is interpolated linearly between bin centers before continua are multiplied. Stacking again is not one
    unless the stack is flat; half a bin at the edges is extrapolated and can make continua negative; bins without weight
    have stack zero, which makes continua zero there (and delta infinite) and pulls down their neighbours.
43. C81: with `--coadd-arms after`, chi2 is computed again for the coadded spectrum but dof is still that of the separate arms:
    too large by the number of pixels where two arms overlap.
44. C82: `mean_resolution` multiplies the matrix by the weights, and NaN times zero is NaN. Coadding arms leaves pixels in gaps
    that are NaN in all rows, and MEANRESO is NaN then. With three rows the offset of two pixels is out of range (IndexError).
45. C83: the fiducial table is extrapolated linearly. If var_lss rises in the first segment, then it is negative below some
    wavelength, where weights can be negative or infinite.
46. C84: `var_pipe` is not in descending order if a bin has no pixels (its value is zero). With zero iterations and no fiducial
    var_lss `write` raises TypeError, since nothing has been calculated.
47. C86: the subsamples of the variance fit begin at an index that depends on the rank, so the jackknife errors of var_delta, and
    with them the fitted var_lss and eta, change with the number of processes and the distribution of the spectra. In the witness
    the squared error of one bin is 10 on one process and 7/4 on two. With fiducial var_lss the continua do not change.
48. C87: `mean_snr` is that of the forest before calibrations and masks, and `--skip 0` removes the cut on the number of pixels.
    A spectrum of which every pixel is masked then passes all cuts and is given to the fit without any arm.
49. C88: a rank without rows cannot take part in a run on data. `np.max([])` of the blinding raises `ValueError`; on mocks the
    BAL mask raises `IndexError` (`local_queue[0]`) and the DLA mask `ValueError` (`np.concatenate([])`). So every job with more
    processes than pixels is aborted, although the same data on fewer processes give deltas.
50. C89: `Delta` takes the name of the target, wavelength and delta column with `set.pop()` from the accepted names present. A table
    with two of them (LAMBDA and LOGLAM, DELTA and DELTA_BLIND, TARGETID and THING_ID) is read differently in different runs of the
    interpreter, since the order of a set of strings depends on the hash seed.
51. C90: two constants have units of flux. The starting amplitude of the fit has `1e-6` added to a sum of inverse variances
    (`get_a0`), and so has the entry `x0` of `cont_params`; for spectra in units where the inverse variances are small the fit starts
    at an amplitude near zero. If the minimizer finds the minimum this has no effect. With a continuum from a file, the mean continuum
    is an average in the units of the spectra and does not follow factors that differ between spectra.
    The coadded resolution matrix gives masked pixels the weight `1e-8` (`coadd_arms_forest`, `simple_coadd`), which is large or small
    depending on the units.
52. C93: `VarLSSFitter.add` after the statistics are calculated raises, but `_num_pixels` was changed before, so the refused spectrum
is counted in `num_pixels` (`C93_pixels_refuted`). The code of qsonic does not do this.
53. C94: `get_median_outlier_mask` bounds the inverse of sigma by one (`np.fmin(1.0, ...)`), so sigma is at least one unit of flux.
Outliers of less than `esigma` units are never masked whatever their error (`C94_small_flux`, `C94_documented_refuted`). The
function is not called in qsonic at present.
54. C96: `args.arms = list(set(args.arms))` makes the order of the arms depend on the hash seed of the process. Without `--coadd-arms before` the
arms go to the jackknife subsamples in this order, so the errors of var_delta, which `curve_fit` uses, and with them var_lss and eta, change
from one run of the same command to the next (`C96_errors_refuted`). ARMS and MEANSNR of the chi2 catalog change their order too. All ranks of
a job have the same order, since the arguments are broadcast.
55. C98: `_read_onehealpix_file` sorts the rows of all targets found, while the catalog has one row per target. A target that is twice in a coadd file shifts the rows: the next target of the catalog silently gets the data of the duplicate (`C98_duplicates_shift`).
56. C99: with `--fiducial-varlss` the attributes file cannot be used as noise calibration (the final fit is in VAR_FUNC-fit, the reader wants VAR_FUNC); all ranks stop with an error.
57. C102: `CONT_x` belongs to the mean continuum of extension `CONT-k` (k iterations), not to the final `CONT`, which is updated after the last fits. A quasar whose last fit failed has the `CONT_x`, `CONT_xcov` of an earlier valid fit, or the start values, with `CONT_chi2` -1. With true or input continua `np.eye(1)` is broadcast, so `CONT_xcov` is a matrix of ones.
58. C103: an image of one pixel is not refused: numpy repeats its value over all wavelengths (C103_one_pixel_refuted). If no target is in the file, the widths are not looked at.
59. C105: with fewer delta files than ranks `qsonic-calib` is aborted when it has done nearly everything: the idle rank has no delta from which to take the spacing (`deltas_list[0]`, IndexError) although only a warning was given; the file is left behind without STACKED_FLUX and not closed. The same happens if a rank has files but none of its deltas is to be used. With a number of files that is no multiple of the number of ranks the last files are silently left out (finding of C60), from the table, the fit and the stack.
60. C106: `CONT_chi2` is not that of the written deltas with `--normalize-stacked-flux` (the continuum is scaled after the chi square) or with additive noise calibration (the weights are set again) unless arms are coadded after, which is when it is computed again. Pixels of arms that are dropped before saving, or not written because their mean signal-to-noise is zero, stay in it.
61. C107: the spline extrapolates into bins without data, and nothing clips it: with var_lss 1, 1, 1, 0.01 in four bins the fifth gets -2.96, a negative variance, with saved error 0 (`C107_refuted`); pixels there can have negative weights. The next fit of that bin starts outside of its bounds, fails (curve_fit raises ValueError for an infeasible x0, which is caught) and the bin gets the same extrapolation again, in every later iteration, although it has enough data (`C107_stuck_refuted`). A fit that ends at the bound var_lss = 0 is treated as failed together with its eta (`C107_zero_refuted`).
62. C108: a refused command line ends with status 0 on all ranks, `mpi_parse` replaces the status 2 of argparse (`C108_status_refuted`), so that a batch job looks successful. Negative numbers with an exponent are taken for unknown options (`C108_exponent_refuted`). `--keep-surveys` of qsonic-fit cannot be empty, so not all surveys can be kept, unlike in qsonic-calib (`C108_surveys_refuted`). `--skip nan` is accepted (C66).
63. C109: with `--exposures after`, a rank without any delta aborts the job (`np.hstack` of an empty list raises `ValueError`), although the same job without exposures finishes (`C109_idle_refuted`). This happens with more processes than pixels and when all quasars of a rank fail the cuts or the fit. An exposure with an arm that the fitted spectrum has not also aborts the job on every number of processes (the second branch of `C109_partial`; finding of C63).
64. C110: `is_long` counts the pixels of all arms before the fit, the final `drop_short_arms` counts those of each arm. A quasar with several short arms is therefore fitted and is part of the mean continuum and of the stacks, has `CONT_valid` set and its arms named in the chi square catalog, but has no delta at all: the delta file of its pixel is made without tables (`C110_no_pixels_refuted`).
65. C111: with `--varlss-as-additive-noise` or `--coadd-arms after` the weights of the deltas depend on the number of processes, because they are computed with the functions of the last variance fit, whose error estimates depend on the ranks (C86). Without the options a run with fiducial variance functions keeps the weights of these. With both options the arms are coadded with these weights, and flux, inverse variance, resolution and mean signal-to-noise of the deltas depend on the number of processes as well (`C111_weights_refuted`, `C111_flux_refuted`).
66. C112: with more MPI processes than delta files `qsonic-calib` warns and goes on, but cannot finish: `mpi_stack_fluxes` takes the spacing from `deltas_list[0]`, which raises `IndexError` on the processes without files, and the job is aborted after the variance statistics are computed. The output file then has no `STACKED_FLUX` table and may be incomplete (`C112_few_files`). The same happens when all deltas of one process are removed by the cuts (`C112_outcomes`).
67. With `--input-continuum-dir` a rank without spectra raises `ValueError` in `init_spectra` (`np.hstack` of an empty list, input_continuum_model.py:146), and `main` ends in `comm.Abort()`: a run with more processes than pixels is lost, also with mock data and no masks, where the run with fitted continua finishes. (`C118_idle_refuted`)
68. With `--fiducial-varlss` the continuum fitter calls `fit_final_varlss` after the last iteration, and its result does not go into the weights; but its `VarLSSFitter.fit` raises if more than 40 percent of the wavelength bins fail, so that on small samples (too few quasars per bin) the run exits with status 1 although all continua are fitted, and neither the chi square catalog nor any delta is written (`C120_variance_refuted`)
69. `qsonic-coadd-deltas` does not empty or check its output directory: after two runs with different `--nside` it has the files of both, and everything that reads `delta-*.fits` there, also the script itself, counts every quasar twice (`C121_stale_refuted`)
70. `--coadd-arms before` and `--coadd-arms after` give different fluxes where arms overlap and var_lss is not zero: before the fit the weights are the ivar, after it they include var_lss, so that the less noisy arm counts less (`C122_refuted`, for every fit with nonzero continuum there). The likelihood also counts var_lss of an overlapping pixel once per arm, as if the arms saw independent forests
71. With a fitted variance the result depends on whether the arms are coadded before the fit, also where arms do not overlap: the variance fitter counts every arm as a quasar and its subsamples go round over arms (`C123_refuted`, see finding 21)
72. The weights of a run with `--eta-calib-ivar` differ between `--coadd-arms before` and `--coadd-arms after` although everything else is the same: after the fit eta divides a second time (`C124_weights_refuted`, see C75)
73. A continuum that is zero in one pixel of one valid quasar makes the stacked flux of the bins of that pixel NaN for all quasars on all ranks, and the mean continuum spline gets NaN in all empty bins too (`C125_zero_continuum_refuted`; a quasar with flux zero has such a continuum, `C125_zero_flux_refuted`). An infinite inverse variance in one pixel makes its bins empty for all quasars (`C125_infinite_ivar_refuted`)
74. With `--normalize-stacked-flux` a continuum that is zero in one pixel of one quasar makes DELTA, IVAR, WEIGHT and CONT NaN in the tables of all quasars between the neighbouring bin centers, masked pixels included (`C126_normalized_refuted`); without the option the pixel is masked (`C126_partial`). An infinite inverse variance is written with weight NaN, and qsonic-calib then has no flux at that wavelength (`C126_infinite_ivar_refuted`)
75. Reading spectra masks NaN but not infinite fluxes; one such pixel with good continuum and inverse variance makes the sum of squares of its bin infinite or NaN, whatever the other pixels are (`C127_infinite_flux_refuted`)
76. The constructor of a spectrum does not mask infinities. With `--coadd-arms before`, a pixel of one arm with inverse variance zero but infinite flux makes the coadded flux NaN although the coadded inverse variance is positive from the other arm (`C128_infinite_flux_refuted`), and where the continuum is a number the mean and variance of delta in its bin are NaN on all ranks (`C128_statistics_refuted`); an infinite inverse variance makes both NaN (`C128_infinite_ivar_refuted`)
77. Two pixels with weights twice their inverse variance (var_lss 0, eta 1/2) are coadded by `Delta.coadd` to a pixel of infinite weight (`C129_eta_refuted`); a row with weight NaN, as C126 shows `qsonic-fit` can write, makes the coadded row NaN whatever the other delta has there, and MEANSNR of the coadded delta NaN (`C129_nan_refuted`); it is NaN too for a delta without good pixel (`C129_masked_refuted`)
78. NaN is not below zero, so `PiccaContinuumModel.fit_continuum` keeps a fit as valid whose continuum is NaN if the minimizer reports success, while `InputContinuumModel` refuses it (`C130_picca_refuted`); an infinite input continuum is accepted (`C130_infinite_refuted`). Each model makes its test before the multiplication with the mean flux, so that NaN, zero or a negative value in the fiducial MEANFLUX table gives valid spectra with such a continuum, with NaN as CONT_chi2 for NaN (`C130_nan_refuted`, `C130_negative_refuted`)
79. One pixel with inverse variance zero and infinite flux makes `rsnr` (or the `mean_snr` of its arm) NaN; `NaN >= cut` is false, so the quasar is silently removed for every --min-rsnr or --min-forestsnr, the default 0 included (`C131_refuted`, `C131_forest_refuted`)
80. One pixel with inverse variance zero and infinite flux makes the starting point of the minimizer NaN, and with plus infinity also `cont_params['x'][0]` (`C132_start_refuted`, `C132_refuted`). In a run of qsonic-fit the cut of finding 79 removes such a spectrum before the fit, unless the arm with that pixel has no good pixel, so that its mean signal-to-noise is set to zero; users of the classes are not protected by it
81. One pixel with inverse variance zero and infinite flux makes the cost NaN for every continuum (`C133_refuted`), and so does every pixel with inverse variance zero where the interpolated `eta` is zero (`C133_eta_refuted`); the pixel has no weight, yet nothing is minimized. The first case has the reservation of finding 80; the second does not need special values in the file, and zero is the lower bound in the fit of eta (py/qsonic/picca_continuum.py:1093)

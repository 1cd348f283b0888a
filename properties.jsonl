{"id": "C01", "title": "Load balancing loses and duplicates nothing", "statement": "For any list of catalog chunks and any number of MPI ranks >= 1, the per-rank queues returned by balance_load together contain exactly the given chunks, each one in exactly one rank's queue with its multiplicity, and there is one queue per rank.", "quantifier": "all lists of chunks of any sizes (including empty chunks and ties) and all rank counts >= 1", "why_tests_cant": "Tests use one chunk list and one rank count; a lost or duplicated chunk can depend on ties, on more ranks than chunks, or on any size pattern.", "anchors": ["py/qsonic/mpi_utils.py:balance_load"]}
{"id": "C02", "title": "Load balancing bound", "statement": "After balance_load the number of quasars on the busiest rank exceeds that on the least busy rank by at most the size of the largest chunk, and the busiest rank carries at most the average load plus (1-1/size) times the largest chunk, and it is at most 4/3 - 1/(3 size) times what it is in the best possible assignment of the chunks to the ranks.", "quantifier": "all lists of chunks, all rank counts >= 1, all alternative assignments", "why_tests_cant": "The bound compares with every possible assignment of every chunk list, an exponential set.", "anchors": ["py/qsonic/mpi_utils.py:balance_load"]}
{"id": "C03", "title": "No idle rank when there are enough chunks", "statement": "If every chunk is non-empty and there are at least as many chunks as ranks, balance_load gives every rank a non-empty queue; with fewer chunks than ranks exactly (ranks - chunks) ranks get an empty queue.", "quantifier": "all lists of non-empty chunks and all rank counts", "why_tests_cant": "A starving rank fails the whole MPI job later; whether one exists depends on the relation between all chunk sizes and the rank count.", "anchors": ["py/qsonic/mpi_utils.py:balance_load"]}
{"id": "C04", "title": "Root-only call with broadcast: same outcome on every rank", "statement": "mpi_fnc_bcast runs the given function on the root rank only; either every rank returns the value the root computed or every rank raises QsonicException, and never does a rank wait for a collective the others do not enter.", "quantifier": "all functions (returning or raising), all return values, all communicator sizes >= 1, and no communicator", "why_tests_cant": "Tests run with one process; agreement and absence of deadlock are about all ranks under all outcomes of the root function.", "anchors": ["py/qsonic/mpi_utils.py:mpi_fnc_bcast"]}
{"id": "C05", "title": "Argument parsing is uniform over ranks", "statement": "mpi_parse returns the same arguments on every rank, or terminates every rank; bad arguments seen only by the root never leave the other ranks running.", "quantifier": "all argument vectors, all parse and logic-check outcomes, all communicator sizes", "why_tests_cant": "Disagreement between ranks needs several processes and the failing path together.", "anchors": ["py/qsonic/mpi_utils.py:mpi_parse"]}
{"id": "C06", "title": "Local queues partition the catalog by key", "statement": "mpi_get_local_queue either raises on every rank or gives the ranks queues that together hold every catalog row exactly once, such that all rows with the same healpix pixel (or tile) are in the same chunk of the same rank.", "quantifier": "all catalogs sorted by the split key, all rank counts, tile and healpix mode, and all read failures", "why_tests_cant": "The property relates every row to every rank for any number of keys and ranks.", "anchors": ["py/qsonic/catalog.py:mpi_get_local_queue", "py/qsonic/mpi_utils.py:balance_load"]}
{"id": "C07", "title": "Only the root writes shared output", "statement": "In an MPI job every MPISaver.write goes to the file at most once, from the root rank, in program order, and nothing is written when no file name was given.", "quantifier": "all sequences of write calls, all rank counts, all file names including the empty one", "why_tests_cant": "A double writer corrupts the file only under concurrency, which a single process test cannot show.", "anchors": ["py/qsonic/mpi_utils.py:MPISaver"]}
{"id": "C08", "title": "Catalog cuts are exact", "statement": "The catalog returned by read_quasar_catalog is exactly the rows of the file that pass the redshift interval (both ends included) and, when surveys are given and the column exists, the survey filter, with multiplicity; an empty result is an exception, not an empty catalog.", "quantifier": "all catalogs, redshift limits and survey lists", "why_tests_cant": "Row loss or leakage can depend on boundaries and on the order of the cuts for any table.", "anchors": ["py/qsonic/catalog.py:_prime_catalog", "py/qsonic/catalog.py:read_quasar_catalog"]}
{"id": "C09", "title": "Catalog order", "statement": "The returned catalog is sorted lexicographically by (HPXPIXEL, [SURVEY,] TARGETID), or by (TILEID, PETAL_LOC, TARGETID) in tile mode.", "quantifier": "all catalogs and options", "why_tests_cant": "Readers silently rely on this order; a test checks one table.", "anchors": ["py/qsonic/catalog.py:_prime_catalog"]}
{"id": "C10", "title": "Duplicate targets are refused", "statement": "A catalog in which a TARGETID occurs twice (TARGETID within the same TILEID in tile mode) is rejected with an exception, and a catalog without duplicates is never rejected for that reason; hence no returned catalog has two rows for one target.", "quantifier": "all catalogs", "why_tests_cant": "Needs all pairs of rows of any table.", "anchors": ["py/qsonic/catalog.py:_validate_adjust_column_names", "py/qsonic/catalog.py:_read"]}
{"id": "C11", "title": "Column validation and renaming", "statement": "A catalog without one of the required columns is rejected with an exception naming nothing else changed; otherwise the result has RA, DEC and (non-mock) LASTNIGHT-type columns under their standard names, renaming never overwrites an existing standard column and all other columns keep their names and order.", "quantifier": "all sets of column names, mock, tile and healpix mode", "why_tests_cant": "The combinations of present and absent aliases are many; an unnoticed overwritten column swaps coordinates silently.", "anchors": ["py/qsonic/catalog.py:_check_required_columns", "py/qsonic/catalog.py:_validate_adjust_column_names"]}
{"id": "C12", "title": "Survey groups are homogeneous", "statement": "When the spectra reader splits a healpix chunk by SURVEY, every group is non-empty, contains only rows of the survey whose file is opened for it, and the groups together are the chunk.", "quantifier": "all chunks the catalog reader can return for all keep_surveys options", "why_tests_cant": "Depends on the joint order of pixel, survey and target over any catalog.", "anchors": ["py/qsonic/io.py:read_onehealpix_file_data_coadd", "py/qsonic/io.py:read_onehealpix_file_data_uncoadd", "py/qsonic/catalog.py:_prime_catalog"]}
{"id": "C13", "title": "Each spectrum is paired with its own catalog row", "statement": "For the coadd, tile and mock readers every returned spectrum has flux, ivar, mask and resolution from the file row whose TARGETID equals the TARGETID of its catalog row; the spectra returned are exactly the targets in both catalog chunk and file, in catalog order.", "quantifier": "all catalog chunks without duplicates sorted by target id, all fibermaps with unique targets in any order", "why_tests_cant": "Misaligned rows produce plausible spectra; only a statement over all permutations and subsets rules it out.", "anchors": ["py/qsonic/io.py:_read_onehealpix_file", "py/qsonic/io.py:read_onehealpix_file_data_coadd", "py/qsonic/io.py:read_onetile_coaddfile_data", "py/qsonic/io.py:read_onehealpix_file_mock"]}
{"id": "C14", "title": "Exposure spectra are paired with their own catalog row", "statement": "The uncoadd reader returns, for every exposure row of the file whose TARGETID is in the catalog chunk, one spectrum carrying the catalog row of the same TARGETID and the data of that exposure row, and nothing else.", "quantifier": "all catalog chunks and all exposure files with any number of exposures per target", "why_tests_cant": "Repeat counts and orders are unbounded.", "anchors": ["py/qsonic/io.py:read_onehealpix_file_data_uncoadd", "py/qsonic/io.py:_read_onehealpix_file"]}
{"id": "C15", "title": "True continuum is paired with its own target", "statement": "With true continuum requested on mocks, every spectrum gets the continuum stored for its own TARGETID.", "quantifier": "all mock files and catalog chunks", "why_tests_cant": "Misalignment gives plausible continua.", "anchors": ["py/qsonic/io.py:_read_true_continuum", "py/qsonic/io.py:read_onehealpix_file_mock"]}
{"id": "C16", "title": "Resolution-only reading attaches the right matrix", "statement": "read_resolution_matrices_onehealpix_data attaches to every spectrum the resolution matrix of its own target.", "quantifier": "all lists of spectra of one healpix pixel and all files", "why_tests_cant": "Missing targets shift the rows; tests use complete files.", "anchors": ["py/qsonic/io.py:read_resolution_matrices_onehealpix_data", "py/qsonic/io.py:_read_onehealpix_file_onlyreso"]}
{"id": "C17", "title": "Saved deltas: every valid spectrum once, in the file of its pixel", "statement": "save_deltas writes every spectrum with a valid continuum exactly once, to the file of its own healpix pixel (or of the rank in by-rank mode), and no spectrum without a valid continuum; nothing is written when no output directory is given.", "quantifier": "all lists of spectra, in any order and with any keys", "why_tests_cant": "The grouping depends on the whole list.", "anchors": ["py/qsonic/io.py:save_deltas"]}
{"id": "C18", "title": "Two ranks never write the same delta file", "statement": "After reading with the distributed queue and saving by healpix pixel, the sets of files written by two different ranks are disjoint, and in by-rank mode too.", "quantifier": "all catalogs, rank counts and subsets of valid spectra", "why_tests_cant": "A write race shows only with several ranks.", "anchors": ["py/qsonic/io.py:save_deltas", "py/qsonic/catalog.py:mpi_get_local_queue", "py/qsonic/mpi_utils.py:balance_load"]}
{"id": "C19", "title": "Reader selection", "statement": "get_spectra_reader_function returns the mock reader for mock analysis, else the tile reader, else the exposure reader, else the coadd reader, with the survey folder and resolution options passed through.", "quantifier": "all combinations of mode flags", "why_tests_cant": "Decision tables are rarely tested completely.", "anchors": ["py/qsonic/io.py:get_spectra_reader_function"]}
{"id": "C20", "title": "Input continuum is paired with its own target", "statement": "With the input continuum model every quasar gets the continuum stored under its own TARGETID, interpolated at its own wavelengths, and quasars without a stored continuum are invalid rather than given another one.", "quantifier": "all continuum files and spectra lists", "why_tests_cant": "Depends on all permutations and missing ids.", "anchors": ["py/qsonic/continuum_models/input_continuum_model.py:_find_append_continuum", "py/qsonic/continuum_models/input_continuum_model.py:InputContinuumModel"]}
{"id": "C21", "title": "Bad pixels enter with zero weight", "statement": "After constructing a Spectrum every pixel that is masked, has NaN flux or ivar, or negative ivar has ivar 0 and flux 0, and every other pixel keeps its flux and ivar.", "quantifier": "all arms, lengths and values including NaN and infinities", "why_tests_cant": "All combinations of special values and mask bits.", "anchors": ["py/qsonic/spectrum.py:Spectrum.__init__"]}
{"id": "C22", "title": "Forest region is exact", "statement": "set_forest_region keeps in every arm exactly the pixels with max(w1, (1+z) lya1) <= wavelength < min(w2, (1+z) lya2), with flux, ivar and resolution of the same pixels, and drops an arm with none.", "quantifier": "all strictly increasing wavelength grids, redshifts and limits", "why_tests_cant": "Boundary pixels for arbitrary grids.", "anchors": ["py/qsonic/spectrum.py:Spectrum.set_forest_region"]}
{"id": "C23", "title": "Kept arms are usable", "statement": "After set_forest_region every arm present in the forest has at least one pixel with positive ivar, and its wave, flux, ivar, and resolution have the same length.", "quantifier": "all spectra and any sequence of calls of set_forest_region, drop_short_arms and remove_nonforest_pixels", "why_tests_cant": "Sequences of mutating calls.", "anchors": ["py/qsonic/spectrum.py:Spectrum.set_forest_region", "py/qsonic/spectrum.py:Spectrum.drop_short_arms", "py/qsonic/spectrum.py:Spectrum.remove_nonforest_pixels"]}
{"id": "C24", "title": "Length cuts", "statement": "drop_short_arms removes exactly the arms whose number of good pixels is at most skip_ratio times the nominal number of forest pixels; is_long is true exactly if the total number of good pixels exceeds the ratio threshold, so masking pixels can never make a short spectrum long.", "quantifier": "all spectra and ratios in [0,1]", "why_tests_cant": "Thresholds at equality and monotonicity under all masks.", "anchors": ["py/qsonic/spectrum.py:Spectrum.drop_short_arms", "py/qsonic/spectrum.py:Spectrum.is_long", "py/qsonic/spectrum.py:Spectrum.get_real_size"]}
{"id": "C25", "title": "Forest weights", "statement": "With nonnegative ivar, eta > 0 and var_lss >= 0 the weight of a pixel is 0 exactly if its smoothed ivar is 0, never exceeds ivar/eta, times var_lss cont^2 never exceeds 1, grows with ivar and falls with var_lss.", "quantifier": "all values of ivar, continuum, eta, var_lss", "why_tests_cant": "Inequalities over a continuum of values.", "anchors": ["py/qsonic/spectrum.py:Spectrum.set_forest_weight"]}
{"id": "C26", "title": "Coadding arms is the weighted mean", "statement": "coadd_arms_forest gives in every pixel of the common grid the weight-averaged flux of all arm pixels on that wavelength, the summed ivar weights propagated, independent of the arm order, and it never writes outside the array.", "quantifier": "all arms that lie on a common wavelength grid, in any order", "why_tests_cant": "Index arithmetic over arbitrary overlaps.", "anchors": ["py/qsonic/spectrum.py:Spectrum.coadd_arms_forest", "py/qsonic/spectrum.py:Spectrum.simple_coadd"]}
{"id": "C27", "title": "Coadded gaps are masked", "statement": "Pixels of the coadded grid that no arm covers, or only with zero weight, come out with zero flux and zero ivar, never NaN.", "quantifier": "all arms", "why_tests_cant": "Division by zero paths depend on the coverage pattern.", "anchors": ["py/qsonic/spectrum.py:Spectrum.coadd_arms_forest", "py/qsonic/spectrum.py:Spectrum.simple_coadd"]}
{"id": "C28", "title": "Coadding deltas", "statement": "Delta.coadd yields the weighted mean on the union grid; pixels covered by only one delta, or in which one of the two has zero weight, keep delta and weight of the other; the result does not depend on the order of coadding.", "quantifier": "all pairs and sequences of deltas on one grid", "why_tests_cant": "Associativity and neutral elements over all overlaps.", "anchors": ["py/qsonic/spectrum.py:Delta.coadd"]}
{"id": "C29", "title": "Blinding never leaks", "statement": "Once blinding is set for the analysis every delta written is under the blinded column name, and a delta file made from a blinded one is blinded.", "quantifier": "all sequences of set_blinding, writes, reads and coadds", "why_tests_cant": "A leak needs a particular sequence of operations.", "anchors": ["py/qsonic/spectrum.py:Spectrum.set_blinding", "py/qsonic/spectrum.py:Spectrum.write", "py/qsonic/spectrum.py:Delta"]}
{"id": "C30", "title": "Delta write and read round trip", "statement": "Reading back a delta written by Spectrum.write or Delta.write returns the same wavelength, delta, ivar, weight, continuum and identity.", "quantifier": "all spectra in the forest", "why_tests_cant": "Column order and optional columns over all configurations.", "anchors": ["py/qsonic/spectrum.py:Spectrum.write", "py/qsonic/spectrum.py:Delta.__init__", "py/qsonic/spectrum.py:Delta.write"]}
{"id": "C31", "title": "Inconsistent wavelength grids are detected", "statement": "Constructing spectra whose wavelength grid differs from the grid in use raises an exception when the check is requested.", "quantifier": "all grids", "why_tests_cant": "Requires differing files.", "anchors": ["py/qsonic/spectrum.py:Spectrum._set_wave"]}
{"id": "C32", "title": "Slicing keeps arrays aligned", "statement": "Spectrum.slice(arm, i1, i2) reduces wave, flux, ivar, weight, smoothed ivar and resolution of that arm all to the pixels i1..i2 and touches no other arm.", "quantifier": "all spectra in all stages of the pipeline and all index ranges", "why_tests_cant": "Depends on which attributes share storage at the time of the call.", "anchors": ["py/qsonic/spectrum.py:Spectrum.slice"]}
{"id": "C33", "title": "Smoothing ivar respects masks", "statement": "Smoothing the noise never gives weight to a masked pixel and never removes an unmasked one: smoothed ivar is positive exactly where ivar is positive.", "quantifier": "all ivar arrays and smoothing sizes", "why_tests_cant": "All mask patterns.", "anchors": ["py/qsonic/mathtools.py:get_smooth_ivar", "py/qsonic/spectrum.py:Spectrum.set_smooth_forestivar"]}
{"id": "C34", "title": "Continuum chi square", "statement": "calc_continuum_chi2 is nonnegative, ignores masked pixels, and is -1 exactly if there is no valid continuum.", "quantifier": "all spectra", "why_tests_cant": "Values over all masks.", "anchors": ["py/qsonic/spectrum.py:Spectrum.calc_continuum_chi2"]}
{"id": "C35", "title": "Sky mask", "statement": "SkyMask.apply zeroes flux and ivar exactly of the pixels inside one of the listed observed or rest-frame wavelength ranges and leaves all others untouched.", "quantifier": "all mask lists and spectra", "why_tests_cant": "Range ends and overlaps of arbitrary lists.", "anchors": ["py/qsonic/masks.py:SkyMask"]}
{"id": "C36", "title": "BAL mask", "statement": "BALMask.apply zeroes exactly the pixels within a BAL velocity range of one of the transition lines for that quasar, and does nothing for a quasar without a pair of positive velocities.", "quantifier": "all BAL catalogs and spectra", "why_tests_cant": "Velocity to wavelength conversion and sign over all rows.", "anchors": ["py/qsonic/masks.py:BALMask"]}
{"id": "C37", "title": "DLA mask", "statement": "DLAMask.apply zeroes exactly the pixels whose transmission under the DLAs of that quasar falls below the limit, corrects the remaining ones by the transmission keeping signal-to-noise, and does nothing for quasars without DLAs; every DLA is attributed to the right quasar.", "quantifier": "all DLA catalogs and spectra", "why_tests_cant": "Grouping of an arbitrary catalog.", "anchors": ["py/qsonic/masks.py:DLAMask"]}
{"id": "C38", "title": "Masks only remove", "statement": "Applying any sequence of sky, BAL and bad-pixel masks only sets pixels to zero, gives the same result in any order and when repeated, and afterwards no arm without a good pixel remains.", "quantifier": "all mask sequences", "why_tests_cant": "All orders and repetitions.", "anchors": ["py/qsonic/scripts/qsonic_fit.py:apply_masks", "py/qsonic/masks.py:SkyMask", "py/qsonic/masks.py:BALMask"]}
{"id": "C39", "title": "Noise calibration", "statement": "Noise calibration keeps the good and masked pixels the same, never produces negative ivar, equals ivar/eta without additive term, and never increases ivar when eta >= 1.", "quantifier": "all spectra and calibration tables with eta > 0", "why_tests_cant": "Sign conditions over all values.", "anchors": ["py/qsonic/calibration.py:NoiseCalibrator"]}
{"id": "C40", "title": "Flux calibration", "statement": "Flux calibration leaves flux^2*ivar of every pixel unchanged, keeps masked pixels masked, and is undone by the calibration with the reciprocal table for pixels at the wavelengths of the table.", "quantifier": "all spectra and tables that are not zero at the wavelengths of the pixels", "why_tests_cant": "Algebra over all values.", "anchors": ["py/qsonic/calibration.py:FluxCalibrator"]}
{"id": "C41", "title": "Linear interpolation", "statement": "FastLinear1DInterp reproduces the nodes and every linear function, stays within the neighbouring node values inside the table, continues the first and the last segment linearly outside, and never indexes outside the table.", "quantifier": "all tables with at least two nodes and all evaluation points", "why_tests_cant": "All evaluation points incl. boundaries.", "anchors": ["py/qsonic/mathtools.py:FastLinear1DInterp", "py/qsonic/mathtools.py:_fast_eval_interp1d_lin"]}
{"id": "C42", "title": "Natural cubic spline", "statement": "The natural spline second derivatives solve the tridiagonal system with zero end curvature for every table, so the interpolant passes through every node and has continuous first and second derivative.", "quantifier": "all tables", "why_tests_cant": "Unbounded table sizes.", "anchors": ["py/qsonic/mathtools.py:_spline_cubic_natural", "py/qsonic/mathtools.py:_cubic", "py/qsonic/mathtools.py:FastCubic1DInterp"]}
{"id": "C43", "title": "Not-a-knot cubic spline", "statement": "The not-a-knot spline solves its tridiagonal system (up to the rounding of its tabulated pivots) and depends only on the table: the interpolant passes through every node, has continuous second derivative and no break of the third derivative at the second and the last but one node.", "quantifier": "all tables with at least four nodes", "why_tests_cant": "Unbounded table sizes and uninitialised memory.", "anchors": ["py/qsonic/mathtools.py:_spline_cubic_notaknot"]}
{"id": "C44", "title": "Subsample statistics do not depend on the distribution of data", "statement": "The mean from SubsampleCov does not depend on how the data are distributed over MPI ranks, on the number of subsamples, or on the order of the data.", "quantifier": "all data sequences, rank distributions and sample counts", "why_tests_cant": "All distributions.", "anchors": ["py/qsonic/mathtools.py:SubsampleCov"]}
{"id": "C45", "title": "Subsample object life cycle", "statement": "After reset a SubsampleCov behaves like a new one; measurements after normalisation are refused; statistics can be asked for in any order.", "quantifier": "all call sequences", "why_tests_cant": "All histories.", "anchors": ["py/qsonic/mathtools.py:SubsampleCov"]}
{"id": "C46", "title": "Jackknife covariance is valid", "statement": "The jackknife covariance is symmetric positive semidefinite with diagonal equal to the jackknife variance, and the denominators are nonzero with at least two subsamples.", "quantifier": "all data and subsample counts", "why_tests_cant": "All data.", "anchors": ["py/qsonic/mathtools.py:SubsampleCov"]}
{"id": "C47", "title": "Covariance of squares", "statement": "block_covariance_of_square returns the covariance matrix of the squares of Gaussian variables: diagonal 2v^2+4m^2v and zero off-diagonal for independent variables.", "quantifier": "all means and covariances", "why_tests_cant": "All inputs.", "anchors": ["py/qsonic/mathtools.py:block_covariance_of_square"]}
{"id": "C48", "title": "Variance statistics binning", "statement": "VarLSSFitter.add puts each pixel in the wavelength bin and the variance bin that contain its wavelength and pipeline variance, and pixels outside in the overflow bins only.", "quantifier": "all spectra and bin settings", "why_tests_cant": "Boundaries of arbitrary bins.", "anchors": ["py/qsonic/picca_continuum.py:VarLSSFitter"]}
{"id": "C49", "title": "Variance statistics count every pixel once", "statement": "The total pixel count over all bins including the overflow ones equals the number of pixels added, and masked pixels never contribute to a used bin.", "quantifier": "all sequences of add", "why_tests_cant": "All histories.", "anchors": ["py/qsonic/picca_continuum.py:VarLSSFitter.add"]}
{"id": "C50", "title": "Variance statistics do not depend on the distribution of spectra", "statement": "Counts, mean delta, variance and mean weights from VarLSSFitter do not depend on the distribution of spectra over ranks or their order.", "quantifier": "all distributions", "why_tests_cant": "All distributions.", "anchors": ["py/qsonic/picca_continuum.py:VarLSSFitter"]}
{"id": "C51", "title": "Bins are used only if well measured", "statement": "In each wavelength bin the var_lss-eta fit uses exactly the variance bins with at least the minimum number of pixels and quasars, or, if these are fewer than five, those with half of the minima; with fewer than five again the wavelength bin fails. Failed bins are zero before smoothing, and fit raises exactly if more than 40% of the wavelength bins failed, on all ranks alike.", "quantifier": "all statistics", "why_tests_cant": "All thresholds.", "anchors": ["py/qsonic/picca_continuum.py:VarLSSFitter.fit"]}
{"id": "C52", "title": "Flux stacking", "statement": "FluxStacker.add never indexes out of range for forest pixels, every pixel contributes to exactly one bin, and the result is the weighted mean over all ranks.", "quantifier": "all spectra in the wavelength range", "why_tests_cant": "Bin edges.", "anchors": ["py/qsonic/picca_continuum.py:FluxStacker"]}
{"id": "C53", "title": "Valid continua are positive", "statement": "Every continuum declared valid by any continuum model is positive in every forest pixel.", "quantifier": "all spectra, fit outcomes and continuum files", "why_tests_cant": "All fit outcomes incl. NaN.", "anchors": ["py/qsonic/continuum_models/picca_continuum_model.py:PiccaContinuumModel.fit_continuum", "py/qsonic/continuum_models/input_continuum_model.py:InputContinuumModel.fit_continuum", "py/qsonic/continuum_models/true_continuum_model.py:TrueContinuumModel.fit_continuum"]}
{"id": "C54", "title": "Fit iterations terminate with a complete record", "statement": "The iteration runs at least once and at most the requested number of times, stops at the first converged update, every iteration's attributes are saved under a distinct extension name and all ranks do the same number of iterations.", "quantifier": "all convergence patterns and iteration limits", "why_tests_cant": "All patterns.", "anchors": ["py/qsonic/picca_continuum.py:PiccaContinuumFitter.iterate"]}
{"id": "C55", "title": "Failure of the fit is collective", "statement": "fit_continua raises on every rank if no spectrum on any rank is valid, and on none otherwise; invalid fit counts are summed over all ranks.", "quantifier": "all rank counts and valid patterns", "why_tests_cant": "Multi process.", "anchors": ["py/qsonic/picca_continuum.py:PiccaContinuumFitter.fit_continua"]}
{"id": "C56", "title": "Final variance fit does not change weights", "statement": "The final variance fit is for information only: it does not change the weights of the deltas.", "quantifier": "all option combinations", "why_tests_cant": "Depends on the later stages.", "anchors": ["py/qsonic/picca_continuum.py:PiccaContinuumFitter.fit_final_varlss", "py/qsonic/scripts/qsonic_fit.py:mpi_continuum_fitting"]}
{"id": "C57", "title": "Chi square catalog has a row for each quasar", "statement": "save_contchi2_catalog writes one row per spectrum over all ranks, with the values of that spectrum.", "quantifier": "all distributions of spectra", "why_tests_cant": "Gathering over any ranks.", "anchors": ["py/qsonic/picca_continuum.py:PiccaContinuumFitter.save_contchi2_catalog"]}
{"id": "C58", "title": "Option conflicts are refused", "statement": "args_logic_fnc_qsonic_fit accepts exactly the consistent option combinations.", "quantifier": "all option combinations", "why_tests_cant": "Decision table.", "anchors": ["py/qsonic/scripts/qsonic_fit.py:args_logic_fnc_qsonic_fit"]}
{"id": "C59", "title": "Automatic redshift range loses no usable quasar", "statement": "A quasar outside the redshift range derived from the wavelength limits cannot have a forest long enough to pass the length cut.", "quantifier": "all limits, skip ratios and redshifts", "why_tests_cant": "Continuum of values.", "anchors": ["py/qsonic/scripts/qsonic_fit.py:args_logic_fnc_qsonic_fit", "py/qsonic/scripts/qsonic_fit.py:mpi_read_spectra_local_queue", "py/qsonic/spectrum.py:Spectrum.is_long"]}
{"id": "C60", "title": "Calibration reads every delta file once", "statement": "qsonic-calib distributes the delta files over the ranks so that every file is read by exactly one rank.", "quantifier": "all numbers of files and ranks", "why_tests_cant": "All combinations.", "anchors": ["py/qsonic/scripts/qsonic_calib.py:mpi_read_all_deltas"]}
{"id": "C61", "title": "Calibration stack", "statement": "mpi_stack_fluxes returns for every wavelength pixel the weighted mean of (1+delta) over all deltas on all ranks.", "quantifier": "all deltas", "why_tests_cant": "Rounding of indices.", "anchors": ["py/qsonic/scripts/qsonic_calib.py:mpi_stack_fluxes"]}
{"id": "C62", "title": "Quasars to remove are removed", "statement": "The targets listed for removal never contribute to the calibration and all others do.", "quantifier": "all catalogs", "why_tests_cant": "All sets.", "anchors": ["py/qsonic/scripts/qsonic_calib.py:mpi_set_targetid_list_to_remove", "py/qsonic/scripts/qsonic_calib.py:mpi_read_all_deltas"]}
{"id": "C63", "title": "Exposures are aligned with the coadd continuum", "statement": "When exposures are read after the fit, each exposure gets the continuum values of its own target at its own wavelengths.", "quantifier": "all exposures and coadds on one grid", "why_tests_cant": "All offsets.", "anchors": ["py/qsonic/scripts/qsonic_fit.py:mpi_read_exposures_after", "py/qsonic/spectrum.py:Spectrum.slice"]}
{"id": "C64", "title": "Coadding delta directories", "statement": "qsonic-coadd-deltas writes each target once in the output file of its pixel, coadding all its deltas from all input directories, and loses none.", "quantifier": "all directories, files and targets", "why_tests_cant": "All overlaps.", "anchors": ["py/qsonic/scripts/qsonic_coadd_deltas.py:read_dirs_to_dict", "py/qsonic/scripts/qsonic_coadd_deltas.py:write_one_hpx", "py/qsonic/scripts/qsonic_coadd_deltas.py:main"]}
{"id": "C65", "title": "Failures stop all ranks", "statement": "If any stage of qsonic-fit fails on some ranks, the whole job ends: either all ranks raise QsonicException and exit, or a failing rank aborts the job; no run ends in a deadlock.", "quantifier": "all failure patterns over ranks and stages", "why_tests_cant": "All interleavings of failures.", "anchors": ["py/qsonic/scripts/qsonic_fit.py:main", "py/qsonic/scripts/qsonic_fit.py:mpi_run_all"]}
{"id": "C66", "title": "Option ranges", "statement": "Numeric options declared with an allowed range accept exactly the numbers in it.", "quantifier": "all input strings/floats and ranges", "why_tests_cant": "Special values.", "anchors": ["py/qsonic/io.py:_float_range"]}
{"id": "C67", "title": "Coadded weights", "statement": "The weights of a coadded delta are nonnegative and never exceed its inverse variance, so that coadding can be repeated with meaningful weights.", "quantifier": "all deltas with nonnegative weights and ivar", "why_tests_cant": "Inequalities over a continuum of values; a violation needs weights above ivar, which smoothing can produce.", "anchors": ["py/qsonic/spectrum.py:Delta.coadd"]}
{"id": "C68", "title": "Forest signal-to-noise and initial amplitude", "statement": "After set_forest_region the mean signal-to-noise of an arm is the mean of sqrt(ivar) * flux over its good pixels. The initial continuum amplitude is between zero and the largest flux and positive if a good pixel has positive flux. Flux in masked pixels has no influence. The continuum fit starts at the constant that fits the flux best. The effective signal-to-noise is nonnegative and at most the largest arm value.", "quantifier": "all spectra, regions and preceding operations", "why_tests_cant": "Statement over all pixel values and all masked patterns, including values hidden under masks.", "anchors": ["py/qsonic/spectrum.py:Spectrum._set_forest_related_parameters", "py/qsonic/spectrum.py:Spectrum.get_effective_meansnr"]}
{"id": "C69", "title": "The signal-to-noise cut refers to the kept pixels", "statement": "The signal-to-noise compared with the cut is that of the pixels kept after masking and dropping arms.", "quantifier": "all spectra, masks and length cuts", "why_tests_cant": "Order of operations between modules; a test with one spectrum sees a plausible number either way.", "anchors": ["py/qsonic/spectrum.py:Spectrum.get_effective_meansnr", "py/qsonic/spectrum.py:Spectrum.drop_arm", "py/qsonic/scripts/qsonic_fit.py:mpi_read_calibrate_mask_select_spectra"]}
{"id": "C70", "title": "Signal-to-noise of the red side", "statement": "The rsnr of a new spectrum is the mean of sqrt(ivar) * flux over the pixels with positive ivar at or above the Lyman alpha line of the quasar, over all arms; pixels below the line have no influence.", "quantifier": "all spectra with sorted wavelengths", "why_tests_cant": "Statement over all wavelength grids and redshifts, including the line between and on pixels.", "anchors": ["py/qsonic/spectrum.py:Spectrum._set_rsnr"]}
{"id": "C71", "title": "Failures of qsonic-calib stop all ranks", "statement": "If any stage of qsonic-calib fails on some ranks, the whole job ends: all ranks exit with the same status or the job is aborted; no rank waits for ever.", "quantifier": "all failure patterns over ranks and stages, options and numbers of processes", "why_tests_cant": "All interleavings of failures.", "anchors": ["py/qsonic/scripts/qsonic_calib.py:main", "py/qsonic/scripts/qsonic_calib.py:mpi_run_all"]}
{"id": "C72", "title": "Weights of exposures read after the fit", "statement": "Exposures read after the continuum fit (--coadd-arms ... --exposures after) are written with weights of their continuum and the fitted var_lss and eta, like all other spectra.", "quantifier": "all coadded spectra and exposures on one grid, all fitted functions", "why_tests_cant": "The weights written are plausible positive numbers; only the relation to continuum and var_lss in every pixel tells them apart.", "anchors": ["py/qsonic/scripts/qsonic_fit.py:mpi_read_exposures_after", "py/qsonic/spectrum.py:Spectrum.set_forest_weight"]}
{"id": "C73", "title": "Transmission of damped systems", "statement": "The transmission used to correct for DLAs lies strictly between 0 and 1 at every wavelength, redshift and column density. More DLAs or larger column densities never increase the inverse variance of any pixel, and none becomes negative.", "quantifier": "all wavelengths, redshifts, column densities, catalogs", "why_tests_cant": "Inequalities over real numbers for an analytic approximation of the Voigt profile that is a difference of large terms.", "anchors": ["py/qsonic/masks.py:DLAMask", "py/qsonic/masks.py:DLAMask.apply"]}
{"id": "C74", "title": "Gaussian smoothing of errors", "statement": "fft_gaussian_smooth returns an array of the same length, is linear, leaves constant arrays unchanged, convolves with a Gaussian whose sigma is the given number of pixels, and keeps positive arrays positive.", "quantifier": "all arrays and sigmas", "why_tests_cant": "Statement about all frequencies; a wrong scale still gives a smooth curve.", "anchors": ["py/qsonic/mathtools.py:fft_gaussian_smooth", "py/qsonic/mathtools.py:get_smooth_ivar"]}
{"id": "C75", "title": "The written weights are those of the written functions", "statement": "The weights written for a spectrum are ivar / (eta + ivar * var_lss * continuum^2) with the final var_lss and eta, eta is counted once (not again in ivar after --eta-calib-ivar), and chi2 is the sum over the pixels written with these weights.", "quantifier": "all spectra, fitted functions and combinations of --eta-calib-ivar, --coadd-arms after and --noise-calibration-add", "why_tests_cant": "Combination of options and order of the last updates.", "anchors": ["py/qsonic/picca_continuum.py:PiccaContinuumFitter.iterate", "py/qsonic/picca_continuum.py:PiccaContinuumFitter.fit_final_varlss", "py/qsonic/scripts/qsonic_fit.py:mpi_continuum_fitting"]}
{"id": "C76", "title": "Errors in the fit of var_lss", "statement": "The error of the variance of delta given to the fit of var_lss and eta includes the error of the mean and is never below the Gaussian estimate, for any data and number of subsamples.", "quantifier": "all spectra, distributions over ranks, numbers of subsamples, with and without covariance", "why_tests_cant": "Fallback branch for singular covariance matrices; inequality over all data.", "anchors": ["py/qsonic/picca_continuum.py:VarLSSFitter.calculate_subsampler_stats", "py/qsonic/picca_continuum.py:VarLSSFitter._get_wave_bin_slice_params"]}
{"id": "C77", "title": "Covariance in the fit of var_lss", "statement": "With --var-use-cov the matrix given to the fit of a wavelength bin is the propagated jackknife covariance of exactly its variance bins: symmetric, with the propagated variances on the diagonal, and positive semidefinite.", "quantifier": "all spectra, distributions over ranks, numbers of subsamples and bins", "why_tests_cant": "Block and offset arithmetic over all bins; matrix inequality over all data.", "anchors": ["py/qsonic/picca_continuum.py:VarLSSFitter.calculate_subsampler_stats", "py/qsonic/picca_continuum.py:VarLSSFitter.cov_var_delta"]}
{"id": "C78", "title": "The mean continuum has unit mean and no large-scale slope", "statement": "After every iteration the new mean continuum is normalised (its spline integrates to one over the logarithmic rest-frame range), and the part that is degenerate with the slope of each quasar (Legendre polynomials up to the continuum order) is removed from it.", "quantifier": "all stacks, old mean continua, numbers of bins, continuum orders", "why_tests_cant": "Integrals of splines of real functions; any smooth curve looks like a mean continuum.", "anchors": ["py/qsonic/picca_continuum.py:PiccaContinuumFitter._project_normalize_meancont", "py/qsonic/picca_continuum.py:PiccaContinuumFitter.update_mean_cont"]}
{"id": "C79", "title": "Meaning of convergence", "statement": "The fit is declared converged exactly if every update of the mean continuum is below 0.33 times its error.", "quantifier": "all stacks, old mean continua and numbers of bins", "why_tests_cant": "The alternative test on chi2 only differs for many bins and special updates.", "anchors": ["py/qsonic/picca_continuum.py:PiccaContinuumFitter.update_mean_cont"]}
{"id": "C80", "title": "Normalising the stacked flux", "statement": "With --normalize-stacked-flux the continua are multiplied by the stacked flux, so that stacking again gives one in every bin, and positive continua stay positive.", "quantifier": "all spectra, distributions over ranks and grids", "why_tests_cant": "The effect of interpolating the stack differs from pixel to pixel; empty bins and the edges are rare.", "anchors": ["py/qsonic/picca_continuum.py:PiccaContinuumFitter._normalize_flux", "py/qsonic/picca_continuum.py:FluxStacker"]}
{"id": "C81", "title": "Degrees of freedom in the chi square catalog", "statement": "CONT_dof of a valid quasar is the number of good pixels of the spectrum that CONT_chi2 was computed for, minus the number of fitted parameters.", "quantifier": "all spectra, continuum models and --coadd-arms options", "why_tests_cant": "Differs by the pixels in the overlap of arms only, for one option.", "anchors": ["py/qsonic/continuum_models/picca_continuum_model.py:PiccaContinuumModel.init_spectra", "py/qsonic/scripts/qsonic_fit.py:mpi_continuum_fitting", "py/qsonic/picca_continuum.py:PiccaContinuumFitter.save_contchi2_catalog"]}
{"id": "C82", "title": "Mean resolution in the delta header", "statement": "MEANRESO of a spectrum whose resolution matrix columns are Gaussians is the velocity width of these Gaussians at the mean wavelength; if the widths vary from pixel to pixel it is between the smallest and the largest one. Pixels with zero weight do not matter.", "quantifier": "all numbers of diagonals, pixels, amplitudes, widths and weights", "why_tests_cant": "A test has one width; the claim is for any mixture, and for gaps between coadded arms.", "anchors": ["py/qsonic/spectrum.py:Spectrum.mean_resolution", "py/qsonic/spectrum.py:Spectrum.coadd_arms_forest"]}
{"id": "C83", "title": "Fiducial mean flux and var_lss", "statement": "With --fiducial-meanflux or --fiducial-varlss all ranks use the same function, which has the value of the table at each wavelength of the table; if the table cannot be read or is not equally spaced, all ranks raise. Without a mean flux file the mean flux is one. A table with non-negative values gives non-negative finite weights.", "quantifier": "all files, tables and wavelengths, numbers of ranks", "why_tests_cant": "Only root reads the file; wavelengths between and outside of the nodes form a continuum.", "anchors": ["py/qsonic/picca_continuum.py:PiccaContinuumFitter._get_fiducial_interp", "py/qsonic/picca_continuum.py:PiccaContinuumFitter._set_fiducials"]}
{"id": "C84", "title": "Table of variance statistics", "statement": "Row iw*nvarbins+iv of every column of VAR_STATS belongs to wavelength bin iw and variance bin iv: central wavelength, numbers of pixels and quasars, mean and variance of delta, pipeline variance, errors and covariances. var_delta is the mean squared deviation. In each wavelength bin var_pipe is in descending order.", "quantifier": "all pixels, bins and distributions over ranks", "why_tests_cant": "A wrong alignment of one column in a flat table looks plausible.", "anchors": ["py/qsonic/picca_continuum.py:VarLSSFitter.write", "py/qsonic/picca_continuum.py:VarLSSFitter.var_centers"]}
{"id": "C85", "title": "Fixed points and empty bins of the mean continuum", "statement": "If the stack of flux over continuum is the same in all rest-frame bins that have data, a normalised mean continuum without Legendre components stays exactly as it is and the iteration stops. Whatever the stack has in bins without data does not matter; their error is ten times the average error.", "quantifier": "all stacks, patterns of empty bins, grids and orders", "why_tests_cant": "Needs the update for every pattern of empty bins and every order.", "anchors": ["py/qsonic/picca_continuum.py:PiccaContinuumFitter.update_mean_cont", "py/qsonic/picca_continuum.py:PiccaContinuumFitter._project_normalize_meancont"]}
{"id": "C86", "title": "The continuum fit does not depend on the number of processes", "statement": "For the same spectra, a continuum fit with any number of MPI processes and any distribution of the spectra over them ends with the same number of iterations, the same verdict on convergence, the same mean continuum in every iteration and the same continuum and weights for each spectrum, or fails on all processes in the same iteration.", "quantifier": "all numbers of processes, distributions and orders of the spectra, minimizers, numbers of iterations", "why_tests_cant": "Tests run with one process; a comparison of two runs covers one distribution of one sample.", "anchors": ["py/qsonic/picca_continuum.py:PiccaContinuumFitter.iterate", "py/qsonic/picca_continuum.py:FluxStacker.calculate", "py/qsonic/picca_continuum.py:VarLSSFitter.__init__"]}
{"id": "C87", "title": "Exactly the spectra that meet the cuts are fitted", "statement": "The spectra passed to the continuum fit are, in order, exactly those that were read with a good pixel in the forest region, RSNR at least --min-rsnr, more than the fraction --skip of the expected pixels good and unmasked, and effective SNR of the forest (before calibrations and masks) at least --min-forestsnr; the good pixels of each are the good pixels read that are in the forest and in no mask, with noise and flux calibrations and the DLA correction applied once. A selected spectrum has a good pixel left. Whether a spectrum is selected does not depend on the other spectra or on which process reads it.", "quantifier": "all spectra, redshifts, calibrations, masks, values of the cuts and queues", "why_tests_cant": "Tests call each step on one spectrum; none checks the chain of steps, its order or the interplay of masks and cuts.", "anchors": ["py/qsonic/scripts/qsonic_fit.py:mpi_read_calibrate_mask_select_spectra", "py/qsonic/scripts/qsonic_fit.py:mpi_read_spectra_local_queue", "py/qsonic/scripts/qsonic_fit.py:apply_masks", "py/qsonic/scripts/qsonic_fit.py:remove_short_spectra"]}
{"id": "C88", "title": "Deltas do not depend on the number of processes", "statement": "For the same catalog, data and options, qsonic-fit on any two numbers of MPI processes gives the same set of deltas with the same contents, the same blinding date (the last night of the whole catalog), the same number of iterations and, with --save-by-hpx, the same delta files; or it fails on all processes of both runs with the same exception.", "quantifier": "all catalogs, readers, options, minimizers and numbers of processes", "why_tests_cant": "Tests run one process on one small file; the interplay of queues, blinding, masks, fit and file names over ranks cannot be enumerated.", "anchors": ["py/qsonic/scripts/qsonic_fit.py:mpi_run_all", "py/qsonic/catalog.py:mpi_get_local_queue", "py/qsonic/io.py:save_deltas"]}
{"id": "C89", "title": "Delta files can be read back completely", "statement": "After set_blinding, save_deltas by pixel makes one readable file per pixel, and read_deltas gives exactly one delta for each arm with signal of each valid spectrum of that pixel. read_deltas accepts a file if and only if every table has a target, MEANSNR, wavelengths and deltas under an accepted name, IVAR, WEIGHT and CONT; a missing name for target, wavelength or delta raises RuntimeError. What is read is a function of the file.", "quantifier": "all lists of spectra, arms, blinding states, files and orders of Python sets", "why_tests_cant": "The order of a set of strings changes between interpreter runs; tests see one order and one file.", "anchors": ["py/qsonic/io.py:read_deltas", "py/qsonic/io.py:save_deltas", "py/qsonic/spectrum.py:Delta", "py/qsonic/spectrum.py:Spectrum.write"]}
{"id": "C90", "title": "Results do not depend on the units of flux", "statement": "If fluxes are multiplied by a positive factor and inverse variances divided by its square, with a factor that may differ from spectrum to spectrum, qsonic-fit with the picca model selects the same spectra, does the same iterations, writes the same attributes file and the same delta files with the same deltas, inverse variances and weights; only the column CONT is multiplied by the factor.", "quantifier": "all spectra, factors, catalogs, calibrations, masks, cuts, numbers of processes and iterations; all minimizers that find the minimum", "why_tests_cant": "A constant with hidden units (an epsilon, a tolerance, a limit) shows up only for data on another scale than those of the tests.", "anchors": ["py/qsonic/scripts/qsonic_fit.py:mpi_run_all", "py/qsonic/continuum_models/picca_continuum_model.py:PiccaContinuumModel._continuum_costfn", "py/qsonic/continuum_models/picca_continuum_model.py:PiccaContinuumModel.fit_continuum", "py/qsonic/spectrum.py:Spectrum.write", "py/qsonic/mathtools.py:get_smooth_ivar"]}
{"id": "C91", "title": "Fitter and continuum model share their functions", "statement": "The continuum model holds references to the interpolators of the fitter, which are reset in place: every fit of a spectrum uses the mean continuum, var_lss and eta of the last update, and an interpolator after reset is the one newly made of the table. A run on the shared objects gives the same spectra, iterations and attribute tables as one in which functions are passed by value. With --fiducial-varlss the final variance fit gives the fitter new interpolators which the model never sees: its var_lss stays the table and eta stays one.", "quantifier": "all numbers of ranks, spectra, iterations, variance fits, tables, and contents of uninitialised memory", "why_tests_cant": "Sharing of objects is an invariant over all updates; a test sees one sequence of them, and a lost update only changes numbers slightly.", "anchors": ["py/qsonic/picca_continuum.py:PiccaContinuumFitter.__init__", "py/qsonic/picca_continuum.py:PiccaContinuumFitter.fit_final_varlss", "py/qsonic/mathtools.py:FastCubic1DInterp.reset", "py/qsonic/mathtools.py:FastLinear1DInterp.reset"]}
{"id": "C92", "title": "Headers of delta tables", "statement": "Every table that Spectrum.write makes has in its header the identity of its quasar, the blinding strategy given by the last night, the signal-to-noise of its own arm, pixel size and smoothing scale; MEANRESO is there exactly if there is a resolution; exposure keys are those of the catalog row. Tables and arms with signal correspond one to one in order.", "quantifier": "all spectra, arms, nights, catalogs rows and blinding arguments", "why_tests_cant": "Depends on values of all arms and on the date intervals; a unit test checks one table.", "anchors": ["py/qsonic/spectrum.py:Spectrum.write", "py/qsonic/spectrum.py:Spectrum._set_fits_hdr", "py/qsonic/spectrum.py:Spectrum.set_blinding"]}
{"id": "C93", "title": "Life of the variance statistics", "statement": "Whatever was called on the VarLSSFitter objects of the ranks before, after reset on all ranks they are as new, so later calls give what they give on new objects. After the statistics are calculated spectra are refused and sums and numbers of quasars stay; calculating again changes nothing.", "quantifier": "all sequences of calls on all numbers of ranks", "why_tests_cant": "Sequences of calls of any length, including refused and failed ones.", "anchors": ["py/qsonic/picca_continuum.py:VarLSSFitter.reset", "py/qsonic/picca_continuum.py:VarLSSFitter.add", "py/qsonic/picca_continuum.py:VarLSSFitter.calculate_subsampler_stats"]}
{"id": "C94", "title": "Outlier mask", "statement": "get_median_outlier_mask masks a pixel exactly if it was masked before or abs(f - median) > esigma * max(n, sigma), with the moving median and sigma = 1.4826 MAD of the good pixels.", "quantifier": "all flux and ivar arrays, windows and cuts", "why_tests_cant": "Order statistics of all windows and reflected edges.", "anchors": ["py/qsonic/mathtools.py:get_median_outlier_mask"]}
{"id": "C95", "title": "Wings and core of the DLA profile", "statement": "Ten Doppler widths and more from the center of Lya and Lyb, the optical depth that the code assigns to a DLA of column density N is that of the two Lorentz damping wings, N (pi e^2 / m c) f A / (4 pi^2 dnu^2) in CGS units, up to the fraction 2/u^2, u the distance in Doppler widths. Without damping the profile is the Gaussian of the Doppler width and its integral over frequency is N (pi e^2 / m c) f, up to the factor exp(-1e-12).", "quantifier": "all wavelengths, redshifts, column densities, Doppler widths, oscillator strengths and damping constants with damping parameter above 1e-5", "why_tests_cant": "A statement on the accuracy of an analytic approximation and on the units of its factors at every wavelength, including an integral over the real line.", "anchors": ["py/qsonic/masks.py:DLAMask.get_optical_depth", "py/qsonic/masks.py:DLAMask.get_dla_flux", "py/qsonic/masks.py:DLAMask.H_tepper_garcia"]}
{"id": "C96", "title": "The order of the arms does not matter", "statement": "The arms of a run come in an arbitrary order (`list(set(args.arms))`, a set of strings). The readers give the same spectra whatever this order is, and with `--coadd-arms before` the whole run (selection, fit, files) is identical. Without coadding, the continua, chi2, weights and tables are the same up to the order of the arms as long as the variance statistics are, and the statistics themselves (not their jackknife errors) are.", "quantifier": "all catalogs, files, options, orders of arms and numbers of processes", "why_tests_cant": "The order of a set of strings changes with the hash seed of the interpreter; a test sees the order of one process, with a few arms and spectra.", "anchors": ["py/qsonic/scripts/qsonic_fit.py:61", "py/qsonic/io.py:354-711", "py/qsonic/spectrum.py:589-676", "py/qsonic/picca_continuum.py:430-450", "py/qsonic/picca_continuum.py:632-681"]}
{"id": "C97", "title": "The continuum of a quasar maximises the likelihood", "statement": "The cost minimised for a quasar is -2 ln of the Gaussian likelihood of its flux, with variance eta/ivar + var_lss C^2, over the pixels with positive smoothed ivar. The continuum of a valid fit is mean continuum times mean flux times a polynomial in the logarithm of the rest-frame wavelength, scaled to [-1, 1] over the bins of the mean continuum, with the coefficients that maximise this likelihood.", "quantifier": "all spectra, arms, orders, mean continua, mean fluxes, var_lss and eta functions", "why_tests_cant": "The logarithm of the weight and pixels without ivar change the minimum only slightly; no test compares with a likelihood.", "anchors": ["py/qsonic/continuum_models/picca_continuum_model.py:PiccaContinuumModel._continuum_costfn", "py/qsonic/continuum_models/picca_continuum_model.py:PiccaContinuumModel.get_continuum_model", "py/qsonic/continuum_models/picca_continuum_model.py:PiccaContinuumModel.fit_continuum"]}
{"id": "C98", "title": "The order of rows in the input files does not matter", "statement": "Reordering the rows of the quasar catalog, of the spectra files (FIBERMAP and images together), of the truth file of mocks, of the DLA catalog or the lines of the sky mask file changes nothing: the catalog, the spectra read from a chunk, the masked spectra and the whole run are identical, also with another (unstable) argsort. Spectra files are assumed to have no target twice; with a duplicate the next target of the catalog gets the data of the duplicate.", "quantifier": "all files, permutations of rows, options and argsort functions", "why_tests_cant": "there are as many orders as permutations, and data with ties decide what an unstable sort does", "anchors": ["py/qsonic/catalog.py:41-82", "py/qsonic/io.py:354-437", "py/qsonic/io.py:499-549", "py/qsonic/io.py:608-711", "py/qsonic/masks.py:66-105", "py/qsonic/masks.py:418-462"]}
{"id": "C99", "title": "The attributes of one run can calibrate another", "statement": "The attributes file written by a run that fits var_lss and eta is accepted by --noise-calibration and --flux-calibration of another run: every rank of the second run gets, at every wavelength, the var_lss and eta with which the first run ended (if no bin of eta is exactly zero) and the stacked flux of its last iteration with one in empty bins. The file of qsonic-calib is accepted as well, and its values are found at the wavelengths at which it lists them. An attributes file of a run with --fiducial-varlss has the fitted variance in VAR_FUNC-fit only: as noise calibration it makes every rank raise QsonicException, while the flux calibration works. No attributes file is accepted by --fiducial-varlss or --fiducial-meanflux.", "quantifier": "all spectra, numbers of ranks of both runs, iterations, variance fits that keep the number of bins (four or more), tolerances of the spacing test, contents of uninitialised memory", "why_tests_cant": "The contract is between two programs: what one run leaves after any number of iterations and what the reader of another run makes of it, including spline coefficients that are not stored. Tests read small files written by hand.", "anchors": ["py/qsonic/picca_continuum.py:522-630", "py/qsonic/calibration.py:71-106", "py/qsonic/calibration.py:165-187", "py/qsonic/scripts/qsonic_calib.py:241-259", "py/qsonic/picca_continuum.py:177-211"]}
{"id": "C100", "title": "A stricter cut only removes", "statement": "If the spectra are selected with some values of --min-rsnr, --min-forestsnr and --skip, then with larger values of them mpi_read_calibrate_mask_select_spectra returns exactly those of the spectra that meet the larger values, unchanged and in the same order. Likewise a smaller range of redshifts or fewer surveys gives the rows of the catalog read with the larger range that are in the smaller one, in the same order unless SURVEY takes part in the sorting with only one of the options, and is refused if there are none. No spectrum or row appears, disappears or changes for another reason.", "quantifier": "all readers, queues, options, masks, calibrations and spectra with 1+z >= 0 and dwave > 0; all catalogs, surveys and redshift ranges", "why_tests_cant": "the cuts are made at different places (before coadding, after masks, at the end), so that they could influence each other; a test compares some data with some values", "anchors": ["py/qsonic/scripts/qsonic_fit.py:131-151", "py/qsonic/scripts/qsonic_fit.py:255-312", "py/qsonic/spectrum.py:395-438", "py/qsonic/catalog.py:339-393"]}
{"id": "C101", "title": "Quasars whose continuum fit fails have no influence", "statement": "When the continuum fit of some quasars fails in every iteration, the run is the one without these quasars: every rank ends with the same mean continuum, variance functions, number of iterations and verdict (or all ranks fail with the same exception in both runs), the attributes file receives the same extensions in the same order, and every other spectrum gets the same continuum, weights and chi square. A failed fit leaves wavelengths, flux and inverse variance of the spectrum unchanged.", "quantifier": "for all lists of spectra of all ranks, numbers of ranks and iterations, starting functions, minimizers, variance fitters (with or without the in-loop fit), sets of quasars whose fits fail, output names", "why_tests_cant": "the failures are rare and depend on the minimizer; a test would need two complete runs of the pipeline with and without chosen quasars and could only try a few sets", "anchors": ["py/qsonic/picca_continuum.py:360-427", "py/qsonic/picca_continuum.py:429-470", "py/qsonic/picca_continuum.py:522-594", "py/qsonic/spectrum.py:49-51", "py/qsonic/continuum_models/picca_continuum_model.py:192-251"]}
{"id": "C102", "title": "Fit parameters in the chi square catalog", "statement": "After a run without exception the chi square catalog can be written, with CONT_x of cont_order + 1 numbers and CONT_xcov of (cont_order + 1)^2 for every quasar, whatever fits failed. For a valid quasar the continuum of every forest pixel is the polynomial with the coefficients CONT_x times mean continuum times mean flux (times the stacked flux with --normalize-stacked-flux), where the mean continuum is that of the last iteration (extension CONT-k), not the final one in CONT. A failed fit keeps the parameters of the last valid fit. With true or input continua CONT_x is zero and CONT_dof counts all good pixels.", "quantifier": "for all spectra, distributions over ranks, numbers of iterations, orders of the polynomial, minimizers that return as many parameters as they start with, variance fitters, starting functions", "why_tests_cant": "the relation involves the state of the functions before the last update, which is not observable from the fitted objects after the run, and histories of valid and failed fits of each quasar", "anchors": ["py/qsonic/spectrum.py:237-244", "py/qsonic/continuum_models/picca_continuum_model.py:126-167", "py/qsonic/continuum_models/picca_continuum_model.py:225-271", "py/qsonic/continuum_models/true_continuum_model.py:48-66", "py/qsonic/continuum_models/input_continuum_model.py:207-227", "py/qsonic/picca_continuum.py:632-682"]}
{"id": "C103", "title": "Widths of the images read", "statement": "If _read_onehealpix_file returns, then for every arm asked for the flux, ivar, mask and resolution arrays have one row per FIBERMAP row returned, as many pixels as the wavelength array of the arm, no element left as np.empty made it, and row k is the row of the file belonging to FIBERMAP row k. An image with another width than the wavelength array is refused with an exception; no row is cut, padded or repeated.", "quantifier": "all files (any widths of the images), target lists, arms, with and without resolution", "why_tests_cant": "Tests read well formed files; that no element of the uninitialised array survives and that every other width is refused is a statement on all files.", "anchors": ["py/qsonic/io.py:278-296", "py/qsonic/io.py:354-437"]}
{"id": "C104", "title": "Only good pixels of the forest and of the red side matter", "statement": "What the input files contain in bad pixels (flagged, nan, or with a negative or undefined ivar), and in pixels which are neither in the forest nor redward of Lya, has no influence on a run of qsonic-fit: the spectra selected, the continua, the deltas and all files saved are the same, and so are the errors raised.", "quantifier": "all spectra on increasing grids, all options of selection, calibration, masks and fit, any number of ranks", "why_tests_cant": "A relation between runs on different inputs; a test varies a few pixels of one spectrum.", "anchors": ["py/qsonic/spectrum.py:200-341", "py/qsonic/spectrum.py:370-381", "py/qsonic/scripts/qsonic_fit.py:98-151", "py/qsonic/scripts/qsonic_fit.py:452-502"]}
{"id": "C105", "title": "qsonic-calib: the file holds the statistics of all deltas that are to be used", "statement": "A run of qsonic-calib writes one file, by the root: a table with the statistics per bin (number of pixels and of deltas, mean and variance of delta, pipeline variance) of all deltas of all delta files that are to be used (not listed for removal, not of a BAL quasar, in the surveys to keep, signal to noise in the range), the fit of var_lss and eta to the rows of this very table, and the weighted mean of 1 + delta of the same deltas at every wavelength. All ranks end in the same way, and the statistics and the stack do not depend on the number of ranks and on the order of the files.", "quantifier": "all delta files, catalogs, lists of targets and options, any number of ranks and of subsamples, any curve_fit", "why_tests_cant": "Which files are read by which rank, selection, reductions, fit and writing interact; tests run single functions on one rank with a few deltas.", "anchors": ["py/qsonic/scripts/qsonic_calib.py:88-259", "py/qsonic/picca_continuum.py:853-1161", "py/qsonic/mpi_utils.py:62-173"]}
{"id": "C106", "title": "CONT_chi2 of the catalog is the chi square of the deltas that are written", "statement": "For every valid quasar the value CONT_chi2 in continuum_chi2_catalog.fits equals the sum, over all delta tables written for this quasar and all their pixels, of WEIGHT times DELTA squared, so that a user can reproduce and cut on the goodness of fit from the delta files alone. This holds for any number of arms, masked pixels, smoothing, and the options that change spectra after the fit.", "quantifier": "all spectra (any arms, pixels, weights, continua that are not zero), numbers of ranks, iterations, minimizers and variance fits, with and without --coadd-arms after, --eta-calib-ivar, --normalize-stacked-flux, additive noise calibration", "why_tests_cant": "the chi square is computed at the end of the fit of one quasar, while continuum, ivar, weights and the list of arms are changed in place afterwards by four different steps in three modules; whether the number in the catalog still belongs to the data in the files depends on the order of these steps for every combination of options, which a unit test of one function cannot see", "anchors": ["py/qsonic/spectrum.py:499-520 calc_continuum_chi2", "py/qsonic/spectrum.py:716-772 write", "py/qsonic/picca_continuum.py:484-520 _normalize_flux, _eta_calibate_ivar", "py/qsonic/scripts/qsonic_fit.py:315-350 mpi_continuum_fitting", "py/qsonic/scripts/qsonic_fit.py:494-496 drop_short_arms"]}
{"id": "C107", "title": "Fitted and smoothed var_lss and eta stay in the bounds of the fit", "statement": "After an update of the functions, var_lss (and eta, if it is fitted) in every wavelength bin is the value at the bin's center of the spline through those bins whose fit succeeded with a positive var_lss, weighted with their inverse errors; bins without data or with a failed fit have no influence on the others. All values are between 0 and 2, the bounds given to the fit, and a bin with enough data is fitted.", "quantifier": "all statistics of deltas, all numbers of wavelength and variance bins, all guesses, all fitting functions with values in the bounds, all splines, with and without eta", "why_tests_cant": "Which bins fail, and where a cubic spline through the others goes, depends on the data; tests fit well-filled bins only.", "anchors": ["py/qsonic/picca_continuum.py:448-464", "py/qsonic/picca_continuum.py:972-993", "py/qsonic/picca_continuum.py:995-1070"]}
{"id": "C108", "title": "What a command line means", "statement": "A command line of qsonic-fit, qsonic-calib or qsonic-coadd-deltas is accepted exactly if it can be read as known options (full name, unambiguous beginning, letter; value in the same or the next word) with allowed values and all required options; each option then has its last value, or its default, and the order of different options does not matter. Accepted options have values among their choices, the ratio of --skip is in its range, there is a survey to keep and an arm to read. All ranks go on with the same options, or all leave with a status that tells the failure; every number can be given as a value, and the same selection of surveys can be asked for in both programs.", "quantifier": "all command lines (lists of words of any characters), all conversions of text to numbers, all numbers of processes, all lists of options with different names", "why_tests_cant": "There are infinitely many command lines, and which of them are accepted depends on all names of the combined parsers together; tests run a few.", "anchors": ["py/qsonic/io.py:16-74", "py/qsonic/calibration.py:12-39", "py/qsonic/spectrum.py:8-39", "py/qsonic/masks.py:21-49", "py/qsonic/picca_continuum.py:24-87", "py/qsonic/scripts/qsonic_fit.py:20-57", "py/qsonic/scripts/qsonic_calib.py:19-85", "py/qsonic/scripts/qsonic_coadd_deltas.py:15-39", "py/qsonic/mpi_utils.py:13-45"]}
{"id": "C109", "title": "Exposures read after the fit, for the whole run", "statement": "With --exposures after, the deltas of exposures and the delta files by pixel do not depend on the number of processes: one delta for every exposure, of the quasars that have a delta without exposures, that passes the cuts; it is the exposure as selected and treated alone, with the continuum fitted to the coadded spectrum of the same target.", "quantifier": "all catalogs, readers, options, fits and numbers of processes; all exposures", "why_tests_cant": "The local catalog of every rank depends on the layout and on which fits fail, and every rank builds it and splits it again; tests run the function on one rank with one small catalog.", "anchors": ["py/qsonic/scripts/qsonic_fit.py:359-449", "py/qsonic/scripts/qsonic_fit.py:452-502", "py/qsonic/scripts/qsonic_fit.py:518-527"]}
{"id": "C110", "title": "Chi square catalog and deltas of a whole run", "statement": "A run with an output directory writes continuum_chi2_catalog.fits once, from the master. It has one row for every spectrum that passes the cuts, with the identity, redshift, signal-to-noise and degrees of freedom of what was read; without the column MPI_RANK the rows do not depend on the number of processes; and the quasars with a delta on rank r are those of the rows with CONT_valid and MPI_RANK equal to r.", "quantifier": "all catalogs, readers, options, fits and numbers of processes", "why_tests_cant": "The catalog is put together from what all ranks have after the fit, the deltas are cut and written afterwards by every rank; tests look at the table of one rank with a few spectra.", "anchors": ["py/qsonic/picca_continuum.py:632-681", "py/qsonic/scripts/qsonic_fit.py:315-356", "py/qsonic/scripts/qsonic_fit.py:452-502", "py/qsonic/spectrum.py:352-368"]}
{"id": "C111", "title": "Additive noise and coadding after the fit: the number of processes", "statement": "With --varlss-as-additive-noise and --coadd-arms after, which deltas a run of qsonic-fit writes and what is in them does not depend on the number of processes.", "quantifier": "all catalogs, readers, options, fits, variance fits, calibration tables and numbers of processes", "why_tests_cant": "The steps use the variance functions of the last fit, which depend on how spectra are distributed; tests apply them to single spectra with given functions.", "anchors": ["py/qsonic/scripts/qsonic_fit.py:315-356", "py/qsonic/scripts/qsonic_fit.py:452-502", "py/qsonic/calibration.py:108-134", "py/qsonic/spectrum.py:589-676"]}
{"id": "C112", "title": "How a run of qsonic-calib ends", "statement": "A run of qsonic-calib ends in one of these ways. The root cannot read its input, or the catalog lacks the BAL columns that are needed: all processes exit with status 1 and no file is created. A process cannot read one of its delta files: the job is aborted and no file is created. The fit fails in more than 40% of the wavelength bins: all processes exit with status 1 and no file is created. Some process has no delta to be used: the job is aborted, and the root leaves a file without the stack that is not closed. Otherwise all processes finish and the file is complete. With fewer delta files than processes a run never finishes.", "quantifier": "all inputs, options, numbers of processes and of delta files", "why_tests_cant": "The end depends on the distribution of the files over the processes and on which deltas are removed; a test runs one process with good input.", "anchors": ["py/qsonic/scripts/qsonic_calib.py:88-281", "py/qsonic/mpi_utils.py:58-107"]}
{"id": "C113", "title": "What a run of qsonic-fit writes can be read back", "statement": "mpi_run_all (catalog, blinding, selection, continuum fit, save_deltas) either raises QsonicException on all ranks or finishes on all ranks: once spectra are fitted, Spectrum.write never fails for want of a continuum, a signal to noise ratio or a resolution matrix of an arm, whatever arms masks, coadding and drop_short_arms removed or merged. The deltas are those of the spectra of the catalog that pass the cuts and whose fit is valid, with all wavelengths in the forest of what was read and with the flux and ivar of the pixels that are not masked changed by nothing but the calibrations. No two files of the job have the same name, every delta has a file, and read_deltas of every file gives exactly the arms with signal of the deltas for this file, each once, with its identity, and for all wavelengths the continuum, delta = flux / continuum - 1 (0 without ivar), ivar and weight times the squared continuum, and the resolution. All tables of all ranks are blinded if and only if any row of the whole catalog, whichever rank has it, was observed after May 13, 2021 (data, Lya forest).", "quantifier": "for all catalogs, readers giving consistent spectra (resolution of all arms or none), calibrations, masks, options (coadding before, smoothing, files by pixel or by rank), minimizers, numbers of iterations and of processes", "why_tests_cant": "Tests write hand-made spectra with one or two arms; that the dictionaries still agree after reading, cutting, coadding, masking, fitting and dropping arms, for every rank, is a statement about all runs.", "anchors": ["py/qsonic/scripts/qsonic_fit.py:452-502", "py/qsonic/io.py:202-275", "py/qsonic/spectrum.py:136-172", "py/qsonic/spectrum.py:352-368", "py/qsonic/spectrum.py:467-497", "py/qsonic/spectrum.py:690-770"]}
{"id": "C114", "title": "qsonic-calib uses exactly the deltas qsonic-fit wrote", "statement": "If qsonic-fit finishes with an output directory and qsonic-calib is then run on this directory, possibly with another number of processes and another order of the files, the variance statistics, their fits and the stacked flux that qsonic-calib writes are those of the deltas of the fitted spectra of the whole catalog: for every arm with signal of every quasar that passed the cuts and whose fit is valid, and that is not on the removal list, not a BAL, of the surveys kept and within the signal to noise range, the values flux / continuum - 1 with ivar and weight times the squared continuum enter exactly once. How either job distributed the spectra over processes and files has no influence.", "quantifier": "for all catalogs, readers, calibrations, masks, options and minimizers of the first job, all settings, removal lists and catalogs of the second, all numbers of processes of both; the same number of files for each process of the second job, a usable delta in every file, wavelengths on the grid of the stack", "why_tests_cant": "No test runs the two programs after one another; that keywords, columns, file names and arms written by one are what the other reads, with nothing twice or lost, is a statement about all runs of both.", "anchors": ["py/qsonic/scripts/qsonic_fit.py:452-502", "py/qsonic/io.py:202-275", "py/qsonic/spectrum.py:690-770", "py/qsonic/spectrum.py:773-900", "py/qsonic/scripts/qsonic_calib.py:81-245"]}
{"id": "C115", "title": "qsonic-coadd-deltas merges the outputs of several qsonic-fit runs without losing or doubling a delta", "statement": "If qsonic-fit finishes in several output directories (own settings, catalogs and numbers of processes) and qsonic-coadd-deltas is then run on these directories, its output has exactly one HDU for each quasar that has a valid fit and an arm with signal in any of the runs, in the file of the healpix pixel of the quasar's coordinates, no two files with the same name, and this HDU is the coaddition of all arms with signal of this quasar in all runs, each exactly once. The run succeeds if all arms are on one wavelength grid, have weights between zero and ivar and all or none have resolution matrices. If all runs are blinded, the output is blinded.", "quantifier": "for all numbers of directories, catalogs, readers, calibrations, masks, options, minimizers and numbers of processes of the runs of qsonic-fit, all orders of the files in the directories, all pixel sizes of the coaddition", "why_tests_cant": "No test runs qsonic-coadd-deltas on what qsonic-fit wrote; that arms of a quasar in different HDUs, files and directories meet in one HDU, whatever process wrote them, is a statement about all runs.", "anchors": ["py/qsonic/scripts/qsonic_coadd_deltas.py:42-124", "py/qsonic/scripts/qsonic_fit.py:452-502", "py/qsonic/io.py:202-275", "py/qsonic/spectrum.py:773-900", "py/qsonic/spectrum.py:997-1040"]}
{"id": "C116", "title": "A continuum fit does not remember earlier fits; with one iteration every quasar stands alone", "statement": "fit_continuum of the picca model on a spectrum that was fitted before gives exactly the continuum, validity, weights and chi square that it gives on a new spectrum. Hence a run of qsonic-fit that finishes after any number of iterations gives, on every process, exactly the deltas and delta files of a run with one iteration that starts with the mean continuum, variance and eta before the last iteration. With one iteration and without the normalizations after it, the delta of a quasar is a function of what was read for this quasar and of the options: it is the same in every catalog, for every number of processes and with any other quasars. The job then fails exactly if no quasar is valid (or columns for the BAL mask are missing), with QsonicException on all processes.", "quantifier": "for all spectra, mean continua, variance functions, minimizers, options, catalogs, readers, numbers of iterations and numbers of processes", "why_tests_cant": "cont_params of every spectrum survives from one iteration to the next; that nothing of it reaches a later fit, after valid and failed fits in any order, and that no quasar reaches another within an iteration, is a statement about all histories and all neighbours.", "anchors": ["py/qsonic/continuum_models/picca_continuum_model.py:126-251", "py/qsonic/picca_continuum.py:522-582", "py/qsonic/scripts/qsonic_fit.py:452-502"]}
{"id": "C117", "title": "Only the spectra that pass the cuts matter", "statement": "Two runs of qsonic-fit with a fiducial var_lss and the same cuts, calibrations, masks, smoothing and fit options, whose spectra that pass the cuts are the same up to their order, end in the same way: both with QsonicException on all processes and the same attributes, or both after the same number of iterations with the same deltas and the same extensions of the attributes file (up to the variance of the final fit). Everything else has no influence on the deltas: quasars of the catalog that do not pass the cuts, the order of its rows, its other columns, redshift range and surveys kept, the healpix pixels, data format, output options and the number of processes.", "quantifier": "for all pairs of catalogs, readers, output options and numbers of processes, all calibrations, masks, options of the fit, minimizers and initial mean continua", "why_tests_cant": "It compares all pairs of runs; a test compares a few runs, and cannot see that a quasar that is cut has no influence through masks, queues, balancing, collective sums or convergence.", "anchors": ["py/qsonic/scripts/qsonic_fit.py:452-502", "py/qsonic/scripts/qsonic_fit.py:169-330", "py/qsonic/picca_continuum.py:522-582"]}
{"id": "C118", "title": "With continua that are not fitted every quasar stands alone", "statement": "A run of qsonic-fit with input continua (--input-continuum-dir) or true continua, a fiducial var_lss and no normalization by the stacked flux treats every quasar by itself: the delta of a spectrum is a function of this spectrum, of the continuum given for its TARGETID and of the options, whatever the catalog, the other quasars, the number of processes and the positive number of iterations. Its continuum is, in every arm, the spline through the given continuum (at the rest wavelengths for input, at the observed ones for true continua) times the mean flux. A quasar without a given continuum gives no delta. The deltas of the job are exactly those of the spectra that pass the cuts and are valid; it fails, with QsonicException on all processes, exactly if there is none or if BAL columns are missing. Which quasars give a delta is a matter of each quasar alone also if var_lss is fitted or the deltas are normalized.", "quantifier": "for all catalogs, readers, files of continua, numbers of processes and iterations, cuts, masks, calibrations and variance functions", "why_tests_cant": "A statement over all pairs of catalogs and all numbers of iterations and processes: tests fit a few spectra once, and do not run the loop with collective calls, where a continuum set in one iteration could be used again in the next.", "anchors": ["py/qsonic/scripts/qsonic_fit.py:452-502", "py/qsonic/continuum_models/input_continuum_model.py:128-236", "py/qsonic/continuum_models/true_continuum_model.py:25-75", "py/qsonic/picca_continuum.py:218-244", "py/qsonic/picca_continuum.py:522-582"]}
{"id": "C119", "title": "All steps after the fit together, with exposures", "statement": "With --exposures after, whatever the other options after the fit are (--varlss-as-additive-noise, --coadd-arms after, both or none), which deltas qsonic-fit writes and what is in them does not depend on the number of processes: there is one delta for every exposure of a fitted quasar that passes the cuts (arms coadded before the cuts if coadding is asked for), with the continuum of its quasar after calibration and coadding. Without exposures these options make the deltas depend on the number of processes (C111). The chi square catalog is written before the exposures are read: its rows are those of the run without options, one by one, except that with --coadd-arms after the rows of valid fits have the arm brz, its signal-to-noise ratio and the chi square of the coadded spectrum. If a step raises for one spectrum, the whole job is aborted on any number of processes.", "quantifier": "for all catalogs, readers of spectra and exposures, cuts, masks, fits, variance fits, calibration tables, combinations of the three options and all pairs of numbers of processes", "why_tests_cant": "The claim compares runs on different numbers of processes, with three optional steps in a row that share objects (spectra_list and valid_spectra); tests apply single steps to single spectra.", "anchors": ["py/qsonic/scripts/qsonic_fit.py:315-356", "py/qsonic/scripts/qsonic_fit.py:359-450", "py/qsonic/scripts/qsonic_fit.py:452-502", "py/qsonic/picca_continuum.py:633-681"]}
{"id": "C120", "title": "How a run of qsonic-fit ends", "statement": "A run of qsonic-fit never hangs, and all processes end in the same way: they all finish, or all exit with status 1, or the job is aborted. They finish only if the catalog could be used, the columns for the BAL mask are there, the spectra of every pixel could be read and there are not more processes than pixels. They exit only if the catalog could not be used, or the BAL columns are missing, or no spectrum has a valid fit, or an update of the mean continuum or of the variance functions raised the exception of the package. If the catalog cannot be used, nothing is written; if the spectra of one pixel cannot be read, the job is aborted, and no result without that pixel is made. False: that the fit of the variance functions is only informative with --fiducial-varlss. If it fails, as it always does with few quasars, the run exits with no catalog and no deltas.", "quantifier": "for all catalog files, readers of spectra and exposures that raise ordinary exceptions, options after the fit, cuts, masks, continuum fits, failures of updates and all numbers of processes", "why_tests_cant": "Whether all processes leave a collective call together for every error at every place needs all interleavings and all places where an error can be raised; tests run one process with good input.", "anchors": ["py/qsonic/scripts/qsonic_fit.py:452-530", "py/qsonic/scripts/qsonic_fit.py:98-160", "py/qsonic/mpi_utils.py:78-107", "py/qsonic/picca_continuum.py:633-790", "py/qsonic/picca_continuum.py:1040-1112", "py/qsonic/catalog.py:100-330"]}
{"id": "C121", "title": "Coadding in steps gives what coadding at once gives", "statement": "Let qsonic-coadd-deltas run on some directories and write to a new directory. Running it on that directory and further directories, given after it, succeeds if and only if running it on all the original directories succeeds, and both write the same HDUs (header, columns, resolution) into the same files; the pixel size of the first run does not matter. In particular, running it again on its own output changes nothing. The directory must be new: files of an earlier run with another pixel size stay there, and the deltas are counted twice.", "quantifier": "for all directories of delta files that can be read, in any order of the files in the output directory, all pixelizations of the two runs, all sets of further directories with the same or other targets; deltas of the first directories on one wavelength grid, no negative weight where a further delta is coadded", "why_tests_cant": "Equality of two ways to combine any number of files and exposures depends on writing and reading back each intermediate result exactly (masked pixels, header, resolution, blinding) and on the order of coadding, for every input; tests coadd two small deltas once.", "anchors": ["py/qsonic/scripts/qsonic_coadd_deltas.py:42-124", "py/qsonic/spectrum.py:911-1040", "py/qsonic/io.py:202-223"]}
{"id": "C122", "title": "Coadding the arms before or after the continuum fit", "statement": "Let the pixels of all arms lie on one wavelength grid and the inverse variance not be smoothed (--smoothing-scale 0). Where no two arms have a good pixel at the same wavelength, --coadd-arms before and --coadd-arms after give the same wavelengths, fluxes, inverse variances, weights and continua (at wavelengths with a pixel of some arm) for a quasar, whatever the minimizer; a fit that is valid for the coadded spectrum is valid for the arms, and conversely if the arms leave no gap. Where arms overlap it is the same if var_lss is zero there and the minimizer does not see a constant added to the cost function: the cost functions differ by a constant and the starting points are equal. It should be the same for every var_lss; that is false.", "quantifier": "for all spectra with any number of arms, overlapping or not, masked pixels anywhere, all coefficients and polynomial orders, mean continua, mean fluxes, eta > 0, var_lss >= 0, all minimizers that are functions of cost function and start", "why_tests_cant": "Both orders go through different code (coadd_arms_forest on weights of the ivar or on weights of the fit, the cost function on one or on several arms); that they agree is an identity of sums over any set of pixels. Tests coadd one small spectrum and never compare the two orders.", "anchors": ["py/qsonic/spectrum.py:467-497", "py/qsonic/spectrum.py:589-676", "py/qsonic/continuum_models/picca_continuum_model.py:59-101", "py/qsonic/continuum_models/picca_continuum_model.py:192-251", "py/qsonic/scripts/qsonic_fit.py:142-145", "py/qsonic/scripts/qsonic_fit.py:342-345"]}
{"id": "C123", "title": "The whole fit with arms coadded before or not", "statement": "Let the arms of every quasar lie on one wavelength grid without gap, with no two good pixels at the same wavelength. With given var_lss and eta, iterating the fit on the arms and on the coadded spectra gives the same mean continuum, the same stacked flux, the same files and messages, the same number of iterations or the same exception, and every quasar has the same validity and the same good pixels with the same flux, inverse variance, weight and continuum, also after the normalization with the stacked flux and the calibration of the inverse variance. It should be the same where var_lss and eta are fitted; that holds for variance fitters that use the pixels and not the arms, and the fitter of the code is not one.", "quantifier": "for all catalogs of such quasars with any number of arms and masked pixels anywhere, all numbers of ranks and iterations, all minimizers that are functions of cost function and start, all starting states with eta > 0 and var_lss >= 0", "why_tests_cant": "Every iteration uses the mean continuum of the last one, which sums pixels of all quasars in arms or coadded, with masked pixels in one of them only; equality after any number of iterations needs an invariant of the loop. Tests do one update of the mean continuum for one quasar.", "anchors": ["py/qsonic/picca_continuum.py:284-319", "py/qsonic/picca_continuum.py:359-427", "py/qsonic/picca_continuum.py:429-460", "py/qsonic/picca_continuum.py:522-600", "py/qsonic/spectrum.py:589-676", "py/qsonic/continuum_models/picca_continuum_model.py:192-251", "py/qsonic/picca_continuum.py:885-930", "py/qsonic/scripts/qsonic_fit.py:142-145"]}
{"id": "C124", "title": "--coadd-arms before and after give the same deltas", "statement": "Let the arms of every quasar lie on one wavelength grid without gap, with no two good pixels at the same wavelength. With given var_lss and eta and at least one iteration, a run with --coadd-arms after and a run with --coadd-arms before raise the same exception or end with the same valid quasars, each with one arm brz and the same wavelengths, flux, inverse variance and continuum, with and without --normalize-stacked-flux and --eta-calib-ivar, and write the same attributes. The weights should be the same as well; that is false.", "quantifier": "for all catalogs of such quasars with any number of arms and masked pixels anywhere, all numbers of ranks and iterations, all minimizers that are functions of cost function and start, all starting states with eta > 0 and var_lss >= 0", "why_tests_cant": "The two options run different code at different times: coadding with pure ivar before any fit, or with weights of the last fit after normalization and calibration of continuum and ivar. That nothing in between depends on the order is a statement on all iterations; tests run no whole fit with either option.", "anchors": ["py/qsonic/scripts/qsonic_fit.py:142-145", "py/qsonic/scripts/qsonic_fit.py:315-356", "py/qsonic/spectrum.py:589-676", "py/qsonic/picca_continuum.py:484-520", "py/qsonic/picca_continuum.py:522-583"]}
{"id": "C125", "title": "One bad pixel does not spoil the stacks", "statement": "The stacked flux and continuum of a bin, which every quasar is corrected with, are finite weighted means over the pixels in it, whatever single pixels of single quasars contain: a continuum of zero in an accepted fit or an infinite inverse variance, which is not masked when a spectrum is read, must not make the bins of all quasars NaN or empty.", "quantifier": "for all numbers of ranks, quasars and arms and all values of flux, inverse variance and continuum including NaN and infinities, all var_lss and eta", "why_tests_cant": "Tests stack smooth positive continua. NaN arises from one pixel in one quasar out of many, spreads by sums over ranks, passes the test ep > 0 or fails it silently, and shows up in quantities of other quasars.", "anchors": ["py/qsonic/continuum_models/picca_continuum_model.py:169-190", "py/qsonic/continuum_models/base_continuum_model.py:7-30", "py/qsonic/picca_continuum.py:1294-1352", "py/qsonic/picca_continuum.py:380-396", "py/qsonic/spectrum.py:467-497"]}
{"id": "C126", "title": "Delta tables hold numbers", "statement": "Every row of a delta table that qsonic-fit writes has finite DELTA, IVAR, WEIGHT and CONT, where the continuum is zero the pixel is masked (DELTA, IVAR and WEIGHT zero), and reading the table back and stacking the deltas in qsonic-calib gives finite numbers, whatever flux, inverse variance and continuum of the quasars are.", "quantifier": "for all values of flux, inverse variance and continuum including zero, NaN and infinities, with and without --normalize-stacked-flux, all numbers of ranks and quasars", "why_tests_cant": "Divisions by zero in numpy give NaN or infinity without exception; whether the masking after the division removes them depends on the value of ivar * cont**2, which may be NaN itself. Tests write tables with continuum one.", "anchors": ["py/qsonic/spectrum.py:716-778", "py/qsonic/spectrum.py:897-945", "py/qsonic/picca_continuum.py:484-501", "py/qsonic/mathtools.py:17-26", "py/qsonic/scripts/qsonic_calib.py:174-203"]}
{"id": "C127", "title": "The variance statistics ignore pixels without continuum or weight", "statement": "In every bin of the var_lss-eta fit the number of pixels and the sums of delta, its square, its fourth power and the variance are finite, and are those of the pixels whose continuum is a nonzero number and whose inverse variance is a positive number; pixels with zero, NaN or infinite continuum and masked pixels contribute to no bin. The means, the jackknife errors and the covariance with the other bins that the fit is given are those of these pixels alone, too.", "quantifier": "for all bin configurations, all bins, all lists of pixels, all values of inverse variance and continuum including zero, negative, NaN and infinities", "why_tests_cant": "delta of a pixel with zero continuum is NaN or infinite and is summed by np.bincount without any masking; it only does no harm because the position of NaN, infinity and zero in np.searchsorted is an overflow bin. Tests use finite numbers.", "anchors": ["py/qsonic/picca_continuum.py:440-447", "py/qsonic/picca_continuum.py:684-696", "py/qsonic/picca_continuum.py:885-917", "py/qsonic/spectrum.py:225-226", "py/qsonic/mathtools.py:564-608", "py/qsonic/picca_continuum.py:919-970"]}
{"id": "C128", "title": "Coadding arms keeps bad pixels out", "statement": "Flux and inverse variance of every pixel of a coadded spectrum are numbers: the weighted mean and its inverse variance over the good pixels of the arms in the cell, and zero if there is none, whatever masked, NaN, infinite or negative values the file has in the other pixels.", "quantifier": "for all numbers of arms and pixels in a cell, all masks, all values of flux and inverse variance including NaN and infinities", "why_tests_cant": "Zero times infinity is NaN, so that a zero weight does not remove an infinite flux, and 1/inf**2 * inf is NaN; whether such values can survive the masking of the constructor depends on which special values it tests. Tests coadd finite numbers.", "anchors": ["py/qsonic/spectrum.py:223-228", "py/qsonic/spectrum.py:522-587", "py/qsonic/spectrum.py:605-638"]}
{"id": "C129", "title": "Coadded delta tables hold numbers", "statement": "Every row that qsonic-coadd-deltas writes has finite DELTA, IVAR, WEIGHT and CONT and a finite MEANSNR: where one of the two deltas has a good pixel it is the weighted mean of the good pixels, and where none has, all columns are zero.", "quantifier": "for all rows of the two deltas, all values including NaN and infinities, all weights and inverse variances", "why_tests_cant": "The new weight is a quotient whose denominator, 1 + ivar * coadd_lss, is zero for particular weights, and NaN weights fail the comparison that guards the normalisation, so that the sums are kept; the signal to noise is a sum over all pixels. Tests coadd weights that equal the inverse variances.", "anchors": ["py/qsonic/spectrum.py:997-1042"]}
{"id": "C130", "title": "A valid continuum is a positive number", "statement": "If the fit of a spectrum is reported as valid, its continuum is a positive number in every pixel of every arm and its CONT_chi2 is a finite number that is not negative; if it is not valid, there is no continuum and the chi square is -1.", "quantifier": "for the three continuum models, all numbers of arms and pixels, all results of the minimizer, all values of the interpolators including NaN and infinities", "why_tests_cant": "The tests of the models differ (less than zero; not above zero or NaN; none), comparisons with NaN are false, and the test is made before the multiplication with the mean flux. Tests use smooth finite continua.", "anchors": ["py/qsonic/continuum_models/picca_continuum_model.py:192-251", "py/qsonic/continuum_models/input_continuum_model.py:172-205", "py/qsonic/continuum_models/true_continuum_model.py:25-46", "py/qsonic/spectrum.py:474-520"]}
{"id": "C131", "title": "The signal-to-noise cuts use the good pixels only", "statement": "The signal-to-noise above Lyman alpha and the mean signal-to-noise of the forest, on which --min-rsnr and --min-forestsnr cut, depend only on the pixels that are not masked and have numbers and positive inverse variance; a pixel without weight does not decide whether the quasar is kept.", "quantifier": "for all numbers of arms and pixels, all masks, all values in the file including NaN and infinities, all redshifts and cuts", "why_tests_cant": "The constructor zeroes NaN and masked pixels, but not an infinite flux with inverse variance zero; zero times infinity is NaN, and every comparison with NaN is false. Tests use finite values.", "anchors": ["py/qsonic/spectrum.py:223-228", "py/qsonic/spectrum.py:248-285", "py/qsonic/spectrum.py:395-414", "py/qsonic/scripts/qsonic_fit.py:137-140", "py/qsonic/scripts/qsonic_fit.py:308-310"]}
{"id": "C132", "title": "The fit of the continuum begins with a number", "statement": "The amplitude set by set_forest_region is the weighted mean of the good pixels with positive flux, not negative and not above their largest flux; the amplitude from which fit_continuum starts the minimizer is the weighted mean flux, not larger in size than the fluxes with weight. Pixels without weight do not matter.", "quantifier": "for all numbers of arms and pixels, all masks, all values in the file including NaN and infinities", "why_tests_cant": "Only NaN and masked pixels are zeroed when a spectrum is read; an infinite flux with inverse variance zero stays, and zero times infinity is NaN. Tests use finite values.", "anchors": ["py/qsonic/spectrum.py:223-228", "py/qsonic/spectrum.py:263-285", "py/qsonic/continuum_models/picca_continuum_model.py:216-225"]}
{"id": "C133", "title": "The cost that the continuum fit minimizes is a likelihood of the good pixels", "statement": "For coefficients with a finite continuum the cost function is minus twice the logarithm of the Gaussian likelihood (without a constant) of the pixels with positive smoothed inverse variance, with variance eta / ivar + var_lss * cont^2; it is a finite number, and pixels without weight do not matter.", "quantifier": "for all numbers of arms and pixels, all continua, var_lss and eta, all fluxes and inverse variances including NaN and infinities", "why_tests_cant": "Pixels without weight are kept in the dot product and only their logarithm is left out, so zero times infinity and zero over zero can enter. Tests use finite fluxes and positive eta.", "anchors": ["py/qsonic/continuum_models/picca_continuum_model.py:59-101", "py/qsonic/spectrum.py:223-228"]}

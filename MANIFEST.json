{
 "claims": [
  {
   "property": "C01",
   "status": "proved",
   "theorems": [
    "Verif.Props.C01_balance_load_partitions",
    "Verif.Props.C01_balance_load_no_rank"
   ],
   "note": "Any list of chunks, any number of ranks; no rank at all is the ValueError of numpy."
  },
  {
   "property": "C02",
   "status": "proved",
   "theorems": [
    "Verif.Props.C02_balance_load_spread",
    "Verif.Props.C02_balance_load_average",
    "Verif.Props.C02_balance_load_competitive",
    "Verif.Props.C02_balance_load_largest_first",
    "Verif.Props.C02_balance_load_four_thirds"
   ],
   "note": "Spread, average, factor 2 - 1/n and the sharp factor 4/3 - 1/(3n) against every assignment of the chunks to ranks; the example shows the factor is reached for two ranks."
  },
  {
   "property": "C03",
   "status": "proved",
   "theorems": [
    "Verif.Props.C03_balance_load_idle",
    "Verif.Props.C03_balance_load_no_idle"
   ],
   "note": "Both cases: enough chunks and fewer chunks than ranks."
  },
  {
   "property": "C04",
   "status": "proved",
   "theorems": [
    "Verif.Props.C04_bcast_uniform",
    "Verif.Props.C04_no_comm"
   ],
   "note": "All rank counts; outcome of the function on the root is arbitrary."
  },
  {
   "property": "C05",
   "status": "partial",
   "theorems": [
    "Verif.Props.C05_parse_uniform",
    "Verif.Props.C05_parse_other_exception_deadlocks"
   ],
   "note": "Uniform for every parser that returns or exits. Refuted for a parser raising another exception on the root: the other ranks wait for ever unless the caller aborts (main does not wrap it)."
  },
  {
   "property": "C06",
   "status": "proved",
   "theorems": [
    "Verif.Props.C06_failure_is_uniform",
    "Verif.Props.C06_local_queues"
   ],
   "note": "All rank counts, all catalogs; the exception of the root reaches every rank."
  },
  {
   "property": "C07",
   "status": "proved",
   "theorems": [
    "Verif.Props.C07_saver_root_only",
    "Verif.Props.C07_saver_nonroot_silent"
   ],
   "note": "Any sequence of writes, any number of ranks."
  },
  {
   "property": "C08",
   "status": "proved",
   "theorems": [
    "Verif.Props.C08_catalog_cuts",
    "Verif.Props.C08_never_empty"
   ],
   "note": "Exact multiset of rows passing the cuts; empty result is an exception."
  },
  {
   "property": "C09",
   "status": "proved",
   "theorems": [
    "Verif.Props.C09_tile_order",
    "Verif.Props.C09_survey_order",
    "Verif.Props.C09_pixel_order"
   ],
   "note": "Sorting is any stable or unstable sort with the documented result order."
  },
  {
   "property": "C10",
   "status": "proved",
   "theorems": [
    "Verif.Props.C10_duplicates_refused",
    "Verif.Props.C10_no_duplicates_accepted",
    "Verif.Props.C10_result_no_duplicates"
   ],
   "note": "Rejected iff a duplicate exists (per tile in tile mode)."
  },
  {
   "property": "C11",
   "status": "proved",
   "theorems": [
    "Verif.Props.C11_missing_column_refused",
    "Verif.Props.C11_standard_names",
    "Verif.Props.C11_standard_names_present"
   ],
   "note": "Decision theorem over arbitrary column sets."
  },
  {
   "property": "C12",
   "status": "partial",
   "theorems": [
    "Verif.Props.C12_survey_groups",
    "Verif.Props.C12_queue_chunks_ordered",
    "Verif.Props.C12_no_surveys_mixed_group",
    "Verif.Props.C12_no_surveys_empty_group"
   ],
   "note": "Proved for catalogs read with surveys to keep (sorted by pixel, survey). Refuted without: a chunk not sorted by survey gives mixed or empty groups."
  },
  {
   "property": "C13",
   "status": "proved",
   "theorems": [
    "Verif.Props.C13_coadd_pairing",
    "Verif.Props.C13_coadd_missing_file",
    "Verif.Props.C13_tile_pairing",
    "Verif.Props.C13_tile_chunks_ordered",
    "Verif.Props.C13_mock_pairing",
    "Verif.Props.C13_run_reads_catalog",
    "Verif.Props.C13_tile_two_nights"
   ],
   "note": "Coadd, tile and mock readers. Also proved: the tile reader opens the night of its first row only."
  },
  {
   "property": "C14",
   "status": "proved",
   "theorems": [
    "Verif.Props.C14_exposure_pairing",
    "Verif.Props.C14_exposure_columns_refused"
   ],
   "note": "For any file; also the refusal when the exposure columns collide with catalog columns."
  },
  {
   "property": "C15",
   "status": "proved",
   "theorems": [
    "Verif.Props.C15_true_continuum",
    "Verif.Props.C15_missing_continuum_refused"
   ],
   "note": "Pairing by TARGETID; a missing continuum is an exception."
  },
  {
   "property": "C16",
   "status": "partial",
   "theorems": [
    "Verif.Props.C16_reso_pairing_partial",
    "Verif.Props.C16_missing_target_misaligns"
   ],
   "note": "Proved if all targets are in the file; refuted with a missing target (rows shift)."
  },
  {
   "property": "C17",
   "status": "proved",
   "theorems": [
    "Verif.Props.C17_by_pixel",
    "Verif.Props.C17_by_rank",
    "Verif.Props.C17_no_outdir",
    "Verif.Props.C17_blinding_required"
   ],
   "note": "By pixel, by rank, no output directory, blinding not set."
  },
  {
   "property": "C18",
   "status": "proved",
   "theorems": [
    "Verif.Props.C18_pixel_files_disjoint",
    "Verif.Props.C18_rank_files_disjoint",
    "Verif.Props.C18_tiles_would_collide"
   ],
   "note": "Combined with the distribution of C06; tiles by pixel would collide (refused by option check C58)."
  },
  {
   "property": "C19",
   "status": "proved",
   "theorems": [
    "Verif.Props.C19_reader_choice"
   ],
   "note": "Complete decision table."
  },
  {
   "property": "C20",
   "status": "proved",
   "theorems": [
    "Verif.Props.C20_pairing",
    "Verif.Props.C20_mismatch",
    "Verif.Props.C20_no_spectra",
    "Verif.Props.C20_wavelengths"
   ],
   "note": "Over every order of the sort, every set of files and every list of spectra: pairing by TARGETID in the file of the own pixel, invalid if nothing is stored, error on files of inconsistent shape; the fit evaluates the spline through the stored points at the own rest wavelengths. ang2pix is a parameter; spline shown for four or more points (C43)."
  },
  {
   "property": "C21",
   "status": "proved",
   "theorems": [
    "Verif.Props.C21_bad_pixels",
    "Verif.Props.C21_no_nan",
    "Verif.Props.C21_accepts"
   ],
   "note": "NaN, non-positive ivar and mask bits give zero flux and ivar; valid input is accepted. Infinite flux with finite ivar is not removed by the code (see DESIGN.md)."
  },
  {
   "property": "C22",
   "status": "proved",
   "theorems": [
    "Verif.Props.C22_second_call_stale",
    "Verif.Props.C22_forest_region",
    "Verif.Props.C22_no_empty_arm",
    "Verif.Props.C22_region_pixels"
   ],
   "note": "Exact pixels of the region for a first call; a second call can leave arms of the first (see C23)."
  },
  {
   "property": "C23",
   "status": "proved",
   "theorems": [
    "Verif.Props.C23_usable_arms"
   ],
   "note": "Invariant over every sequence of set_forest_region, drop_short_arms, drop_arm, apply_masks, set_smooth_forestivar, remove_nonforest_pixels starting from a new spectrum; the smoother is any length-preserving function."
  },
  {
   "property": "C24",
   "status": "proved",
   "theorems": [
    "Verif.Props.C24_drop_short_arms",
    "Verif.Props.C24_drop_empty_arms",
    "Verif.Props.C24_is_long",
    "Verif.Props.C24_masking_monotone"
   ],
   "note": "Arms with at most skip times the nominal number of pixels are dropped, other arms untouched; is_long; masking can only shorten."
  },
  {
   "property": "C25",
   "status": "proved",
   "theorems": [
    "Verif.Props.C25_weight",
    "Verif.Props.C25_monotone",
    "Verif.Props.C25_no_continuum",
    "Verif.Props.C25_smooth"
   ],
   "note": "Weight formula, bounds, monotonicity, no continuum."
  },
  {
   "property": "C26",
   "status": "proved",
   "theorems": [
    "Verif.Props.C26_coadd_arms",
    "Verif.Props.C26_common_grid",
    "Verif.Props.C26_common_grid_one_per_cell",
    "Verif.Props.C26_order",
    "Verif.Props.C26_mean_between",
    "Verif.Props.C26_ivar_adds",
    "Verif.Props.C26_ivar_le_sum",
    "Verif.Props.C26_simple_coadd"
   ],
   "note": "Value of every pixel, order independence, grid with rounding tolerance, information bound, simple_coadd without resolution."
  },
  {
   "property": "C27",
   "status": "partial",
   "theorems": [
    "Verif.Props.C27_gaps",
    "Verif.Props.C27_continuum_partial"
   ],
   "note": "Flux and ivar proved in full. The continuum in gaps is uninitialised memory and the resolution 0/0: partial there."
  },
  {
   "property": "C28",
   "status": "partial",
   "theorems": [
    "Verif.Props.C28_union_grid",
    "Verif.Props.C28_weighted_mean",
    "Verif.Props.C28_single_cover",
    "Verif.Props.C28_masked_partner_partial",
    "Verif.Props.C28_comm",
    "Verif.Props.C28_sequence_partial",
    "Verif.Props.C28_order_partial",
    "Verif.Props.C28_resolution",
    "Verif.Props.C28_masked_weight_refuted",
    "Verif.Props.C28_not_associative"
   ],
   "note": "Union grid, weighted mean per pixel, single cover, commutativity, any number of deltas for var_lss = 0 in any order, resolution. Refuted: a masked partner changes the weight of a good pixel, and the result depends on the order when var_lss is nonzero."
  },
  {
   "property": "C29",
   "status": "partial",
   "theorems": [
    "Verif.Props.C29_spectrum_files",
    "Verif.Props.C29_strategy",
    "Verif.Props.C29_twice_fails",
    "Verif.Props.C29_read_write",
    "Verif.Props.C29_coadd_partial",
    "Verif.Props.C29_leak_refuted"
   ],
   "note": "Strategy table, files of spectra are blinded after any sequence of calls, read and rewritten deltas keep their name. Refuted: an unblinded delta coadded with a blinded one is written unblinded. Also proved: a second call that keeps the resolution column makes writing fail."
  },
  {
   "property": "C30",
   "status": "proved",
   "theorems": [
    "Verif.Props.C30_spectrum_roundtrip",
    "Verif.Props.C30_flux_recovered",
    "Verif.Props.C30_delta_roundtrip"
   ],
   "note": "Exact columns and header values of every written arm, flux recovered from delta and continuum, and write then read is the identity on deltas."
  },
  {
   "property": "C31",
   "status": "partial",
   "theorems": [
    "Verif.Props.C31_missing_arm_detected_partial",
    "Verif.Props.C31_other_grid_accepted",
    "Verif.Props.C31_grid_is_the_first"
   ],
   "note": "The check detects a missing arm only; another grid is accepted (refuted)."
  },
  {
   "property": "C32",
   "status": "partial",
   "theorems": [
    "Verif.Props.C32_slice_partial",
    "Verif.Props.C32_shared_storage_cut_repeatedly"
   ],
   "note": "Proved when the dictionaries are separate objects; with shared storage the arm is cut repeatedly (refuted)."
  },
  {
   "property": "C33",
   "status": "proved",
   "theorems": [
    "Verif.Props.C33_smooth_ivar",
    "Verif.Props.C33_positive_iff"
   ],
   "note": "With any smoothing that keeps positive errors positive."
  },
  {
   "property": "C34",
   "status": "proved",
   "theorems": [
    "Verif.Props.C34_sign",
    "Verif.Props.C34_ignores_masked"
   ],
   "note": "Sign, invalid spectra, masked pixels ignored."
  },
  {
   "property": "C35",
   "status": "proved",
   "theorems": [
    "Verif.Props.C35_sky_mask",
    "Verif.Props.C35_pixels"
   ],
   "note": "Which pixels are masked is described by the lines themselves (observed or rest frame), not by the index ranges of the model."
  },
  {
   "property": "C36",
   "status": "proved",
   "theorems": [
    "Verif.Props.C36_bal_mask",
    "Verif.Props.C36_no_bal",
    "Verif.Props.C36_blueward",
    "Verif.Props.C36_check_catalog"
   ],
   "note": "Catalog rows carry the velocity columns; missing columns are the error branch of C36_check_catalog."
  },
  {
   "property": "C37",
   "status": "proved",
   "theorems": [
    "Verif.Props.C37_dla_mask",
    "Verif.Props.C37_no_dla",
    "Verif.Props.C37_signal_to_noise",
    "Verif.Props.C37_redshift_column",
    "Verif.Props.C37_redshift_column_ambiguous"
   ],
   "note": "The transmission of one DLA is a parameter (any function); grouping by target is proved. C37_redshift_column_ambiguous: a catalog with both Z and Z_DLA gives either."
  },
  {
   "property": "C38",
   "status": "proved",
   "theorems": [
    "Verif.Props.C38_no_empty_arm",
    "Verif.Props.C38_order",
    "Verif.Props.C38_only_remove",
    "Verif.Props.C38_repeat"
   ],
   "note": "Order independence, repetition, only removal, and arms without good pixel dropped."
  },
  {
   "property": "C39",
   "status": "partial",
   "theorems": [
    "Verif.Props.C39_eta",
    "Verif.Props.C39_continuum_needed",
    "Verif.Props.C39_additive_nonneg",
    "Verif.Props.C39_additive",
    "Verif.Props.C39_good_pixels_partial",
    "Verif.Props.C39_table_even",
    "Verif.Props.C39_table_positive",
    "Verif.Props.C39_overshoot_refuted"
   ],
   "note": "ivar/eta, the variance formula and the refusals are proved for all spectra; good pixels, signs and growth where the interpolated eta is positive and the interpolated var_lss not negative (C39_good_pixels_partial), with a condition on the table (C39_table_positive). False for all tables with eta > 0: the spline leaves the range of its table (C39_overshoot_refuted)."
  },
  {
   "property": "C40",
   "status": "proved",
   "theorems": [
    "Verif.Props.C40_pixels",
    "Verif.Props.C40_undone",
    "Verif.Props.C40_reciprocal_table",
    "Verif.Props.C40_table_positive",
    "Verif.Props.C40_between_nodes_refuted"
   ],
   "note": "exact arithmetic; stacked flux not zero at the pixels (positive tables are positive in between). Between the nodes of the table the reciprocal table does not undo the calibration (C40_between_nodes_refuted)."
  },
  {
   "property": "C41",
   "status": "proved",
   "theorems": [
    "Verif.Props.C41_value",
    "Verif.Props.C41_between",
    "Verif.Props.C41_nodes",
    "Verif.Props.C41_outside",
    "Verif.Props.C41_linear"
   ],
   "note": "all tables with two or more nodes, all points; exact arithmetic."
  },
  {
   "property": "C42",
   "status": "proved",
   "theorems": [
    "Verif.Props.C42_system",
    "Verif.Props.C42_unique",
    "Verif.Props.C42_natural_spline"
   ],
   "note": "the equations for every table; on the reals the interpolant is the twice continuously differentiable natural spline through the nodes."
  },
  {
   "property": "C43",
   "status": "proved",
   "theorems": [
    "Verif.Props.C43_only_table",
    "Verif.Props.C43_system",
    "Verif.Props.C43_close",
    "Verif.Props.C43_bound",
    "Verif.Props.C43_overshoot",
    "Verif.Props.C43_linear",
    "Verif.Props.C43_three_nodes_refuted",
    "Verif.Props.C43_spline"
   ],
   "note": "four or more nodes: the result depends only on the table, the end conditions hold exactly and the inner equations up to 1e-15 of the second derivatives (tabulated pivots); the distance to the exact spline is bounded. With three nodes the result depends on uninitialised memory (C43_three_nodes_refuted)."
  },
  {
   "property": "C44",
   "status": "proved",
   "theorems": [
    "Verif.Props.C44_in_turn",
    "Verif.Props.C44_mean",
    "Verif.Props.C44_distribution"
   ],
   "note": "the mean is the weighted mean of all data for every distribution over ranks, subsample count and order."
  },
  {
   "property": "C45",
   "status": "partial",
   "theorems": [
    "Verif.Props.C45_reset",
    "Verif.Props.C45_refused",
    "Verif.Props.C45_mean_first_refuted",
    "Verif.Props.C45_any_order_partial"
   ],
   "note": "reset and refusal proved for all states; the statistics can be asked for in any order except that get_mean before get_mean_n_cov or get_mean_n_var fails (C45_mean_first_refuted)."
  },
  {
   "property": "C46",
   "status": "proved",
   "theorems": [
    "Verif.Props.C46_covariance",
    "Verif.Props.C46_returned",
    "Verif.Props.C46_denominators",
    "Verif.Props.C46_leave_one_out",
    "Verif.Props.C46_bias",
    "Verif.Props.C46_equal_weights"
   ],
   "note": "symmetric, positive semidefinite, diagonal equal to the jackknife variance, denominators nonzero with two or more subsamples; the jackknife means are the leave-one-out means."
  },
  {
   "property": "C47",
   "status": "partial",
   "theorems": [
    "Verif.Props.C47_diagonal_partial",
    "Verif.Props.C47_independent_refuted"
   ],
   "note": "the diagonal is the variance of the square of a Gaussian variable (Mathlib's gaussianReal); for independent variables the function returns a positive off-diagonal element although the covariance of the squares is zero (C47_independent_refuted)."
  },
  {
   "property": "C48",
   "status": "proved",
   "theorems": [
    "Verif.Props.C48_bins",
    "Verif.Props.C48_one_bin"
   ],
   "note": "Proved for all spectra, wavelength and variance bins with increasing edges: the pixel and quasar counts of a bin are those of the half-open cell, pixels outside go to the dropped overflow cells, every pixel is in one cell."
  },
  {
   "property": "C49",
   "status": "proved",
   "theorems": [
    "Verif.Props.C49_total",
    "Verif.Props.C49_masked",
    "Verif.Props.C49_refused_add"
   ],
   "note": "Proved: every add succeeds before the statistics are computed, and pixels outside the bins or with zero ivar change no statistic; an add refused afterwards raises but has already counted its pixels (C49_refused_add)."
  },
  {
   "property": "C50",
   "status": "proved",
   "theorems": [
    "Verif.Props.C50_statistics",
    "Verif.Props.C50_distribution"
   ],
   "note": "Proved: mean delta, variance and higher rows are the sums over the pixels of all ranks, whatever the distribution over ranks and the number of subsamples."
  },
  {
   "property": "C51",
   "status": "partial",
   "theorems": [
    "Verif.Props.C51_used",
    "Verif.Props.C51_fit",
    "Verif.Props.C51_all_ranks",
    "Verif.Props.C51_quasars_partial",
    "Verif.Props.C51_quasars_refuted"
   ],
   "note": "Selection of bins, halved minima, 40% rule and agreement of the ranks proved. The number of quasars is a number of arms: one quasar with two arms in a bin counts twice (C51_quasars_refuted); with one arm per quasar in a bin it is exact (C51_quasars_partial)."
  },
  {
   "property": "C52",
   "status": "proved",
   "theorems": [
    "Verif.Props.C52_index",
    "Verif.Props.C52_upper_limit",
    "Verif.Props.C52_no_error",
    "Verif.Props.C52_forest",
    "Verif.Props.C52_mean",
    "Verif.Props.C52_distribution",
    "Verif.Props.C52_bounds"
   ],
   "note": "Over every set of spectra, grid and distribution over ranks: index of a pixel is the cell it lies in, no error below the upper limits, a forest pixel of a spectrum cut to the limits is stacked, value of every cell is the weighted mean over all ranks of the pixels in it, same for every distribution. A pixel exactly at the upper limit raises (C52_upper_limit): DESIGN.md finding 23. Exact arithmetic."
  },
  {
   "property": "C53",
   "status": "partial",
   "theorems": [
    "Verif.Props.C53_input_values",
    "Verif.Props.C53_input",
    "Verif.Props.C53_input_special",
    "Verif.Props.C53_invalid",
    "Verif.Props.C53_picca_values",
    "Verif.Props.C53_picca_partial",
    "Verif.Props.C53_picca_refuted",
    "Verif.Props.C53_nan_refuted",
    "Verif.Props.C53_true_partial",
    "Verif.Props.C53_true_refuted"
   ],
   "note": "Proved for the input model (positive, also with NaN and infinities). False of the code for the picca model (zero flux gives an exactly zero continuum that is valid; NaN accepted) and for the true continuum (no check): C53_picca_refuted, C53_nan_refuted, C53_true_refuted; what holds is C53_picca_partial, C53_true_partial. DESIGN.md findings 12, 24."
  },
  {
   "property": "C54",
   "status": "proved",
   "theorems": [
    "Verif.Props.C54_iterate",
    "Verif.Props.C54_failure"
   ],
   "note": "All iteration limits, convergence patterns, rank counts; iterations as a recurrence over all ranks (Iterations); distinct extension names for any number of iterations; failure case separately."
  },
  {
   "property": "C55",
   "status": "proved",
   "theorems": [
    "Verif.Props.C55_fit_continua"
   ],
   "note": "fit_continua as an MPI program on any number of ranks."
  },
  {
   "property": "C56",
   "status": "partial",
   "theorems": [
    "Verif.Props.C56_partial",
    "Verif.Props.C56_refuted"
   ],
   "note": "False with additive noise calibration or coadding after the fit (C56_refuted): then weights come from the refit variance. Proved without these options (C56_partial)."
  },
  {
   "property": "C57",
   "status": "proved",
   "theorems": [
    "Verif.Props.C57_catalog",
    "Verif.Props.C57_no_directory",
    "Verif.Props.C57_too_many_arms"
   ],
   "note": "Rows of all ranks, at most three arms; more arms raise (C57_too_many_arms). Single precision of the columns not modelled."
  },
  {
   "property": "C58",
   "status": "partial",
   "theorems": [
    "Verif.Props.C58_partial",
    "Verif.Props.C58_refuted"
   ],
   "note": "Accepted exactly without the listed conflicts; the input model without a directory is accepted (C58_refuted)."
  },
  {
   "property": "C59",
   "status": "partial",
   "theorems": [
    "Verif.Props.C59_partial",
    "Verif.Props.C59_refuted"
   ],
   "note": "Holds up to one pixel for one arm; false without the pixel (C59_refuted)."
  },
  {
   "property": "C60",
   "status": "partial",
   "theorems": [
    "Verif.Props.C60_files_read",
    "Verif.Props.C60_partial",
    "Verif.Props.C60_refuted",
    "Verif.Props.C60_glob_error"
   ],
   "note": "False if the number of ranks does not divide the number of files (C60_refuted; exact set of files read in C60_files_read)."
  },
  {
   "property": "C61",
   "status": "partial",
   "theorems": [
    "Verif.Props.C61_partial",
    "Verif.Props.C61_refuted",
    "Verif.Props.C61_no_deltas"
   ],
   "note": "Proved over all ranks for grids without halfway pixels and ranges of whole pixels; false otherwise (C61_refuted)."
  },
  {
   "property": "C62",
   "status": "proved",
   "theorems": [
    "Verif.Props.C62_kept",
    "Verif.Props.C62_without_catalog"
   ],
   "note": "Exact set of deltas used, given rows and lists as read; check of BAL columns is C36's model. Without catalog the options have no effect (C62_without_catalog)."
  },
  {
   "property": "C63",
   "status": "partial",
   "theorems": [
    "Verif.Props.C63_partial",
    "Verif.Props.C63_refuted",
    "Verif.Props.C63_ivar_refuted"
   ],
   "note": "Proved for all lists of exposures whose arms are arms of the fitted spectrum, on one grid up to a shift below half a pixel. Not as claimed in the code: an exposure with an arm that the fitted spectrum lacks makes the run fail (C63_refuted), and the ivar of an arm that has to be cut is cut three times (C63_ivar_refuted)."
  },
  {
   "property": "C64",
   "status": "proved",
   "theorems": [
    "Verif.Props.C64_written",
    "Verif.Props.C64_success",
    "Verif.Props.C64_pixel_size_refuted",
    "Verif.Props.C64_no_files"
   ],
   "note": "All directories, files and deltas of a run that succeeds (C64_success), targets having one position; a run without files fails (C64_no_files). Besides the claim, the script always coadds with pixels of size 0.8 (C64_pixel_size_refuted)."
  },
  {
   "property": "C65",
   "status": "partial",
   "theorems": [
    "Verif.Props.C65_partial",
    "Verif.Props.C65_sky_mask_refuted"
   ],
   "note": "Proved if reading the sky mask (done by every rank on its own) fails on all ranks or none; otherwise the job can hang: C65_sky_mask_refuted. Stages are arbitrary functions that may fail on any rank; what a rank does on its own raises no QsonicException or SystemExit (in the code only broadcast reads and global checks do)."
  },
  {
   "property": "C66",
   "status": "partial",
   "theorems": [
    "Verif.Props.C66_partial",
    "Verif.Props.C66_refuted"
   ],
   "note": "All texts but NaN, which is accepted (C66_refuted)."
  },
  {
   "property": "C67",
   "status": "partial",
   "theorems": [
    "Verif.Props.C67_weights_partial",
    "Verif.Props.C67_negative_weight_refuted"
   ],
   "note": "Proved when weights do not exceed ivar; refuted with weight above ivar (a negative weight arises)."
  },
  {
   "property": "C68",
   "status": "proved",
   "theorems": [
    "Verif.Props.C68_mean_snr",
    "Verif.Props.C68_initial_amplitude",
    "Verif.Props.C68_masked_flux",
    "Verif.Props.C68_effective_snr",
    "Verif.Props.C68_start",
    "Verif.Props.C68_start_range"
   ],
   "note": "sqrt is any function that vanishes for nonpositive arguments; the 1e-6 of the code is any positive eps. C68_start: the fit starts at the unique minimum of the sum of squares of a constant continuum plus 1e-6 a^2."
  },
  {
   "property": "C69",
   "status": "partial",
   "theorems": [
    "Verif.Props.C69_snr_of_region_partial",
    "Verif.Props.C69_masked_still_counts_refuted"
   ],
   "note": "False of the code: C69_masked_still_counts_refuted (a dropped arm still counts). C69_snr_of_region_partial: right if nothing is masked or dropped after set_forest_region."
  },
  {
   "property": "C70",
   "status": "proved",
   "theorems": [
    "Verif.Props.C70_rsnr"
   ],
   "note": "Finite values; sqrt is any function that keeps positivity and vanishes otherwise."
  },
  {
   "property": "C71",
   "status": "proved",
   "theorems": [
    "Verif.Props.C71_clean_end",
    "Verif.Props.C71_missing_file"
   ],
   "note": "Stages are arbitrary functions that may fail on any rank; what a rank does on its own raises no QsonicException or SystemExit."
  },
  {
   "property": "C72",
   "status": "partial",
   "theorems": [
    "Verif.Props.C72_partial",
    "Verif.Props.C72_refuted"
   ],
   "note": "Proved that the written weights equal the ivar for every exposure read after the fit. The claim is refuted in every good pixel with positive var_lss."
  },
  {
   "property": "C73",
   "status": "proved",
   "theorems": [
    "Verif.Props.C73_range",
    "Verif.Props.C73_column_density",
    "Verif.Props.C73_monotone"
   ],
   "note": "Exact real arithmetic; the difference of large terms near the line centre in floating point is not modelled."
  },
  {
   "property": "C74",
   "status": "partial",
   "theorems": [
    "Verif.Props.C74_length",
    "Verif.Props.C74_linear",
    "Verif.Props.C74_constant",
    "Verif.Props.C74_scale_partial",
    "Verif.Props.C74_scale_refuted",
    "Verif.Props.C74_positive_refuted",
    "Verif.Props.C74_constant_ivar"
   ],
   "note": "Length, linearity and constants for all arrays. Every mode of the padded array is multiplied by the characteristic function of a Gaussian with sigma_pix / (2 pi), not sigma_pix: the scale is refuted for all sigma and frequencies. Positivity refuted for sigma 1/2."
  },
  {
   "property": "C75",
   "status": "partial",
   "theorems": [
    "Verif.Props.C75_true_weights",
    "Verif.Props.C75_additive",
    "Verif.Props.C75_coadd",
    "Verif.Props.C75_partial",
    "Verif.Props.C75_eta_twice_refuted",
    "Verif.Props.C75_last_update_refuted"
   ],
   "note": "Weights after true continuum fit, additive calibration and coadding are those of the given functions; with --eta-calib-ivar alone, eta is counted once. Refuted: eta twice with coadding or additive calibration; the weights precede the last update of the saved functions."
  },
  {
   "property": "C76",
   "status": "partial",
   "theorems": [
    "Verif.Props.C76_partial",
    "Verif.Props.C76_refuted"
   ],
   "note": "Without covariance the squared error is the larger one of the Gaussian estimate and the propagated jackknife variance. Refuted for the diagonal fallback with --var-use-cov."
  },
  {
   "property": "C77",
   "status": "partial",
   "theorems": [
    "Verif.Props.C77_covariance",
    "Verif.Props.C77_symmetric",
    "Verif.Props.C77_definite_refuted"
   ],
   "note": "Every entry, symmetry and diagonal proved for all data; positive semidefiniteness is refuted by a run with two subsamples."
  },
  {
   "property": "C78",
   "status": "partial",
   "theorems": [
    "Verif.Props.C78_modes_partial",
    "Verif.Props.C78_unit_mean",
    "Verif.Props.C78_slope_partial",
    "Verif.Props.C78_slope_refuted"
   ],
   "note": "Unit mean proved for all inputs with real integrals of the natural spline. For any order N the new mean continuum is the estimate minus a combination of the Legendre polynomials of degrees 1 to N (Mathlib's shifted Legendre polynomials), with the measured coefficients; what is left of each is at most N(N+1)(3N(N+1)-2)/3 d^2 times the removed coefficients for steps d (2 d^2 for the default order one). Exact removal refuted with three bins."
  },
  {
   "property": "C79",
   "status": "partial",
   "theorems": [
    "Verif.Props.C79_bound",
    "Verif.Props.C79_points_partial",
    "Verif.Props.C79_complete",
    "Verif.Props.C79_points_refuted"
   ],
   "note": "Convergence follows from all updates below 0.33 errors for all inputs. The converse holds up to 108 bins and is refuted for every larger number (default 162); bound for any number of bins."
  },
  {
   "property": "C80",
   "status": "partial",
   "theorems": [
    "Verif.Props.C80_restack",
    "Verif.Props.C80_flat_partial",
    "Verif.Props.C80_bound_partial",
    "Verif.Props.C80_positive_partial",
    "Verif.Props.C80_refuted"
   ],
   "note": "Second stack for all data and ranks as a weighted mean; equal to one where the stack is flat, bounds in general, positivity between the centers. The full claim is refuted by a quasar with a rising stack and an empty bin."
  },
  {
   "property": "C81",
   "status": "partial",
   "theorems": [
    "Verif.Props.C81_fit",
    "Verif.Props.C81_coadd_partial",
    "Verif.Props.C81_coadd_refuted"
   ],
   "note": "The continuum models keep the number of good pixels (all spectra). Coadding after the fit: dof belongs to the coadded spectrum if and only if no cell has good pixels of two arms (C81_coadd_partial); refuted for overlapping arms."
  },
  {
   "property": "C82",
   "status": "partial",
   "theorems": [
    "Verif.Props.C82_between",
    "Verif.Props.C82_gaussian",
    "Verif.Props.C82_wings",
    "Verif.Props.C82_gap_refuted",
    "Verif.Props.C82_rows_refuted"
   ],
   "note": "Gaussian columns of any widths, amplitudes and weights: the result is between the widths (C82_between), exact for one width, also with negative wings (C82_wings). Refuted: pixels that are NaN in all rows have zero weight but make the result NaN; three rows raise IndexError."
  },
  {
   "property": "C83",
   "status": "partial",
   "theorems": [
    "Verif.Props.C83_uniform",
    "Verif.Props.C83_table",
    "Verif.Props.C83_default",
    "Verif.Props.C83_weights_partial",
    "Verif.Props.C83_weights_refuted"
   ],
   "note": "Same function on all ranks or all raise; values at the nodes; default mean flux. Weights are proper inside the table (C83_weights_partial) and refuted outside, where the table is extrapolated."
  },
  {
   "property": "C84",
   "status": "partial",
   "theorems": [
    "Verif.Props.C84_rows",
    "Verif.Props.C84_early",
    "Verif.Props.C84_order_partial",
    "Verif.Props.C84_order_refuted"
   ],
   "note": "All rows and columns (C84_rows), exception before the calculation. Descending order holds for bins with pixels (C84_order_partial) and is refuted for bins without."
  },
  {
   "property": "C85",
   "status": "proved",
   "theorems": [
    "Verif.Props.C85_empty",
    "Verif.Props.C85_errors",
    "Verif.Props.C85_fixed"
   ],
   "note": "The smoothing spline is a parameter; for the fixed point it is assumed to leave constants alone."
  },
  {
   "property": "C86",
   "status": "partial",
   "theorems": [
    "Verif.Props.C86_partial",
    "Verif.Props.C86_refuted"
   ],
   "note": "Proved for fiducial mean flux and var_lss in exact arithmetic, for a deterministic minimizer, with the Python/numpy parts modelled and UnivariateSpline a parameter. The part on the fitted variance is refuted: jackknife errors depend on the rank layout."
  },
  {
   "property": "C87",
   "status": "partial",
   "theorems": [
    "Verif.Props.C87_selection",
    "Verif.Props.C87_not_empty",
    "Verif.Props.C87_local",
    "Verif.Props.C87_ids",
    "Verif.Props.C87_masked_out_refuted"
   ],
   "note": "Proved for exact arithmetic, with and without --coadd-arms before (for arms on one wavelength grid), with positive eta and non-zero stacked flux. That a selected spectrum has a good pixel left is proved for --skip > 0 and refuted for --skip 0."
  },
  {
   "property": "C88",
   "status": "partial",
   "theorems": [
    "Verif.Props.C88_partial",
    "Verif.Props.C88_idle_refuted"
   ],
   "note": "Proved in exact arithmetic for fiducial variance (no variance fit during the iterations), with and without --coadd-arms before, when every rank has rows or idle ranks are harmless (mock data, no BAL or DLA mask). Refuted in general for more processes than pixels otherwise: the job is aborted."
  },
  {
   "property": "C89",
   "status": "partial",
   "theorems": [
    "Verif.Props.C89_accepted",
    "Verif.Props.C89_missing_names",
    "Verif.Props.C89_deterministic_partial",
    "Verif.Props.C89_roundtrip",
    "Verif.Props.C89_deterministic_refuted"
   ],
   "note": "Proved for files as lists of tables (number formats and the primary HDU are not modelled). That the result is a function of the file is proved for tables with one name per quantity and refuted for tables with two."
  },
  {
   "property": "C90",
   "status": "partial",
   "theorems": [
    "Verif.Props.C90_cost",
    "Verif.Props.C90_fit_partial",
    "Verif.Props.C90_run_partial",
    "Verif.Props.C90_rsnr",
    "Verif.Props.C90_smooth",
    "Verif.Props.C90_written",
    "Verif.Props.C90_start_refuted",
    "Verif.Props.C90_stack_refuted",
    "Verif.Props.C90_reso_refuted"
   ],
   "note": "Proved for the whole run with the picca model (with --coadd-arms before: for spectra without resolution matrices), for minimizers that find the minimum (their result follows the cost function and not the start), and the tables written. Not true without that condition: the starting amplitude depends on the units (C90_start_refuted), for continua from files the stack does (C90_stack_refuted), and so does the coadded resolution, where masked pixels have the weight 1e-8 in any units (C90_reso_refuted)."
  },
  {
   "property": "C91",
   "status": "proved",
   "theorems": [
    "Verif.Props.C91_reset",
    "Verif.Props.C91_reset_linear",
    "Verif.Props.C91_by_value",
    "Verif.Props.C91_model"
   ],
   "note": "Refinement for all runs, with and without fiducial table; model of picca continuum; arrays given to reset are new at every call, so that they are values."
  },
  {
   "property": "C92",
   "status": "proved",
   "theorems": [
    "Verif.Props.C92_header"
   ],
   "note": "Extra keys of the catalog row are the five that the code knows. Values in headers are exact numbers (FITS formatting is not modelled)."
  },
  {
   "property": "C93",
   "status": "proved",
   "theorems": [
    "Verif.Props.C93_reset",
    "Verif.Props.C93_fresh",
    "Verif.Props.C93_refused",
    "Verif.Props.C93_pixels_refuted"
   ],
   "note": "Exceptions are caught by the caller and the objects stay in use. The refused spectrum is counted in num_pixels (C93_pixels_refuted, finding 52); the statement is about the sums and the numbers of quasars."
  },
  {
   "property": "C94",
   "status": "partial",
   "theorems": [
    "Verif.Props.C94_mask_partial",
    "Verif.Props.C94_small_flux",
    "Verif.Props.C94_documented_refuted"
   ],
   "note": "The documented condition is refuted (C94_documented_refuted, finding 53); C94_mask_partial gives the condition with the floor of one unit of flux that the code has. sqrt is any function positive on positive numbers."
  },
  {
   "property": "C95",
   "status": "proved",
   "theorems": [
    "Verif.Props.C95_wing",
    "Verif.Props.C95_core",
    "Verif.Props.C95_core_total",
    "Verif.Props.C95_transmission"
   ],
   "note": "Real numbers; rounding near the centre of the line is not modelled."
  },
  {
   "property": "C96",
   "status": "partial",
   "theorems": [
    "Verif.Props.C96_readers",
    "Verif.Props.C96_rsnr",
    "Verif.Props.C96_written",
    "Verif.Props.C96_coadd",
    "Verif.Props.C96_coadded",
    "Verif.Props.C96_partial",
    "Verif.Props.C96_statistics",
    "Verif.Props.C96_catalog_partial",
    "Verif.Props.C96_catalog_refuted",
    "Verif.Props.C96_errors_refuted"
   ],
   "note": "C96_coadded: with coadding before the fit the whole run is identical. C96_partial: without coadding, for variance fitters that do not see the order. Refuted for the jackknife errors of the variance statistics (C96_errors_refuted) and the columns ARMS/MEANSNR of the catalog."
  },
  {
   "property": "C97",
   "status": "proved",
   "theorems": [
    "Verif.Props.C97_likelihood",
    "Verif.Props.C97_fit"
   ],
   "note": "Cost identity for all spectra and coefficients; form of the continuum for every valid fit; maximum of the likelihood if a successful minimizer returns a minimum of the function it was given (iminuit and scipy are not modelled)."
  },
  {
   "property": "C98",
   "status": "proved",
   "theorems": [
    "Verif.Props.C98_catalog",
    "Verif.Props.C98_coadd",
    "Verif.Props.C98_tile",
    "Verif.Props.C98_mock",
    "Verif.Props.C98_sky",
    "Verif.Props.C98_dla",
    "Verif.Props.C98_whole",
    "Verif.Props.C98_duplicates_shift"
   ],
   "note": "Equality for all permutations of rows in all tabular inputs and any argsort. Spectra files without duplicates (C98_duplicates_shift shows what happens otherwise)."
  },
  {
   "property": "C99",
   "status": "proved",
   "theorems": [
    "Verif.Props.C99_attributes",
    "Verif.Props.C99_fiducial",
    "Verif.Props.C99_not_fiducial",
    "Verif.Props.C99_calib"
   ],
   "note": "Numbers are stored exactly in the model. The tables of the interpolators are equal as functions, so the second run sees the spline of the first, not only its nodes."
  },
  {
   "property": "C100",
   "status": "proved",
   "theorems": [
    "Verif.Props.C100_cuts",
    "Verif.Props.C100_sublist",
    "Verif.Props.C100_catalog"
   ],
   "note": "Selection: C100_cuts (exact), C100_sublist. Catalog: C100_catalog. If the looser run fails (e.g. while coadding), nothing is claimed of the stricter one."
  },
  {
   "property": "C101",
   "status": "proved",
   "theorems": [
    "Verif.Props.C101_parts",
    "Verif.Props.C101_failed",
    "Verif.Props.C101_invalid"
   ],
   "note": "C101_parts: for any parts of the fitter for which the noise calibration keeps invalid spectra invalid. C101_failed: the fitter with its numerical parts, any variance fitter. C101_invalid: a failed fit gives an invalid spectrum; the data are unchanged. Not modelled: log messages with the number of invalid spectra."
  },
  {
   "property": "C102",
   "status": "proved",
   "theorems": [
    "Verif.Props.C102_fit",
    "Verif.Props.C102_run",
    "Verif.Props.C102_catalog",
    "Verif.Props.C102_fixed"
   ],
   "note": "C102_fit: one fit. C102_run: the whole iteration. C102_catalog: the catalog after it. C102_fixed: true and input continuum. The minimizer is assumed to return as many parameters as it starts with and a square covariance (Shapes). Single precision of the columns is not modelled."
  },
  {
   "property": "C103",
   "status": "partial",
   "theorems": [
    "Verif.Props.C103_read_partial",
    "Verif.Props.C103_refused",
    "Verif.Props.C103_same_rows",
    "Verif.Props.C103_one_pixel_refuted"
   ],
   "note": "Proved for all files that are read (C103_read_partial), refusal of every width but one (C103_refused), and equality with the reader model of C13 to C15 for well formed files (C103_same_rows). Refuted for images of one pixel, whose value is repeated."
  },
  {
   "property": "C104",
   "status": "proved",
   "theorems": [
    "Verif.Props.C104_bad_pixels",
    "Verif.Props.C104_forest",
    "Verif.Props.C104_select",
    "Verif.Props.C104_run"
   ],
   "note": "Finite values outside of the bad pixels. The options --coadd-arms after, --exposures after and --varlss-as-additive-noise are not part of the run modelled."
  },
  {
   "property": "C105",
   "status": "partial",
   "theorems": [
    "Verif.Props.C105_partial",
    "Verif.Props.C105_distribution",
    "Verif.Props.C105_refuted"
   ],
   "note": "Full statement: for any number of files and ranks. Proved with the same number of files on every rank (at least one), a delta to be used on every rank, and deltas on grids as in C61; files left over are not read. Errors and covariances in the table are those of C93 and C95, they depend on the order. Exact arithmetic; the four reductions of the statistics are one message."
  },
  {
   "property": "C106",
   "status": "partial",
   "theorems": [
    "Verif.Props.C106_written",
    "Verif.Props.C106_partial",
    "Verif.Props.C106_normalize_refuted",
    "Verif.Props.C106_additive_refuted",
    "Verif.Props.C106_short_refuted",
    "Verif.Props.C106_noise_refuted"
   ],
   "note": "`C106_partial` with `C106_written` cover runs with coadding, and runs without normalisation or additive noise calibration; the remaining options violate the claim (`C106_*_refuted`)."
  },
  {
   "property": "C107",
   "status": "partial",
   "theorems": [
    "Verif.Props.C107_values",
    "Verif.Props.C107_update",
    "Verif.Props.C107_partial",
    "Verif.Props.C107_refuted",
    "Verif.Props.C107_stuck_refuted",
    "Verif.Props.C107_zero_refuted"
   ],
   "note": "C107_values is the whole statement about which bins have an influence. The bounds hold for splines that keep bounds (C107_partial); false for cubic splines, and a bin may stay unfitted with enough data: C107_refuted, C107_stuck_refuted, C107_zero_refuted."
  },
  {
   "property": "C108",
   "status": "partial",
   "theorems": [
    "Verif.Props.C108_meaning",
    "Verif.Props.C108_order",
    "Verif.Props.C108_fit",
    "Verif.Props.C108_ranks",
    "Verif.Props.C108_status_refuted",
    "Verif.Props.C108_exponent_refuted",
    "Verif.Props.C108_surveys_refuted"
   ],
   "note": "C108_meaning, C108_order, C108_fit and C108_ranks hold for all command lines. Refuted: the exit status of refused command lines (C108_status_refuted), negative numbers with exponents (C108_exponent_refuted), all surveys in qsonic-fit (C108_surveys_refuted). argparse is modelled as in Python 3.11; messages and non-ASCII digits are not."
  },
  {
   "property": "C109",
   "status": "partial",
   "theorems": [
    "Verif.Props.C109_partial",
    "Verif.Props.C109_idle_refuted"
   ],
   "note": "C109_partial assumes that every rank has a delta (C109_idle_refuted shows that it is needed), that the catalog is not by tile, and what C88_partial assumes; --coadd-arms after and additive noise are not modelled here."
  },
  {
   "property": "C110",
   "status": "partial",
   "theorems": [
    "Verif.Props.C110_partial",
    "Verif.Props.C110_no_pixels_refuted"
   ],
   "note": "C110_partial assumes what C88_partial assumes, at most three arms, and a minimizer that returns as many parameters as it starts with. A valid row need not have pixels in the delta files (C110_no_pixels_refuted)."
  },
  {
   "property": "C111",
   "status": "partial",
   "theorems": [
    "Verif.Props.C111_partial",
    "Verif.Props.C111_plain",
    "Verif.Props.C111_weights_refuted",
    "Verif.Props.C111_flux_refuted"
   ],
   "note": "C111_partial: with one of the options all but weights and chi square is the same; with both, targets, file names, wavelengths and continua. The rest is refuted with a variance fit that depends on the ranks (C111_weights_refuted, C111_flux_refuted). Tile format not covered."
  },
  {
   "property": "C112",
   "status": "proved",
   "theorems": [
    "Verif.Props.C112_root_input",
    "Verif.Props.C112_delta_input",
    "Verif.Props.C112_outcomes",
    "Verif.Props.C112_few_files"
   ],
   "note": "C112_root_input, C112_delta_input and C112_outcomes cover all inputs; errors of reading are assumed to be Exceptions, and the complete end is for deltas on grids as in C61_partial. C112_few_files is the consequence for few files."
  },
  {
   "property": "C113",
   "status": "proved",
   "theorems": [
    "Verif.Props.C113_written"
   ],
   "note": "Exact arithmetic; reader, minimizer and smoothing are parameters. mean_resolution does not fail here (its IndexError is in C82). Left out: --exposures after, --coadd-arms after, additive noise, the exception of the variance fitter (C71); ranks without rows where blinding or masks need rows (C88_idle_refuted). Flux and ivar of the pixels: without calibration of ivar by the fitted eta."
  },
  {
   "property": "C114",
   "status": "proved",
   "theorems": [
    "Verif.Props.C114_fit_calib"
   ],
   "note": "Hypotheses of C113 on the first job and of C105_partial on the second: equal numbers of files for the processes (C105_refuted: with a remainder files are left out), a usable delta in every file, spectra read on a common grid of the stack. DELTA_LAMBDA is required of every delta."
  },
  {
   "property": "C115",
   "status": "proved",
   "theorems": [
    "Verif.Props.C115_fit_coadd"
   ],
   "note": "Hypotheses of C113 for every run; the coordinates of a target are the same in all runs. The pixel size is a parameter; the script always uses the default 0.8 (C64_pixel_size_refuted). The coadded values in terms of the arms are C28; they depend on the order for more than two arms (C28_not_associative)."
  },
  {
   "property": "C116",
   "status": "proved",
   "theorems": [
    "Verif.Props.C116_history",
    "Verif.Props.C116_restart",
    "Verif.Props.C116_alone"
   ],
   "note": "The minimizer is a function of the cost function and the starting point. The parameters x and xcov of the chi square catalog are not part of the statement: after a failed fit they are those of an earlier fit (C102). Hypotheses of C113 for C116_alone; C116_restart needs no assumption about what is written."
  },
  {
   "property": "C117",
   "status": "proved",
   "theorems": [
    "Verif.Props.C117_catalogs"
   ],
   "note": "For a fiducial var_lss, as C88: without it var_lss is fitted in every iteration, and its subsamples depend on the process (C50, C86). Spectra are compared after reading; the readers are covered by C13, C14, C98. At least one row for each process unless IdleOk (C88_idle_refuted)."
  },
  {
   "property": "C118",
   "status": "partial",
   "theorems": [
    "Verif.Props.C118_alone_partial",
    "Verif.Props.C118_targets_partial",
    "Verif.Props.C118_idle_refuted"
   ],
   "note": "False if a rank has no spectra with input continua (C118_idle_refuted); proved if every process has a spectrum that passes (FixedIdleOk), and for true continua under the condition of C88. The readers of the true continuum are C15; x, xcov and dof of cont_params are not modelled."
  },
  {
   "property": "C119",
   "status": "partial",
   "theorems": [
    "Verif.Props.C119_plain",
    "Verif.Props.C119_exposures_partial",
    "Verif.Props.C119_tail_partial"
   ],
   "note": "C119_exposures_partial for runs with exposures, if every process has a delta (false otherwise, C109_idle_refuted) and not for the tile format; C119_tail_partial for the catalog and the deltas without exposures; C119_plain is the link to the run of C110. The chi square of the deltas, which is in no file, may differ."
  },
  {
   "property": "C120",
   "status": "partial",
   "theorems": [
    "Verif.Props.C120_plain",
    "Verif.Props.C120_ends",
    "Verif.Props.C120_catalog",
    "Verif.Props.C120_unreadable",
    "Verif.Props.C120_variance_refuted",
    "Verif.Props.C120_finishes"
   ],
   "note": "C120_ends, C120_catalog, C120_unreadable; C120_finishes is the other direction for good data without the steps after the fit; C120_plain is the link to C119. C120_variance_refuted shows that the variance fit ends runs with --fiducial-varlss too. The readers are assumed to raise ordinary exceptions other than the one of the package (all readers in io.py do); the true continuum, saving of the attributes file and failing writes are not part of this run."
  },
  {
   "property": "C121",
   "status": "proved",
   "theorems": [
    "Verif.Props.C121_steps",
    "Verif.Props.C121_again",
    "Verif.Props.C121_weights",
    "Verif.Props.C121_stale_refuted"
   ],
   "note": "C121_steps, C121_again, C121_weights; C121_stale_refuted shows why the directory must be new. The same key is chosen in both runs if a header or table has two names for the same thing."
  },
  {
   "property": "C122",
   "status": "partial",
   "theorems": [
    "Verif.Props.C122_cost",
    "Verif.Props.C122_disjoint",
    "Verif.Props.C122_partial",
    "Verif.Props.C122_grid",
    "Verif.Props.C122_refuted"
   ],
   "note": "C122_cost, C122_disjoint (no overlap: full equality for every minimizer), C122_grid, C122_partial (overlap with var_lss zero there). C122_refuted: false for overlapping arms with var_lss > 0. Missing: smoothed inverse variance (--smoothing-scale > 0), where the filter sees other neighbours at the ends of the arms."
  },
  {
   "property": "C123",
   "status": "partial",
   "theorems": [
    "Verif.Props.C123_given_variance",
    "Verif.Props.C123_partial",
    "Verif.Props.C123_coadds",
    "Verif.Props.C123_refuted"
   ],
   "note": "C123_given_variance: given var_lss and eta, complete for disjoint arms. C123_coadds: such quasars can be coadded. C123_partial: all of iterate, for variance fitters that depend on the good pixels only. C123_refuted: the fitter of the code counts arms. Missing: overlapping arms (C122) and gaps between arms."
  },
  {
   "property": "C124",
   "status": "partial",
   "theorems": [
    "Verif.Props.C124_given_variance",
    "Verif.Props.C124_partial",
    "Verif.Props.C124_weights_refuted"
   ],
   "note": "C124_given_variance: given var_lss and eta, complete but for the weights. C124_partial: all of mpi_continuum_fitting, for variance fitters that depend on the good pixels only (the one of the code does not, C123_refuted). C124_weights_refuted: the weights. Missing: additive noise calibration, overlapping arms (false, C122_refuted), gaps."
  },
  {
   "property": "C125",
   "status": "partial",
   "theorems": [
    "Verif.Props.C125_partial",
    "Verif.Props.C125_zero_continuum_refuted",
    "Verif.Props.C125_infinite_ivar_refuted",
    "Verif.Props.C125_zero_flux_refuted"
   ],
   "note": "C125_partial: if all values are numbers, continua are not zero and variances positive, the arithmetic with special values gives exactly the weighted means. The refuted theorems: a zero continuum in one pixel (also from the fit of a quasar with flux zero) and an infinite inverse variance. Missing: rounding, overflow, the sign of zero."
  },
  {
   "property": "C126",
   "status": "partial",
   "theorems": [
    "Verif.Props.C126_partial",
    "Verif.Props.C126_calib_partial",
    "Verif.Props.C126_normalized_refuted",
    "Verif.Props.C126_infinite_ivar_refuted"
   ],
   "note": "C126_partial: with numbers, including continuum zero, the table has numbers and the pixel is masked; C126_calib_partial: so has the stack of qsonic-calib. Refuted after normalisation with a NaN in the stack and for an infinite inverse variance. Missing: rounding, overflow, the sign of zero."
  },
  {
   "property": "C127",
   "status": "partial",
   "theorems": [
    "Verif.Props.C127_errors_partial",
    "Verif.Props.C127_covariance_partial",
    "Verif.Props.C127_partial",
    "Verif.Props.C127_statistics_partial",
    "Verif.Props.C127_infinite_flux_refuted"
   ],
   "note": "C127_partial: counts and sums of each bin are those of the good pixels, for finite fluxes and any inverse variance and continuum. C127_statistics_partial: so are the statistics after all forests of all ranks. C127_errors_partial: the jackknife errors without covariance are those that the good pixels alone give (refinement to Model/VarLss.lean), and are numbers. C127_covariance_partial: so is the covariance of two bins that the fit is given, although the blocks contain overflow bins that can be NaN. C127_infinite_flux_refuted: an infinite flux spoils its bin. Missing: rounding, overflow, the sign of zero."
  },
  {
   "property": "C128",
   "status": "partial",
   "theorems": [
    "Verif.Props.C128_partial",
    "Verif.Props.C128_infinite_flux_refuted",
    "Verif.Props.C128_infinite_ivar_refuted",
    "Verif.Props.C128_forest_partial",
    "Verif.Props.C128_statistics_refuted"
   ],
   "note": "C128_partial: from the values in the file to the coadded pixel of simple_coadd, for masked pixels with any values, and others without infinities. C128_forest_partial: coadd_arms_forest on numbers has no division by zero. Refuted for infinite flux with inverse variance zero (C128_statistics_refuted: it reaches the variance statistics of all ranks) and for infinite inverse variance. Missing: rounding, overflow, the sign of zero."
  },
  {
   "property": "C129",
   "status": "partial",
   "theorems": [
    "Verif.Props.C129_partial",
    "Verif.Props.C129_eta_refuted",
    "Verif.Props.C129_nan_refuted",
    "Verif.Props.C129_snr_partial",
    "Verif.Props.C129_masked_refuted"
   ],
   "note": "C129_partial: rows of numbers with weights between zero and the inverse variance give rows of numbers, no division by zero. Refuted for weights twice the inverse variance and for NaN weights. C129_snr_partial: MEANSNR is a number if there is a good pixel; C129_masked_refuted: it is NaN if there is none. Missing: rounding, overflow, the sign of zero."
  },
  {
   "property": "C130",
   "status": "partial",
   "theorems": [
    "Verif.Props.C130_invalid",
    "Verif.Props.C130_input_partial",
    "Verif.Props.C130_picca_partial",
    "Verif.Props.C130_nan_refuted",
    "Verif.Props.C130_picca_refuted",
    "Verif.Props.C130_negative_refuted",
    "Verif.Props.C130_infinite_refuted"
   ],
   "note": "C130_invalid: without a valid fit no continuum and chi square -1; which continua from a file are refused. C130_input_partial: a valid continuum from a file is positive, and with finite values the chi square is a number that is not negative, for positive mean flux. C130_picca_partial: for numbers valid means success and nowhere negative. Refuted for NaN, infinite continua and a mean flux that is not positive. Missing: rounding, overflow, the sign of zero; what the minimizers do with a NaN cost."
  },
  {
   "property": "C131",
   "status": "partial",
   "theorems": [
    "Verif.Props.C131_partial",
    "Verif.Props.C131_forest_partial",
    "Verif.Props.C131_effective_partial",
    "Verif.Props.C131_refuted",
    "Verif.Props.C131_forest_refuted"
   ],
   "note": "C131_partial, C131_forest_partial, C131_effective_partial: without infinite values in pixels that are not masked both values are those of the good pixels, and the cuts are made on them. Refuted for an infinite flux with inverse variance zero. Missing: rounding and overflow; changes of the forest arrays between the masks and the second cut (C69)."
  },
  {
   "property": "C132",
   "status": "partial",
   "theorems": [
    "Verif.Props.C132_partial",
    "Verif.Props.C132_refuted",
    "Verif.Props.C132_start_partial",
    "Verif.Props.C132_start_refuted"
   ],
   "note": "C132_partial for spectrum.py, C132_start_partial for get_a0, both without plus infinity (the second without any special value) in pixels that are not masked. Refuted for an infinite flux without weight. Missing: rounding and overflow; how smoothing of the inverse variance treats special values; what the minimizers do with a NaN start."
  },
  {
   "property": "C133",
   "status": "partial",
   "theorems": [
    "Verif.Props.C133_partial",
    "Verif.Props.C133_refuted",
    "Verif.Props.C133_eta_refuted"
   ],
   "note": "C133_partial for numbers, inverse variances and var_lss that are not negative and positive eta. Refuted for an infinite flux without weight and for eta zero. Missing: rounding and overflow; infinite or NaN inverse variance; what the minimizers do with NaN."
  }
 ]
}

{
 "claims": [
  {
   "property": "C01",
   "status": "proved",
   "theorems": [
    "RT1.Rad.C01_calc_int",
    "RT1.Rad.C01_calc_noint",
    "RT1.Rad.C01_calc_scalar_tau_nonpos",
    "RT1.Rad.C01_calc_volume",
    "RT1.Rad.C01_calc_interaction",
    "RT1.Rad.C01_calc_interaction_scalar"
   ],
   "note": ""
  },
  {
   "property": "C02",
   "status": "proved",
   "theorems": [
    "RT1.Rad.C02_surface_weighted_mean",
    "RT1.Rad.C02_tau_zero",
    "RT1.Rad.C02_bsf_one"
   ],
   "note": ""
  },
  {
   "property": "C03",
   "status": "proved",
   "theorems": [
    "RT1.Rad.C03_bounds",
    "RT1.Rad.C03_monotone_tau",
    "RT1.Rad.C03_monotone_omega",
    "RT1.Rad.C03_antitone_bsf"
   ],
   "note": ""
  },
  {
   "property": "C04",
   "status": "proved",
   "theorems": [
    "RT1.Rad.C04_mono",
    "RT1.Rad.C04_bistatic",
    "RT1.Rad.C04_init"
   ],
   "note": ""
  },
  {
   "property": "C05",
   "status": "proved",
   "theorems": [
    "RT1.Rad.C05_numeric_eq_symbolic",
    "RT1.Rad.C05_range",
    "RT1.Rad.C05_symmetric",
    "RT1.Rad.C05_periodic",
    "RT1.Rad.C05_volume_dot",
    "RT1.Rad.C05_surface_dot",
    "RT1.Rad.C05_volume_mono",
    "RT1.Rad.C05_surface_specular"
   ],
   "note": ""
  },
  {
   "property": "C06",
   "status": "proved",
   "theorems": [
    "RT1.Rad.C06_surface_volume",
    "RT1.Rad.C06_interaction"
   ],
   "note": "interaction for geometry vvvv"
  },
  {
   "property": "C07",
   "status": "proved",
   "theorems": [
    "RT1.Rad.C07_surface_slope",
    "RT1.Rad.C07_volume_slope",
    "RT1.Rad.C07_tot_slope"
   ],
   "note": ""
  },
  {
   "property": "C08",
   "status": "proved",
   "theorems": [
    "RT1.Rad.C08_surface_curv",
    "RT1.Rad.C08_volume_curv",
    "RT1.Rad.C08_tot_curv"
   ],
   "note": ""
  },
  {
   "property": "C09",
   "status": "partial",
   "theorems": [
    "RT1.Rad.C09_jacobian_partial",
    "RT1.Rad.C09_jacobian_tau_wrong"
   ],
   "note": "proved for all parameters except tau with cos(t_ex) != 1; for tau the code is wrong (1.0/mu_ex**(-1)), the negation is C09_jacobian_tau_wrong; sympy.diff is a hypothesis"
  },
  {
   "property": "C10",
   "status": "proved",
   "theorems": [
    "RT1.Rad.C10_entries",
    "RT1.Rad.C10_succeeds_iff",
    "RT1.Rad.C10_append"
   ],
   "note": ""
  },
  {
   "property": "C11",
   "status": "proved",
   "theorems": [
    "RT1.Fn.C11_cosintegral"
   ],
   "note": ""
  },
  {
   "property": "C12",
   "status": "proved",
   "theorems": [
    "RT1.Fn.C12_general",
    "RT1.Fn.C12_fn_coefficients",
    "RT1.Fn.C12_empty"
   ],
   "note": ""
  },
  {
   "property": "C13",
   "status": "proved",
   "theorems": [
    "RT1.Fn.C13_Fint",
    "RT1.Fn.C13_Fint_poly",
    "RT1.Fn.C13_expi_unique"
   ],
   "note": ""
  },
  {
   "property": "C14",
   "status": "proved",
   "theorems": [
    "RT1.Phase.C14_nonneg",
    "RT1.Phase.C14_normalised",
    "RT1.Phase.C14_series",
    "RT1.Phase.C14_sharp"
   ],
   "note": ""
  },
  {
   "property": "C15",
   "status": "proved",
   "theorems": [
    "RT1.Phase.C15_pos",
    "RT1.Phase.C15_normalised",
    "RT1.Phase.C15_mean_cosine",
    "RT1.Phase.C15_isotropic",
    "RT1.Phase.C15_legcoefs"
   ],
   "note": ""
  },
  {
   "property": "C16",
   "status": "partial",
   "theorems": [
    "RT1.Phase.C16_isotropic_pos",
    "RT1.Phase.C16_isotropic_hemreflect",
    "RT1.Phase.C16_isotropic_series",
    "RT1.Phase.C16_cosineLobe_nonneg",
    "RT1.Phase.C16_cosineLobe_neg_partial",
    "RT1.Phase.C16_cosineLobe_nonneg_side",
    "RT1.Phase.C16_cosineLobe_zero",
    "RT1.Phase.C16_cosineLobe_neg_fails",
    "RT1.Phase.C16_hg_eq_four_volume",
    "RT1.Phase.C16_hg_pos",
    "RT1.Phase.C16_hg_legcoefs"
   ],
   "note": "all clauses proved except that CosineLobe vanishes for negative cosines: this needs i >= 1, for i = 0 it is 1/pi everywhere (C16_cosineLobe_neg_fails)"
  },
  {
   "property": "C17",
   "status": "partial",
   "theorems": [
    "RT1.Phase.C17_func",
    "RT1.Phase.C17_ok_iff",
    "RT1.Phase.C17_ncoefs",
    "RT1.Phase.C17_func_perm",
    "RT1.Phase.C17_single",
    "RT1.Phase.C17_legexp_groups",
    "RT1.Phase.C17_legexp_partial",
    "RT1.Phase.C17_legexp_fails",
    "RT1.Phase.C17_fn_coefficients_partial",
    "RT1.Phase.C17_nested_fails",
    "RT1.Phase.C17_leaves",
    "RT1.Phase.C17_volume_legexp_fails"
   ],
   "note": "function, order and single-component clauses proved; nested combinations raise AttributeError (C17_nested_fails); LinCombV has no expansion (C17_volume_legexp_fails); the expansion of LinCombSRF is the weighted sum only if components sharing a have equal ncoefs or vanishing further coefficients (C17_legexp_partial, C17_legexp_fails)"
  },
  {
   "property": "C18",
   "status": "proved",
   "theorems": [
    "RT1.General.C18_dBsig0convert",
    "RT1.General.C18_dBsig0convert_linear"
   ],
   "note": ""
  },
  {
   "property": "C19",
   "status": "proved",
   "theorems": [
    "RT1.General.C19_compose",
    "RT1.General.C19_inverse",
    "RT1.General.C19_identity",
    "RT1.General.C19_valid",
    "RT1.General.C19_linear_inverse"
   ],
   "note": ""
  },
  {
   "property": "C20",
   "status": "proved",
   "theorems": [
    "RT1.General.C20_rectangularize_dim",
    "RT1.General.C20_rectangularize",
    "RT1.General.C20_rectangularize_succeeds_iff",
    "RT1.General.C20_rectangularize_dim_succeeds_iff"
   ],
   "note": ""
  },
  {
   "property": "C21",
   "status": "proved",
   "theorems": [
    "RT1.General.C21_meandatetime",
    "RT1.General.C21_meandatetime_empty",
    "RT1.General.C21_meandatetime_perm",
    "RT1.General.C21_meandatetime_between",
    "RT1.General.C21_meandatetime_shift",
    "RT1.General.C21_meandatetime_const"
   ],
   "note": ""
  },
  {
   "property": "C22",
   "status": "proved",
   "theorems": [
    "RT1.General.C22_pairwise",
    "RT1.General.C22_pairwise_getElem"
   ],
   "note": ""
  },
  {
   "property": "C23",
   "status": "proved",
   "theorems": [
    "RT1.General.C23_split_into_prefix",
    "RT1.General.C23_split_into_pieces",
    "RT1.General.C23_split_into_length",
    "RT1.General.C23_split_into_complete",
    "RT1.General.C23_split_into_none"
   ],
   "note": ""
  },
  {
   "property": "C24",
   "status": "proved",
   "theorems": [
    "RT1.General.C24_chunkit",
    "RT1.General.C24_chunkit_zero"
   ],
   "note": ""
  },
  {
   "property": "C25",
   "status": "proved",
   "theorems": [
    "RT1.General.C25_groupby_unsorted",
    "RT1.General.C25_groupby_sorted"
   ],
   "note": ""
  },
  {
   "property": "C26",
   "status": "partial",
   "theorems": [
    "RT1.General.C26_find_missing_partial",
    "RT1.General.C26_find_missing_empty",
    "RT1.General.C26_find_missing_fresh",
    "RT1.General.C26_find_missing_N"
   ],
   "note": "holds for every non-empty list; for the empty list the stream starts at 1, so the claim 'starting at 0' is false (C26_find_missing_empty)"
  },
  {
   "property": "C27",
   "status": "proved",
   "theorems": [
    "RT1.General.C27_dt_to_hms"
   ],
   "note": ""
  },
  {
   "property": "C28",
   "status": "proved",
   "theorems": [
    "RT1.General.C28_scale",
    "RT1.General.C28_scale_range",
    "RT1.General.C28_scale_idempotent",
    "RT1.General.C28_scale_empty"
   ],
   "note": ""
  },
  {
   "property": "C29",
   "status": "proved",
   "theorems": [
    "RT1.General.C29_update_progress",
    "RT1.General.C29_update_progress_zero"
   ],
   "note": ""
  },
  {
   "property": "C30",
   "status": "proved",
   "theorems": [
    "RT1.Defdict.C30_refines",
    "RT1.Defdict.C30_results",
    "RT1.Defdict.C30_iteration",
    "RT1.Defdict.C30_frame",
    "RT1.Defdict.C30_last_definition",
    "RT1.Defdict.C30_order",
    "RT1.Defdict.C30_absent"
   ],
   "note": ""
  },
  {
   "property": "C31",
   "status": "proved",
   "theorems": [
    "RT1.Defdict.C31_from_to",
    "RT1.Defdict.C31_to_from",
    "RT1.Defdict.C31_incomplete",
    "RT1.Defdict.C31_incomplete_four"
   ],
   "note": ""
  },
  {
   "property": "C32",
   "status": "partial",
   "theorems": [
    "RT1.Defdict.C32_export_fails",
    "RT1.Defdict.C32_import_partial"
   ],
   "note": "the export always raises AttributeError for a non-empty defdict (C32_export_fails); the import half holds"
  },
  {
   "property": "C33",
   "status": "proved",
   "theorems": [
    "RT1.Defdict.C33_history",
    "RT1.Defdict.C33_read_name",
    "RT1.Defdict.C33_read_pos",
    "RT1.Defdict.C33_unknown_name"
   ],
   "note": ""
  },
  {
   "property": "C34",
   "status": "partial",
   "theorems": [
    "RT1.Defdict.C34_new_dict_partial",
    "RT1.Defdict.C34_reject",
    "RT1.Defdict.C34_unknown_key",
    "RT1.Defdict.C34_list_fails",
    "RT1.Defdict.C34_list_misaligned",
    "RT1.Defdict.C34_redefinition_fails"
   ],
   "note": "holds for new names with dict definitions; list assignment never gives the from_dict definition (C34_list_fails, C34_list_misaligned); assignment to an existing name changes nothing (C34_redefinition_fails)"
  },
  {
   "property": "C35",
   "status": "proved",
   "theorems": [
    "RT1.Grouping.C35_int_groups",
    "RT1.Grouping.C35_too_few",
    "RT1.Grouping.C35_zero"
   ],
   "note": ""
  },
  {
   "property": "C36",
   "status": "partial",
   "theorems": [
    "RT1.Grouping.C36_combined_integers",
    "RT1.Grouping.C36_groups_partial",
    "RT1.Grouping.C36_empty",
    "RT1.Grouping.C36_fails"
   ],
   "note": "C36_combined_integers holds without restriction; the numpy array of the combined numbers keeps the groups for up to 18 digits (C36_groups_partial); mixed int64/uint64 values become float64 and merge groups (C36_fails)"
  },
  {
   "property": "C37",
   "status": "partial",
   "theorems": [
    "RT1.Grouping.C37_superposition_partial",
    "RT1.Grouping.C37_negative",
    "RT1.Grouping.C37_fails",
    "RT1.Grouping.C37_param_dyn_partial"
   ],
   "note": "holds if the zero-padded numbers have at most 15 digits (the code passes them through float); fails for 16 digits (C37_fails)"
  },
  {
   "property": "C38",
   "status": "partial",
   "theorems": [
    "RT1.Grouping.C38_assign",
    "RT1.Grouping.C38_unique",
    "RT1.Grouping.C38_res_df_partial",
    "RT1.Grouping.C38_res_df_fails"
   ],
   "note": "the assignment to the model evaluation is proved without restriction (C38_assign); res_df needs equal dyn-groups for equal time stamps (C38_res_df_partial), otherwise it is false (C38_res_df_fails)"
  },
  {
   "property": "C39",
   "status": "proved",
   "theorems": [
    "RT1.Grouping.C39_lossless",
    "RT1.Grouping.C39_empty",
    "RT1.Grouping.C39_calc_model"
   ],
   "note": ""
  },
  {
   "property": "C40",
   "status": "proved",
   "theorems": [
    "RT1.Grouping.C40_start",
    "RT1.Grouping.C40_bounds",
    "RT1.Grouping.C40_results"
   ],
   "note": ""
  },
  {
   "property": "C41",
   "status": "proved",
   "theorems": [
    "RT1.Grouping.C41_residuals",
    "RT1.Grouping.C41_length"
   ],
   "note": ""
  },
  {
   "property": "C42",
   "status": "partial",
   "theorems": [
    "RT1.Grouping.C42_jacobian_partial",
    "RT1.Grouping.C42_sorted_partial",
    "RT1.Grouping.C42_fails"
   ],
   "note": "true for dyn-groups that are consecutive in the order of the fit-groups, in particular for all dyn-groups nondecreasing along the dataset; false otherwise (C42_fails)"
  },
  {
   "property": "C43",
   "status": "partial",
   "theorems": [
    "RT1.Cache.C43_assignments_partial",
    "RT1.Cache.C43_scratch_unique",
    "RT1.Cache.C43_set_dataset_fails",
    "RT1.Cache.C43_inplace_fails",
    "RT1.Cache.C43_fnevals_first",
    "RT1.Cache.C43_fnevals_fails"
   ],
   "note": "proved for all histories of attribute assignments, reads and cache clearings of the 36 cached quantities; false for MultiFits.set_dataset (C43_set_dataset_fails), in-place changes (C43_inplace_fails) and the coefficient functions stored on the fit object (C43_fnevals_fails)"
  },
  {
   "property": "C44",
   "status": "partial",
   "theorems": [
    "RT1.Ids.C44_normalise",
    "RT1.Ids.C44_idempotent_partial",
    "RT1.Ids.C44_valid_partial",
    "RT1.Ids.C44_loaded_fails",
    "RT1.Ids.C44_loaded_partial",
    "RT1.Ids.C44_collision_iff",
    "RT1.Ids.C44_distinct_partial",
    "RT1.Ids.C44_collision_fails",
    "RT1.Ids.C44_default_getter_partial",
    "RT1.Ids.C44_default_getter_fails"
   ],
   "note": "normalisation rule and its agreement between fits, database and processing proved (C44_normalise); idempotence and injectivity are characterised exactly and fail for IDs with non-identifier characters (C44_loaded_fails) resp. pairs X / RT1_X (C44_collision_fails); the default getter fails for IDs containing '.' or '/' (C44_default_getter_fails)"
  },
  {
   "property": "C45",
   "status": "partial",
   "theorems": [
    "RT1.Config.C45_typed_partial",
    "RT1.Config.C45_names",
    "RT1.Config.C45_independent_partial",
    "RT1.Config.C45_accepted",
    "RT1.Config.C45_rejected",
    "RT1.Config.C45_collision_fails",
    "RT1.Config.C45_empty_list_fails"
   ],
   "note": "proved for every documented entry form if no other entry has the same name without prefix (C45_collision_fails otherwise); no list entry can be empty: `[]` gives [''] (C45_empty_list_fails)"
  },
  {
   "property": "C46",
   "status": "partial",
   "theorems": [
    "RT1.Config.C46_override_partial",
    "RT1.Config.C46_other_configs",
    "RT1.Config.C46_names",
    "RT1.Config.C46_names_invalid",
    "RT1.Config.C46_default_fails",
    "RT1.Config.C46_lincomb_fails"
   ],
   "note": "the configuration equals that of the file with the config's entries written into the base sections, for files without DEFAULT entries (C46_default_fails) and without linear combinations of phase functions (C46_lincomb_fails); independence of other configs and config names hold without restriction"
  },
  {
   "property": "C47",
   "status": "partial",
   "theorems": [
    "RT1.Metrics.C47_decomposition_partial",
    "RT1.Metrics.C47_equal",
    "RT1.Metrics.C47_bias_antisymm",
    "RT1.Metrics.C47_symmetric_partial",
    "RT1.Metrics.C47_shift_partial",
    "RT1.Metrics.C47_unbiased",
    "RT1.Metrics.C47_pearson_bound",
    "RT1.Metrics.C47_pearson_defined",
    "RT1.Metrics.C47_pearson_affine_partial",
    "RT1.Metrics.C47_pearson_neg",
    "RT1.Metrics.C47_pearson_self",
    "RT1.Metrics.C47_std_ratio",
    "RT1.Metrics.C47_index_fails"
   ],
   "note": "identities that pair the two series are proved for series with equal index (as the code produces them from one dataset); false for equally long series with different index (C47_index_fails)"
  },
  {
   "property": "C48",
   "status": "proved",
   "theorems": [
    "RT1.Ids.C48_numbers"
   ],
   "note": ""
  },
  {
   "property": "C49",
   "status": "partial",
   "theorems": [
    "RT1.Ids.C49_selection",
    "RT1.Ids.C49_selection_all",
    "RT1.Ids.C49_error",
    "RT1.Ids.C49_history_partial",
    "RT1.Ids.C49_complete",
    "RT1.Ids.C49_duplicates_fails",
    "RT1.Ids.C49_sequence_fails"
   ],
   "note": "selection, errors and completion hold without restriction on duplicates; 'never stored twice' needs argument lists without duplicate IDs (C49_duplicates_fails) and without list values (C49_sequence_fails)"
  },
  {
   "property": "C50",
   "status": "proved",
   "theorems": [
    "RT1.Pipeline.C50_complete"
   ],
   "note": "Transition system with arbitrarily many workers, combiners (with threads) and writers; the store is described by its rows up to order. Hypotheses: at least one combiner and one writer, all results are dicts with string keys."
  },
  {
   "property": "C51",
   "status": "proved",
   "theorems": [
    "RT1.Pipeline.C51_final",
    "RT1.Pipeline.C51_mono",
    "RT1.Pipeline.C51_le"
   ],
   "note": "Final values for all runs without write failures (broken results are not counted, as in the code); monotonicity and success <= total also for runs with failures."
  },
  {
   "property": "C52",
   "status": "proved",
   "theorems": [
    "RT1.Pipeline.C52_fair",
    "RT1.Pipeline.C52_fair_complete",
    "RT1.Pipeline.C52_fairness_needed",
    "RT1.Pipeline.C52_finish",
    "RT1.Pipeline.C52_drained"
   ],
   "note": "C52_fair: every weakly fair execution without failures ends (n_worker, n_writer, write_chunk_size, out_cache_size >= 1); C52_fair_complete: with all processes terminated and all valid results stored, and the store does not change afterwards. C52_finish: possibility of completion from every reachable state. C52_drained: processes terminate only when their input is drained. C52_fairness_needed: an execution in which nothing ever happens is excluded by fairness only."
  },
  {
   "property": "C53",
   "status": "partial",
   "theorems": [
    "RT1.Pipeline.C53_fair_partial",
    "RT1.Pipeline.C53_fails",
    "RT1.Pipeline.C53_passed_partial"
   ],
   "note": "The code violates the property: after a write failure should_wait is cleared and no writer is left to set it, remaining workers (and pool.join) wait forever (C53_fails). Partial: if all tasks have passed should_wait, every fair continuation without further failures ends (C53_fair_partial)."
  },
  {
   "property": "C54",
   "status": "partial",
   "theorems": [
    "RT1.Pipeline.C54_bound_partial",
    "RT1.Pipeline.C54_single_partial",
    "RT1.Pipeline.C54_fails"
   ],
   "note": "The code violates the property: the exception handler discards the whole chunk (C54_fails). Partial: at most write_chunk_size-1 other results are lost per broken result; none for write_chunk_size = 1."
  },
  {
   "property": "C55",
   "status": "partial",
   "theorems": [
    "RT1.ResultKeys.C55_const_partial",
    "RT1.ResultKeys.C55_const_fails",
    "RT1.ResultKeys.C55_distinct_fails",
    "RT1.ResultKeys.C55_stored_partial",
    "RT1.ResultKeys.C55_broken",
    "RT1.ResultKeys.C55_distinct_partial"
   ],
   "note": "The code uses lstrip with a character set: const__static is stored as atic (C55_const_fails, C55_distinct_fails). Partial: exact keys iff the name does not start with a letter of the prefix; distinctness for names without a slash."
  },
  {
   "property": "C56",
   "status": "partial",
   "theorems": [
    "RT1.Pipeline.C56_bound_partial",
    "RT1.Pipeline.C56_fails"
   ],
   "note": "The code violates the property: tables of a chunk are appended one after the other (C56_fails). Partial: between writes the store consists of complete results; during a write at most write_chunk_size results are incomplete."
  },
  {
   "property": "C57",
   "status": "proved",
   "theorems": [
    "RT1.Process.C57_removed",
    "RT1.Process.C57_remove",
    "RT1.Process.C57_continue",
    "RT1.Process.C57_exit",
    "RT1.Process.C57_asks",
    "RT1.Process.C57_worker"
   ],
   "note": "File-system, answers and upper-casing are parameters; the theorems cover all answers, settings and file-system states."
  },
  {
   "property": "C58",
   "status": "proved",
   "theorems": [
    "RT1.Process.C58_keep",
    "RT1.Process.C58_history",
    "RT1.Process.C58_only",
    "RT1.Process.C58_config",
    "RT1.Process.C58_modules",
    "RT1.Process.C58_twice",
    "RT1.Process.C58_collision"
   ],
   "note": "Two modules with the same file name: only the first one is copied (C58_collision)."
  },
  {
   "property": "C59",
   "status": "partial",
   "theorems": [
    "RT1.Process.C59_replace",
    "RT1.Process.C59_merge_partial",
    "RT1.Process.C59_fails",
    "RT1.Process.C59_raises",
    "RT1.Process.C59_history_partial"
   ],
   "note": "override=False drops the sections that are not named in the call (C59_fails). Partial: values of the named sections; histories in which all calls name the same sections."
  },
  {
   "property": "C60",
   "status": "proved",
   "theorems": [
    "RT1.Export.C60_group",
    "RT1.Export.C60_order",
    "RT1.Export.C60_fitted",
    "RT1.Export.C60_kind",
    "RT1.Export.C60_freq"
   ],
   "note": "`val[0] is True` is modelled by booleans (numpy booleans are not covered)."
  },
  {
   "property": "C61",
   "status": "partial",
   "theorems": [
    "RT1.Export.C61_special_partial",
    "RT1.Export.C61_other",
    "RT1.Export.C61_result",
    "RT1.Export.C61_fails"
   ],
   "note": "Without an ID in reader_arg a KeyError is raised even for rt1_skip (C61_fails). Partial: all arguments with an ID."
  },
  {
   "property": "C62",
   "status": "partial",
   "theorems": [
    "RT1.Worker.C62_single",
    "RT1.Worker.C62_multi",
    "RT1.Worker.C62_exceptions",
    "RT1.Worker.C62_multi_partial",
    "RT1.Worker.C62_fails",
    "RT1.Worker.C62_onetuple"
   ],
   "note": "With several configurations the aux data of an earlier site are stored for a site without aux data (C62_fails). C62_multi describes what is returned exactly; C62 holds for sites with aux data and if no earlier site had any. That a fit depends only on the configuration and the dataset is an assumption (parameter)."
  },
  {
   "property": "C63",
   "status": "partial",
   "theorems": [
    "RT1.Export.C63_batch_partial",
    "RT1.Export.C63_series_partial",
    "RT1.Export.C63_fails",
    "RT1.Export.C63_model_fails"
   ],
   "note": "The shared parameter set is changed while the first fit is exported (C63_fails), export functions for model results are ignored (C63_model_fails). Partial: exact description of what is exported per fit; C63 if no export function returns a scalar."
  },
  {
   "property": "C64",
   "status": "partial",
   "theorems": [
    "RT1.Database.C64_blocks_partial",
    "RT1.Database.C64_all_partial",
    "RT1.Database.C64_fails",
    "RT1.Database.C64_default_fails",
    "RT1.Database.C64_raises_fails",
    "RT1.Database.C64_large_fails"
   ],
   "note": "Proved if the read chunk size divides the block size (in particular for tables without time index, blocks of at most 10 IDs and multiples of 10). Otherwise blocks have wrong sizes, repeat and lose IDs or an exception is raised (C64_fails, C64_default_fails, C64_raises_fails, C64_large_fails)."
  },
  {
   "property": "C65",
   "status": "partial",
   "theorems": [
    "RT1.Database.C65_num",
    "RT1.Database.C65_unknown",
    "RT1.Database.C65_get",
    "RT1.Database.C65_load_partial",
    "RT1.Database.C65_aux_fails",
    "RT1.Database.C65_duplicate_fails"
   ],
   "note": "Partial: IDs are unique and every table of the file has data for the ID. A site without aux data cannot be loaded if another site has aux data (C65_aux_fails); for colliding string IDs the first one is returned (C65_duplicate_fails)."
  },
  {
   "property": "C66",
   "status": "partial",
   "theorems": [
    "RT1.Database.C66_config_partial",
    "RT1.Database.C66_missing",
    "RT1.Database.C66_const_fails",
    "RT1.Database.C66_fails"
   ],
   "note": "get_data(config=None) reads the layer \"None/key\", so constant layers can never be read (C66_const_fails, C66_fails)."
  },
  {
   "property": "C67",
   "status": "partial",
   "theorems": [
    "RT1.Log.C67_setup",
    "RT1.Log.C67_setup_repeat",
    "RT1.Log.C67_stop_partial",
    "RT1.Log.C67_start_partial",
    "RT1.Log.C67_stop_fails",
    "RT1.Log.C67_history_partial"
   ],
   "note": "Partial: all handlers with the used name are file handlers and the file can be opened; a handler of another type makes stop_log_to_file raise (C67_stop_fails)."
  },
  {
   "property": "C68",
   "status": "partial",
   "theorems": [
    "RT1.MultiFits.C68_names",
    "RT1.MultiFits.C68_last",
    "RT1.MultiFits.C68_names_partial",
    "RT1.MultiFits.C68_dataset",
    "RT1.MultiFits.C68_setters",
    "RT1.MultiFits.C68_untouched",
    "RT1.MultiFits.C68_apply_partial",
    "RT1.MultiFits.C68_select_partial",
    "RT1.MultiFits.C68_one_partial",
    "RT1.MultiFits.C68_names_fails",
    "RT1.MultiFits.C68_shared_fails",
    "RT1.MultiFits.C68_parent_fails",
    "RT1.MultiFits.C68_late_fails"
   ],
   "note": "A name that is added twice is listed twice (C68_names_fails), a fit object added under two names gives one result (C68_shared_fails), `_parent` as a name destroys the container (C68_parent_fails), reader_arg does not reach configs that are added later (C68_late_fails). Partial: distinct names and objects."
  },
  {
   "property": "C69",
   "status": "partial",
   "theorems": [
    "RT1.MetricKeys.C69_metric_keys_partial",
    "RT1.MetricKeys.C69_unique_key_partial",
    "RT1.MetricKeys.C69_offered_partial",
    "RT1.MetricKeys.C69_suffix_fails",
    "RT1.MetricKeys.C69_collision_fails"
   ],
   "note": "true if the column names themselves do not carry a suffix equal to a source; negations C69_suffix_fails, C69_collision_fails"
  },
  {
   "property": "C70",
   "status": "partial",
   "theorems": [
    "RT1.Rad.C70_variable_geometry",
    "RT1.Rad.C70_mono_partial",
    "RT1.Rad.C70_fixed_partial",
    "RT1.Rad.C70_fixed_geometry_wrong"
   ],
   "note": "false for strings with a fixed angle (C70_fixed_geometry_wrong); proved for vvvv, for mono with azimuth-invariant coefficients, and for fixed angles the exchanged coefficients do not depend on"
  },
  {
   "property": "C71",
   "status": "proved",
   "theorems": [
    "RT1.Fn.C71_Fint",
    "RT1.Fn.C71_interaction"
   ],
   "note": ""
  },
  {
   "property": "C72",
   "status": "proved",
   "theorems": [
    "RT1.Fn.C72_interaction_nonneg"
   ],
   "note": ""
  },
  {
   "property": "C73",
   "status": "proved",
   "theorems": [
    "RT1.Phase.C73_pos",
    "RT1.Phase.C73_legcoefs",
    "RT1.Phase.C73_normalised",
    "RT1.Phase.C73_rayleigh"
   ],
   "note": ""
  },
  {
   "property": "C74",
   "status": "partial",
   "theorems": [
    "RT1.Phase.C74_legcoefs_partial",
    "RT1.Phase.C74_legcoefs_fails",
    "RT1.Phase.C74_zero_is_step"
   ],
   "note": "true for every i >= 1; false for i = 0 (C74_legcoefs_fails), where the coefficients represent the step function"
  },
  {
   "property": "C75",
   "status": "proved",
   "theorems": [
    "RT1.Phase.C75_nadir_reflectance",
    "RT1.Phase.C75_legcoefs"
   ],
   "note": "t = 0 and a[0] = 0 are excluded: the code divides by zero there"
  },
  {
   "property": "C76",
   "status": "proved",
   "theorems": [
    "RT1.Phase.C76_hg",
    "RT1.Phase.C76_hg_error",
    "RT1.Phase.C76_hg_surface",
    "RT1.Phase.C76_hg_nadir",
    "RT1.Phase.C76_hgRayleigh"
   ],
   "note": ""
  },
  {
   "property": "C77",
   "status": "proved",
   "theorems": [
    "RT1.Grouping.C77_offset_groups"
   ],
   "note": ""
  },
  {
   "property": "C78",
   "status": "partial",
   "theorems": [
    "RT1.Rad.C78_same_angles_partial",
    "RT1.Rad.C78_cleared_partial",
    "RT1.Rad.C78_fails"
   ],
   "note": "true if the polar angles are not changed after the first evaluation, and after discarding the caches; false otherwise (C78_fails): the cached powers of the old cosines are used"
  },
  {
   "property": "C79",
   "status": "proved",
   "theorems": [
    "RT1.Metrics.C79_spearman_bound",
    "RT1.Metrics.C79_spearman_symmetric",
    "RT1.Metrics.C79_spearman_monotone",
    "RT1.Metrics.C79_spearman_one"
   ],
   "note": ""
  },
  {
   "property": "C80",
   "status": "proved",
   "theorems": [
    "RT1.Metrics.C80_linregress_optimal",
    "RT1.Metrics.C80_linregress_none",
    "RT1.Metrics.C80_linregress_rvalue"
   ],
   "note": ""
  },
  {
   "property": "C81",
   "status": "proved",
   "theorems": [
    "RT1.Config.C81_accepted",
    "RT1.Config.C81_complete"
   ],
   "note": ""
  },
  {
   "property": "C82",
   "status": "proved",
   "theorems": [
    "RT1.Config.C82_defdict",
    "RT1.Config.C82_defdict_accepted",
    "RT1.Config.C82_kwargs"
   ],
   "note": ""
  },
  {
   "property": "C83",
   "status": "proved",
   "theorems": [
    "RT1.Config.C83_components",
    "RT1.Config.C83_single"
   ],
   "note": "keys X__…__frac other than X__frac would set the fraction; excluded by hypothesis (no such parameter exists)"
  },
  {
   "property": "C84",
   "status": "partial",
   "theorems": [
    "RT1.Pipeline.C84_fair_partial",
    "RT1.Pipeline.C84_fails",
    "RT1.Pipeline.C84_passed_partial"
   ],
   "note": "The code violates the property: workers waiting for should_wait are never released after the writers have stopped (C84_fails). Partial: if all tasks have passed should_wait, every fair continuation ends (C84_fair_partial)."
  },
  {
   "property": "C85",
   "status": "partial",
   "theorems": [
    "RT1.Process.C85_applied",
    "RT1.Process.C85_applicable_partial",
    "RT1.Process.C85_init_fails"
   ],
   "note": "init_kwargs accepted by __init__ (strings) can never be applied (C85_init_fails); overrides set by override_config always can."
  },
  {
   "property": "C86",
   "status": "partial",
   "theorems": [
    "RT1.Export.C86_exported_partial",
    "RT1.Export.C86_fixed_fails",
    "RT1.Export.C86_definition_partial",
    "RT1.Export.C86_dB",
    "RT1.Export.C86_sig"
   ],
   "note": "Only the choice of the source is modelled, the values in C116. Violated: requesting a fixed parameter raises AttributeError (C86_fixed_fails)."
  },
  {
   "property": "C87",
   "status": "partial",
   "theorems": [
    "RT1.FitSpec.C87_number",
    "RT1.FitSpec.C87_auxiliary",
    "RT1.FitSpec.C87_between",
    "RT1.FitSpec.C87_mean_partial",
    "RT1.FitSpec.C87_mean_fails",
    "RT1.FitSpec.C87_index_partial",
    "RT1.FitSpec.C87_index_ragged_fails",
    "RT1.FitSpec.C87_index_count_fails",
    "RT1.FitSpec.C87_missing"
   ],
   "note": "Auxiliary start values are means of the means of the fit-groups (C87_auxiliary), which is the mean of the observations only for fit-groups of equal size (C87_mean_partial, C87_mean_fails). With variability 'index', unequal group sizes raise ValueError and a finer second parameter gives too many values (C87_index_*_fails). nan values in the column are not modelled."
  },
  {
   "property": "C88",
   "status": "proved",
   "theorems": [
    "RT1.FitSpec.C88_meaning",
    "RT1.FitSpec.C88_rejected",
    "RT1.FitSpec.C88_parameters",
    "RT1.FitSpec.C88_evaluates"
   ],
   "note": "Assumes the documented behaviour of int, str.isspace and pd.Grouper (LibOk). The warning about ignored columns is not modelled."
  },
  {
   "property": "C89",
   "status": "partial",
   "theorems": [
    "RT1.FitEval.C89_phase_partial",
    "RT1.FitEval.C89_properties_partial",
    "RT1.FitEval.C89_bsf",
    "RT1.FitEval.C89_other_fails",
    "RT1.FitEval.C89_evaluates",
    "RT1.FitEval.C89_reserved_fails",
    "RT1.FitEval.C89_number_fails",
    "RT1.FitEval.C89_blank_fails"
   ],
   "note": "Value level for one observation; sympy expressions as trees. Excluded from the partial theorems: fitted or auxiliary parameters named omega, tau, NormBRDF, bsf used in phase functions (C89_reserved_fails), numbers for omega/tau/NormBRDF overridden by a parameter of the same name (C89_number_fails), fixed values that are no plain numbers (C89_other_fails), names with blanks (C89_blank_fails). Only specifications given as dicts, not functions."
  },
  {
   "property": "C90",
   "status": "partial",
   "theorems": [
    "RT1.FitEval.C90_fractions_partial",
    "RT1.FitEval.C90_components_partial",
    "RT1.FitEval.C90_fixed_fails",
    "RT1.FitEval.C90_shared_fails"
   ],
   "note": "Components are initialized without the fixed values: a fixed number (C90_fixed_fails) or a parameter shared with omega, tau, NormBRDF (C90_shared_fails) has no value in a component."
  },
  {
   "property": "C91",
   "status": "partial",
   "theorems": [
    "RT1.FitEval.C91_properties",
    "RT1.FitEval.C91_phase",
    "RT1.FitEval.C91_interaction_partial",
    "RT1.FitEval.C91_order_fails"
   ],
   "note": "Single scattering is independent of the order; the positional call of _fnevals exchanges parameters in the interaction term for other orders than that of the definitions (C91_order_fails)."
  },
  {
   "property": "C92",
   "status": "partial",
   "theorems": [
    "RT1.Interp.C92_assign_partial",
    "RT1.Interp.C92_single",
    "RT1.Interp.C92_inside_partial",
    "RT1.Interp.C92_inside_fails",
    "RT1.Interp.C92_repeated_fails"
   ],
   "note": "scipy's quadratic interp1d is a parameter with assumed behaviour (passes through distinct knots, ValueError otherwise). Excluded: dyn-groups that reappear later while their first appearances are sorted (C92_repeated_fails); extrapolation with more than one interpolated parameter (C92_inside_fails)."
  },
  {
   "property": "C93",
   "status": "proved",
   "theorems": [
    "RT1.Interp.C93_groups"
   ],
   "note": "Exact arithmetic for the mean time stamps."
  },
  {
   "property": "C94",
   "status": "partial",
   "theorems": [
    "RT1.FitStore.C94_single_partial",
    "RT1.FitStore.C94_multi_partial",
    "RT1.FitStore.C94_multi_order_partial",
    "RT1.FitStore.C94_order_fails",
    "RT1.FitStore.C94_nan_fails",
    "RT1.FitStore.C94_empty_fails"
   ],
   "note": "Proved: single fits exactly; MultiFits up to the order of the parameters, and exactly if the first configuration contains all parameters. Excluded: NaN values (C94_nan_fails), configurations without parameters (C94_empty_fails), the order in general (C94_order_fails)."
  },
  {
   "property": "C95",
   "status": "partial",
   "theorems": [
    "RT1.FitStore.C95_data",
    "RT1.FitStore.C95_results_partial",
    "RT1.FitStore.C95_superimposed_fails",
    "RT1.FitStore.C95_index_fails",
    "RT1.FitStore.C95_multi_fails"
   ],
   "note": "Proved with save_data=True; without it only for Fits objects where the manual columns are used by exactly 'manual' definitions and at least one of them exists (C95_superimposed_fails, C95_index_fails, C95_multi_fails)."
  },
  {
   "property": "C96",
   "status": "partial",
   "theorems": [
    "RT1.Metrics.C96_unique_partial",
    "RT1.Metrics.C96_consecutive_partial",
    "RT1.Metrics.C96_linregress_fails",
    "RT1.Metrics.C96_broadcast",
    "RT1.Metrics.C96_length_fails"
   ],
   "note": "Proved: consecutive fit-groups (all metrics); unique time stamps with arbitrary grouping (all metrics except linregress). Excluded: linregress for unsorted groupings (C96_linregress_fails), series with unique index and different lengths (C96_length_fails), repeated time stamps together with unsorted groupings."
  },
  {
   "property": "C97",
   "status": "partial",
   "theorems": [
    "RT1.RunProc.C97_processing_partial",
    "RT1.RunProc.C97_finaloutput_partial",
    "RT1.RunProc.C97_history_partial",
    "RT1.RunProc.C97_setup_fails",
    "RT1.RunProc.C97_autocontinue_fails",
    "RT1.RunProc.C97_finalizer_fails",
    "RT1.RunProc.C97_warnings_fails"
   ],
   "note": "Proved: all runs whose set-up and finalizers do not raise, also for histories. Fails: errors in setup are replaced by UnboundLocalError and leave autocontinue on, errors in the finalizer leave the listener running, handlers of py.warnings accumulate and the log level is not restored."
  },
  {
   "property": "C98",
   "status": "partial",
   "theorems": [
    "RT1.RunProc.C98_level_partial",
    "RT1.RunProc.C98_finaloutput_fails",
    "RT1.RunProc.C98_processing_fails"
   ],
   "note": "Proved for runs with a log-file level. Fails for None: run_processing always raises TypeError, run_finaloutput never ends (all writer and combiner processes end at the start, the workers wait for the event should_wait forever)."
  },
  {
   "property": "C99",
   "status": "partial",
   "theorems": [
    "RT1.FinalOut.C99_multi_partial",
    "RT1.FinalOut.C99_single",
    "RT1.FinalOut.C99_direct_partial",
    "RT1.FinalOut.C99_error",
    "RT1.FinalOut.C99_output_partial",
    "RT1.FinalOut.C99_string_fails",
    "RT1.FinalOut.C99_direct_fails",
    "RT1.FinalOut.C99_keyword_fails"
   ],
   "note": "Proved: single fits, None and lists of names for multiple configurations, including the composition with the pipeline (C50). Fails: a string as use_config aborts the run, from_postprocess is ignored for MultiFits with the function of the processing class, functions with another argument name."
  },
  {
   "property": "C100",
   "status": "partial",
   "theorems": [
    "RT1.Accessor.C100_call",
    "RT1.Accessor.C100_first_partial",
    "RT1.Accessor.C100_keys",
    "RT1.Accessor.C100_repeat_fails",
    "RT1.Accessor.C100_positional_fails",
    "RT1.Accessor.C100_props_partial",
    "RT1.Accessor.C100_loaded_fails"
   ],
   "note": "Proved: exact arguments for all sequences of calls without positional arguments; the documented override holds for the first call of each callback. Fails: arguments of a call persist, positional arguments are rejected."
  },
  {
   "property": "C101",
   "status": "partial",
   "theorems": [
    "RT1.Lazy.C101_values_partial",
    "RT1.Lazy.C101_once",
    "RT1.Lazy.C101_provided",
    "RT1.Lazy.C101_refresh",
    "RT1.Lazy.C101_stale_fails",
    "RT1.Lazy.C101_intQ_fails",
    "RT1.Lazy.C101_pickle_fails",
    "RT1.Lazy.C101_fitR_fails",
    "RT1.Lazy.C101_backend"
   ],
   "note": "Proved: all sequences of accesses and picklings of an object whose V, SRF, int_Q and coefficients are not changed; number of evaluations; renewal by assigning None. Fails: changed V, SRF or int_Q after the first access, assigned coefficients are lost by pickling, fit.R.fn is 1 after the first access of fit.R."
  },
  {
   "property": "C102",
   "status": "partial",
   "theorems": [
    "RT1.DumpState.C102_core",
    "RT1.DumpState.C102_full",
    "RT1.DumpState.C102_mini",
    "RT1.DumpState.C102_legacy",
    "RT1.DumpState.C102_redump_fails",
    "RT1.DumpState.C102_mark_fails",
    "RT1.DumpState.C102_send_partial"
   ],
   "note": "Proved: definition, dataset and results are kept by all sequences of dumps (also failing ones), loads and transfers; everything is kept without mini-dumps; conversion of old dumps. Fails: the output of the optimizer is lost by the second mini-dump; a mini-dump that cannot open its file leaves a mark, so that the next pickling drops the functions and the output."
  },
  {
   "property": "C103",
   "status": "partial",
   "theorems": [
    "RT1.SetFn.C103_direct_partial",
    "RT1.SetFn.C103_unsupported_partial",
    "RT1.SetFn.C103_unsupported_SRF_partial",
    "RT1.SetFn.C103_sum_fails",
    "RT1.SetFn.C103_product_fails",
    "RT1.SetFn.C103_none_fails",
    "RT1.SetFn.C103_ncoefs_fails"
   ],
   "note": "Proved: functions whose arguments are parameters or numbers are loaded with the same attributes; functions with differences, quotients or powers of parameters are not stored (set_V_SRF is None and V raises an exception). Fails: sums of parameters are stored as one new symbol, integer multiples as a repeated name, omega=None raises at the access to V, and a fixed number of defdict used for ncoefs makes the function unstorable. Not modelled: linear combinations and CosineLobe."
  },
  {
   "property": "C104",
   "status": "partial",
   "theorems": [
    "RT1.Modules.C104_fresh_partial",
    "RT1.Modules.C104_frozen_partial",
    "RT1.Modules.C104_rerun_partial",
    "RT1.Modules.C104_importable_partial",
    "RT1.Modules.C104_getModule_partial",
    "RT1.Modules.C104_missing_partial",
    "RT1.Modules.C104_errors_partial",
    "RT1.Modules.C104_names_fails",
    "RT1.Modules.C104_mixed_fails",
    "RT1.Modules.C104_moved_fails",
    "RT1.Modules.C104_name_fails"
   ],
   "note": "Proved for files with different names: the first run uses the specified files, later runs use the copies, modules are importable by name. Fails: two modules with the same file name, a changed config file (specs are taken from the changed file, the fit from the copy), a moved folder, and another name of the processing-module in CONFIGFILES."
  },
  {
   "property": "C105",
   "status": "partial",
   "theorems": [
    "RT1.Results.C105_stem",
    "RT1.Results.C105_stem_plain",
    "RT1.Results.C105_found_partial",
    "RT1.Results.C105_parent",
    "RT1.Results.C105_files",
    "RT1.Results.C105_by_name_partial",
    "RT1.Results.C105_unknown",
    "RT1.Results.C105_by_number",
    "RT1.Results.C105_return_ID_partial",
    "RT1.Results.C105_random",
    "RT1.Results.C105_invalid",
    "RT1.Results.C105_database",
    "RT1.Results.C105_load_cfg",
    "RT1.Results.C105_load_result",
    "RT1.Results.C105_stem_fails",
    "RT1.Results.C105_nested_fails",
    "RT1.Results.C105_suffix_fails",
    "RT1.Results.C105_return_fails",
    "RT1.Results.C105_stale_fails"
   ],
   "note": "Proved for folders with different stems whose parent is no result itself, and for IDs that do not end with .dump. Fails: names that differ only after the last dot, results inside of a result, IDs with the ending .dump, return_ID with the database, random choice from an outdated list."
  },
  {
   "property": "C106",
   "status": "partial",
   "theorems": [
    "RT1.PerformFit.C106_admissible_partial",
    "RT1.PerformFit.C106_improves_aux_partial",
    "RT1.PerformFit.C106_improves_partial",
    "RT1.PerformFit.C106_optimal_partial",
    "RT1.PerformFit.C106_cost_unique",
    "RT1.PerformFit.C106_evaluates_partial",
    "RT1.PerformFit.C106_digits_fails"
   ],
   "note": "Proved for dyn-numbers with at most 18 digits altogether (condition of C36); least_squares is a parameter with its documented contract (result within the boundaries and not worse than the start). Fails for more digits: dyn-groups are merged and get a single value."
  },
  {
   "property": "C107",
   "status": "partial",
   "theorems": [
    "RT1.Arrays.C107_function",
    "RT1.Arrays.C107_surface",
    "RT1.Arrays.C107_volume",
    "RT1.Arrays.C107_interaction_partial",
    "RT1.Arrays.C107_calc_partial",
    "RT1.Arrays.C107_calc_bare",
    "RT1.Arrays.C107_fit_total_partial",
    "RT1.Arrays.C107_components_partial",
    "RT1.Arrays.C107_function_shape_partial",
    "RT1.Arrays.C107_function_shape_fails",
    "RT1.Arrays.C107_empty_fails",
    "RT1.Arrays.C107_rank_fails",
    "RT1.Arrays.C107_constant_fails",
    "RT1.Arrays.C107_components_fails"
   ],
   "note": "Surface and volume are proved for all compatible shapes. The interaction-term (and totals containing it) is proved if no array has more axes than the incidence-angles and the fn-coefficients are not all constant (or a single one, or symengine is used); it fails otherwise. The shape of p and brdf lacks the arguments the function does not depend on, functions without t_0 fail for arrays without elements, and the components of fit.calc fail if their shapes differ."
  },
  {
   "property": "C108",
   "status": "partial",
   "theorems": [
    "RT1.PoolRun.C108_reader_args",
    "RT1.PoolRun.C108_preprocess",
    "RT1.PoolRun.C108_nothing",
    "RT1.PoolRun.C108_pool_kwargs",
    "RT1.PoolRun.C108_wrap",
    "RT1.PoolRun.C108_worker_partial",
    "RT1.PoolRun.C108_worker_setup",
    "RT1.PoolRun.C108_reused_dict",
    "RT1.PoolRun.C108_reuse_fails",
    "RT1.PoolRun.C108_shutdown_partial",
    "RT1.PoolRun.C108_shutdown_fails",
    "RT1.PoolRun.C108_returns_partial",
    "RT1.PoolRun.C108_returns_fails",
    "RT1.PoolRun.C108_result",
    "RT1.PoolRun.C108_preevaluation",
    "RT1.PoolRun.C108_index_partial",
    "RT1.PoolRun.C108_no_index",
    "RT1.PoolRun.C108_index_fails"
   ],
   "note": "Initialisation, shutdown and index-creation are proved for dicts that have not been used for an earlier run, processes that can be started, initializers that do not raise, and non-empty index-dicts; the other cases fail. Errors of the pre-evaluation of the fn-coefficients are not modelled."
  },
  {
   "property": "C109",
   "status": "partial",
   "theorems": [
    "RT1.CreateIndex.C109_levels_partial",
    "RT1.CreateIndex.C109_data",
    "RT1.CreateIndex.C109_simple_fails",
    "RT1.CreateIndex.C109_all_fails"
   ],
   "note": "Proved for tables with several index-levels; simple indexes get no index, and requesting all levels raises a TypeError for stores containing a simple index. That the data is kept is proved without restrictions."
  },
  {
   "property": "C110",
   "status": "partial",
   "theorems": [
    "RT1.Counters.C110_counters",
    "RT1.Counters.C110_bounds",
    "RT1.Counters.C110_exclusive",
    "RT1.Counters.C110_progress",
    "RT1.Counters.C110_final_partial",
    "RT1.Counters.C110_final_fails",
    "RT1.Counters.C110_progress_fails",
    "RT1.Counters.C110_progress_partial",
    "RT1.Counters.C110_names_partial",
    "RT1.Counters.C110_names_fails"
   ],
   "note": "The counters and the progress shown are proved for all interleavings. The print-thread can end with a ZeroDivisionError as long as no successful result has been counted, the number of errors of the final message is only proved up to one, and worker-numbers are unique only if the initialisations do not overlap. Results are assumed to be dicts or None (see C54 for other values)."
  },
  {
   "property": "C111",
   "status": "partial",
   "theorems": [
    "RT1.CalcJac.C111_derivative_partial",
    "RT1.CalcJac.C111_unweighted_partial",
    "RT1.CalcJac.C111_weights_fails",
    "RT1.CalcJac.C111_nonlinear_fails",
    "RT1.CalcJac.C111_shared_fails",
    "RT1.CalcJac.C111_model_partial",
    "RT1.CalcJac.C111_fit_partial",
    "RT1.CalcJac.C111_phase_fails",
    "RT1.CalcJac.C111_weights_witness_fails"
   ],
   "note": "Proved for unweighted data, consecutive dyn-groups, symbols that are used once and linearly, and tau not fitted (or nadir): entries are the derivatives of the residuals, composed down to the radiative transfer model. In general the entries have to be multiplied by the weights. Violations proved: weights missing in the jacobian, exceptions for expressions that are nonlinear in the fitted symbols or share a symbol, silently missing derivative of phase functions that share a symbol with omega/tau/NormBRDF. Not modelled: interpolated parameters, interaction-term."
  },
  {
   "property": "C112",
   "status": "partial",
   "theorems": [
    "RT1.HemReflect.C112_values_partial",
    "RT1.HemReflect.C112_converges_partial",
    "RT1.HemReflect.C112_warning_partial",
    "RT1.HemReflect.C112_linear",
    "RT1.HemReflect.C112_monotone",
    "RT1.HemReflect.C112_lambert_even_partial",
    "RT1.HemReflect.C112_lambert_odd_fails",
    "RT1.HemReflect.C112_azimuth_fails",
    "RT1.HemReflect.C112_symbol_fails",
    "RT1.HemReflect.C112_missing"
   ],
   "note": "Proved: values (broadcasting, angle grid), convergence to the hemispherical reflectance for all continuous BRDF's that depend on the azimuth or not on theta_0, the message for reflectances different from 1 and sufficiently many points, linearity, monotonicity, R with symbols. Violations proved: false message for the Lambertian surface for every odd simps_N, ValueError for functions of theta_0 without azimuth, TypeError for SRF with an expression for NormBRDF. The plot is not modelled."
  },
  {
   "property": "C113",
   "status": "partial",
   "theorems": [
    "RT1.SetID.C113_numeric",
    "RT1.SetID.C113_blocks_partial",
    "RT1.SetID.C113_last_fails",
    "RT1.SetID.C113_default",
    "RT1.SetID.C113_nids_partial",
    "RT1.SetID.C113_nids_fails",
    "RT1.SetID.C113_id",
    "RT1.SetID.C113_select",
    "RT1.SetID.C113_load",
    "RT1.SetID.C113_table_partial",
    "RT1.SetID.C113_config",
    "RT1.SetID.C113_shadow_fails",
    "RT1.SetID.C113_fails",
    "RT1.SetID.C113_remainder_fails",
    "RT1.SetID.C113_collision_fails"
   ],
   "note": "Proved: blocks, first block, single IDs, whole tables, load_fit, attributes. Violated: an incomplete last block has numeric IDs (general statement C113_last_fails / C113_nids_fails), blocks with a remainder raise KeyError, equal string-IDs raise ValueError with a MultiIndex, a table with the name of a config is not accessible."
  },
  {
   "property": "C114",
   "status": "partial",
   "theorems": [
    "RT1.HdfDict.C114_number_partial",
    "RT1.HdfDict.C114_existing_fails",
    "RT1.HdfDict.C114_init",
    "RT1.HdfDict.C114_init_multi_partial",
    "RT1.HdfDict.C114_arg_partial",
    "RT1.HdfDict.C114_dataset_partial",
    "RT1.HdfDict.C114_aux_partial",
    "RT1.HdfDict.C114_results",
    "RT1.HdfDict.C114_results_multi",
    "RT1.HdfDict.C114_keys",
    "RT1.HdfDict.C114_total",
    "RT1.HdfDict.C114_load_partial",
    "RT1.HdfDict.C114_labels",
    "RT1.HdfDict.C114_kwargs_fails",
    "RT1.HdfDict.C114_multi_data_fails",
    "RT1.HdfDict.C114_set_fails",
    "RT1.HdfDict.C114_aux_fails",
    "RT1.HdfDict.C114_arg_fails",
    "RT1.HdfDict.C114_one_config_fails"
   ],
   "note": "Proved: labels of freshly fitted sites, content of each table (iff for init_dict, res_dict, res_df), no other keys, load of all sites of a database. Violated: dumped fits are labelled with their ID (general), save_res_df for MultiFits, dataset of MultiFits without save_data, lists in reader_arg, several auxiliary datasets, one failing config."
  },
  {
   "property": "C115",
   "status": "partial",
   "theorems": [
    "RT1.PhaseCache.C115_current_partial",
    "RT1.PhaseCache.C115_always",
    "RT1.PhaseCache.C115_size",
    "RT1.PhaseCache.C115_stale_fails",
    "RT1.PhaseCache.C115_mixed_fails",
    "RT1.PhaseCache.C115_evict_fails"
   ],
   "note": "Proved for all histories in which no defining attribute is changed after the first evaluation (any number of objects, with eviction); tau, omega, NormBRDF and functions with a numeric version are always current; the caches are bounded. Violated (general statements): a changed attribute has no effect, numeric values and legendre coefficients belong to different parameters, 128 other objects change the result."
  },
  {
   "property": "C116",
   "status": "partial",
   "theorems": [
    "RT1.ExportTables.C116_export_partial",
    "RT1.ExportTables.C116_dB",
    "RT1.ExportTables.C116_degree",
    "RT1.ExportTables.C116_converted",
    "RT1.ExportTables.C116_units_fails",
    "RT1.ExportTables.C116_model_units_fails",
    "RT1.ExportTables.C116_fixed_fails",
    "RT1.ExportTables.C116_set_fails",
    "RT1.ExportTables.C116_override_fails",
    "RT1.ExportTables.C116_frame_fails",
    "RT1.ExportTables.C116_list_fails",
    "RT1.ExportTables.C116_rows_fails",
    "RT1.ExportTables.C116_linregress_fails",
    "RT1.ExportTables.C116_custom_fails",
    "RT1.ExportTables.C116_yindex_fails"
   ],
   "note": "Proved for all fits with unique time stamps, for parameters that are available, not fixed, and (for model results) if pandas accepts a set of columns; the conversions of _postprocess_getparams are proved. Violated (general statements or witnesses): the unit conversions are not passed on, model results are never converted, fixed parameters raise AttributeError, model results raise TypeError with pandas >= 2, export functions of model results are ignored, DataFrames of export functions raise, lists in reader_arg raise, rows get lost, linregress is exported as NaN."
  },
  {
   "property": "C117",
   "status": "partial",
   "theorems": [
    "RT1.ModelDef.C117_fitted_partial",
    "RT1.ModelDef.C117_fixed_partial",
    "RT1.ModelDef.C117_functions",
    "RT1.ModelDef.C117_lsq_partial",
    "RT1.ModelDef.C117_lsq_fails",
    "RT1.ModelDef.C117_numbers",
    "RT1.ModelDef.C117_observations_partial",
    "RT1.ModelDef.C117_observations_fails",
    "RT1.ModelDef.C117_int_fails",
    "RT1.ModelDef.C117_numpy_fails",
    "RT1.ModelDef.C117_dates"
   ],
   "note": "Proved by reading the sections of the text: fitted parameters (floats), fixed and auxiliary parameters (python numbers), V/SRF and properties, dates, numbers of estimated values, least-squares keywords (even number, not longer than a column), number of observations (unique time stamps). Violated: the middle one of an odd number of keywords is missing, integers as start values or bounds raise, numpy values or bools are not listed, observations with equal time stamps are counted once."
  },
  {
   "property": "C118",
   "status": "partial",
   "theorems": [
    "RT1.UseResults.C118_first_partial",
    "RT1.UseResults.C118_history_partial",
    "RT1.UseResults.C118_export_partial",
    "RT1.UseResults.C118_sticky_fails",
    "RT1.UseResults.C118_folder_fails",
    "RT1.UseResults.C118_new_fails",
    "RT1.UseResults.C118_scan_fails",
    "RT1.UseResults.C118_fitlist_fails",
    "RT1.UseResults.C118_name_fails",
    "RT1.UseResults.C118_export_override_fails",
    "RT1.UseResults.C118_export_dumps_fails"
   ],
   "note": "Proved for the first final output of an object, for histories in which folder and use_dumps are not changed and no IDs are added to the database after the first use (dump-files may be added, fits may be replaced), and for exports (always current) if the folder is not overridden after the last set-up. Violated: the results-object is kept forever (overridden folder, use_dumps and new IDs are ignored, a database created later is not found), fitlists fail, folder names with dots fail, exports ignore overrides, and need the database even with use_dumps."
  },
  {
   "property": "C119",
   "status": "partial",
   "theorems": [
    "RT1.MetricReport.C119_attributes_partial",
    "RT1.MetricReport.C119_pair_fails",
    "RT1.MetricReport.C119_reserved_fails",
    "RT1.MetricReport.C119_allmetrics",
    "RT1.MetricReport.C119_table_partial",
    "RT1.MetricReport.C119_accuracy",
    "RT1.MetricReport.C119_float32_fails",
    "RT1.MetricReport.C119_scatter_partial",
    "RT1.MetricReport.C119_scatter_fails",
    "RT1.MetricReport.C119_flatten_fails"
   ],
   "note": "Proved for the attributes (names of columns that are no private attributes, C69 conditions), allmetrics, the printed table (no float32 values, at most 6 levels) and its accuracy, and the table of the scatterplot (floats, different names). Violated: float32 metrics are missing in both tables, no scatterplot if the regression is not possible, equal names in two nested dicts are mixed up, metrics for a single pair cannot be created."
  },
  {
   "property": "C120",
   "status": "partial",
   "theorems": [
    "RT1.Config.C120_single",
    "RT1.Config.C120_multi",
    "RT1.Config.C120_accepted",
    "RT1.Config.C120_independent",
    "RT1.Config.C120_merged_partial",
    "RT1.Config.C120_integer_frequency_fails",
    "RT1.Config.C120_order_fails",
    "RT1.Config.C120_unknown_option_fails"
   ],
   "note": "Proved: single/multi, one fit per config with exactly its options and definitions, independence of other configs and of the iteration order, which files are accepted. Equality with the merged file under the conditions of C46 (no DEFAULT entries, no linear combinations). Violated: order of the configs is that of a python set; unknown options are ignored silently; integer frequencies cannot be specified."
  },
  {
   "property": "C121",
   "status": "partial",
   "theorems": [
    "RT1.Plots.C121_scatter_partial",
    "RT1.Plots.C121_scatter_fails",
    "RT1.Plots.C121_repeated_fails",
    "RT1.Plots.C121_timeseries_partial",
    "RT1.Plots.C121_empty_selection_fails",
    "RT1.Plots.C121_errors_partial",
    "RT1.Plots.C121_labels_partial",
    "RT1.Plots.C121_labels_fails",
    "RT1.Plots.C121_relative_fails"
   ],
   "note": "Proved for unique time stamps or consecutive fit-groups (scatter, time series), for all datasets (residuals per incidence angle, mean residuals), and for groups with a single time stamp (positions of residuals on the time axis). Violated: repeated time stamps with an unsorted grouping (wrong pairs or exceptions), residuals of groups with several time stamps at wrong times, negative relative residuals, exception for an empty selection."
  },
  {
   "property": "C122",
   "status": "partial",
   "theorems": [
    "RT1.LogMsg.C122_format",
    "RT1.LogMsg.C122_file_partial",
    "RT1.LogMsg.C122_console_partial",
    "RT1.LogMsg.C122_level_fails",
    "RT1.LogMsg.C122_root_fails",
    "RT1.LogMsg.C122_set_level",
    "RT1.LogMsg.C122_listener",
    "RT1.LogMsg.C122_remove_partial",
    "RT1.LogMsg.C122_remove_two_fails",
    "RT1.LogMsg.C122_remove_file_fails"
   ],
   "note": "Proved for all histories if no other logger has handlers and no operation addresses the handler itself; text, levels, listener without restriction. Violated: with handlers at the root logger progress messages are lost (also in log-files with level DEBUG); colored console loses other levels; removal of results skips every second handler of the cfg folder, and raises FileNotFoundError after the removal for a log-file elsewhere in the folder."
  },
  {
   "property": "C123",
   "status": "partial",
   "theorems": [
    "RT1.MultiDump.C123_core",
    "RT1.MultiDump.C123_data_partial",
    "RT1.MultiDump.C123_full_partial",
    "RT1.MultiDump.C123_mini",
    "RT1.MultiDump.C123_shared",
    "RT1.MultiDump.C123_own_fails",
    "RT1.MultiDump.C123_empty_fails",
    "RT1.MultiDump.C123_legacy",
    "RT1.MultiDump.C123_legacy_add_fails",
    "RT1.MultiDump.C123_config_name_fails",
    "RT1.MultiDump.C123_getitem"
   ],
   "note": "Proved for all sequences of operations; own data of single fits are excluded (replaced by the shared data when loading). Violated: own datasets are lost, empty objects cannot be loaded (AssertionError), configurations added to objects from files of previous versions are not found, fits without config_name cannot be loaded."
  },
  {
   "property": "C124",
   "status": "partial",
   "theorems": [
    "RT1.ResultDb.C124_load_partial",
    "RT1.ResultDb.C124_rescan",
    "RT1.ResultDb.C124_missing",
    "RT1.ResultDb.C124_reopen",
    "RT1.ResultDb.C124_held",
    "RT1.ResultDb.C124_held_db",
    "RT1.ResultDb.C124_selector_partial",
    "RT1.ResultDb.C124_selector_fails",
    "RT1.ResultDb.C124_load_hdf_fails",
    "RT1.ResultDb.C124_new_file_fails",
    "RT1.ResultDb.C124_stale_fails"
   ],
   "note": "Proved for all histories; load_fit is stated for folders that contain a database all the time since the last scan, selectors for histories without rescan, without closed handlers and with at most 128 results. Violated: selectors become invalid by a rescan of another result and by load_hdf().datasets.x, and new or replaced databases are not used before the next scan."
  },
  {
   "property": "C125",
   "status": "partial",
   "theorems": [
    "RT1.Intermediate.C125_record",
    "RT1.Intermediate.C125_nothing",
    "RT1.Intermediate.C125_later_partial",
    "RT1.Intermediate.C125_later_fails",
    "RT1.Intermediate.C125_groups_partial",
    "RT1.Intermediate.C125_dataset_partial",
    "RT1.Intermediate.C125_bins_partial",
    "RT1.Intermediate.C125_unknown_fails",
    "RT1.Intermediate.C125_only",
    "RT1.Intermediate.C125_residuals_fails",
    "RT1.Intermediate.C125_labels_fails",
    "RT1.Intermediate.C125_dates_fails",
    "RT1.Intermediate.C125_curve_partial",
    "RT1.Intermediate.C125_curve_fails",
    "RT1.Intermediate.C125_panels"
   ],
   "note": "Recording is proved for all histories in which the last fit is recorded; residuals for datasets with adjacent observations of a fit-group (labels: sorted groups, each date once). Violated: later fits without recording append their jacobians; non-adjacent groups show errors of other observations; labels of unsorted groups are exchanged; dates in several groups give more labels than values; parameters with several values show the first value instead of the mean; an unknown column raises UnboundLocalError."
  },
  {
   "property": "C126",
   "status": "partial",
   "theorems": [
    "RT1.ResultPlots.C126_results",
    "RT1.ResultPlots.C126_rejected",
    "RT1.ResultPlots.C126_labels_partial",
    "RT1.ResultPlots.C126_selection_fails",
    "RT1.ResultPlots.C126_exchanged_fails",
    "RT1.ResultPlots.C126_boxes_partial",
    "RT1.ResultPlots.C126_boxes_fails",
    "RT1.ResultPlots.C126_single_partial",
    "RT1.ResultPlots.C126_single_error",
    "RT1.ResultPlots.C126_single_both",
    "RT1.ResultPlots.C126_indexes_fails",
    "RT1.ResultPlots.C126_default_fails",
    "RT1.ResultPlots.C126_dates_fails"
   ],
   "note": "Lines, points and start-values are proved for all accepted selections, labels for 'all' and for the first measurements, boxes for fit-groups with one date each, single_results for all numbers (labels: datasets sorted by date). Violated: selections with a number not smaller than the length of the selection raise IndexError, other selections get exchanged labels, boxes are at dates of other fit-groups, selection by date always raises AttributeError (fit.fit_index does not exist; for the same reason the legend shows numbers instead of dates), and the default raises IndexError for a single fit-group."
  },
  {
   "property": "C127",
   "status": "partial",
   "theorems": [
    "RT1.InterpIndex.C127_series_partial",
    "RT1.InterpIndex.C127_frame_partial",
    "RT1.InterpIndex.C127_order",
    "RT1.InterpIndex.C127_exact",
    "RT1.InterpIndex.C127_bounds",
    "RT1.InterpIndex.C127_invalid",
    "RT1.InterpIndex.C127_list_fails",
    "RT1.InterpIndex.C127_other_fails"
   ],
   "note": "Proved for Series and DataFrames with at least two distinct dates, with default arguments of interp1d. Violated for lists and arrays, which always raise AttributeError (data.values) or AssertionError; objects of other types give None instead of an exception."
  },
  {
   "property": "C128",
   "status": "partial",
   "theorems": [
    "RT1.Rad.C128_unchanged_partial",
    "RT1.Rad.C128_cleared_partial",
    "RT1.Rad.C128_volume_fails",
    "RT1.Rad.C128_names_fails",
    "RT1.Rad.C128_stale_fails"
   ],
   "note": "Proved for all histories in which V, SRF and the names of the parameters of the object are kept (angles, values, tau, omega and other objects may change), and with a replaced SRF if _clear_cache() is called. Violated: _clear_cache() clears the surface table twice and never the volume table, so after V is replaced the jacobian is the one of the old V, and a new name in param_dict gives TypeError, also after _clear_cache()."
  },
  {
   "property": "C129",
   "status": "partial",
   "theorems": [
    "RT1.Init.C129_checked_partial",
    "RT1.Init.C129_array_fails",
    "RT1.Init.C129_symbolic_fails",
    "RT1.Init.C129_list",
    "RT1.Init.C129_norm",
    "RT1.Init.C129_accepted_fails"
   ],
   "note": "Proved for numbers, expressions with symbols and arrays without mixed signs. Violated for arrays: np.any instead of np.all accepts every array with at least one non-negative element (other elements negative or nan), and negative sympy numbers are accepted."
  },
  {
   "property": "C130",
   "status": "partial",
   "theorems": [
    "RT1.Polar.C130_lines_partial",
    "RT1.Polar.C130_legend_partial",
    "RT1.Polar.C130_limit_partial",
    "RT1.Polar.C130_rejected",
    "RT1.Polar.C130_axes_fails",
    "RT1.Polar.C130_other_fails",
    "RT1.Polar.C130_empty_fails"
   ],
   "note": "Proved for new figures, objects whose class is defined in rt1.surface or rt1.volume, and at least one set of parameters. Violated: with polarax everything is drawn and UnboundLocalError is raised (fig), as for classes defined elsewhere, lists of objects, and an empty list of parameters."
  },
  {
   "property": "C131",
   "status": "partial",
   "theorems": [
    "RT1.SigSlider.C131_create_partial",
    "RT1.SigSlider.C131_slider_partial",
    "RT1.SigSlider.C131_move_partial",
    "RT1.SigSlider.C131_single",
    "RT1.SigSlider.C131_end_fails",
    "RT1.SigSlider.C131_full_fails",
    "RT1.SigSlider.C131_label_fails",
    "RT1.SigSlider.C131_short"
   ],
   "note": "Proved for positions that leave enough measurements (all positions for range1=1) and printfullt_0=True, without zooming. Violated: for range1 > 1 the last range1-1 positions raise IndexError (label) and the figure keeps the previous measurements; printfullt_0=False raises UnboundLocalError; the initial label shows the first date only."
  }
 ]
}

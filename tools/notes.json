{
 "C26": {
  "note": "holds for every non-empty list; for the empty list the stream starts at 1, so the claim 'starting at 0' is false (C26_find_missing_empty)"
 },
 "C09": {
  "note": "proved for all parameters except tau with cos(t_ex) != 1; for tau the code is wrong (1.0/mu_ex**(-1)), the negation is C09_jacobian_tau_wrong; sympy.diff is a hypothesis"
 },
 "C06": {
  "note": "interaction for geometry vvvv"
 },
 "C70": {
  "note": "false for strings with a fixed angle (C70_fixed_geometry_wrong); proved for vvvv, for mono with azimuth-invariant coefficients, and for fixed angles the exchanged coefficients do not depend on"
 },
 "C16": {
  "note": "all clauses proved except that CosineLobe vanishes for negative cosines: this needs i >= 1, for i = 0 it is 1/pi everywhere (C16_cosineLobe_neg_fails)"
 },
 "C17": {
  "note": "function, order and single-component clauses proved; nested combinations raise AttributeError (C17_nested_fails); LinCombV has no expansion (C17_volume_legexp_fails); the expansion of LinCombSRF is the weighted sum only if components sharing a have equal ncoefs or vanishing further coefficients (C17_legexp_partial, C17_legexp_fails)"
 },
 "C74": {
  "note": "true for every i >= 1; false for i = 0 (C74_legcoefs_fails), where the coefficients represent the step function"
 },
 "C75": {
  "note": "t = 0 and a[0] = 0 are excluded: the code divides by zero there"
 },
 "C32": {
  "note": "the export always raises AttributeError for a non-empty defdict (C32_export_fails); the import half holds"
 },
 "C34": {
  "note": "holds for new names with dict definitions; list assignment never gives the from_dict definition (C34_list_fails, C34_list_misaligned); assignment to an existing name changes nothing (C34_redefinition_fails)"
 },
 "C36": {
  "note": "C36_combined_integers holds without restriction; the numpy array of the combined numbers keeps the groups for up to 18 digits (C36_groups_partial); mixed int64/uint64 values become float64 and merge groups (C36_fails)"
 },
 "C37": {
  "note": "holds if the zero-padded numbers have at most 15 digits (the code passes them through float); fails for 16 digits (C37_fails)"
 },
 "C38": {
  "note": "the assignment to the model evaluation is proved without restriction (C38_assign); res_df needs equal dyn-groups for equal time stamps (C38_res_df_partial), otherwise it is false (C38_res_df_fails)"
 },
 "C42": {
  "note": "true for dyn-groups that are consecutive in the order of the fit-groups, in particular for all dyn-groups nondecreasing along the dataset; false otherwise (C42_fails)"
 },
 "C43": {
  "note": "proved for all histories of attribute assignments, reads and cache clearings of the 36 cached quantities; false for MultiFits.set_dataset (C43_set_dataset_fails), in-place changes (C43_inplace_fails) and the coefficient functions stored on the fit object (C43_fnevals_fails)"
 },
 "C78": {
  "note": "true if the polar angles are not changed after the first evaluation, and after discarding the caches; false otherwise (C78_fails): the cached powers of the old cosines are used"
 },
 "C44": {
  "note": "normalisation rule and its agreement between fits, database and processing proved (C44_normalise); idempotence and injectivity are characterised exactly and fail for IDs with non-identifier characters (C44_loaded_fails) resp. pairs X / RT1_X (C44_collision_fails); the default getter fails for IDs containing '.' or '/' (C44_default_getter_fails)"
 },
 "C47": {
  "note": "identities that pair the two series are proved for series with equal index (as the code produces them from one dataset); false for equally long series with different index (C47_index_fails)"
 },
 "C49": {
  "note": "selection, errors and completion hold without restriction on duplicates; 'never stored twice' needs argument lists without duplicate IDs (C49_duplicates_fails) and without list values (C49_sequence_fails)"
 },
 "C69": {
  "note": "true if the column names themselves do not carry a suffix equal to a source; negations C69_suffix_fails, C69_collision_fails"
 },
 "C45": {
  "note": "proved for every documented entry form if no other entry has the same name without prefix (C45_collision_fails otherwise); no list entry can be empty: `[]` gives [''] (C45_empty_list_fails)"
 },
 "C46": {
  "note": "the configuration equals that of the file with the config's entries written into the base sections, for files without DEFAULT entries (C46_default_fails) and without linear combinations of phase functions (C46_lincomb_fails); independence of other configs and config names hold without restriction"
 },
 "C83": {
  "note": "keys X__\u2026__frac other than X__frac would set the fraction; excluded by hypothesis (no such parameter exists)"
 },
 "C50": {
  "note": "Transition system with arbitrarily many workers, combiners (with threads) and writers; the store is described by its rows up to order. Hypotheses: at least one combiner and one writer, all results are dicts with string keys."
 },
 "C51": {
  "note": "Final values for all runs without write failures (broken results are not counted, as in the code); monotonicity and success <= total also for runs with failures."
 },
 "C52": {
  "note": "C52_fair: every weakly fair execution without failures ends (n_worker, n_writer, write_chunk_size, out_cache_size >= 1); C52_fair_complete: with all processes terminated and all valid results stored, and the store does not change afterwards. C52_finish: possibility of completion from every reachable state. C52_drained: processes terminate only when their input is drained. C52_fairness_needed: an execution in which nothing ever happens is excluded by fairness only."
 },
 "C53": {
  "note": "The code violates the property: after a write failure should_wait is cleared and no writer is left to set it, remaining workers (and pool.join) wait forever (C53_fails). Partial: if all tasks have passed should_wait, every fair continuation without further failures ends (C53_fair_partial)."
 },
 "C54": {
  "note": "The code violates the property: the exception handler discards the whole chunk (C54_fails). Partial: at most write_chunk_size-1 other results are lost per broken result; none for write_chunk_size = 1."
 },
 "C55": {
  "note": "The code uses lstrip with a character set: const__static is stored as atic (C55_const_fails, C55_distinct_fails). Partial: exact keys iff the name does not start with a letter of the prefix; distinctness for names without a slash."
 },
 "C56": {
  "note": "The code violates the property: tables of a chunk are appended one after the other (C56_fails). Partial: between writes the store consists of complete results; during a write at most write_chunk_size results are incomplete."
 },
 "C84": {
  "note": "The code violates the property: workers waiting for should_wait are never released after the writers have stopped (C84_fails). Partial: if all tasks have passed should_wait, every fair continuation ends (C84_fair_partial)."
 },
 "C57": {
  "note": "File-system, answers and upper-casing are parameters; the theorems cover all answers, settings and file-system states."
 },
 "C58": {
  "note": "Two modules with the same file name: only the first one is copied (C58_collision)."
 },
 "C59": {
  "note": "override=False drops the sections that are not named in the call (C59_fails). Partial: values of the named sections; histories in which all calls name the same sections."
 },
 "C60": {
  "note": "`val[0] is True` is modelled by booleans (numpy booleans are not covered)."
 },
 "C61": {
  "note": "Without an ID in reader_arg a KeyError is raised even for rt1_skip (C61_fails). Partial: all arguments with an ID."
 },
 "C63": {
  "note": "The shared parameter set is changed while the first fit is exported (C63_fails), export functions for model results are ignored (C63_model_fails). Partial: exact description of what is exported per fit; C63 if no export function returns a scalar."
 },
 "C85": {
  "note": "init_kwargs accepted by __init__ (strings) can never be applied (C85_init_fails); overrides set by override_config always can."
 },
 "C86": {
  "note": "Only the choice of the source is modelled, the values in C116. Violated: requesting a fixed parameter raises AttributeError (C86_fixed_fails)."
 },
 "C62": {
  "note": "With several configurations the aux data of an earlier site are stored for a site without aux data (C62_fails). C62_multi describes what is returned exactly; C62 holds for sites with aux data and if no earlier site had any. That a fit depends only on the configuration and the dataset is an assumption (parameter)."
 },
 "C64": {
  "note": "Proved if the read chunk size divides the block size (in particular for tables without time index, blocks of at most 10 IDs and multiples of 10). Otherwise blocks have wrong sizes, repeat and lose IDs or an exception is raised (C64_fails, C64_default_fails, C64_raises_fails, C64_large_fails)."
 },
 "C65": {
  "note": "Partial: IDs are unique and every table of the file has data for the ID. A site without aux data cannot be loaded if another site has aux data (C65_aux_fails); for colliding string IDs the first one is returned (C65_duplicate_fails)."
 },
 "C66": {
  "note": "get_data(config=None) reads the layer \"None/key\", so constant layers can never be read (C66_const_fails, C66_fails)."
 },
 "C67": {
  "note": "Partial: all handlers with the used name are file handlers and the file can be opened; a handler of another type makes stop_log_to_file raise (C67_stop_fails)."
 },
 "C68": {
  "note": "A name that is added twice is listed twice (C68_names_fails), a fit object added under two names gives one result (C68_shared_fails), `_parent` as a name destroys the container (C68_parent_fails), reader_arg does not reach configs that are added later (C68_late_fails). Partial: distinct names and objects."
 },
 "C87": {
  "note": "Auxiliary start values are means of the means of the fit-groups (C87_auxiliary), which is the mean of the observations only for fit-groups of equal size (C87_mean_partial, C87_mean_fails). With variability 'index', unequal group sizes raise ValueError and a finer second parameter gives too many values (C87_index_*_fails). nan values in the column are not modelled."
 },
 "C88": {
  "note": "Assumes the documented behaviour of int, str.isspace and pd.Grouper (LibOk). The warning about ignored columns is not modelled."
 },
 "C89": {
  "note": "Value level for one observation; sympy expressions as trees. Excluded from the partial theorems: fitted or auxiliary parameters named omega, tau, NormBRDF, bsf used in phase functions (C89_reserved_fails), numbers for omega/tau/NormBRDF overridden by a parameter of the same name (C89_number_fails), fixed values that are no plain numbers (C89_other_fails), names with blanks (C89_blank_fails). Only specifications given as dicts, not functions."
 },
 "C90": {
  "note": "Components are initialized without the fixed values: a fixed number (C90_fixed_fails) or a parameter shared with omega, tau, NormBRDF (C90_shared_fails) has no value in a component."
 },
 "C91": {
  "note": "Single scattering is independent of the order; the positional call of _fnevals exchanges parameters in the interaction term for other orders than that of the definitions (C91_order_fails)."
 },
 "C92": {
  "note": "scipy's quadratic interp1d is a parameter with assumed behaviour (passes through distinct knots, ValueError otherwise). Excluded: dyn-groups that reappear later while their first appearances are sorted (C92_repeated_fails); extrapolation with more than one interpolated parameter (C92_inside_fails)."
 },
 "C93": {
  "note": "Exact arithmetic for the mean time stamps."
 },
 "C94": {
  "note": "Proved: single fits exactly; MultiFits up to the order of the parameters, and exactly if the first configuration contains all parameters. Excluded: NaN values (C94_nan_fails), configurations without parameters (C94_empty_fails), the order in general (C94_order_fails)."
 },
 "C95": {
  "note": "Proved with save_data=True; without it only for Fits objects where the manual columns are used by exactly 'manual' definitions and at least one of them exists (C95_superimposed_fails, C95_index_fails, C95_multi_fails)."
 },
 "C96": {
  "note": "Proved: consecutive fit-groups (all metrics); unique time stamps with arbitrary grouping (all metrics except linregress). Excluded: linregress for unsorted groupings (C96_linregress_fails), series with unique index and different lengths (C96_length_fails), repeated time stamps together with unsorted groupings."
 },
 "C97": {
  "note": "Proved: all runs whose set-up and finalizers do not raise, also for histories. Fails: errors in setup are replaced by UnboundLocalError and leave autocontinue on, errors in the finalizer leave the listener running, handlers of py.warnings accumulate and the log level is not restored."
 },
 "C98": {
  "note": "Proved for runs with a log-file level. Fails for None: run_processing always raises TypeError, run_finaloutput never ends (all writer and combiner processes end at the start, the workers wait for the event should_wait forever)."
 },
 "C99": {
  "note": "Proved: single fits, None and lists of names for multiple configurations, including the composition with the pipeline (C50). Fails: a string as use_config aborts the run, from_postprocess is ignored for MultiFits with the function of the processing class, functions with another argument name."
 },
 "C100": {
  "note": "Proved: exact arguments for all sequences of calls without positional arguments; the documented override holds for the first call of each callback. Fails: arguments of a call persist, positional arguments are rejected."
 },
 "C101": {
  "note": "Proved: all sequences of accesses and picklings of an object whose V, SRF, int_Q and coefficients are not changed; number of evaluations; renewal by assigning None. Fails: changed V, SRF or int_Q after the first access, assigned coefficients are lost by pickling, fit.R.fn is 1 after the first access of fit.R."
 },
 "C102": {
  "note": "Proved: definition, dataset and results are kept by all sequences of dumps (also failing ones), loads and transfers; everything is kept without mini-dumps; conversion of old dumps. Fails: the output of the optimizer is lost by the second mini-dump; a mini-dump that cannot open its file leaves a mark, so that the next pickling drops the functions and the output."
 },
 "C103": {
  "note": "Proved: functions whose arguments are parameters or numbers are loaded with the same attributes; functions with differences, quotients or powers of parameters are not stored (set_V_SRF is None and V raises an exception). Fails: sums of parameters are stored as one new symbol, integer multiples as a repeated name, omega=None raises at the access to V, and a fixed number of defdict used for ncoefs makes the function unstorable. Not modelled: linear combinations and CosineLobe."
 },
 "C104": {
  "note": "Proved for files with different names: the first run uses the specified files, later runs use the copies, modules are importable by name. Fails: two modules with the same file name, a changed config file (specs are taken from the changed file, the fit from the copy), a moved folder, and another name of the processing-module in CONFIGFILES."
 },
 "C105": {
  "note": "Proved for folders with different stems whose parent is no result itself, and for IDs that do not end with .dump. Fails: names that differ only after the last dot, results inside of a result, IDs with the ending .dump, return_ID with the database, random choice from an outdated list."
 },
 "C106": {
  "note": "Proved for dyn-numbers with at most 18 digits altogether (condition of C36); least_squares is a parameter with its documented contract (result within the boundaries and not worse than the start). Fails for more digits: dyn-groups are merged and get a single value."
 },
 "C107": {
  "note": "Surface and volume are proved for all compatible shapes. The interaction-term (and totals containing it) is proved if no array has more axes than the incidence-angles and the fn-coefficients are not all constant (or a single one, or symengine is used); it fails otherwise. The shape of p and brdf lacks the arguments the function does not depend on, functions without t_0 fail for arrays without elements, and the components of fit.calc fail if their shapes differ."
 },
 "C108": {
  "note": "Initialisation, shutdown and index-creation are proved for dicts that have not been used for an earlier run, processes that can be started, initializers that do not raise, and non-empty index-dicts; the other cases fail. Errors of the pre-evaluation of the fn-coefficients are not modelled."
 },
 "C109": {
  "note": "Proved for tables with several index-levels; simple indexes get no index, and requesting all levels raises a TypeError for stores containing a simple index. That the data is kept is proved without restrictions."
 },
 "C110": {
  "note": "The counters and the progress shown are proved for all interleavings. The print-thread can end with a ZeroDivisionError as long as no successful result has been counted, the number of errors of the final message is only proved up to one, and worker-numbers are unique only if the initialisations do not overlap. Results are assumed to be dicts or None (see C54 for other values)."
 },
 "C111": {
  "note": "Proved for unweighted data, consecutive dyn-groups, symbols that are used once and linearly, and tau not fitted (or nadir): entries are the derivatives of the residuals, composed down to the radiative transfer model. In general the entries have to be multiplied by the weights. Violations proved: weights missing in the jacobian, exceptions for expressions that are nonlinear in the fitted symbols or share a symbol, silently missing derivative of phase functions that share a symbol with omega/tau/NormBRDF. Not modelled: interpolated parameters, interaction-term."
 },
 "C112": {
  "note": "Proved: values (broadcasting, angle grid), convergence to the hemispherical reflectance for all continuous BRDF's that depend on the azimuth or not on theta_0, the message for reflectances different from 1 and sufficiently many points, linearity, monotonicity, R with symbols. Violations proved: false message for the Lambertian surface for every odd simps_N, ValueError for functions of theta_0 without azimuth, TypeError for SRF with an expression for NormBRDF. The plot is not modelled."
 },
 "C113": {
  "note": "Proved: blocks, first block, single IDs, whole tables, load_fit, attributes. Violated: an incomplete last block has numeric IDs (general statement C113_last_fails / C113_nids_fails), blocks with a remainder raise KeyError, equal string-IDs raise ValueError with a MultiIndex, a table with the name of a config is not accessible."
 },
 "C114": {
  "note": "Proved: labels of freshly fitted sites, content of each table (iff for init_dict, res_dict, res_df), no other keys, load of all sites of a database. Violated: dumped fits are labelled with their ID (general), save_res_df for MultiFits, dataset of MultiFits without save_data, lists in reader_arg, several auxiliary datasets, one failing config."
 },
 "C115": {
  "note": "Proved for all histories in which no defining attribute is changed after the first evaluation (any number of objects, with eviction); tau, omega, NormBRDF and functions with a numeric version are always current; the caches are bounded. Violated (general statements): a changed attribute has no effect, numeric values and legendre coefficients belong to different parameters, 128 other objects change the result."
 },
 "C116": {
  "note": "Proved for all fits with unique time stamps, for parameters that are available, not fixed, and (for model results) if pandas accepts a set of columns; the conversions of _postprocess_getparams are proved. Violated (general statements or witnesses): the unit conversions are not passed on, model results are never converted, fixed parameters raise AttributeError, model results raise TypeError with pandas >= 2, export functions of model results are ignored, DataFrames of export functions raise, lists in reader_arg raise, rows get lost, linregress is exported as NaN."
 },
 "C117": {
  "note": "Proved by reading the sections of the text: fitted parameters (floats), fixed and auxiliary parameters (python numbers), V/SRF and properties, dates, numbers of estimated values, least-squares keywords (even number, not longer than a column), number of observations (unique time stamps). Violated: the middle one of an odd number of keywords is missing, integers as start values or bounds raise, numpy values or bools are not listed, observations with equal time stamps are counted once."
 },
 "C118": {
  "note": "Proved for the first final output of an object, for histories in which folder and use_dumps are not changed and no IDs are added to the database after the first use (dump-files may be added, fits may be replaced), and for exports (always current) if the folder is not overridden after the last set-up. Violated: the results-object is kept forever (overridden folder, use_dumps and new IDs are ignored, a database created later is not found), fitlists fail, folder names with dots fail, exports ignore overrides, and need the database even with use_dumps."
 },
 "C119": {
  "note": "Proved for the attributes (names of columns that are no private attributes, C69 conditions), allmetrics, the printed table (no float32 values, at most 6 levels) and its accuracy, and the table of the scatterplot (floats, different names). Violated: float32 metrics are missing in both tables, no scatterplot if the regression is not possible, equal names in two nested dicts are mixed up, metrics for a single pair cannot be created."
 },
 "C120": {
  "note": "Proved: single/multi, one fit per config with exactly its options and definitions, independence of other configs and of the iteration order, which files are accepted. Equality with the merged file under the conditions of C46 (no DEFAULT entries, no linear combinations). Violated: order of the configs is that of a python set; unknown options are ignored silently; integer frequencies cannot be specified."
 },
 "C121": {
  "note": "Proved for unique time stamps or consecutive fit-groups (scatter, time series), for all datasets (residuals per incidence angle, mean residuals), and for groups with a single time stamp (positions of residuals on the time axis). Violated: repeated time stamps with an unsorted grouping (wrong pairs or exceptions), residuals of groups with several time stamps at wrong times, negative relative residuals, exception for an empty selection."
 },
 "C122": {
  "note": "Proved for all histories if no other logger has handlers and no operation addresses the handler itself; text, levels, listener without restriction. Violated: with handlers at the root logger progress messages are lost (also in log-files with level DEBUG); colored console loses other levels; removal of results skips every second handler of the cfg folder, and raises FileNotFoundError after the removal for a log-file elsewhere in the folder."
 },
 "C123": {
  "note": "Proved for all sequences of operations; own data of single fits are excluded (replaced by the shared data when loading). Violated: own datasets are lost, empty objects cannot be loaded (AssertionError), configurations added to objects from files of previous versions are not found, fits without config_name cannot be loaded."
 },
 "C124": {
  "note": "Proved for all histories; load_fit is stated for folders that contain a database all the time since the last scan, selectors for histories without rescan, without closed handlers and with at most 128 results. Violated: selectors become invalid by a rescan of another result and by load_hdf().datasets.x, and new or replaced databases are not used before the next scan."
 },
 "C125": {
  "note": "Recording is proved for all histories in which the last fit is recorded; residuals for datasets with adjacent observations of a fit-group (labels: sorted groups, each date once). Violated: later fits without recording append their jacobians; non-adjacent groups show errors of other observations; labels of unsorted groups are exchanged; dates in several groups give more labels than values; parameters with several values show the first value instead of the mean; an unknown column raises UnboundLocalError."
 },
 "C126": {
  "note": "Lines, points and start-values are proved for all accepted selections, labels for 'all' and for the first measurements, boxes for fit-groups with one date each, single_results for all numbers (labels: datasets sorted by date). Violated: selections with a number not smaller than the length of the selection raise IndexError, other selections get exchanged labels, boxes are at dates of other fit-groups, selection by date always raises AttributeError (fit.fit_index does not exist; for the same reason the legend shows numbers instead of dates), and the default raises IndexError for a single fit-group."
 },
 "C127": {
  "note": "Proved for Series and DataFrames with at least two distinct dates, with default arguments of interp1d. Violated for lists and arrays, which always raise AttributeError (data.values) or AssertionError; objects of other types give None instead of an exception."
 },
 "C128": {
  "note": "Proved for all histories in which V, SRF and the names of the parameters of the object are kept (angles, values, tau, omega and other objects may change), and with a replaced SRF if _clear_cache() is called. Violated: _clear_cache() clears the surface table twice and never the volume table, so after V is replaced the jacobian is the one of the old V, and a new name in param_dict gives TypeError, also after _clear_cache()."
 },
 "C129": {
  "note": "Proved for numbers, expressions with symbols and arrays without mixed signs. Violated for arrays: np.any instead of np.all accepts every array with at least one non-negative element (other elements negative or nan), and negative sympy numbers are accepted."
 },
 "C130": {
  "note": "Proved for new figures, objects whose class is defined in rt1.surface or rt1.volume, and at least one set of parameters. Violated: with polarax everything is drawn and UnboundLocalError is raised (fig), as for classes defined elsewhere, lists of objects, and an empty list of parameters."
 },
 "C131": {
  "note": "Proved for positions that leave enough measurements (all positions for range1=1) and printfullt_0=True, without zooming. Violated: for range1 > 1 the last range1-1 positions raise IndexError (label) and the figure keeps the previous measurements; printfullt_0=False raises UnboundLocalError; the initial label shows the first date only."
 }
}
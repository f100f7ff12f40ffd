# Formal model of rt1 – design

Subject: the python package in `/repo/rt1` (TUW-GEO/rt1, pinned commit). The code is read as text and
never executed. The model is written in Lean 4 (v4.33.0) in `lean/`; `lake build` in `lean/` checks everything.

## Layout

* `lean/Verif/Model/*.lean` – the model: small functions mirroring the python functions branch by branch.
  Every definition cites the file and lines of `/repo` it models and says what is simplified.
* `lean/Verif/Lemmas/*.lean` – helper lemmas (no property statements).
* `lean/Verif/Props/*.lean` – the property theorems (`Cnn_…`), each with a small independent specification
  and an `example` that a concrete non-trivial case meets the hypotheses.
* `properties.jsonl` – the properties in English; `MANIFEST.json` – status and theorem names per property.
* `seeded/LOG.jsonl` – record of the model mutations used to test the strength of the theorems.

## Modelling conventions

* Exceptions are values (`Except` / `Option`); a python assertion that fails is an `error`.
* Mutation is state passing; a class with mutable attributes is a structure and every method is
  `State → Args → Except Err (State × Result)`; histories are lists of operations.
* Numpy arrays are modelled elementwise (one scalar per array element) unless the shape is the point, then
  they are lists / lists of lists.
* Floating point numbers are modelled by exact real numbers (`ℝ`); rounding, overflow, nan and inf are *not*
  modelled. Where numpy would produce nan/inf (division by zero, log of a non-positive number) the theorems
  carry the guard that excludes it.
* sympy expressions are modelled by the function (or, for the fn-coefficient pipeline, the fully expanded
  polynomial) they denote; sympy's `expand`, `diff`, `lambdify` are trusted to preserve/differentiate this denotation.
* pandas / HDF5 / multiprocessing primitives are modelled by their documented behaviour (FIFO queues, events,
  append-only tables). Timeouts are non-determinism: a `get(timeout=…)` may time out whenever the queue is empty.

## Plan per property

| id | what is modelled | how it is proved |
|---|---|---|
| C01 | `calc` with its scalar/array-tau branches and int_Q | case analysis |
| C02 | `surface`, `volume`, `interaction` formulas over ℝ | algebra |
| C03 | same | real inequalities, monotonicity of exp |
| C04 | object with four angle slots, setters as operations | invariant by induction over operation lists |
| C05 | `scat_angle` | trigonometric identities, Cauchy–Schwarz style bound |
| C06 | `surface`, `volume`, `interaction` | algebra with reciprocal phase functions as hypothesis |
| C07, C08 | `*_slope`, `*_curv`, unit branches | `HasDerivAt` of the modelled backscatter function |
| C09 | `jacobian` entries | `HasDerivAt` in each parameter; **tau entry expected to be wrong** (`1/mu_ex**(-1)`): negation + partial |
| C10 | `jacobian` loop | induction over the parameter list |
| C11 | `_cosintegral` | induction on the exponent with Mathlib's reduction formula |
| C12 | fully expanded polynomials in sin/cos of theta_s, phi_s as monomial lists; the replacement steps | linearity + C11, induction over monomials |
| C13 | `_S2_mu`, `_calc_Fint_*`; expn as the integral it denotes, expi characterised as principal-value exponential integral (existence and uniqueness proved) | explicit antiderivative for n = 0, recursion in n |
| C14–C16 | phase functions as functions of the scattering cosine | real analysis, interval integrals |
| C17 | linear combinations as folds over component lists, grouping by `a` | induction over lists |
| C18, C19 | `dBsig0convert` with all flags | case analysis over 16 flags, log/rpow identities |
| C20–C29 | helper functions over lists / integers | induction, arithmetic |
| C30–C34 | defdict as state machine | refinement to an association list; negations for the dict export and attribute assignment |
| C35–C37, C77 | `param_dyn_dict`, `_conc_string`-style digit concatenation, float conversion of manual numbers, `np.array` dtype promotion | induction / digit arithmetic; negations for numbers beyond the float/int64 precision |
| C38–C42 | `_groupindex`, `_idx_assigns`, `_assignvals`, `_get_data`, `res_df`, packing in `performfit`, `_jac_assign_rule`; the model evaluation is a parameter | list/permutation arguments; negation for the sparse-jacobian placement with non-consecutive groups and for `res_df` with duplicate time stamps |
| C43 | the class-level `lru_cache` tables keyed by object, `_clear_cache`, `__setattr__`; the bodies of the 36 cached quantities are arbitrary programs that may read each other | coherence invariant over operation sequences; negations for `MultiFits.set_dataset`, in-place changes and the stored coefficient functions |
| C78 | `_mu_0_x`, `_mu_ex_x` caches of an RT1 object | invariant over operation sequences; negation for changed angles |
| C44 | `Fits.ID`, `HDFaccessor._get_ID`, `_extract_ID`, the default getter of `_check_IDs`; the class of identifier characters is a parameter with the facts used | string case analysis; idempotence and collisions characterised exactly, negations for the excluded strings |
| C45, C46, C81-C83 | `get_process_specs`, `_parse_dict`, `_parse_defdict`, `_parse_V_SRF` (incl. linear combinations), `get_config`, `config_names`, `_check_integrity` over ordered maps of strings; number/date/path conversions are parameters | induction over entries; C46 as equality with the configuration of the merged file; negations for colliding names, `DEFAULT` entries and linear combinations |
| C47, C79, C80 | metrics over indexed real series (pandas alignment, mean/std/corr/rank, scipy linregress by their formulas) | finite sums, Cauchy–Schwarz; negation for series with different index |
| C48, C49 | `_check_IDs`, the rows appended to the table `reader_arg`, runs (interrupted after an arbitrary subset) as transitions over database contents | invariants over histories of runs; negations for duplicate IDs and list-valued arguments |
| C50–C54, C56, C84 | pipeline (`_worker_process`, `_combiner_process` with its threads, `_save_file_process`, `run_starmap`, `stop`, `manual_shutdown`) as a transition system with arbitrary numbers of processes, arbitrary schedules and fault transitions; one shared operation per step | conservation laws for weights of results and rows, control invariants, measure of remaining work (C52); fair executions: the measure is eventually constant, then a rank of the polling cycle of one process contradicts fairness; negations by explicit traces |
| C55 | the loop over the entries of a result (`lstrip`, `config/key`) | string arguments; negations for `lstrip` and slashes |
| C57, C58 | `setup`, `_confirm_input`, `_make_folderstructure`, `_remove_dumpfolder`, `_copy_cfg_and_modules` over a file-system (map from paths to folders and files); the answers of the user are a list | case analysis, preservation of existing nodes along the sequence of file operations, induction over runs |
| C59, C85 | `init_kwargs`, `override_config`, the application of overrides in `setup` over ordered dicts | induction over entries and calls; negations for `override=False` and for the `init_kwargs` accepted by `__init__` |
| C60, C63, C86 | `_defdict_parser`, the choice of sources in `_postprocess_getparams`, the handling of the parameter set in `_HDF_export_postprocess` (values: C116) | induction over definitions and fits; negations for the shared parameter set |
| C61 | `exceptfunc` of the processing config | case analysis; negation for arguments without an ID |
| C62 | `_evalfunc` with the reader, the naming of the sites, the fit and the exception handler as parameters; the parent `MultiFits` object is the state (dumps and the conversion to the HDF dict are not modelled) | induction over the sites of a worker; negation for retained aux data |
| C64 | `_get_nids_iter`, `_get_vals`, `_chunks`, `iloc_level` (`Model/Database`) | the loop over read chunks is a structural recursion; induction over the chunks with the position inside a block shows that blocks are consecutive slices of the IDs (`Blocks`) and hold their rows (`Holds`); general and concrete negations where the chunk size does not divide the block size |
| C65 | `_ID_to_IDnum`, `_get_id`, `_load_fit` | lookup lemmas under unique IDs; negations for missing tables' rows and duplicates |
| C66 | `RT1_processor.get_data` | store as a dict from paths; decision logic |
| C67 | `setup_logger`, `start_log_to_file`, `stop_log_to_file` (`Model/Log`) | induction over histories of calls |
| C68 | `MultiFits.add_config`, `accessor`, setters, `apply`, `_FitContainer` (`Model/MultiFits`) | fits are objects on a heap; induction over histories; negations for repeated names, shared objects, `_parent`, late additions |
| C87, C88 | `_startvaldict`, `param_dyn_df`, `_param_assigns`, `_timescaledict`, `_manual_dyn_df`, `param_dyn_dict` for all parameters (`Model/FitSpec`) | group lemmas (masked means over padded rows = means over groups); a grammar of the documented definitions (`Means`), induction over the definitions; negations for unequal fit-groups and 'index' |
| C89–C91 | `_setdict`, `_fixed_dict`, `fixed_dict`, `_init_V_SRF` (dicts, linear combinations of depth one), `_param_R_dict`, `_get_excludesymbs`, `_set_calc_values`, `calc`, argument order of `_fnevals` (`Model/FitEval`), for one observation | expressions are trees; replacement and evaluation commute (induction over expressions); the source of a name is decided by its definition; negations by concrete models |
| C92, C93 | `_assignvals` with interpolation, `_meandt_interp_assigns`, `meandatetimes`, `_param_dyn_monotonic`, `meandatetimes_group`, `res_df_group` (`Model/Interp`) | the runs of `itertools.groupby` are the maximal runs of the specification (induction over the observations); knots are distinct for all states of the shared boundaries (invariant of the loop over the parameters); no extrapolation: two interpolation methods that agree between the knots give the same result |
| C94, C95 | `_get_res_dict_df`, sections `res_dict` and `dataset` of `_get_fit_to_hdf_dict`, `_load_fit` (`Model/FitStore`) | the rows of one key in the appended tables are the rows of its frame (induction over the stored fits); padding with NaN and `dropna` cancel; merged columns are a duplicate-free enumeration |
| C96 | `_unify_idx_data`, `_get_data`, rows of `calc_model` (`Model/MetricData`) | the metrics are invariant under permutations of the rows (alignment by unique labels); rows of `calc_model` are a permutation of the observations (C39), the identity for consecutive groups |
| C97 | `run_processing`, `run_finaloutput`, `_worker_configurer` (`Model/RunProc`) | state monad with errors and `try/finally`; case analysis of the outcomes, induction over the runs |
| C98 | start of the writer and combiner processes with `init_func` (`Model/RunProc`, `Model/Pipeline`) | invariant of all runs of the pipeline that starts with ended processes |
| C99 | `_run_finalout`, `_finalout_reader`, `_run_postprocess`, `MultiFits.apply` (`Model/FinalOut`) | value of every key of the result of one ID; composition with C50 |
| C100 | `_MultiAccessors.lazy`, `_applyit` (`Model/Accessor`) | induction over the calls: state of every callback |
| C101 | `RT1.fn`, `RT1._fnevals`, `RT1.__getstate__`, `Fits.R` (`Model/Lazy`) | state machine with history variable for the evaluations; invariant over all sequences of operations |
| C102 | `Fits.dump`, `__getstate__`, `__setstate__`, `__update__`, `load` (`Model/DumpState`) | attributes as a partial map; invariant over all sequences of dumps, loads and transfers |
| C103 | `_get_V_SRF_dict`, `init_dict`, constructors of `volume.py`/`surface.py`, `V`/`SRF`, `_init_V_SRF` (`Model/SetFn`) | one syntax of expressions with two evaluations (symbols and strings); simulation between both for simple arguments, classification of the results for all others |
| C104 | `get_module`, `get_all_modules`, `setup` (complete), `_check_integrity` (processing-module) on top of `Model/Process` (`Model/Modules`) | composition of the file-system theorems of C58 with the loading of the modules; two-run theorem over arbitrary changes in between |
| C105 | `RTresults` and `_RT1_fitresult` without the xarray- and HDF-readers (`Model/Results`) | folder trees as an inductive type; loop invariants of the scan; case analysis of `load_fit`; string lemmas for `Path.stem` |
| C106 | `performfit` without `interp_vals` and without the jacobian (`Model/PerformFit`, composed of the parts of `Model/Grouping` and `Model/FitSpec`) | refinement: the function handed over to the solver is the misfit of the values obtained by splitting its argument (`resid_cost`), the boundaries are those of `Admissible` (`admissible_iff`); with the contract of the solver |
| C107 | `Volume.p`/`Surface.brdf`, `RT1.surface/volume/interaction/_calc_Fint_1/2/_S2_mu/_mu_0_x/calc`, `Fits.calc` and the conversion in `_calc_model` for arrays (`Model/Arrays`): arrays are shapes (last axis first) with entries, numpy operations broadcast or raise ValueError; the scalar model of `Model/RT1` is the specification of each entry; nan-values and caching as in C01-C09 only | calculus of denotations: each numpy-expression is characterised by the shapes it contains (`Bc`: common shape) and the value of each entry (`Den`, stacks `DenS`); induction over expressions and lists |
| C108 | `RTprocess._processfunc`, `_initializer`, `RT1_processor.writer_pool`, `run_starmap`, `stop`, `_start_writer_process`, `_start_combiner_process` as functions from the outcomes of the external calls to the list of events and a result (value, exception, or a run that does not return) (`Model/PoolRun`); errors of the pre-evaluation are not modelled | case distinction over all outcomes, induction over the started processes and over repeated runs |
| C109 | `RT1_processor.create_index` on a store of tables with index-levels, columns on disk and existing indexes (`Model/CreateIndex`) | induction over the keys of the store; frame-lemma for the tables that are not selected |
| C110 | `_increase_cnt`, the queue-get of `_combiner_process`, `print_progress` and the worker-number of `_initializer` as a transition-system in which each request to the manager is one step (`Model/Counters`); p_max, times and the text of the progress-bar are not modelled (see C29 for the bar); refines the atomic counting of C51 | invariant with ghost state (results taken but not counted) by induction over all action-sequences |
| C111 | `dfun` and `_calc_jac` as a composition (`Model/CalcJac`): vector of parameters, assignment, `neworder`, outer derivatives (`R.jacobian`), inner derivatives evaluated with the unassigned `res_dict`, columns per parameter (`Grouping.jacobian`), `vstack`; the radiative transfer model of an observation as an instance (`rtModel`) | closed forms of residuals and jacobian, chain rule (`HasDerivAt`) for each entry; `neworder` by an invariant over the replacements; the instance by C09; concrete witnesses for the violations |
| C112 | `hemreflect` up to `returnarray` (`Model/HemReflect`): angle grid, evaluation of `brdf` on the grid with numpy's shapes (`Model/Arrays`), scipy's Simpson-rule (formula for irregular samples, average of two results for an even number of samples), substitution of symbols in `NormBRDF`, message; the figure is not modelled | estimate of the rule by the oscillation of the function, uniform continuity on the rectangle, Fubini; closed form of the rule for `sin(2x)` by telescoping and inequalities `3 sin u < u(2 + cos u)`, `x cos x (1 + x^2/3) < sin x` by monotonicity |
| C113 | `HDFaccessor.__init__` (attributes), `_numeric_ID`, `_load_fit`, `_get_nids_iter`, `_get_nids`, `_get_id`, `_cfgselector`, `_subselector.select`, `iloc_level` with string-IDs; a MultiIndex is given by the values of its first level and a code for each row (`Model/SetID`) | simulation of the loop of `Model/Database` (numeric IDs), for complete blocks every frame is the relabelled one; general statements for the blocks that keep numeric IDs; folds for the attributes |
| C114 | `Fits._get_fit_to_hdf_dict`, `MultiFits._get_fit_to_hdf_dict`, the calls in `_evalfunc` and `rt1_file_already_exists`, a database with the tables of all sites (`Model/HdfDict`, read by `Model/Database`) | lookup in the dict after each suppressed exception; labels and rows for every table; rows of one number in the concatenated tables by induction on the sites, then `C65_load_partial` |
| C115 | the lru-caches of `_func`, `legcoefs` (one for each class) and `_lambda_func` (one for each base class), `p`, `brdf`, `p_theta_diff`, `brdf_theta_diff`; the bodies of the functions, sympy and numpy are parameters (`Model/PhaseCache`) | the objects without caches are the specification; invariant (entries are values for the current attributes, cached objects have been read) by induction on the history; exact content of a cache after n further objects for the eviction |
| C116 | `export_data_to_HDF` (for one fit), `_HDF_export_postprocess` and `_postprocess_getparams` with values; `calc_model`, `res_df`, metrics and export functions are parameters (`Model/ExportTables`) | `wanted` is the specification of the value of a parameter; invariants of the loops over export functions and parameters, joins by labels |
| C117 | `Fits._model_definition` as text (lists of characters); the formatting of single values and dates is a parameter (`Model/ModelDef`) | the specification is a reader of the sections (`readFitted`, `readFixed`, `readAux`, `readLsq`, …), which does not use the model; titles and separators do not occur in earlier lines, lines contain no line-breaks; `keyVal`/`strip`/`splitOn` calculus |
| C118 | `RTprocess._get_files`, `run_finaloutput`, `export_data_to_HDF` (choice of the fits), `_finalout_reader` (loading), `_RT1_fitresult` with its cached handler; histories as lists of operations (`Model/UseResults`) | invariant over histories: the kept results-object belongs to the configured folder and the cached IDs are the stored IDs; for the violations the result is shown to depend only on the kept object |
| C119 | `_metric_keys.__init__` (attributes as nested dicts), `allmetrics`, `_metrics_table_dict_entry`, `metrics_table`, `_flatten_dictionary` and the table of `scatterplot` as texts (`Model/MetricReport`); formats of numbers are parameters, the plot is not modelled | attributes: fold over all permutations; tables: the specification is a reader of the text, induction over nested dicts |
| C120 | `get_fitobject`, `Fits.__init__` (attributes set from the configuration), `_from_list`/`from_dict` for parsed definitions, `add_config` (`Model/FitObject`, on top of `Model/Config`); iteration order of sets is a parameter | invariant of the loop over the configs; names of configs from the texts of the section names; C46 for the merged file |
| C121 | points and curves of `plot.scatter`, `plot.fit_timeseries`, `plot.fit_errors`, `Fits.index` (`Model/Plots`, on top of `Model/Grouping`, `Model/MetricData`); appearance of figures, regression line, overprinted parameters not modelled | all arrays as images of the array of positions of the observations; C18 for the units, C20 for the masks |
| C122 | levels, formatters, `log.progress`, `set_log_handler_level`, `_listener_process`, handlers in `_remove_dumpfolder` (`Model/LogMessages`); content of the records (time, process name), lines separated by other characters than newline and the queue itself not modelled | invariant over histories of operations; lines by induction over the text; loop over a changing list by induction |
| C123 | `MultiFits.dump`, `__setstate__`, `_FitContainer.__setstate__`, `__getitem__`, `load` (`Model/MultiDump`, on top of `Model/DumpState`); objects attached under two names and `_RT1_version` not modelled | invariant over all sequences of dumps, loads and transfers |
| C124 | `fit_db`, `rescan`, `_reset_fit_db_cache`, `_load_fit_from_HDF`, weak references of the selectors, `HDFaccessor.__del__`/`close` (`Model/ResultDb`, on top of `Model/Results`); `use_dumps` (C105) and suspended generators not modelled | invariant over all histories of several results |
| C125 | recording of intermediate results, `plot.intermediate_residuals`, curves and panels of `plot.intermediate_results` (`Model/Intermediate`, on top of `Model/Grouping`, `Model/Interp`, `Model/Plots`); the appearance of the figures and negative slices not modelled, bins (`pd.cut`, `pd.Grouper`) are a parameter | induction over the calls of the optimizer; positions of the observations as in C121 |
| C126 | `plot.results` (upper panel, boxes), `plot.single_results` (`Model/ResultPlots`, on top of `Model/Plots`, `Model/Grouping`); colors, hexbins, axis labels, negative numbers and the curves of `res_df` not modelled | rows of the padded arrays as positions of observations (C20, C39); decision of all selections |
| C127 | `interpolate_to_index` (`Model/InterpIndex`); `interp1d_kwargs`, nan values and repeated dates not modelled | the interpolation is compared with a specification without sorting (line between two dates without dates in between), which is shown to determine the value |
| C128 | `_d_surface_dummy_lambda`, `_d_volume_dummy_lambda` with their caches, `_clear_cache`, `jacobian` (`Model/RT1Deriv`, on top of `Model/RT1`, `Model/PhaseCache`); the caches of `V._func`, `SRF._func` are those of C115 | invariant for the entries of one object over all histories of all objects; negation for a replaced V |
| C129 | the checks of `RT1.__init__` (`Model/RT1Init`); the angles are those of C04 | decision of all arguments |
| C130 | `polarplot` (`Model/PolarPlot`): lines, colors, legend, limit of the radius; arrows, filled areas, ticks, titles not modelled | closed form of the nested loops; running maximum |
| C131 | `printsig0analysis` (`Model/SigSlider`): lines of `plotlines`, their update in `animate`, label; values of the lines, parameter-plot, limits, legend, zooming, second slider not modelled | invariant of the line-counter; induction over measurements and over slider events |
| C69 | `_metric_keys.__init__`, `_check_keys` over ordered dicts | induction over the keys; negations for colliding suffixes |
| C70 | `interaction` with the geometry string | case analysis; **strings with a fixed angle give a wrong second F_int**: negation + partial |
| C73–C76 | phase functions, Legendre coefficients | Bonnet recursion, integration by parts, Legendre differential equation (bound `|P_n| ≤ 1`), generating function by an ODE in t |
| C71, C72 | composition of C12, C13 and the geometry `vvvv` | substitution mu = cos(theta) |

## Trusted base

* Lean's kernel and the axioms `propext`, `Classical.choice`, `Quot.sound` (checked per theorem with `#print axioms`).
* The reading of the python source into the model (citations per definition).
* The modelling conventions above.
* sympy: `expand` yields the sum of monomials, combines powers of equal bases and drops monomials with a factor `0.0`;
  `legendre(n, x)` denotes the Legendre polynomial (Bonnet recursion); `xreplace` replaces exactly the listed
  sub-expressions; `lambdify`/`diff` as in the conventions.
* scipy: `expi` satisfies `Expint.IsExpi`, `expn` is `Expint.expn`.
* `functools.lru_cache`: tables of at most 128 entries keyed by the arguments (incl. `self`), least recently used entry dropped,
  exceptions not cached. The bodies of the cached quantities of `Fits` read only the defining attributes and other cached
  quantities without cycles (`Cache.Valid`).
* pandas: arithmetic of two series aligns by index (labels of one series only give nan, nan is skipped by `mean`), `mean`, `std`
  (divisor n-1), `corr` (pearson / average ranks); `scipy.stats.linregress` is the closed least-squares formula and raises for
  unequal lengths or constant x.
* python's `str.isidentifier` is "start character followed by continuation characters"; the character classes are arbitrary
  subject to the facts listed in `Ids.Chars`.
* The table `reader_arg` of the result file contains one row per stored argument: the numeric ID and the stored ID
  (`Ids.rowOf`).
* `multiprocessing`: queues of a manager are FIFO and `get(timeout)` raises only if the queue is empty; events, locks and values are
  atomic; a pool of n workers executes the tasks in any order, `pool.join` waits for all of them; `Process.join` waits for the end
  of the process function. `p_totcnt`/`p_meancnt` are updated under the lock, hence atomically.
* `HDFStore.append` adds the rows of one table; nothing else is written; a crash can happen between two calls.
* `configparser`: duplicate sections/keys are rejected, entries of `DEFAULT` appear in every section unless given explicitly,
  `getboolean` accepts 1/yes/true/on and 0/no/false/off in any case; interpolation is done before the modelled code. `float`, `int`,
  `strptime`, `Path` and `Path.resolve` are arbitrary partial functions.
* `pathlib`/`shutil`: `mkdir(parents=True)` creates a folder and its missing parents and raises if one of them is a file, `rmtree` removes a folder with everything
  below it, `copy` replaces the content of the target only. `input` returns an arbitrary string or raises. Nothing else changes the
  file-system while a run is set up.
* `performfit` gives a result that depends only on the configuration and the dataset (it clears the caches first, see C43); the
  parent object of a single configuration has no `aux_data` and is not changed by fits of objects created from it.
* pandas/pytables (reading): `select_as_coordinates` with a list of IDs selects the rows with these IDs in file order; `concat`
  appends rows and rebuilds the index levels, so `levels[0]` are the sorted IDs that occur; `.loc[ID]` raises KeyError if there
  is no such row; an exception `StopIteration` inside of a generator becomes RuntimeError (PEP 479).
* `int(str(n)) == n`, digits and letters are no blanks, `"manual"` is neither an integer nor a pandas offset (`FitSpec.LibOk`); `pd.Grouper(freq=s)`
  assigns every time stamp to one calendar bin.
* sympy: `sympify` of a parameter name is the symbol of this name (`FitEval.Valid`), `xreplace` of a symbol returns the replacement itself, also if it is a
  python number; a lambdified function with an undefined name raises NameError when called.
* scipy: `interp1d(kind="quadratic", fill_value="extrapolate")` returns a function through the knots if there are at least three distinct ones and raises
  ValueError for duplicates (`Interp.IsInterp1d`); time stamps are real numbers, differences are not rounded to nanoseconds.
* pandas: `concat(axis=1)` of frames with the indices 0..n pads with NaN, `concat(axis=0)` merges the columns in order of appearance, appended HDF-tables are the rows one after
  the other, an empty frame is not appended at all.
* pandas: `concat([s1, s2], axis=1)` re-indexes both series to a union of the two indexes (`Metrics.unify` has the union as parameter); a series with repeated labels can be
  re-indexed only to its own index.
* logging: `setLevel(None)` raises TypeError; a process whose target raises ends. `mp.Manager()` and starting processes do not fail (C97, C98).
* `pd.DataFrame(reader_arg, [num])` does not fail; the pre-evaluation of coefficients does not fail for existing configurations (C99).
* weak fairness of the scheduler (C52_fair, C53_fair_partial, C84_fair_partial): a worker, combiner, thread, writer or the main process that can continue at all times does continue. Defined in `Lemmas/PipelineFair` (`Exec`, `Fair`, `Acts`); nothing is assumed about relative speeds or timeouts.
* the evaluation of the fn-coefficients is a function of the defining attributes; the lambdification is a function of the backend and the coefficients (C101).
* pickling calls `__getstate__` and hands an equal dict to `__setstate__` of a new object; `__init__` is not called (C100, C102).
* python operators for `str`, `int`, `float`: `+` concatenates strings, `*` repeats a string, every other combination with a string is a TypeError; exceptions of the arithmetics of constants are not modelled (C103).
* importing a module executes the content of its file; the content stands for the module; modules have the suffix `.py` and raise no exceptions (C104).
* `os.scandir` lists the entries of a folder (distinct names); `Path.stem` removes the last suffix; no folder has the name of an attribute of `RTresults` (C105).
* `scipy.optimize.least_squares` (default loss) returns a vector of the shape of the start values within the boundaries whose sum of squared residuals is not larger than the one of the start values (`SolverOk`, C106); that it finds the minimum (`SolverMin`) is only assumed for `C106_optimal_partial`.
* numpy broadcasting, `np.vectorize` (ValueError for arguments without elements), `np.broadcast_arrays`, `np.array` of equally shaped arrays, and lambdified functions acting elementwise and returning numbers for expressions without symbols (C107); symengine-functions return the shape of the broadcast arguments for all coefficients.
* `mp.Pool`: the initializer is called once per worker, a worker whose initializer raises is replaced by a new one, so that the run does not return; `starmap` returns the list of results in order or raises the error of a task (C108).
* `HDFStore`: `storer.levels` is 1 for a simple index and the list of names otherwise; `storer.create_index` ignores names that are no columns on disk and raises AttributeError for labels of DataFrames (C109).
* `multiprocessing.Manager`: each access of `Value.value` is one atomic request; the lock excludes; `Queue.get` returns each element once; `qsize` is the number of elements (C110).
* C111: sympy's derivatives are correct (`IsDiff`, `DummyDiffCorrect`); if a derivative depends on fitted *and* auxiliary symbols, the combination of python lists and arrays by the lambdified function is not modelled (parameter `mixed`, excluded by `linear`).
* `scipy.integrate.simps(y, x)` as documented up to version 1.10 (`even='avg'`; later versions treat even numbers of samples differently, 1.14 does not contain `simps`), `np.arange`, `np.linspace` with exact numbers (C112).
* C113: `set_levels` replaces the values and keeps the codes (ValueError if the values are not unique); `MultiIndex` levels that are created by `read` or `concat` are the sorted unique values; `IDs.loc[labels]` returns all rows for each label in the order of the labels, and raises KeyError for missing ones; `set_ID` is not changed by the user while a generator is used; the keyword arguments of `select`/`read` are not modelled.
* C114: `pd.concat(frames, keys=[ID])` prepends the ID to the index of each row; `pd.DataFrame(dict, [ID])` accepts scalars and lists with one element; the values of a frame are not modelled beyond their identity (conversion to categories/strings, dtype and order of columns are not modelled); a database contains the rows of all sites (that the rows arrive there is C53-C55); `_get_init_dict`, `_get_res_dict_df` and `res_df` are given by their rows or exceptions.
* C115: `functools.lru_cache()` keeps the 128 most recently used entries, compares objects by identity and keeps them alive (so an identity is not reused); the bodies of `_func` and `legcoefs` depend on the defining attributes only and do not raise exceptions; attributes of the components of a linear combination are part of its parameters.
* C116: `pd.concat(axis=1)` and `pd.DataFrame` of a dict of Series keep equal indexes and join other unique indexes by their labels (results for different indexes with duplicates are an arbitrary parameter); assigning a Series to a column aligns it to the index of the DataFrame; a dict of scalars and an index give one row, lists of another length and DataFrames as columns raise ValueError; the order of rows and columns is not modelled.
* C117: texts of names and values contain no line-breaks, separators (`|`, and for names `=`, `:`, `,`) or leading and trailing blanks; `format(x, '.5')` raises ValueError for integers and TypeError for None; `param_dyn_df` has one row for each group; an empty dataset is not modelled; `_model_definition` reads `V_props`/`SRF_props` as given.
* C118: workers are spawned (no cached handlers); the processing class has the `dumpfolder` of the configuration; HDF5 file locks, handlers that are closed or dropped from the cache, other HDF-files in the results-folder and worker failures are not modelled.
* C119: texts of numbers have no separators or blanks; names of metrics have no separators and do not start with a dash; columns are not named like attributes of all python objects (`__doc__`); the values of the metrics are those of C47/C79/C80/C96.
* C120: iterating over a python set yields every element once, in an order that is not determined by the elements; `str.isidentifier` and the conversion of IDs (C18) are parameters; variable names are not attributes of every python object.
* C121: pandas column assignment and `pd.concat(axis=1)` align by label (no-op for equal indexes, exception for repeated labels otherwise); `sort_index` permutes the rows; matplotlib draws one point per unmasked entry; `np.concatenate` of a masked array ignores the mask, comparisons of masked entries are false; the union of two indexes with the same unique labels is a permutation of these labels.
* C122: `logging`: a message is passed to all handlers if its level reaches the level of the logger, each handler checks its own level; exceptions of formatters are printed to stderr; `hasHandlers` includes parent loggers; a closed FileHandler opens its file again at the next message; `textwrap.indent` skips blank lines.
* C123: pickling calls `__getstate__` for every fit of the container and `__setstate__` for the fits, the container and the object in this order; `hasattr` catches AttributeError only.
* C124: `lru_cache` keeps the 128 most recently used entries and no exceptions; an opened store reads the file it has opened; an object without strong references is collected at an arbitrary later time; `weakref` returns None afterwards; reading from a closed store raises.
* C125: `DataFrame.groupby(...).mean()` is the mean of the rows of each group, sorted by the groups; groups without rows are masked; the optimizer calls the function and the jacobian in an arbitrary order; relative errors are stated for measurements different from 0.
* C126: `np.argsort` returns positions in an order of increasing values (any order of equal values); `np.datetime_as_string` is an arbitrary function; `fit.fit_index` raises AttributeError (no such attribute in `rt1/rtfits.py`).
* C127: `scipy.interpolate.interp1d` sorts the points and interpolates linearly in the first interval that ends at the place or behind it, nan outside (`fill_value=None` is stored as nan in an array of floats); `axis=0` treats columns separately; `to_julian_date` is an arbitrary function, injective on the dates of the data.
* C128: `lru_cache(20)` as in C115; `sp.lambdify` gives a function of the named parameters, which raises TypeError for other names; `sp.diff` and `lambdify` depend on the current expression only.
* C129: `None >= 0.0` and `[…] >= 0.0` raise TypeError, `nan >= 0.0` is False; `isinstance(x, sp.Basic)` holds for all sympy expressions, also for numbers.
* C130: `itertools.cycle` repeats its elements; values of the phase functions, their approximations and maxima are arbitrary functions; a local variable that is not assigned raises UnboundLocalError.
* C131: matplotlib calls `animate` with the positions of the slider and keeps running after an exception in a callback; the data of a line is determined by its quantity and its measurement.
* `logging`: `addHandler`/`removeHandler` change the list of handlers only; opening the file may fail.

## Disagreements between code and properties

Where the code does not have a property, the negation is proved with a concrete or general witness (theorems named `…_fails`
unless given otherwise) and the part that holds is a theorem with `_partial`.

| property | what the code does | theorem |
|---|---|---|
| C09 | `jacobian` uses mu_ex instead of 1/mu_ex in the tau entry (`rt1.py:1378`) | `C09_jacobian_tau_wrong` |
| C16 | `CosineLobe` with i = 0 is 1/pi also for negative scattering cosines | `C16_cosineLobe_neg_fails` |
| C17 | components with different `ncoefs` are expanded with a common number of coefficients; nested combinations raise AttributeError; the expansion of a `LinCombV` cannot be evaluated | `C17_legexp_fails`, `C17_nested_fails`, `C17_volume_legexp_fails` |
| C26 | `find_missing([])` starts at 1, not at 0 | `C26_find_missing_empty` |
| C32 | `to_dict(props="dict")` of a non-empty defdict always raises AttributeError | `C32_export_fails` |
| C34 | list entries are passed as positional arguments with a different order; assigning to an existing name changes nothing | `C34_list_fails`, `C34_redefinition_fails` |
| C36 | concatenated dyn-numbers in the ranges of int64 and uint64 are stored as float64 and merge | `C36_fails` |
| C37 | manual dyn-numbers with 16 digits are converted via a double and merge | `C37_fails` |
| C38 | of two observations with equal time stamps `res_df` lists only the first one | `C38_res_df_fails` |
| C42 | sparse jacobian: non-consecutive groups are placed wrongly | `C42_fails` |
| C43 | in-place changes, `set_dataset` of MultiFits and `_fnevals_input` leave stale values | `C43_inplace_fails`, `C43_set_dataset_fails`, `C43_fnevals_fails` |
| C44 | different IDs collide; an ID that is not an identifier is prefixed again when loaded; the default getter of `_check_IDs` differs for other types of IDs | `C44_collision_fails`, `C44_loaded_fails`, `C44_default_getter_fails` |
| C45 | `list__x = []` becomes `[""]`; entries of different type with the same name replace each other | `C45_empty_list_fails`, `C45_collision_fails` |
| C46 | the DEFAULT section overrides base values; linear combinations are not overridden key-wise | `C46_default_fails`, `C46_lincomb_fails` |
| C47 | equally long series with a different index: bias uses all values, the others only the common labels | `C47_index_fails` |
| C49 | duplicate IDs are stored twice; reader arguments that contain a list are processed again by every run | `C49_duplicates_fails`, `C49_sequence_fails` |
| C53 | a failing writer leaves the workers blocked | `C53_fails` |
| C54 | one result that is no dict discards its whole chunk | `C54_fails` |
| C55 | `lstrip("const__")` strips characters, not a prefix | `C55_const_fails`, `C55_distinct_fails` |
| C56 | a crash between two appends leaves a listed ID with missing tables | `C56_fails` |
| C59 | `override=False` drops sections that are not named | `C59_fails` |
| C61 | KeyError for arguments without "ID" | `C61_fails` |
| C62 | aux data of an earlier site are stored (several configs) | `C62_fails` |
| C63 | the shared parameter set is changed by the first fit; functions for model results are ignored | `C63_fails`, `C63_model_fails` |
| C64 | remainder handling of `_get_nids_iter` | `C64_fails`, `C64_default_fails`, `C64_raises_fails`, `C64_large_fails` |
| C65 | a site without rows in an existing table cannot be loaded; colliding string IDs | `C65_aux_fails`, `C65_duplicate_fails` |
| C66 | `get_data(config=None)` reads `None/key` | `C66_fails`, `C66_const_fails` |
| C67 | handlers of another type with the used name | `C67_stop_fails` |
| C68 | repeated names, shared objects, `_parent`, late additions | `C68_*_fails` |
| C69 | names with the suffix `__dataset` etc. collide with generated keys | `C69_collision_fails`, `C69_suffix_fails` |
| C70 | a fixed angle is also fixed in the exchanged direction, so the second F_int is wrong | `C70_fixed_geometry_wrong` |
| C74 | the Legendre coefficients of `CosineLobe` with i = 0 | `C74_legcoefs_fails` |
| C78 | `_mu_0_x` / `_mu_ex_x` are stale after an angle is changed | `C78_fails` |
| C84 | a signal during the run leaves processes waiting | `C84_fails` |
| C85 | `init_kwargs` accepted by `__init__` cannot be applied | `C85_init_fails` |
| C87 | auxiliary start values are means of fit-group means; 'index' with unequal groups raises, with a finer second parameter gives too many values | `C87_mean_fails`, `C87_index_ragged_fails`, `C87_index_count_fails` |
| C89 | parameters named omega, tau, NormBRDF, bsf are removed from the parameters of the phase functions; a number for omega is overridden by a parameter of this name; fixed arrays are never used; names with blanks raise AttributeError | `C89_*_fails` |
| C90 | components of linear combinations are initialized without `setdict` (`rtfits.py:2225`) and their symbols are not recorded | `C90_fixed_fails`, `C90_shared_fails` |
| C91 | `_fnevals` is called by position with the values in the order given by the user (`rt1.py:1274`) | `C91_order_fails` |
| C92 | `_param_dyn_monotonic` looks at the fit-groups in the order of first appearance (`rtfits.py:711`): for reappearing groups (1, 2, 1) the mean over all appearances is used; isolated observations get values of other groups, equal means raise ValueError | `C92_repeated_fails` |
| C92 | `firstindex`/`lastindex` stay shifted for the following parameters (`rtfits.py:1549`): values at the boundaries are extrapolated | `C92_inside_fails` |
| C94 | the columns of all configurations are merged, so the order of the parameters of a loaded configuration differs from the stored one (which matters for `calc`, see C91) | `C94_order_fails` |
| C94 | `val.dropna().to_list()` (`rtresults.py:637`) removes NaN values, so that the following values belong to the wrong groups; one configuration without parameters suppresses the results of all configurations | `C94_nan_fails`, `C94_empty_fails` |
| C95 | with `save_data=False` only columns of definitions that are exactly `"manual"` are stored (`rtfits.py:2960`): `"D + manual"` cannot be re-created; without such a column nothing is stored and the index is lost; for `MultiFits` `self.defdict` does not exist (`rtfits.py:2952`) and the error is swallowed | `C95_superimposed_fails`, `C95_index_fails`, `C95_multi_fails` |
| C96 | `linregress` passes the values position by position (`rtmetrics.py:328`), but the rows of `calc_model` are ordered by fit-groups: for unsorted groupings values of different observations are compared | `C96_linregress_fails` |
| C96 | `_unify_idx_data` drops the NaN values of each column separately (`rtmetrics.py:191`): two complete series with unique index and different lengths are never unified, the assertion fails | `C96_length_fails` |
| C97 | an error in `setup()` (including the SystemExit after the user has aborted) is replaced by UnboundLocalError: the `finally` block uses `queue` and `listener` before assignment (`rtprocess.py:959`, `1137`) | `C97_setup_fails` |
| C97 | `run_finaloutput`: `autocontinue` stays True if `setup()` raises (`rtprocess.py:1068-1071`) | `C97_autocontinue_fails` |
| C97 | an error in the finalizer in the `finally` block leaves the listener process running and the handlers attached (`rtprocess.py:952`) | `C97_finalizer_fails` |
| C97 | `_worker_configurer` adds the handler also to the logger `py.warnings` and changes the level of `log`; neither is undone (`rtprocess.py:193-202`) | `C97_warnings_fails` |
| C98 | `run_processing(logfile_level=None)`: `queue, proc_counter = None` raises TypeError (`rtprocess.py:880`) | `C98_processing_fails` |
| C98 | `run_finaloutput(logfile_level=None)`: `_worker_configurer(None, None)` raises in every writer and combiner process, all workers wait forever for `should_wait` (`rtprocess.py:193`, `_rtprocess_writer.py:371-375`, `458`) | `C98_finaloutput_fails` |
| C99 | `use_config` given as string (documented): the pre-evaluation iterates over its characters, KeyError (`rtprocess.py:1176-1180`) | `C99_string_fails` |
| C99 | `from_postprocess` is ignored for MultiFits if no explicit function is given (`rtprocess.py:1266-1277`) | `C99_direct_fails` |
| C99 | the function is called with the keyword `fit` for MultiFits and positionally for Fits | `C99_keyword_fails` |
| C100 | arguments given to a callback persist in later calls of the callback (`start_kwargs.update`, `rtfits.py:3113`) | `C100_repeat_fails` |
| C100 | positional arguments are rejected: `partial(…, prop=prop)` (TypeError), `start_args` is a tuple (AttributeError) | `C100_positional_fails` |
| C101 | `R.V`, `R.SRF` or the geometry replaced after the first access: `fn` and `_fnevals` of the previous ones are used (`rt1.py:272-311`) | `C101_stale_fails` |
| C101 | `_fnevals` accessed while `int_Q` is False stays None after `int_Q = True` (`rt1.py:383`) | `C101_intQ_fails` |
| C101 | `__getstate__` removes `_RT1__fn` from the object that is pickled; assigned coefficients are replaced by generated ones (`rt1.py:202-221`) | `C101_pickle_fails` |
| C101 | `fit.R.fn` is the integer 1 for the second and later accesses of `fit.R` (`rtfits.py:1363`) | `C101_fitR_fails` |
| C102 | second mini-dump of a loaded fit: `fit_output` is a dict, `getattr(self.fit_output, 'success')` raises AttributeError, the properties are lost (`rtfits.py:394-399`) | `C102_redump_fails` |
| C102 | `dump` sets `_rt1_dump_mini` before the file is opened; if this fails the next pickling is a mini one (`rtfits.py:2423-2433`) | `C102_mark_fails` |
| C100 | the properties of the accessor are set on the class by `__init__`: in a process that only loads dumps `mf.accessor.res_dict` raises AttributeError (`rtfits.py:3079-3091`) | `C100_loaded_fails` |
| C103 | `omega = x + y` in a function is stored as the string `xy`, i.e. as another symbol (`rtfits.py:2779`) | `C103_sum_fails` |
| C103 | `omega = 2 * x` in a function is stored as the string `xx` (`rtfits.py:2779`) | `C103_product_fails` |
| C103 | an attribute that is None is stored, but `sp.sympify(None)` has no `free_symbols` (`rtfits.py:2207`) | `C103_none_fails` |
| C103 | `ncoefs` given by a fixed number of defdict: comparison of a string with 0, TypeError, nothing is stored (`rtfits.py:2779`) | `C103_ncoefs_fails` |
| C104 | modules with the same file name in different folders: the first one is loaded for both keys (`rtparse.py:550`, `rtprocess.py:424`) | `C104_names_fails` |
| C104 | with an existing copy of the config, `specs` are still taken from the (changed) original, the fit from the copy (`rtprocess.py:302, 344-360`) | `C104_mixed_fails` |
| C104 | the copied config contains the original save_path: a moved folder is searched at its previous place (`rtparse.py:545-557`) | `C104_moved_fails` |
| C104 | `processing_cfg_module` is checked in CONFIGFILES (`rtparse.py:188`) but read from PROCESS_SPECS (`rtprocess.py:340`): KeyError | `C104_name_fails` |
| C105 | results are identified by `path.stem`: `run_v1.2` and `run_v1.3` collide, only the last one is available (`rtresults.py:141`) | `C105_stem_fails` |
| C105 | results in the sub-folders of a result are not available (`rtresults.py:102-104`; the documentation of the class shows both) | `C105_nested_fails` |
| C105 | the ID `a.dump` (file `a.dump.dump`) loads the fit `a` (`rtresults.py:362`) | `C105_suffix_fails` |
| C105 | `load_fit(return_ID=True)` with the database raises an UnboundLocalError (`rtresults.py:374`) | `C105_return_fails` |
| C105 | random fits are chosen from the list of the first scan, also if the files have been removed (`rtresults.py:347`) | `C105_stale_fails` |
| C106 | more than 18 digits of dyn-numbers: a parameter with two dyn-groups gets a single value (`rtfits.py:714-734`) | `C106_digits_fails` |
| C107 | arrays `tau` (or parameters) with more axes than the incidence-angles: the interaction-term raises ValueError, or mixes axes if their lengths agree by accident (`rt1.py:1280, 1326-1361`) | `C107_rank_fails` |
| C107 | several constant fn-coefficients with the sympy-backend: the interaction-term raises ValueError (or mixes coefficients and angles if their numbers agree) (`rt1.py:1278-1281`) | `C107_constant_fails` |
| C107 | `p` and `brdf` of a function of `t_0` only do not return the common shape of the arguments (`volume.py:118-135`, `surface.py:121-138`) | `C107_function_shape_fails` |
| C107 | `p` and `brdf` without `t_0` raise ValueError for arrays without elements (`volume.py:132-134`) | `C107_empty_fails` |
| C107 | `fit.calc(return_components=True)` with `dB` or `sig0` raises ValueError if the contributions have different shapes, e.g. several values for `NormBRDF` only (`rtfits.py:1784-1789`) | `C107_components_fails` |
| C108 | `pool_kwargs` of the caller is modified: a second run with the same dict calls `setup` twice per worker and configures the logging-queue of the first run (`rtprocess.py:709-715`) | `C108_reuse_fails` |
| C108 | a combiner that cannot be started: the writers are never stopped or joined, the error is replaced by an UnboundLocalError (`_rtprocess_writer.py:535-546`) | `C108_shutdown_fails` |
| C108 | an initializer that raises: the run never returns (`rtprocess.py:709-745`) | `C108_returns_fails` |
| C108 | `create_index={}` creates no index (`rtprocess.py:750-759`) | `C108_index_fails` |
| C109 | tables with a simple index get no index, without a message (`_rtprocess_writer.py:714-740`) | `C109_simple_fails` |
| C109 | `idx_levels="all"` or a list raises TypeError for stores with a simple index, e.g. `reader_arg` written by each run (`_rtprocess_writer.py:714-740`) | `C109_all_fails` |
| C110 | `print_progress` checks for zero with a second request after the release of the lock: ZeroDivisionError ends the print-thread if the first result is counted in between (`_rtprocess_writer.py:162-174`) | `C110_progress_fails` |
| C110 | the final message reads both counters without the lock: wrong or negative number of errors (`_rtprocess_writer.py:194`) | `C110_final_fails` |
| C110 | `proc_counter.value += 1` without a lock: two workers with the same name (`rtprocess.py:572-574`) | `C110_names_fails` |
| C111 | the jacobian does not contain the data-weights, while the residuals do (`rt1/rtfits.py:2333` vs. `1793-1965`) | `C111_weights_fails`, `C111_weights_witness_fails` |
| C111 | expressions for tau, omega, NormBRDF that are nonlinear in the fitted symbols raise an exception, since the inner derivative is evaluated with the lists of `res_dict` instead of the assigned values (`rt1/rtfits.py:1891-1902`) | `C111_nonlinear_fails` |
| C111 | a fitted symbol that is used in two of tau, omega, NormBRDF raises a ValueError (`rt1/rtfits.py:1846-1857`) | `C111_shared_fails` |
| C111 | a fitted symbol that is used in omega (tau, NormBRDF) and in a phase function: the derivative of the phase function is missing, no exception (`rt1/rtfits.py:1846-1862`) | `C111_phase_fails` |
| C112 | the message `Hemispherical Reflectance > 1` is printed for the Lambertian surface (`Isotropic()`, reflectance 1) for every odd `simps_N`, since the rule overestimates the integral (`rtplots.py:377-383`) | `C112_lambert_odd_fails` |
| C112 | BRDF's that depend on `theta_0` but not on the azimuth (e.g. `a=[1, 0, 0]`) raise a ValueError (`rtplots.py:376-377`) | `C112_azimuth_fails` |
| C112 | `SRF.hemreflect(param_dict=...)` with an expression for `NormBRDF` raises a TypeError, `NormBRDF[0]` is used in this branch (`rtplots.py:338-343`) | `C112_symbol_fails` |
| C113 | the rows of a last block that needs fewer read steps than `nids // read_chunksize` are returned with numeric IDs although `set_ID=True` (`rtresults.py:890-892`) | `C113_last_fails`, `C113_nids_fails`, `C113_fails` |
| C113 | if the chunk size does not divide the block size, the remaining rows (already with string-IDs) are labelled again: KeyError (`rtresults.py:874`, `rtresults.py:883`) | `C113_remainder_fails` |
| C113 | sites with equal string-IDs: `set_levels` raises ValueError (`rtresults.py:874`) | `C113_collision_fails` |
| C113 | a config with the name of a table hides this table (`rtresults.py:532-533`) | `C113_shadow_fails` |
| C114 | a site whose dump of a previous run is used is labelled with its string-ID instead of its number, and `hdf_export_kwargs` are ignored (`processing_config.py:226`) | `C114_existing_fails` |
| C114 | `MultiFits._get_fit_to_hdf_dict` has no argument `save_res_df`: TypeError (`rtfits.py:3224`) | `C114_kwargs_fails` |
| C114 | `save_data=False, save_results=True`: nothing of the dataset of a MultiFits object is stored, since `self.defdict` (instead of `fit.defdict`) does not exist (`rtfits.py:2967`); with pandas >= 2 also for Fits objects (a set of columns, `rtfits.py:2977`) | `C114_multi_data_fails`, `C114_set_fails` |
| C114 | a list in `reader_arg`: all reader arguments are lost, and the number is stored as ID (`rtfits.py:2949-2954`) | `C114_arg_fails` |
| C114 | `aux_data` with more than one dataset is not stored (`rtfits.py:2988`) | `C114_aux_fails` |
| C114 | one config whose specification cannot be evaluated: the specifications of all configs are not stored (`rtfits.py:2922-2934`) | `C114_one_config_fails` |
| C115 | assigning `t`, `i`, `a` of a phase function after it has been evaluated has no effect on `_func`, `legcoefs`, derivatives and on `p`/`brdf` without numeric version (`volume.py:629`, `volume.py:701`, `surface.py:667`, …) | `C115_stale_fails` |
| C115 | for `HenyeyGreenstein` (volume) and `HG_nadirnorm` the values of `p`/`brdf` belong to the new parameter, the legendre coefficients and derivatives to the old one (`volume.py:715`, `volume.py:728`, `surface.py:857`, `surface.py:888`) | `C115_mixed_fails` |
| C115 | if 128 further objects of the class have been evaluated, the same evaluation returns the function of the new parameter | `C115_evict_fails` |
| C86 | a requested fixed parameter raises AttributeError: `fit.defdict[key].val` is already the value and has no attribute `value` (`rtprocess.py:1729`, `_containers.py:257`) | `C86_fixed_fails`, `C116_fixed_fails` |
| C116 | `sig_to_dB` and `inc_to_degree` of `export_data_to_HDF` have no effect (`rtprocess.py:1539-1546`) | `C116_units_fails` |
| C116 | model results are never converted to dB (`rtprocess.py:1611`) | `C116_model_units_fails` |
| C116 | model results are selected with a set of names: TypeError with pandas >= 2 (`rtprocess.py:1611`) | `C116_set_fails` |
| C116 | export functions of `tot`, `surf`, `vol`, `inter` are ignored (`rtprocess.py:1615`) | `C116_override_fails` |
| C116 | an export function that returns a DataFrame (as documented) raises ValueError (`rtprocess.py:1627`) | `C116_frame_fails` |
| C116 | a list in `reader_arg` raises ValueError, all other parameters of the fit get lost (`rtprocess.py:1777`) | `C116_list_fails` |
| C116 | together with model results, rows of exported series without model results get lost (`rtprocess.py:1621`) | `C116_rows_fails` |
| C116 | `linregress` as a metric is exported as NaN (`rtprocess.py:1643`) | `C116_linregress_fails` |
| C116 | a metric "custom" without export function is read from the attributes `u`, `s`, `c` (`rtprocess.py:1640`) | `C116_custom_fails` |
| C116 | with two index-levels the static table has the level-names x and y instead of the given ones (`rtprocess.py:1772`) | `C116_yindex_fails` |
| C117 | the middle one of an odd number of least-squares keywords is missing in the text (`rtfits.py:2694-2696`) | `C117_lsq_fails` |
| C117 | `model_definition` raises if a start value or a bound of a fitted parameter is an integer (`rtfits.py:2573`, `2581`) | `C117_int_fails` |
| C117 | fixed parameters whose value is no int or float (e.g. `np.float32`), and all parameters whose first value is a numpy bool, are missing (`rtfits.py:2571`, `2589-2592`) | `C117_numpy_fails` |
| C117 | "Number of observations" counts observations with the same time stamp only once (`rtfits.py:2709`) | `C117_observations_fails` |
| C118 | after the first final output (or export) a changed `dumpfolder`/`save_path` and `use_dumps` are ignored: the fits of the old folder are used (`rtprocess.py:1325`) | `C118_folder_fails`, `C118_sticky_fails` |
| C118 | fits that are added to the database after the first final output are not used by later ones; a database that did not exist at the first call is never found (`rtprocess.py:1325`, `rtresults.py:192-199`) | `C118_new_fails`, `C118_scan_fails` |
| C118 | `run_finaloutput(fitlist=…)`: no fit is loaded on a new object, the documented list of paths raises TypeError (`rtprocess.py:1214`, `_rtprocess_writer.py:355`) | `C118_fitlist_fails` |
| C118 | AttributeError for final outputs if the name of the dumpfolder contains a dot (`rtprocess.py:1326`) | `C118_name_fails` |
| C118 | `export_data_to_HDF` ignores `override_config` (`rtprocess.py:1496-1500`) | `C118_export_override_fails` |
| C118 | `export_data_to_HDF(use_dumps=True)` raises AssertionError without `fit_db.h5` (`rtprocess.py:1520`) | `C118_export_dumps_fails` |
| C119 | metrics that are `np.float32` numbers (float32 data) are missing in `metrics_table` and in the table of the scatterplot (`rtmetrics.py:613`, `672`) | `C119_float32_fails` |
| C119 | `scatterplot` raises TypeError if no linear regression is possible (`linregress` returns None; `rtmetrics.py:516`) | `C119_scatter_fails` |
| C119 | values with the same name in two nested dicts are mixed up in the table of the scatterplot (`rtmetrics.py:617`) | `C119_flatten_fails` |
| C119 | AttributeError for all metrics if a column is named like a private attribute, e.g. `_all_keys` (`rtmetrics.py:76`) | `C119_reserved_fails` |
| C119 | `_metric_keys(fit, d1, d2)` always raises (missing arguments for names, unhashable series; `rtmetrics.py:54`, `138`) | `C119_pair_fails` |
| C120 | the configs of a file are added in the order of a python set (`rtparse.py:432`), so `configs[0]`, the ID and all outputs by position can differ between processes | `C120_order_fails` |
| C120 | unknown (misspelled) options in `fits_kwargs` are accepted without effect (`rtfits.py:292`) | `C120_unknown_option_fails` |
| C120 | an integer frequency (documented in `add_variable`) cannot be given in a file: `freq` is parsed as string (`rtparse.py:320`) | `C120_integer_frequency_fails` |
| C121 | repeated time stamps and an unsorted grouping: `scatter`/`fit_timeseries` pair values of different observations or raise (`rtplots.py:488`, `602-604`) | `C121_scatter_fails`, `C121_repeated_fails` |
| C121 | `fit_errors` uses the first n entries of `fit.index`, which has one entry for each time stamp of each group: residuals are drawn at the time of another group (`rtplots.py:809`) | `C121_labels_fails` |
| C121 | relative residuals are divided by the signed modelled value: negative for values in dB (`rtplots.py:785`) | `C121_relative_fails` |
| C121 | `fit_timeseries` with a selection without observations raises StopIteration (`rtplots.py:660`) | `C121_empty_selection_fails` |
| C122 | if the root logger has handlers when rt1 is imported, neither the console handler nor the level is set: progress messages are written nowhere, also not to log-files with level DEBUG; `set_log_handler_level` raises IndexError (`__init__.py:213`, `60`) | `C122_root_fails` |
| C122 | the colored formatter fails (TypeError) for levels other than the six known ones: the message is lost (`__init__.py:162`) | `C122_level_fails` |
| C122 | `_remove_dumpfolder` removes handlers from the list it iterates: of two handlers in the cfg folder the second one stays (`rtprocess.py:250-254`) | `C122_remove_two_fails` |
| C122 | `_remove_dumpfolder` with a log-file elsewhere in the folder raises FileNotFoundError after the folder was removed (`rtprocess.py:261`) | `C122_remove_file_fails` |
| C123 | `load` assigns the shared dataset, auxiliary data and reader arguments to all configurations: own data of a single fit are lost (`rtfits.py:74-76`) | `C123_own_fails` |
| C123 | a MultiFits object without configurations can be dumped but not loaded: `hasattr(fit, "ID")` raises AssertionError (`rtfits.py:68`, `3235`) | `C123_empty_fails` |
| C123 | objects from files of previous versions: the container uses the list of names of another object, configurations that are added later are not found (`rtfits.py:3132-3138`) | `C123_legacy_add_fails` |
| C123 | `MultiFits.__setstate__` sets missing attributes `config_name` from a dict that already needs them: AttributeError (`rtfits.py:3216-3218`) | `C123_config_name_fails` |
| C124 | `rescan()` clears the cache of all results: selectors of the databases of other results (`sel = other.fit_db.datasets.x`) raise AttributeError, since they keep a weak reference only (`rtresults.py:206`, `905`, `916`) | `C124_selector_fails` |
| C124 | `result.load_hdf().datasets.x.select()` raises AttributeError as soon as the accessor is collected (`rtresults.py:916`, `920`) | `C124_load_hdf_fails` |
| C124 | a database that is created after the scan is found by `load_hdf` but not by `load_fit` (`rtresults.py:195-197`); a replaced one is not used until some result is scanned | `C124_new_file_fails`, `C124_stale_fails` |
| C125 | a fit without `intermediate_results=True` appends its jacobians to the record of the previous fit (`rtfits.py:1947-1948`) | `C125_later_fails` |
| C125 | the errors are stored in the order of the fit-groups but paired with `dataset.index`; if the observations of a group are not adjacent, errors are attributed to other observations (`rtfits.py:2333-2340`, `rtplots.py:2984-3056`) | `C125_residuals_fails` |
| C125 | `grp="groups"`: values are sorted by the number of the group, labels are in the order of appearance (`rtplots.py:2984-3006`); `grp="dataset"`: a date in two groups has two labels but one value (`rtplots.py:3007-3029`) | `C125_labels_fails`, `C125_dates_fails` |
| C125 | `plot.intermediate_results` shows the first value of a parameter instead of the mean (`rtplots.py:1280-1283`); an unknown column raises UnboundLocalError in `intermediate_residuals` | `C125_curve_fails`, `C125_unknown_fails` |
| C126 | `plot.results(result_selection=[5])` raises IndexError, `[1, 0]` exchanges the labels: `labels[i]` is evaluated with the number of the measurement instead of its position (`rtplots.py:992-993`) | `C126_selection_fails`, `C126_exchanged_fails` |
| C126 | `fit.fit_index` does not exist: the legend of `plot.results` never shows dates (`rtplots.py:985-990`, `legend_fmt` has no effect), `plot.single_results(fit_indexes=…)` always raises AttributeError (`rtplots.py:1103`) | `C126_indexes_fails`, `C126_labels_partial` |
| C126 | the boxes of `plot.results` use `fit.index[resid]`, which lists all dates of all fit-groups: wrong date if a fit-group has several dates (`rtplots.py:1041-1048`) | `C126_boxes_fails` |
| C126 | `plot.single_results()` shows the second measurement, IndexError for a single fit-group (`rtplots.py:1113`); labels name first and last element instead of first and last date | `C126_default_fails`, `C126_dates_fails` |
| C127 | `interpolate_to_index` with a list or an array always raises (`data.values`, `general_functions.py:349`), although documented; other types silently give None | `C127_list_fails`, `C127_other_fails` |
| C128 | `RT1._clear_cache` clears `_d_surface_dummy_lambda` twice and never `_d_volume_dummy_lambda` (`rt1.py:236-237`): jacobians with respect to parameters of a replaced `V` are those of the old `V`, TypeError for new names in `param_dict` | `C128_volume_fails`, `C128_stale_fails`, `C128_names_fails` |
| C129 | `RT1(...)` accepts arrays of `omega`, `tau`, `NormBRDF` with negative elements (`np.any(… >= 0)`, `rt1.py:189-200`) and negative sympy numbers | `C129_array_fails`, `C129_symbolic_fails`, `C129_accepted_fails` |
| C130 | `polarplot(polarax=ax)` always raises UnboundLocalError after drawing (`return fig`, `rtplots.py:120-124, 262`); classes defined outside of `rt1` and lists of objects raise UnboundLocalError (`funcname`, `angs`) | `C130_axes_fails`, `C130_other_fails`, `C130_empty_fails` |
| C131 | `printsig0analysis` with `range1 > 1`: the last `range1 - 1` positions raise IndexError (`rtplots.py:2102`) before `day >= maxdays` (2110) can skip the missing measurements; `printfullt_0=False` raises UnboundLocalError (1711); the initial label shows one date (2251) | `C131_end_fails`, `C131_full_fails`, `C131_label_fails` |

Found while reading, without a theorem (not part of a stated property or not modelled):

* `_calc_jac`: a symbol that occurs in both tau and omega (or NormBRDF) raises ValueError in the re-ordering.
* `_metric_keys` with a string as d2 raises TypeError.
* `reinit_object` ignores `share_fnevals` and `share_auxdata`; `_MultiAccessors.lazy` assigns to a tuple (TypeError).
* dumping with `mini=True` twice loses the information on the fit output; `RT1.__getstate__` removes a non-existent attribute.
* an integer frequency larger than the number of unique time stamps raises ZeroDivisionError.
* `geometry[3] == "f"` checks the uniqueness of p_0 instead of p_ex.
* `run_processing(logfile_level=None)` raises TypeError; if `setup` raises, the `finally` block uses undefined queues.
* `n_combiner=0` loses all results, `n_writer=0`, `out_cache_size=0` and `write_chunk_size=0` hang.
* the last partial block of `_get_nids_iter` is not relabelled with `set_ID`; iterables as `nids` raise TypeError.
* two modules with the same file name: only the first one is copied (`C58_collision`).
* the docstring of `exceptfunc` says that the exception is dumped, the code does not.

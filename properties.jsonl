{"id": "C01", "title": "calc() returns the sum of its own components", "statement": "RT1.calc() returns (tot, surf, vol, inter) with tot = surf + vol + inter when int_Q is True, and (tot, surf, vol) with tot = surf + vol when int_Q is False. If tau is a plain python number <= 0 the returned volume and interaction components are exactly 0 and tot equals the surface contribution.", "quantifier": "all model objects, geometries, parameter values, both int_Q settings, scalar and array-valued tau", "why_tests_cant": "the sum must hold on every branch (scalar/array tau, tau = 0, with/without interaction); tests evaluate a handful of parameter sets", "anchors": ["rt1/rt1.py:RT1.calc"]}
{"id": "C02", "title": "Bare-soil limits", "statement": "With tau = 0 the surface contribution equals the bare-soil intensity NormBRDF*I0*cos(t_0)*brdf for every bsf, and the volume contribution is 0. With bsf = 1 the volume and interaction contributions are 0 and the surface contribution equals the bare-soil intensity for every tau. In general the surface contribution is the bsf-weighted mean of the bare-soil and the attenuated intensity.", "quantifier": "all I0, geometries with cos > 0, all tau >= 0, omega, bsf, NormBRDF and all phase functions", "why_tests_cant": "an identity between closed-form expressions over a continuum of parameters", "anchors": ["rt1/rt1.py:RT1.surface", "rt1/rt1.py:RT1.volume", "rt1/rt1.py:RT1.interaction"]}
{"id": "C03", "title": "Contributions are non-negative, bounded and monotone", "statement": "For I0 >= 0, upper-hemisphere angles, tau >= 0, omega >= 0, NormBRDF >= 0, 0 <= bsf <= 1 and non-negative phase functions: surf >= 0, vol >= 0; surf is non-increasing in tau and never exceeds the bare-soil intensity; vol is non-decreasing in tau and in omega and never exceeds its optically-thick limit; vol is non-increasing in bsf.", "quantifier": "all admissible parameter values", "why_tests_cant": "monotonicity and bounds relate infinitely many pairs of parameter values", "anchors": ["rt1/rt1.py:RT1.surface", "rt1/rt1.py:RT1.volume"]}
{"id": "C04", "title": "Monostatic geometry is an invariant", "statement": "If an RT1 object is created with geometry='mono', then after any sequence of assignments to t_0, p_0, t_ex, p_ex reading the object gives t_ex == t_0 and p_ex == p_0 + pi; assignments to t_ex/p_ex have no effect on any angle. For any other geometry the four angles are independent and each reads back the last value assigned to it (scalars as 1-element arrays).", "quantifier": "all operation sequences on all initial objects", "why_tests_cant": "requires all histories of setter calls", "anchors": ["rt1/rt1.py:RT1.__init__", "rt1/rt1.py:RT1._set_t_0", "rt1/rt1.py:RT1._set_p_0", "rt1/rt1.py:RT1._get_t_ex", "rt1/rt1.py:RT1._set_t_ex", "rt1/rt1.py:RT1._get_p_ex", "rt1/rt1.py:RT1._set_p_ex"]}
{"id": "C05", "title": "Scattering angle is a true angle cosine", "statement": "The symbolic generalized scattering angle (scat_angle) and its numeric twin (_scat_angle_numeric) agree. For any weights a with |a_i| <= 1 the value lies in [-1,1], it is symmetric under exchanging the two directions and 2*pi-periodic in both azimuths. With the volume default a=[-1,1,1] (incidence direction flipped) it is the dot product of the two propagation-direction unit vectors and equals -1 in monostatic geometry (exact backscatter); with the surface default a=[1,1,1] it equals 1 in the specular direction.", "quantifier": "all angles and all weights a with |a_i| <= 1", "why_tests_cant": "trigonometric identity and bound over a continuum", "anchors": ["rt1/scatter.py:Scatter.scat_angle", "rt1/scatter.py:Scatter._scat_angle_numeric", "rt1/volume.py:Volume.__init__", "rt1/surface.py:Surface.__init__"]}
{"id": "C06", "title": "Helmholtz reciprocity of the modelled intensity", "statement": "If BRDF and volume phase function are reciprocal, exchanging incidence and exit direction multiplies every contribution (surface, volume, interaction, hence the total) by cos(t_ex)/cos(t_0).", "quantifier": "all geometries with positive cosines and all parameter values", "why_tests_cant": "symmetry over a continuum of bistatic geometries; the tests only use monostatic examples", "anchors": ["rt1/rt1.py:RT1.surface", "rt1/rt1.py:RT1.volume", "rt1/rt1.py:RT1.interaction", "rt1/rt1.py:RT1._calc_Fint_1", "rt1/rt1.py:RT1._calc_Fint_2"]}
{"id": "C07", "title": "Slopes are derivatives", "statement": "surface_slope, volume_slope and tot_slope return the derivative with respect to the incidence angle of the corresponding monostatic backscatter quantity, for each of the four unit choices (linear/dB x intensity/sigma0), provided the derivative of the phase function supplied by brdf_theta_diff / p_theta_diff is correct and, for dB, the value is positive.", "quantifier": "all angles with cos > 0, all parameters, all four unit combinations, all differentiable phase functions", "why_tests_cant": "an analytic identity; finite differences at a few points cannot settle it", "anchors": ["rt1/rt1.py:RT1.surface_slope", "rt1/rt1.py:RT1.volume_slope", "rt1/rt1.py:RT1.tot_slope"]}
{"id": "C08", "title": "Curvatures are second derivatives", "statement": "surface_curv, volume_curv and tot_curv return the second derivative with respect to the incidence angle of the corresponding monostatic backscatter quantity, for each of the four unit choices.", "quantifier": "all angles with cos > 0, all parameters, all four unit combinations, all twice differentiable phase functions", "why_tests_cant": "an analytic identity; finite differences at a few points cannot settle it", "anchors": ["rt1/rt1.py:RT1.surface_curv", "rt1/rt1.py:RT1.volume_curv", "rt1/rt1.py:RT1.tot_curv"]}
{"id": "C09", "title": "Jacobian entries are the partial derivatives of the modelled backscatter", "statement": "For every parameter name accepted by RT1.jacobian ('omega','tau','NormBRDF','bsf' and every symbol in param_dict) the returned entry is the partial derivative of surface()+volume() - in the requested unit (linear/dB, intensity/sigma0) - with respect to that parameter.", "quantifier": "all geometries, parameter values, units and parameter names", "why_tests_cant": "an analytic identity per parameter; the least-squares fit converges even with slightly wrong derivatives so end-to-end tests do not reveal it", "anchors": ["rt1/rt1.py:RT1.jacobian", "rt1/rt1.py:RT1._dvolume_dtau", "rt1/rt1.py:RT1._dsurface_dtau", "rt1/rt1.py:RT1._dvolume_domega", "rt1/rt1.py:RT1._dsurface_dR", "rt1/rt1.py:RT1._dsurface_dbsf", "rt1/rt1.py:RT1._dvolume_dbsf", "rt1/rt1.py:RT1._d_surface_ddummy", "rt1/rt1.py:RT1._d_volume_ddummy"]}
{"id": "C10", "title": "Jacobian list structure", "statement": "jacobian(param_list=ks) returns one entry per requested name, in the requested order, each entry depending only on its own name (so permuting, duplicating or splitting the request permutes, duplicates or splits the answer); any unknown name makes the call fail, and the call succeeds iff every name is known.", "quantifier": "all parameter lists of any length", "why_tests_cant": "unbounded lists of names", "anchors": ["rt1/rt1.py:RT1.jacobian"]}
{"id": "C11", "title": "Closed form of the azimuth mean of cos^i", "statement": "RT1._cosintegral(i) equals (1/2pi) * integral_0^{2pi} cos(x)^i dx for every natural number i.", "quantifier": "all exponents i", "why_tests_cant": "infinitely many exponents; the tests check a few", "anchors": ["rt1/rt1.py:RT1._cosintegral"]}
{"id": "C12", "title": "fn-coefficients represent the azimuth integral", "statement": "For any volume and surface expansion that are polynomials in the sine and cosine of theta_s and phi_s with at most V.ncoefs / SRF.ncoefs orders, the pipeline expand -> replace sin(phi_s) powers -> replace cos(phi_s) powers -> replace sin(theta_s) powers -> extract coefficients yields fn-coefficients with sum_n fn[n]*cos(theta_s)^n = integral_0^{2pi} p*brdf dphi_s for every theta_s.", "quantifier": "all expansions of any order, all theta_s", "why_tests_cant": "the order of the expansion is unbounded and the identity is over a continuum; tests compare three stored examples", "anchors": ["rt1/rt1.py:RT1._integrate_0_2pi_phis", "rt1/rt1.py:RT1._calc_interaction_expansion", "rt1/rt1.py:RT1._extract_coefficients"]}
{"id": "C13", "title": "Closed form of F_int", "statement": "The sum evaluated by _calc_Fint_1 equals the defining integral of F_int, sum_n fn[n] * integral_0^1 mu^(n+1)/(mu_0-mu) * (exp(-tau/mu_0)-exp(-tau/mu)) dmu, for every number of coefficients.", "quantifier": "all 0 < mu_0 < 1, tau > 0, all coefficient lists of any length", "why_tests_cant": "an integral identity with an unbounded number of coefficients", "anchors": ["rt1/rt1.py:RT1._S2_mu", "rt1/rt1.py:RT1._mu_0_x", "rt1/rt1.py:RT1._calc_Fint_1", "rt1/rt1.py:RT1._calc_Fint_2"]}
{"id": "C14", "title": "Rayleigh phase function", "statement": "The Rayleigh volume phase function is non-negative, integrates to 1 over the sphere, and the finite Legendre series given by its legcoefs reproduces it exactly (any ncoefs >= 3).", "quantifier": "all scattering angles, all ncoefs >= 3", "why_tests_cant": "identity over a continuum and all truncation orders", "anchors": ["rt1/volume.py:Rayleigh._set_function", "rt1/volume.py:Rayleigh._set_legcoefficients"]}
{"id": "C15", "title": "Henyey-Greenstein phase function", "statement": "For every asymmetry parameter t in (-1,1) the HenyeyGreenstein volume phase function is positive and integrates to 1 over the sphere; its mean scattering cosine is t; t=0 gives the isotropic phase function; its legcoefs are (2n+1)t^n/(4pi), i.e. the projections of the function onto the Legendre polynomials.", "quantifier": "all t in (-1,1), all scattering angles, all n", "why_tests_cant": "integral identity over a continuum of t", "anchors": ["rt1/volume.py:HenyeyGreenstein._set_function", "rt1/volume.py:HenyeyGreenstein._set_legcoefficients"]}
{"id": "C16", "title": "BRDF building blocks", "statement": "Isotropic, CosineLobe, and HenyeyGreenstein surface BRDFs are non-negative; the Isotropic BRDF has hemispherical reflectance exactly 1; CosineLobe vanishes whenever the scattering cosine is negative and equals cos^i/pi otherwise; HenyeyGreenstein surface BRDF is 4 times the volume phase function of the same scattering angle.", "quantifier": "all angles, all admissible parameters", "why_tests_cant": "identities over a continuum", "anchors": ["rt1/surface.py:Isotropic._set_function", "rt1/surface.py:CosineLobe._set_function", "rt1/surface.py:HenyeyGreenstein._set_function"]}
{"id": "C17", "title": "Linear combinations of phase functions", "statement": "The function of a LinCombV / LinCombSRF is the weighted sum of the component functions; the order of components does not matter; combining a single component with weight 1 gives that component; weights combine distributively when a combination is nested. The Legendre expansion of a combination, in which components are first grouped by equal generalized-scattering-angle weights a, equals the weighted sum of the component expansions.", "quantifier": "all lists of weighted components of any length, all groupings", "why_tests_cant": "unbounded number of components and groupings", "anchors": ["rt1/volume.py:LinCombV", "rt1/surface.py:LinCombSRF"]}
{"id": "C18", "title": "Unit conversion is correct for all 16 flag combinations", "statement": "dBsig0convert(val, inc, dB, sig0, fitdB, fitsig0) returns the representation in the target unit (dB/linear x sigma0/intensity) of the physical quantity that val represents in the source unit.", "quantifier": "all values (positive physical quantity), all inc with cos(inc) > 0, all 16 flag combinations", "why_tests_cant": "continuum of values times all branches", "anchors": ["rt1/general_functions.py:dBsig0convert"]}
{"id": "C19", "title": "Unit conversions compose and invert", "statement": "Converting from unit A to unit B and then from B to C equals converting from A to C; in particular converting back and forth returns the original value, and converting to the same unit is the identity on every value.", "quantifier": "all values, incidence angles and triples of units", "why_tests_cant": "continuum of values times 64 unit triples", "anchors": ["rt1/general_functions.py:dBsig0convert"]}
{"id": "C20", "title": "rectangularize pads with the last value", "statement": "rectangularize returns a rectangular array with one row per input row whose width is the longest row length; unmasked entries are exactly the input values in order, padded entries repeat the last value of their row and are exactly the masked ones. An empty row makes the call fail, and an explicit dim smaller than a row length makes the call fail.", "quantifier": "all ragged lists of non-empty rows and any dim", "why_tests_cant": "unbounded number and length of rows", "anchors": ["rt1/general_functions.py:rectangularize"]}
{"id": "C21", "title": "meandatetime is the arithmetic mean", "statement": "meandatetime returns the arithmetic mean of the time stamps: it is independent of the order of the list, lies between the earliest and the latest time stamp, commutes with shifting all time stamps, and equals the common value if all are equal.", "quantifier": "all non-empty lists of time stamps (exact arithmetic)", "why_tests_cant": "unbounded list length and order", "anchors": ["rt1/general_functions.py:meandatetime"]}
{"id": "C22", "title": "pairwise yields all consecutive windows", "statement": "pairwise(s, n) yields, in order, exactly the consecutive windows of length n of s: max(0, len(s)-n+1) tuples, the i-th being (s[i],...,s[i+n-1]).", "quantifier": "all sequences and all n >= 1", "why_tests_cant": "unbounded lengths", "anchors": ["rt1/general_functions.py:pairwise"]}
{"id": "C23", "title": "split_into partitions the input", "statement": "split_into(it, sizes) yields consecutive pieces with the requested sizes; the concatenation of the pieces is a prefix of the input (the whole input if sizes sum to the length or contain None); after a None all remaining values are returned and nothing else is yielded.", "quantifier": "all sequences and all size lists", "why_tests_cant": "unbounded lengths", "anchors": ["rt1/general_functions.py:split_into"]}
{"id": "C24", "title": "chunkit covers the input exactly once", "statement": "The concatenation of the chunks yielded by chunkit(arr, n) is arr; all chunks except possibly the last have exactly n elements, the last has between 1 and n; ceil(len/n) chunks are yielded.", "quantifier": "all arrays and chunk sizes >= 1", "why_tests_cant": "unbounded lengths", "anchors": ["rt1/general_functions.py:chunkit"]}
{"id": "C25", "title": "groupby_unsorted is a stable partition", "statement": "The keys of the result are the distinct keys in order of first appearance (or sorted if sort=True); the list of each key contains exactly the get-values of the items with that key, in input order; no item is lost or duplicated.", "quantifier": "all input sequences, key and get functions", "why_tests_cant": "unbounded sequences and arbitrary key functions", "anchors": ["rt1/general_functions.py:groupby_unsorted"]}
{"id": "C26", "title": "find_missing yields fresh ascending numbers", "statement": "find_missing(lst) yields strictly increasing integers none of which is contained in lst, eventually reaching every non-negative integer not in lst, starting at 0; with N it yields exactly N values.", "quantifier": "all lists of non-negative integers (incl. the empty list)", "why_tests_cant": "the generator is infinite and lists are unbounded", "anchors": ["rt1/general_functions.py:find_missing"]}
{"id": "C27", "title": "dt_to_hms decomposes a time difference", "statement": "dt_to_hms(td) returns (d,h,m,s) with 86400d+3600h+60m+s equal to the whole seconds of td, 0<=h<24, 0<=m<60, 0<=s<60, and this decomposition is unique.", "quantifier": "all timedeltas (incl. negative ones, in python's normalised form)", "why_tests_cant": "unbounded inputs", "anchors": ["rt1/general_functions.py:dt_to_hms"]}
{"id": "C28", "title": "scale is the affine map of the domain onto the range", "statement": "scale(x, (a,b)) maps the minimum of x to a and the maximum to b, preserves order and relative distances, maps all values into [a,b], and scaling the result again to (a,b) changes nothing.", "quantifier": "all arrays with at least two different values and all ranges a<=b", "why_tests_cant": "continuum of values, unbounded arrays", "anchors": ["rt1/general_functions.py:scale"]}
{"id": "C29", "title": "Progress bar", "statement": "For 0 <= progress <= max the bar printed by update_progress has exactly 20 characters, the number of '#' grows monotonically with progress, and the final message is shown iff progress >= max.", "quantifier": "all integers 0 <= progress <= max, max >= 1", "why_tests_cant": "unbounded integers", "anchors": ["rt1/general_functions.py:update_progress"]}
{"id": "C30", "title": "A defdict behaves as an ordered map of variable definitions", "statement": "After any sequence of add_variable / remove_variable / item assignments, iterating the defdict lists each present variable exactly once in order of first insertion, lookup returns the last definition set for that name, definitions of other names are never changed, and looking up or removing an absent name fails.", "quantifier": "all operation sequences", "why_tests_cant": "requires all histories", "anchors": ["rt1/_containers.py:_RT1_defdict", "rt1/_containers.py:_RT1_defdict.add_variable", "rt1/_containers.py:_RT1_defdict.remove_variable"]}
{"id": "C31", "title": "defdict list round trip", "statement": "from_dict(d).to_dict() == d for every dict of complete 5-element definitions [fitQ, val, freq, ([min],[max]), interpQ]; to_dict followed by from_dict reproduces the defdict; incomplete lists are completed with the missing entries set to None.", "quantifier": "all dicts of definitions", "why_tests_cant": "unbounded number of variables and arbitrary values", "anchors": ["rt1/_containers.py:_RT1_defdict.from_dict", "rt1/_containers.py:_RT1_defdict.to_dict", "rt1/_containers.py:_RT1_variable._from_list", "rt1/_containers.py:_RT1_variable._to_list"]}
{"id": "C32", "title": "defdict dict-style round trip", "statement": "to_dict(props='dict') returns for every variable the dict of its six properties, and from_dict of that result reproduces the defdict.", "quantifier": "all defdicts", "why_tests_cant": "the claim is for all defdicts; the repository has no test for this export", "anchors": ["rt1/_containers.py:_RT1_defdict.to_dict", "rt1/_containers.py:_RT1_variable._to_dict", "rt1/_containers.py:_RT1_variable._from_dict"]}
{"id": "C33", "title": "Variable definitions can be read and written consistently by attribute, name and position", "statement": "Writing a property of a defdict variable by attribute, by name or by list position and reading it back by any of the three gives the written value and leaves the other properties unchanged.", "quantifier": "all properties, values and access paths, all sequences of writes", "why_tests_cant": "requires all histories of mixed accesses", "anchors": ["rt1/_containers.py:_RT1_variable.__getitem__", "rt1/_containers.py:_RT1_variable.__setitem__", "rt1/_containers.py:_RT1_variable.__setattr__", "rt1/_containers.py:_RT1_variable.__getattribute__"]}
{"id": "C34", "title": "Defining a variable by attribute assignment", "statement": "Assigning a definition (list or dict) to an attribute of a defdict defines (or redefines) that variable with exactly this definition, equivalently to building it with from_dict; non-list/dict values for new names are rejected without changing the defdict.", "quantifier": "all definitions and names", "why_tests_cant": "arbitrary definitions and histories", "anchors": ["rt1/_containers.py:_RT1_defdict.__setattr__"]}
{"id": "C35", "title": "Integer frequencies split the unique time stamps evenly", "statement": "With an integer frequency f and n unique time stamps (n >= f >= 1), the parameter groups are consecutive, cover every observation exactly once, there are n//f groups, every group contains at least f unique time stamps and group sizes differ by at most 1; observations with equal time stamps are in the same group. n < f is rejected with an error.", "quantifier": "all sorted index lists with duplicates and all f >= 1", "why_tests_cant": "unbounded data lengths and frequencies", "anchors": ["rt1/rtfits.py:Fits.param_dyn_dict"]}
{"id": "C36", "title": "Combined group index separates exactly the parameter-dynamics combinations", "statement": "Two observations belong to the same fit-group iff all fitted parameters are in the same dyn-group for both observations.", "quantifier": "all numbers of parameters and all non-negative integer dyn-assignments", "why_tests_cant": "digit-concatenation must be injective for unbounded group numbers and any number of parameters", "anchors": ["rt1/rtfits.py:Fits._groupindex"]}
{"id": "C37", "title": "Manual dynamics are superimposed injectively", "statement": "If a frequency is combined with a manual dynamics column, two observations share a parameter value iff they share both the frequency-group and the manual group.", "quantifier": "all datasets and manual group numbers", "why_tests_cant": "digit concatenation over unbounded numbers", "anchors": ["rt1/rtfits.py:Fits.param_dyn_dict", "rt1/rtfits.py:Fits._manual_dyn_df"]}
{"id": "C38", "title": "Every observation receives the parameter value of its own group", "statement": "The values assigned to the model evaluation (and to res_df) give each observation exactly the fitted value that belongs to its dyn-group of that parameter; each parameter has as many values as distinct dyn-groups, in order of first appearance.", "quantifier": "all datasets, groupings and fitted values", "why_tests_cant": "index bookkeeping through two levels of grouping of unbounded size", "anchors": ["rt1/rtfits.py:Fits._assignvals", "rt1/rtfits.py:Fits._param_assigns", "rt1/rtfits.py:Fits._param_assigns_dataset", "rt1/rtfits.py:Fits._idx_assigns", "rt1/rtfits.py:Fits.res_df"]}
{"id": "C39", "title": "Grouping the data and flattening it back is lossless", "statement": "The (masked) group-wise arrays contain each observation exactly once at an unmasked position, and re-assembling them via the stored index assignment restores the order of the dataset; mask entries are exactly the padded duplicates.", "quantifier": "all datasets and group indexes", "why_tests_cant": "permutation bookkeeping for unbounded data", "anchors": ["rt1/rtfits.py:Fits._dataset_used", "rt1/rtfits.py:Fits._get_data", "rt1/rtfits.py:Fits.mask", "rt1/rtfits.py:Fits._orig_index", "rt1/rtfits.py:Fits.calc_model"]}
{"id": "C40", "title": "Fit-vector packing and unpacking are inverse", "statement": "performfit packs start values and bounds of all fitted parameters into one vector and the residual/jacobian functions and the result dictionary unpack it with the same order and sizes: unpacking a packed vector returns each parameter's own values, for any number and sizes of parameters.", "quantifier": "all parameter lists and sizes", "why_tests_cant": "unbounded number of parameters and sizes", "anchors": ["rt1/rtfits.py:Fits.performfit", "rt1/general_functions.py:split_into"]}
{"id": "C41", "title": "Residuals contain each observation exactly once", "statement": "The residual vector passed to the optimizer has one entry per observation of the dataset: weight*(model-data), padded duplicates do not contribute.", "quantifier": "all datasets, groupings, weights and model values", "why_tests_cant": "unbounded data", "anchors": ["rt1/rtfits.py:Fits.performfit"]}
{"id": "C42", "title": "Jacobian entries are assigned to the right parameter group", "statement": "In the jacobian used for fitting, the derivative of the model at observation i with respect to a parameter is placed in the column of the dyn-group of observation i and all other columns are 0, for every assignment of dyn-groups (also non-consecutive ones).", "quantifier": "all group assignments", "why_tests_cant": "unbounded sizes and all group patterns; tests only use sorted groups", "anchors": ["rt1/rtfits.py:Fits._jac_assign_rule", "rt1/rtfits.py:Fits._calc_jac"]}
{"id": "C43", "title": "Derived quantities are never stale", "statement": "After any sequence of attribute assignments on Fits objects (dataset, defdict, set_V_SRF, sig0, dB) every derived quantity equals the one computed from scratch from the current attributes.", "quantifier": "all sequences of assignments and reads over any number of Fits objects", "why_tests_cant": "requires all histories of reads and writes, incl. interleavings over several objects", "anchors": ["rt1/rtfits.py:Fits.__setattr__", "rt1/rtfits.py:Fits._clear_cache", "rt1/rtfits.py:Fits._cached_props", "rt1/rtfits.py:MultiFits.set_dataset"]}
{"id": "C44", "title": "IDs are normalised consistently", "statement": "The ID of a fit is the given ID if it is a valid identifier and 'RT1_' + ID otherwise; normalising is idempotent; the same normalisation is used for fits, for the result database and for deciding what was already processed; different IDs stay different.", "quantifier": "all ID strings", "why_tests_cant": "arbitrary strings", "anchors": ["rt1/rtfits.py:Fits.ID", "rt1/rtresults.py:HDFaccessor._get_ID", "rt1/rtprocess.py:RTprocess._extract_ID", "rt1/_rtprocess_writer.py:RT1_processor._check_IDs"]}
{"id": "C45", "title": "Typed config entries", "statement": "A config entry with a known type prefix (datetime__, path__, bool__, float__, int__, list__ and nested list types) is exposed under the name without prefix with the value converted to that type, entries without prefix are passed on as strings, and entries never influence each other.", "quantifier": "all config sections", "why_tests_cant": "arbitrary numbers of entries and prefixes", "anchors": ["rt1/rtparse.py:RT1_configparser.get_process_specs"]}
{"id": "C46", "title": "Multi-config overrides", "statement": "For a named config, the effective definitions are those of the base sections overridden key-wise by the sections of that config; keys not mentioned keep the base value; other named configs have no influence.", "quantifier": "all config files", "why_tests_cant": "arbitrary numbers of sections and keys", "anchors": ["rt1/rtparse.py:RT1_configparser.get_config", "rt1/rtparse.py:RT1_configparser.config_names"]}
{"id": "C47", "title": "Metric identities", "statement": "rmsd^2 = ub_rmsd^2 + bias^2; |bias| <= mae <= rmsd; all are 0 if both series are equal; bias is antisymmetric and rmsd, ub_rmsd, mae, pearson are symmetric in the two series; rmsd and mae are invariant under a common shift; |pearson| <= 1 and pearson is invariant under positive affine rescaling of either series; std_ratio behaves like a ratio (inverse under exchange).", "quantifier": "all pairs of equally long series", "why_tests_cant": "identities and inequalities over all real vectors", "anchors": ["rt1/rtmetrics.py:RTmetrics.rmsd", "rt1/rtmetrics.py:RTmetrics.ub_rmsd", "rt1/rtmetrics.py:RTmetrics.bias", "rt1/rtmetrics.py:RTmetrics.mae", "rt1/rtmetrics.py:RTmetrics.pearson", "rt1/rtmetrics.py:RTmetrics.std_ratio"]}
{"id": "C48", "title": "Numbers assigned to processed IDs are unique", "statement": "Whatever is already stored, the numeric IDs assigned to the arguments to process are pairwise distinct and distinct from all numeric IDs in the database; without database they are 0..n-1.", "quantifier": "all argument lists and all database contents", "why_tests_cant": "all histories of partial runs", "anchors": ["rt1/_rtprocess_writer.py:RT1_processor._check_IDs", "rt1/processing_config.py:rt1_processing_config.mask_existing_HDF_IDs", "rt1/general_functions.py:find_missing"]}
{"id": "C49", "title": "Re-running processes exactly the missing IDs", "statement": "The arguments selected for processing are exactly those whose ID is not yet in the database, in input order, each with its original content; after a run in which all selected arguments were stored successfully, a further run selects nothing; repeating interrupted runs any number of times never stores an ID twice.", "quantifier": "all argument lists and all histories of runs interrupted after an arbitrary subset was stored", "why_tests_cant": "all crash points/histories", "anchors": ["rt1/_rtprocess_writer.py:RT1_processor._check_IDs", "rt1/_rtprocess_writer.py:RT1_processor.run_starmap"]}
{"id": "C50", "title": "No result is lost or duplicated by the processing pipeline", "statement": "In every interleaving of workers, combiners and writers without failures, when writer_pool exits every result put by a worker has been written to the HDF store exactly once under its key and nothing else has been written.", "quantifier": "all numbers of workers/combiners/writers, chunk sizes, cache sizes and schedules", "why_tests_cant": "all interleavings of concurrent processes", "anchors": ["rt1/_rtprocess_writer.py:RT1_processor._worker_process", "rt1/_rtprocess_writer.py:RT1_processor._combiner_process", "rt1/_rtprocess_writer.py:RT1_processor._combine_results", "rt1/_rtprocess_writer.py:RT1_processor._save_file_process", "rt1/_rtprocess_writer.py:RT1_processor.stop"]}
{"id": "C51", "title": "Counters", "statement": "At the end of a run without failures the total counter equals the number of queue entries and the success counter equals the number of successful ones; at any time success <= total and both only grow.", "quantifier": "all schedules", "why_tests_cant": "all interleavings", "anchors": ["rt1/_rtprocess_writer.py:RT1_processor._increase_cnt", "rt1/_rtprocess_writer.py:RT1_processor._combiner_process"]}
{"id": "C52", "title": "Shutdown always completes", "statement": "From every state reachable without failures the pipeline can complete: no process waits forever, and after stop() is called combiners and writers terminate only when their input is drained.", "quantifier": "all reachable states", "why_tests_cant": "liveness over all schedules", "anchors": ["rt1/_rtprocess_writer.py:RT1_processor.stop", "rt1/_rtprocess_writer.py:RT1_processor._save_file_process", "rt1/_rtprocess_writer.py:RT1_processor._worker_process"]}
{"id": "C53", "title": "A write failure stops the run instead of hanging it", "statement": "If writing to the HDF store fails, the run terminates (all processes leave their loops).", "quantifier": "all schedules with a write failure at any point", "why_tests_cant": "requires fault injection at every point", "anchors": ["rt1/_rtprocess_writer.py:RT1_processor._save_file_process", "rt1/_rtprocess_writer.py:RT1_processor._worker_process"]}
{"id": "C54", "title": "One broken result does not affect other results", "statement": "If one worker result cannot be combined (not a dict), all other results are still written.", "quantifier": "all positions of the broken result and all schedules", "why_tests_cant": "requires fault injection at every point", "anchors": ["rt1/_rtprocess_writer.py:RT1_processor._combiner_process"]}
{"id": "C55", "title": "Result keys", "statement": "A result entry whose key starts with 'const__' is stored under the key without this prefix; a dict-valued entry is stored under 'config/key'; all other entries under their own key; distinct entries never end up under the same key unless they have the same name.", "quantifier": "all result dicts and keys", "why_tests_cant": "arbitrary strings", "anchors": ["rt1/_rtprocess_writer.py:RT1_processor._combiner_process"]}
{"id": "C56", "title": "An ID present in the database has all its data", "statement": "At every crash point during writing, an ID that is listed in the database (and hence skipped by later runs) has all its result tables stored.", "quantifier": "all crash points and write orders", "why_tests_cant": "all crash points", "anchors": ["rt1/_rtprocess_writer.py:RT1_processor._save_file_process", "rt1/_rtprocess_writer.py:RT1_processor._check_IDs", "rt1/rtresults.py:HDFaccessor.__init__"]}
{"id": "C57", "title": "Existing results are only removed after double confirmation", "statement": "setup() removes an existing dump folder only if the user answers REMOVE and then confirms with Y or YES (any case); it continues with existing data only on Y/YES; every other answer exits without changing anything; with autocontinue=True nothing is asked and nothing is removed.", "quantifier": "all user inputs", "why_tests_cant": "arbitrary inputs", "anchors": ["rt1/rtprocess.py:_confirm_input", "rt1/rtprocess.py:RTprocess.setup", "rt1/rtprocess.py:RTprocess._remove_dumpfolder"]}
{"id": "C58", "title": "Copied configuration is never overwritten", "statement": "Setting up a run with copy=True copies the config file and modules into the cfg folder only where no file of that name exists; existing copies are left untouched unless init_kwargs were given (then only the config file is rewritten). Setting up twice is the same as setting up once.", "quantifier": "all file-system states and config contents", "why_tests_cant": "all histories of runs", "anchors": ["rt1/rtprocess.py:RTprocess._copy_cfg_and_modules", "rt1/rtprocess.py:_make_folderstructure"]}
{"id": "C59", "title": "override_config", "statement": "override_config(override=True, ...) replaces all overrides by the given ones; with override=False the given ones are merged key-wise into the existing overrides, keeping all others.", "quantifier": "all sequences of override_config calls", "why_tests_cant": "all histories", "anchors": ["rt1/rtprocess.py:RTprocess.override_config"]}
{"id": "C60", "title": "Parameter classification", "statement": "_defdict_parser puts every parameter into exactly one of constant / auxiliary / fitted_const / fitted_dynamic; fitted = fitted_const + fitted_dynamic; every dynamic parameter is in exactly one of manual/index/datetime/integer (for str and int frequencies); order is preserved.", "quantifier": "all defdicts", "why_tests_cant": "unbounded definitions", "anchors": ["rt1/rtprocess.py:RTprocess._defdict_parser"]}
{"id": "C61", "title": "Exception handling decision table", "statement": "The default exceptfunc never raises for rt1_skip, rt1_data_error and rt1_file_already_exists; raises any other exception iff no save_path/dumpfolder was specified; returns a result only for rt1_file_already_exists with a loadable dump.", "quantifier": "all exceptions and configurations", "why_tests_cant": "all argument combinations", "anchors": ["rt1/processing_config.py:rt1_processing_config.exceptfunc"]}
{"id": "C62", "title": "Results of one site are independent of previously processed sites", "statement": "The result stored for a site depends only on this site's data and the configuration, not on which sites the same worker process handled before.", "quantifier": "all sequences of sites per worker", "why_tests_cant": "all schedules/histories", "anchors": ["rt1/rtprocess.py:RTprocess._evalfunc", "rt1/rtfits.py:MultiFits.set_dataset", "rt1/rtfits.py:MultiFits.set_aux_data"]}
{"id": "C63", "title": "Exported parameters do not depend on the position in the batch", "statement": "export_data_to_HDF exports the same set of parameters for every fit, independent of the fits processed before.", "quantifier": "all batches and parameter sets", "why_tests_cant": "all histories", "anchors": ["rt1/rtprocess.py:RTprocess._HDF_export_postprocess"]}
{"id": "C64", "title": "Iterating the database by blocks of IDs", "statement": "get_nids_iter(n, start) yields consecutive blocks of n IDs each (the last possibly smaller) which together contain the data of every ID from start on exactly once.", "quantifier": "all numbers of IDs, block sizes, starts and read chunk sizes", "why_tests_cant": "unbounded sizes", "anchors": ["rt1/rtresults.py:HDFaccessor._get_nids_iter", "rt1/rtresults.py:HDFaccessor._get_vals", "rt1/rtresults.py:HDFaccessor._chunks"]}
{"id": "C65", "title": "Loading a fit by ID", "statement": "Loading a fit by its string ID returns the data stored for that ID; the numeric ID used is the one assigned to that ID.", "quantifier": "all databases", "why_tests_cant": "all database contents", "anchors": ["rt1/rtresults.py:HDFaccessor._ID_to_IDnum", "rt1/rtresults.py:HDFaccessor._get_id", "rt1/rtresults.py:HDFaccessor._load_fit"]}
{"id": "C66", "title": "Reading constant layers", "statement": "get_data(path, key) returns the constant layer stored under key; get_data(path, key, config) returns the layer of that config; a missing constant key is rejected.", "quantifier": "all stores and keys", "why_tests_cant": "all store contents", "anchors": ["rt1/_rtprocess_writer.py:RT1_processor.get_data"]}
{"id": "C67", "title": "Log handlers", "statement": "start_log_to_file leaves exactly one file handler regardless of how often it was called; stop_log_to_file removes all of them and only them; repeated logger setup does not add handlers.", "quantifier": "all sequences of calls", "why_tests_cant": "all histories", "anchors": ["rt1/__init__.py:start_log_to_file", "rt1/__init__.py:stop_log_to_file", "rt1/__init__.py:setup_logger"]}
{"id": "C68", "title": "MultiFits container", "statement": "After any sequence of add_config calls the list of config names contains each config exactly once in order of first addition and each name maps to a fit with the configuration last added under that name; shared setters reach every config; apply returns one result per selected config in order.", "quantifier": "all sequences of add_config and setter calls", "why_tests_cant": "all histories", "anchors": ["rt1/rtfits.py:MultiFits.add_config", "rt1/rtfits.py:MultiFits.apply", "rt1/rtfits.py:_FitContainer"]}
{"id": "C69", "title": "Metric keys resolve unambiguously", "statement": "Every metric key offered to the user resolves to the data it names, and two different sources with an equally named column stay distinguishable by their suffix.", "quantifier": "all datasets, result tables and auxiliary data", "why_tests_cant": "arbitrary column names", "anchors": ["rt1/rtmetrics.py:_metric_keys.__init__", "rt1/rtmetrics.py:_metric_keys._check_keys"]}
{"id": "C70", "title": "The interaction contribution does not depend on the chosen geometry string", "statement": "For one and the same set of angles the interaction contribution is the same number whichever admissible 4-character geometry string is used to generate the coefficients (fixing an angle is only an optimisation).", "quantifier": "all geometry strings, angles, parameters and phase-function coefficients", "why_tests_cant": "16 geometry strings times continuous angles and arbitrary coefficient functions", "anchors": ["rt1/rt1.py:RT1.interaction", "rt1/rt1.py:RT1._calc_Fint_1", "rt1/rt1.py:RT1._calc_Fint_2", "rt1/volume.py:Volume.legexpansion", "rt1/surface.py:Surface.legexpansion"]}
{"id": "C71", "title": "The interaction contribution is the defining double integral", "statement": "For variable geometry, the interaction contribution returned by calc()/interaction() (coefficients generated from the Legendre expansions of the volume phase function and the BRDF, exponential-integral formulas) equals NormBRDF*(1-bsf)*I0*cos(t_0)*omega*(exp(-tau/cos(t_ex))*F(t_0,p_0,t_ex,p_ex) + exp(-tau/cos(t_0))*F(t_ex,p_ex,t_0,p_0)), where F is the integral over the hemisphere of scattering directions of cos(th)/(cos(t_0)-cos(th))*(exp(-tau/cos(t_0))-exp(-tau/cos(th)))*p*BRDF*sin(th) with the truncated Legendre expansions of p and BRDF.", "quantifier": "all Legendre coefficients, all truncation orders >= 1, all generalised scattering-angle weights, all angles with 0 < t_0, t_ex < pi/2, all tau > 0, all other parameters", "why_tests_cant": "an identity between a symbolic/closed-form computation and a double integral over a continuum of parameters and unbounded expansion orders", "anchors": ["rt1/rt1.py:RT1.interaction", "rt1/rt1.py:RT1._calc_Fint_1", "rt1/rt1.py:RT1._calc_Fint_2", "rt1/rt1.py:RT1.fn", "rt1/rt1.py:RT1._S2_mu"]}
{"id": "C72", "title": "The interaction contribution is non-negative for non-negative expansions", "statement": "If the truncated Legendre expansions of the volume phase function and of the BRDF are non-negative, the interaction contribution is non-negative for all physical parameters (I0, omega, NormBRDF >= 0, bsf <= 1, tau > 0).", "quantifier": "all expansions, angles and parameters", "why_tests_cant": "sign of an integral over a continuum of parameters and unbounded expansion orders", "anchors": ["rt1/rt1.py:RT1.interaction"]}
{"id": "C73", "title": "HGRayleigh phase function", "statement": "For every asymmetry parameter t in (-1,1) the HGRayleigh phase function is positive and integrates to 1 over the sphere, its legcoefs are its projections onto the Legendre polynomials, and t=0 gives the Rayleigh phase function.", "quantifier": "all t in (-1,1), all scattering angles, all n, all incidence directions", "why_tests_cant": "integral identities over a continuum of t and all orders n", "anchors": ["rt1/volume.py:HGRayleigh"]}
{"id": "C74", "title": "Legendre coefficients of the cosine lobe", "statement": "The legcoefs of CosineLobe (a quotient of Gamma functions) are the projections of the function onto the Legendre polynomials for every admissible power i.", "quantifier": "all powers i accepted by the constructor, all n", "why_tests_cant": "identity for infinitely many orders and powers", "anchors": ["rt1/surface.py:CosineLobe.legcoefs", "rt1/surface.py:CosineLobe._func"]}
{"id": "C75", "title": "Nadir normalisation of HG_nadirnorm", "statement": "HG_nadirnorm has a hemispherical reflectance of exactly 1 at nadir incidence for every non-zero asymmetry parameter and every weight vector a with a[0] != 0 for which the function is defined; its legcoefs are its projections onto the Legendre polynomials.", "quantifier": "all t, all a, all azimuth angles, all n", "why_tests_cant": "integral identity over a continuum", "anchors": ["rt1/surface.py:HG_nadirnorm"]}
{"id": "C76", "title": "Legendre series converge to the phase functions", "statement": "Increasing ncoefs makes the Legendre series of the HenyeyGreenstein (volume and surface), HG_nadirnorm and HGRayleigh functions converge to the function at every scattering angle; the truncation error of HenyeyGreenstein with N coefficients is at most |t|^N/(4 pi) ((2N+1)/(1-|t|) + 2|t|/(1-|t|)^2).", "quantifier": "all t in (-1,1), all scattering angles, all N", "why_tests_cant": "limit statement over all truncation orders", "anchors": ["rt1/volume.py:HenyeyGreenstein.legcoefs", "rt1/volume.py:HGRayleigh.legcoefs", "rt1/surface.py:HenyeyGreenstein.legcoefs", "rt1/surface.py:HG_nadirnorm.legcoefs"]}
{"id": "C77", "title": "Datetime-offset frequencies group by calendar bins", "statement": "A datetime-offset frequency (e.g. '2M') assigns two observations of a sorted dataset to the same dyn-group exactly if their time stamps are in the same calendar bin; the dyn-numbers are nondecreasing in time and there are no empty groups.", "quantifier": "all sorted datasets and all binnings", "why_tests_cant": "unbounded number of observations and bins", "anchors": ["rt1/rtfits.py:Fits.param_dyn_dict"]}
{"id": "C78", "title": "Re-evaluating an RT1 object uses its current angles", "statement": "After any sequence of attribute assignments and evaluations of an RT1 object, the evaluated interaction contribution equals the one of a new object with the current attributes.", "quantifier": "all sequences of assignments, cache clearings and evaluations", "why_tests_cant": "requires all histories of assignments and evaluations", "anchors": ["rt1/rt1.py:RT1._mu_0_x", "rt1/rt1.py:RT1._mu_ex_x", "rt1/rt1.py:RT1._clear_cache", "rt1/rt1.py:RT1.interaction"]}
{"id": "C79", "title": "Rank correlation", "statement": "The spearman correlation lies in [-1,1], is symmetric in the two series, does not change if strictly increasing functions are applied to the series, and is 1 if one series is a strictly increasing function of the other.", "quantifier": "all pairs of series with the same index, all strictly increasing functions", "why_tests_cant": "arbitrary functions and series incl. ties", "anchors": ["rt1/rtmetrics.py:RTmetrics.spearman"]}
{"id": "C80", "title": "Linear regression", "statement": "linregress(d1, d2) gives the least-squares line of d2 on d1 (no other line has a smaller sum of squared deviations), its correlation coefficient is the pearson correlation, and degenerate input (different lengths, constant d1) gives None instead of an exception.", "quantifier": "all pairs of series and all lines", "why_tests_cant": "optimality against a continuum of lines", "anchors": ["rt1/rtmetrics.py:RTmetrics.linregress"]}
{"id": "C81", "title": "Accepted config files are complete", "statement": "The config parser accepts a file exactly if all required sections, the entries path__save_path and dumpfolder and the processing module are present; for an accepted file neither get_process_specs nor get_config (for any config name) fails because of a missing section or key, and the process specs contain save_path and dumpfolder.", "quantifier": "all config files and config names", "why_tests_cant": "arbitrary files and names", "anchors": ["rt1/rtparse.py:RT1_configparser._check_integrity", "rt1/rtparse.py:RT1_configparser.get_config", "rt1/rtparse.py:RT1_configparser.get_process_specs"]}
{"id": "C82", "title": "Values of a configuration", "statement": "For an accepted file every entry of defdict becomes exactly the written specification [fit?, value or auxiliary, frequency, bounds, interpolate] (blanks ignored, interpolation False unless the sixth word is True), entries of other forms are rejected; entries of least_squares_kwargs and fits_kwargs are converted to the documented types and None becomes None; no entry is lost or invented.", "quantifier": "all config files, keys and values", "why_tests_cant": "arbitrary strings", "anchors": ["rt1/rtparse.py:RT1_configparser._parse_defdict", "rt1/rtparse.py:RT1_configparser._parse_dict", "rt1/rtparse.py:RT1_configparser.get_config"]}
{"id": "C83", "title": "Linear combinations of phase functions in config files", "statement": "If the section RT1_V (RT1_SRF) specifies a linear combination, the parsed choices contain exactly one component per upper-case prefix letter X, with the fraction X__frac (1 if not given) and exactly the parameters X__name; component entries are removed and all other entries are kept with their values; without a linear combination all entries are kept.", "quantifier": "all config files", "why_tests_cant": "arbitrary numbers of components and entry orders", "anchors": ["rt1/rtparse.py:RT1_configparser._parse_V_SRF"]}
{"id": "C84", "title": "A termination signal ends the run", "statement": "If SIGTERM or SIGINT arrives while the pool is running (manual_shutdown), the run terminates.", "quantifier": "all schedules and all points at which the signal arrives", "why_tests_cant": "requires signals at every point of every interleaving", "anchors": ["rt1/_rtprocess_writer.py:RT1_processor.manual_shutdown", "rt1/_rtprocess_writer.py:RT1_processor._worker_process", "rt1/_rtprocess_writer.py:RT1_processor._save_file_process", "rt1/_rtprocess_writer.py:RT1_processor.run_starmap"]}
{"id": "C85", "title": "Overrides are applied to the configuration", "statement": "setup() uses the value of an override where one is given and the value of the config file otherwise; no section is added or lost. Overrides accepted by RTprocess (via init_kwargs or override_config) can always be applied.", "quantifier": "all config files and overrides", "why_tests_cant": "arbitrary sections, keys and override histories", "anchors": ["rt1/rtprocess.py:RTprocess.__init__", "rt1/rtprocess.py:RTprocess.override_config", "rt1/rtprocess.py:RTprocess.setup"]}
{"id": "C86", "title": "Sources of exported values", "statement": "Every requested parameter that is known is exported exactly once and from the right source: fitted dynamic parameters from res_df, fitted constants from res_dict, fixed values from the definition, auxiliary values from the dataset, others from the dataset or reader_arg. A conversion to dB is done only for sig and the model results, and only if wanted and the data are not yet in dB.", "quantifier": "all definitions, datasets and requested parameters", "why_tests_cant": "arbitrary combinations of definitions, columns and requested names", "anchors": ["rt1/rtprocess.py:RTprocess._postprocess_getparams"]}
{"id": "C87", "title": "Start values", "statement": "A fitted parameter has exactly one start value per dyn-group, in the order of first appearance. A number is used for all groups; an 'auxiliary' start value is the mean of the column <key>_start over the observations of the group; without the column an AssertionError is raised.", "quantifier": "all groupings, columns and definitions", "why_tests_cant": "arbitrary group structures, irregular group sizes", "anchors": ["rt1/rtfits.py:Fits._startvaldict", "rt1/rtfits.py:Fits._param_assigns"]}
{"id": "C88", "title": "Temporal variability of the parameters", "statement": "The third entry of a definition (None, 'manual', 'index', an integer, an offset, or '<frequency> + manual') has the documented meaning independently of the other parameters: the dynamics of every fitted parameter are those of its own definition, other definitions are rejected with an exception, and every set of valid definitions can be evaluated.", "quantifier": "all definitions, datasets and definition strings", "why_tests_cant": "arbitrary strings and sets of parameters", "anchors": ["rt1/rtfits.py:Fits._timescaledict", "rt1/rtfits.py:Fits._manual_dyn_df", "rt1/rtfits.py:Fits.param_dyn_dict"]}
{"id": "C89", "title": "The model is evaluated with the specified values", "statement": "For every observation, omega, tau, NormBRDF, bsf and the parameters of the phase functions are evaluated with exactly the specified values: names stand for the fitted value, the fixed number or the auxiliary value of the parameter of this name, expressions for their value. The fn-coefficients of the interaction term use the same values as the single scattering terms. A specification whose names all have a value can be evaluated.", "quantifier": "all definitions, specifications, expressions and values", "why_tests_cant": "arbitrary combinations of fitted, fixed and auxiliary parameters and of expressions", "anchors": ["rt1/rtfits.py:Fits._setdict", "rt1/rtfits.py:Fits.fixed_dict", "rt1/rtfits.py:Fits._param_R_dict", "rt1/rtfits.py:Fits._set_calc_values", "rt1/rtfits.py:Fits._init_V_SRF"]}
{"id": "C90", "title": "Components of linear combinations use the specified values", "statement": "The fractions and the parameters of the components of a linear combination (Vchoices, SRFchoices) are evaluated with the specified values, like all other parameters.", "quantifier": "all definitions, components and values", "why_tests_cant": "arbitrary components, shared parameters", "anchors": ["rt1/rtfits.py:Fits._init_V_SRF", "rt1/rtfits.py:Fits._set_calc_values"]}
{"id": "C91", "title": "calc uses the given parameters", "statement": "fit.calc(param, inc, fixed_param) evaluates the model with the given values of the parameters, independently of the order in which they are given.", "quantifier": "all models, values and orders", "why_tests_cant": "a silent exchange of parameters is visible only in the interaction term for non-default orders", "anchors": ["rt1/rtfits.py:Fits.calc", "rt1/rt1.py:RT1._set_fnevals", "rt1/rt1.py:RT1._calc_Fint_1"]}
{"id": "C92", "title": "Interpolated parameters pass through the fitted values", "statement": "The values of a parameter with interpolation are the values, at the time stamps of the observations, of a curve that passes through the fitted value of each dyn-group at the mean time stamp of each consecutive run of observations of the group; an observation that stands alone has exactly the value of its group. No value is extrapolated. Parameters without interpolation are step-functions.", "quantifier": "all datasets with sorted time stamps, groupings, parameters and fitted values", "why_tests_cant": "arbitrary groupings and combinations of parameters; the boundaries are shared between the parameters", "anchors": ["rt1/rtfits.py:Fits._assignvals", "rt1/rtfits.py:Fits._meandt_interp_assigns", "rt1/rtfits.py:Fits.meandatetimes", "rt1/rtfits.py:Fits._param_dyn_monotonic"]}
{"id": "C93", "title": "res_df_group lists the values of the fit-groups", "statement": "res_df_group has one row for each fit-group, in the order of the first observations. Its index is the mean time stamp of the fit-group and the entry in the column of a parameter is the value used for all observations of the fit-group.", "quantifier": "all datasets, groupings and parameters", "why_tests_cant": "arbitrary groupings of several parameters", "anchors": ["rt1/rtfits.py:Fits.res_df_group", "rt1/rtfits.py:Fits.meandatetimes_group", "rt1/rtfits.py:Fits._param_assigns"]}
{"id": "C94", "title": "The results stored in the database are restored", "statement": "load_fit returns, for each stored fit and each configuration, a res_dict with exactly the stored parameters, in the stored order, with exactly the stored values.", "quantifier": "all databases, configurations and results", "why_tests_cant": "arbitrary numbers of values per parameter, of configurations and of stored fits", "anchors": ["rt1/rtfits.py:Fits._get_res_dict_df", "rt1/rtfits.py:Fits._get_fit_to_hdf_dict", "rt1/rtresults.py:HDFaccessor._load_fit"]}
{"id": "C95", "title": "A stored fit can be evaluated after loading", "statement": "The stored dataset suffices to re-create the groups of the fitted parameters: param_dyn_dict of the loaded fit is the one of the stored fit, also if only the results are saved (save_data=False, save_results=True).", "quantifier": "all definitions of the temporal variability, datasets and save-options", "why_tests_cant": "all combinations of definitions", "anchors": ["rt1/rtfits.py:Fits._get_fit_to_hdf_dict", "rt1/rtresults.py:HDFaccessor._load_fit"]}
{"id": "C96", "title": "Metrics compare the values of the same observations", "statement": "All metrics of two variables of a fit (fit.metric.KEY1.KEY2) are computed from the pairs of values that belong to the same observation (time stamp), for every grouping of the dataset and also if one variable has only one value for each time stamp.", "quantifier": "all datasets, groupings and values", "why_tests_cant": "the rows of calc_model are re-ordered for unsorted groupings, which is visible only in some metrics", "anchors": ["rt1/rtmetrics.py:_RTmetrics1._unify_idx_data", "rt1/rtmetrics.py:_RTmetrics1._get_data", "rt1/rtmetrics.py:RTmetrics.allmetrics", "rt1/rtfits.py:Fits.calc_model"]}
{"id": "C97", "title": "A run cleans up behind itself", "statement": "After a call of run_processing or run_finaloutput has ended (successfully or with an error), the handlers of the logger and autocontinue are as before, warnings are not captured, no log-listener process is alive, and the raised error (or the result) is that of the processing. This also holds after any number of runs.", "quantifier": "all outcomes of the called functions, all states of the logger, all sequences of runs", "why_tests_cant": "depends on the place where an error occurs and on previous runs in the same process", "anchors": ["rt1/rtprocess.py:RTprocess.run_processing", "rt1/rtprocess.py:RTprocess.run_finaloutput", "rt1/rtprocess.py:RTprocess._worker_configurer"]}
{"id": "C98", "title": "The log-file is optional", "statement": "With logfile_level=None (documented: no log-file is generated) run_processing and run_finaloutput process all IDs as they do with a log-file.", "quantifier": "all tasks, all schedules of the processes", "why_tests_cant": "the effect is a hang of several processes that depends on the scheduling", "anchors": ["rt1/rtprocess.py:RTprocess.run_processing", "rt1/rtprocess.py:RTprocess.run_finaloutput", "rt1/rtprocess.py:RTprocess._worker_configurer", "rt1/_rtprocess_writer.py:RT1_processor._save_file_process"]}
{"id": "C99", "title": "The final output contains the results of the selected configurations", "statement": "run_finaloutput stores for every ID exactly the return values of the postprocess function for the configurations selected by use_config (all configurations by default, a name, or a list of names) together with the reader-arguments; if the function raises for one of them nothing is stored for this ID.", "quantifier": "all stored fits, selections and postprocess functions", "why_tests_cant": "combinations of single and multiple configurations, selections and kinds of functions", "anchors": ["rt1/rtprocess.py:RTprocess._run_finalout", "rt1/rtprocess.py:RTprocess._finalout_reader", "rt1/rtprocess.py:RTprocess._run_postprocess", "rt1/rtfits.py:MultiFits.apply"]}
{"id": "C100", "title": "Callbacks of the accessor of MultiFits", "statement": "mf.accessor.method(**kwargs) returns one callback for each configuration; calling a callback calls the method of the fit of this configuration with the given arguments, overridden by the arguments of the call; calls for other configurations have no influence.", "quantifier": "all configurations, arguments and sequences of calls", "why_tests_cant": "the callbacks share mutable closure variables, the effect depends on the history of the calls", "anchors": ["rt1/rtfits.py:_MultiAccessors.lazy", "rt1/rtfits.py:_MultiAccessors._applyit"]}
{"id": "C101", "title": "The lazily evaluated fn-coefficients belong to the current V and SRF", "statement": "Every access of R.fn gives the provided coefficients or those of the current V and SRF, every access of R._fnevals the provided functions or those of these coefficients, independent of the order of accesses, of changes of the object and of pickling; the (expensive) evaluation is done at most once per object and pickling. fit.R gives such an object.", "quantifier": "all sequences of accesses, assignments and picklings", "why_tests_cant": "the values depend on the history of the object", "anchors": ["rt1/rt1.py:RT1._get_fn", "rt1/rt1.py:RT1._set_fn", "rt1/rt1.py:RT1._get_fnevals", "rt1/rt1.py:RT1._set_fnevals", "rt1/rt1.py:RT1.__getstate__", "rt1/rtfits.py:Fits.R"]}
{"id": "C102", "title": "Dumping and loading a fit", "statement": "A fit that is dumped and loaded again (mini or not, any number of times), or sent to another process, has the same definition, dataset and results; the fit that has been dumped is unchanged; a mini-dump only drops the pre-evaluated functions and keeps success, status and optimality of the optimizer. Dumps of previous versions are converted.", "quantifier": "all fits (attributes), all sequences of (also failing) dumps, loads and transfers", "why_tests_cant": "depends on the history of dumps of the object and on attributes of old versions", "anchors": ["rt1/rtfits.py:Fits.dump", "rt1/rtfits.py:Fits.__getstate__", "rt1/rtfits.py:Fits.__setstate__", "rt1/rtfits.py:Fits.__update__", "rt1/rtfits.py:load"]}
{"id": "C103", "title": "A model defined by a function is stored with the same specification", "statement": "A fit whose set_V_SRF is a function is stored in the database as a specification that yields the same V and SRF (the same value or expression for every attribute) when it is loaded; a function that cannot be converted is never stored with another meaning.", "quantifier": "all functions (expressions in the arguments of the constructors), all definitions of parameters, all parsers", "why_tests_cant": "the function is called with strings instead of symbols; the tests only use functions that pass the parameters on", "anchors": ["rt1/rtfits.py:Fits._get_V_SRF_dict", "rt1/volume.py:Volume.init_dict", "rt1/surface.py:Surface.init_dict", "rt1/rtfits.py:Fits._init_V_SRF", "rt1/rtfits.py:Fits.V"]}
{"id": "C104", "title": "A processing run uses the modules and the definition of the config file", "statement": "With copy=True the first set-up of a run loads for every key module__KEY the content of the specified file and defines the fit by the config file (with init_kwargs); all later runs in the same folder use the same modules and the same definition, whatever happens to the original files; every module can be imported by its name.", "quantifier": "all config files, all file-systems, all histories between two runs that keep the folder of the copies", "why_tests_cant": "depends on what is already in the folder of the run and on changes of the files between runs", "anchors": ["rt1/rtparse.py:RT1_configparser.get_module", "rt1/rtparse.py:RT1_configparser.get_all_modules", "rt1/rtprocess.py:RTprocess.setup", "rt1/rtprocess.py:RTprocess._copy_cfg_and_modules"]}
{"id": "C105", "title": "RTresults gives access to all stored results and fits", "statement": "Every sub-folder with a cfg-, results- and dumps-folder is available by its name. With use_dumps every fit can be loaded by its ID, by the name of its file, by its path, by its number and by iteration; the returned ID identifies the fit; a random fit is one of the available ones. The files of the results-folder are loaded by their name, or without name if there is only one; otherwise an exception is raised.", "quantifier": "all folder trees (up to the documented limit of 100 entries), all IDs, all random choices, all previous calls", "why_tests_cant": "depends on the names and on the order of arbitrary folders and on previous scans", "anchors": ["rt1/rtresults.py:RTresults.__init__", "rt1/rtresults.py:RTresults._check_folderstructure", "rt1/rtresults.py:RTresults._RT1_fitresult.load_fit", "rt1/rtresults.py:RTresults._RT1_fitresult.dump_files", "rt1/rtresults.py:RTresults._RT1_fitresult.load_hdf", "rt1/rtresults.py:RTresults._RT1_fitresult.load_cfg"]}
{"id": "C106", "title": "performfit minimizes the misfit of the observations", "statement": "The results of a fit are one value for each dyn-group of each fitted parameter, within the boundaries of their own parameter. The sum of the squared weighted differences between model and measurement over all observations, where each observation uses the values of its own dyn-groups, is not larger than for the start values; if the solver finds the minimum of the function it is called with, no other admissible values have a smaller misfit.", "quantifier": "all datasets, weights, definitions of parameters with temporal variability (up to 18 digits of dyn-numbers), start values, boundaries, model functions and solvers", "why_tests_cant": "a wrong assignment of values, weights or boundaries to the observations changes the minimum without any visible error", "anchors": ["rt1/rtfits.py:Fits.performfit", "rt1/rtfits.py:Fits._startvaldict", "rt1/rtfits.py:Fits._boundsvaldict", "rt1/rtfits.py:Fits._calc_model", "rt1/rtfits.py:Fits._assignvals"]}
{"id": "C107", "title": "array evaluation is elementwise with broadcasting", "statement": "If the angles, tau, omega, NormBRDF, bsf and the additional parameters are given as arrays with compatible shapes, p, brdf, the surface-, volume- and interaction-contributions, the total of calc and the results of fit.calc (with dB and sig0) are arrays of the common shape, and each entry is the result obtained for the entries of the arguments at this position.", "quantifier": "all arrays with any number of axes, all functions of the angles and parameters, any number of fn-coefficients, both numerical backends", "why_tests_cant": "tests use a few one-dimensional arrays of equal length; a missing or wrong axis gives values of other elements without any error", "anchors": ["rt1/volume.py:Volume.p", "rt1/surface.py:Surface.brdf", "rt1/rt1.py:RT1.surface", "rt1/rt1.py:RT1.volume", "rt1/rt1.py:RT1.interaction", "rt1/rt1.py:RT1._calc_Fint_1", "rt1/rt1.py:RT1._S2_mu", "rt1/rt1.py:RT1.calc", "rt1/rtfits.py:Fits.calc"]}
{"id": "C108", "title": "a processing run uses the requested arguments and shuts its processes down", "statement": "RTprocess.run_processing takes its arguments from exactly one source (reader_args or preprocess), passes the pool-keywords of the caller unless preprocess replaces them, initialises every worker once (logging, setup, then the initializer of the user with the arguments of the user), evaluates the fn-coefficients before any process starts, starts and joins every combiner and writer exactly once in the order required for the shutdown whatever the processing raises, and creates an index at the end of a successful run if one is requested.", "quantifier": "all return-values and errors of preprocess, reader_args, pool_kwargs, initializers, numbers of writers and combiners, outcomes of the processing, sequences of runs with the same dict", "why_tests_cant": "tests perform a few successful runs with one set of keywords; errors while processes are started or initialised and repeated runs with the same dict are not executed", "anchors": ["rt1/rtprocess.py:RTprocess._processfunc", "rt1/rtprocess.py:RTprocess._initializer", "rt1/_rtprocess_writer.py:RT1_processor.writer_pool", "rt1/_rtprocess_writer.py:RT1_processor.run_starmap", "rt1/_rtprocess_writer.py:RT1_processor.stop"]}
{"id": "C109", "title": "create_index adds the requested indexes and keeps the data", "statement": "RT1_processor.create_index adds an index for exactly the requested levels of the selected tables of the HDF-store, never changes data and never removes a table or an index.", "quantifier": "all stores, all requested keys and levels", "why_tests_cant": "tests create the index of one example-store with default arguments and do not look at the created indexes", "anchors": ["rt1/_rtprocess_writer.py:RT1_processor.create_index"]}
{"id": "C110", "title": "progress-counters and worker-numbers under any interleaving", "statement": "After all results are combined, the counters of a run are the number of results and the number of successful results; at any time the counters are consistent, and the progress-bar never shows more results or errors than have been processed and never fails. Each worker has its own number.", "quantifier": "any number of combiners, print-threads and workers, all interleavings of their requests to the manager", "why_tests_cant": "lost updates and inconsistent reads depend on the timing of processes; a test observes a few schedules at most", "anchors": ["rt1/_rtprocess_writer.py:RT1_processor._increase_cnt", "rt1/_rtprocess_writer.py:RT1_processor.print_progress", "rt1/rtprocess.py:RTprocess._initializer"]}
{"id": "C111", "title": "The jacobian of a fit is the derivative of its residuals", "statement": "For every vector of parameters that the solver tries during `performfit`, the jacobian handed over to `least_squares` has one row for each residual and one column for each entry of the vector, and each entry is the partial derivative of the residual with respect to this entry - also if tau, omega or NormBRDF are defined by expressions of fitted and auxiliary symbols.", "quantifier": "all definitions of fits, all datasets, all dynamics of the parameters, all expressions for tau, omega and NormBRDF, all values of the parameters", "why_tests_cant": "A test evaluates the jacobian for a few fits and at a few points, and a wrong jacobian only changes the path of the solver, so that most fits still converge; whether the chain rule, the assignment to the columns and the weighting are right for all definitions of a fit is a statement about all expressions and all groupings.", "anchors": ["rt1/rtfits.py:_calc_jac", "rt1/rtfits.py:performfit", "rt1/rtfits.py:_get_V_SRF_diff_funcs", "rt1/rt1.py:jacobian"]}
{"id": "C112", "title": "hemreflect evaluates the hemispherical reflectance", "statement": "`SRF.hemreflect(returnarray=True)` (and `hemreflect(R=...)`) returns for each incidence-angle `t_0_min + j*t_0_step < t_0_max` an approximation of `NormBRDF * int int BRDF cos(theta) sin(theta) dtheta dphi`: for every BRDF that is continuous in the exit-angles the values converge to the hemispherical reflectance if `simps_N` is increased; they are linear and monotone in the BRDF, `NormBRDF` may be a number, an array or an expression of the symbols in `param_dict`, and the message is printed exactly if the reflectance exceeds 1.", "quantifier": "all BRDF functions, all weights of linear combinations, all angle grids, all numbers of points, all values of NormBRDF and of the parameters", "why_tests_cant": "A test can compare a few BRDF's with known integrals for a fixed number of points up to a tolerance; that the rule converges to the integral for every continuous BRDF, and whether the message can be trusted for surfaces at the limit 1, are statements about all functions and all numbers of points.", "anchors": ["rt1/rtplots.py:hemreflect", "rt1/surface.py:Surface.brdf"]}
{"id": "C113", "title": "Reading a result database with set_ID=True returns the same rows with the string-IDs of the sites", "statement": "For an HDFaccessor with set_ID=True, `datasets.X.select()`, `get_id`, `get_nids` and every block of `get_nids_iter` return exactly the rows (in the same order) that are returned with set_ID=False, where each numeric ID is replaced by the ID that `IDs` assigns to this number. Every table of the store is found as `datasets.<table>` or `datasets.<config>.<table>`. `load_fit` returns the same fit for both values of set_ID and leaves set_ID unchanged, also if it raises an exception.", "quantifier": "all databases (any number and order of IDs and rows, with and without MultiIndex), all block sizes, start positions and read chunk sizes, all store keys", "why_tests_cant": "The labels depend on the order of the index levels, the position of the last block and the relation of block size, chunk size and number of IDs; tests read one small database.", "anchors": ["rt1/rtresults.py:519-533", "rt1/rtresults.py:569-577", "rt1/rtresults.py:586-681", "rt1/rtresults.py:729-892", "rt1/rtresults.py:900-932", "rt1/rtresults.py:962-1001"]}
{"id": "C114", "title": "What is stored for a fit: exactly the requested tables, labelled with the number of the site, and loading returns the stored parts", "statement": "`_get_fit_to_hdf_dict` of a Fits or MultiFits object returns exactly the requested tables (`init_dict` and `const__reader_arg` always, `dataset`, `aux_data`, `res_dict`, `res_df` according to the keyword-arguments). Every row of every table is labelled with the number that has been assigned to the site; the rows are those of the fit in the same order (for MultiFits: of all configs, in their order and with their names). For sites with distinct numbers and IDs, loading a site from the database by its ID returns these parts again.", "quantifier": "all Fits and MultiFits objects (any datasets, auxiliary data, reader arguments, configs, exceptions of the evaluated parts), all keyword-arguments, all collections of sites", "why_tests_cant": "Exceptions are suppressed part by part, so a missing or mislabelled table is only noticed when the database is read; the combination of flags, kinds of objects and origins of the fits is not covered by examples.", "anchors": ["rt1/rtfits.py:2870-2875", "rt1/rtfits.py:2877-3027", "rt1/rtfits.py:3220-3233", "rt1/rtprocess.py:511-513", "rt1/rtprocess.py:543-545", "rt1/processing_config.py:212-232"]}
{"id": "C115", "title": "Phase functions are evaluated with their current parameters", "statement": "For any number of V and SRF objects and any order of creating them, assigning attributes and evaluating `p`/`brdf`, `legcoefs`, `_func` and the theta-derivatives: every evaluation returns the value of the function for the current attributes of this object. In particular the value does not depend on other objects, on earlier evaluations or on the number of evaluated objects (caches with 128 entries), and values, derivatives and legendre coefficients always belong to the same parameters.", "quantifier": "all phase-function classes (with and without numeric version), all objects, parameters, parameter names, all finite histories of assignments and evaluations of all objects", "why_tests_cant": "The caches are shared by all objects of a class and have a limited size; wrong values only appear for particular orders of assignments and evaluations, or for more than 128 objects.", "anchors": ["rt1/volume.py:73-135", "rt1/volume.py:491-498", "rt1/volume.py:628-655", "rt1/volume.py:700-737", "rt1/volume.py:790-845", "rt1/surface.py:75-138", "rt1/surface.py:481-485", "rt1/surface.py:602-612", "rt1/surface.py:667-713", "rt1/surface.py:754-775", "rt1/surface.py:822-913"]}
{"id": "C116", "title": "Exported tables contain the requested values", "statement": "export_data_to_HDF returns for every fit the requested parameters and metrics, each once and labelled with the number of the fit, and nothing else: time series (model results, fitted dynamic parameters, columns of the dataset, series of export functions) with all of their rows and values in the dynamic table, single values (fitted constants, fixed parameters, reader_arg, numbers of export functions) in the static table, metrics in the metrics table. Export functions override the default extraction, and sig_to_dB / inc_to_degree convert the backscatter (data and model results) to dB and the incidence angles to degrees.", "quantifier": "all fits (definitions, datasets, results, reader arguments), all requested parameters, export functions and metrics", "why_tests_cant": "Tables with arbitrary indexes are joined; the combinations of requested names, definitions and export functions are unbounded.", "anchors": ["rt1/rtprocess.py:1389-1560", "rt1/rtprocess.py:1562-1648", "rt1/rtprocess.py:1651-1782"]}
{"id": "C117", "title": "The text of the model definition contains the definition", "statement": "The text of Fits.model_definition (also written to model_definition.txt by processing runs) can be read back: the table of fitted parameters has exactly one row for each fitted parameter with its name, start value, variability, bounds and interpolation; all fixed parameters are listed with their values and all auxiliary datasets with their names; V, SRF and their properties are listed; all least-squares keywords are listed with their values; the numbers of estimated values are the numbers of different values of the parameters; the dates are those of the first and last observation and the number of observations is the length of the dataset.", "quantifier": "all definitions (any number of parameters, names, values), V and SRF properties, least-squares keywords and datasets", "why_tests_cant": "Reading back must work for all numbers of fixed/auxiliary/fitted parameters and keywords (columns of different lengths are combined), and all names and values.", "anchors": ["rt1/rtfits.py:2546-2713", "rt1/rtprocess.py:890-928"]}
{"id": "C118", "title": "Final outputs and exports use the stored fits of the configured folder", "statement": "run_finaloutput and export_data_to_HDF of a processing object use exactly the fits that are stored in the configured folder (save_path/dumpfolder, including override_config) at the time of the call: the fits of fit_db.h5, or of the dump-files with use_dumps=True; all of them (or the first use_N_files) with their stored content, whatever has been done with the object before (earlier final outputs or exports, overridden configurations, fits stored in between). A given list of fits is used instead.", "quantifier": "all histories of overrides, stored fits, final outputs and exports of an object, all folder names and contents", "why_tests_cant": "Depends on the whole history of the object (cached results-object and cached database handler) and on arbitrary contents of the folders.", "anchors": ["rt1/rtprocess.py:973-1148", "rt1/rtprocess.py:1210-1216", "rt1/rtprocess.py:1324-1336", "rt1/rtprocess.py:1496-1524", "rt1/rtresults.py:150-199", "rt1/rtresults.py:302-376"]}
{"id": "C119", "title": "All metrics are available and listed in the reports", "statement": "fit.metric offers every ordered pair of two different available keys (and nothing else) as attributes fit.metric.<key1>.<key2>, with the columns of these keys as first and second series; metrics can also be created for a single pair. allmetrics contains the values of all nine metrics. The printed metrics_table can be read back: it lists every metric (and all values of the regression one level below) with its name and its value, with an absolute accuracy of 5e-7 (relative for large values). The table beside the scatterplot lists the same names and values in this order.", "quantifier": "all datasets and parameter names, all values of the metrics (including regressions that are not possible), all nested dicts returned by metrics", "why_tests_cant": "The set of pairs depends on arbitrary column names; completeness of the tables for all values (types, magnitudes, nesting) needs reading back the texts in general.", "anchors": ["rt1/rtmetrics.py:22-87", "rt1/rtmetrics.py:461-687"]}
{"id": "C120", "title": "The fit object of a configuration file", "statement": "get_fitobject returns a single fit object if the file has no sections of configs, otherwise a MultiFits object with exactly one fit object for every config of the file, in the order of the file. Each fit object has exactly the options (documented defaults for options that are not given), least-squares arguments, variable definitions and V/SRF specifications of its config: it equals the fit object of the file in which the entries of the config are written into the base sections, and does not depend on other configs. Every option and definition that is valid for Fits can be given in the file; options without effect are rejected.", "quantifier": "all configuration files (any number of configs, any names, entries in any order), all set iteration orders", "why_tests_cant": "Tests use one file with one configuration; the statement ranges over all combinations of overriding sections, names, and hash-dependent iteration orders.", "anchors": ["rt1/rtparse.py:409-478", "rt1/rtfits.py:279-337", "rt1/rtfits.py:3345-3373", "rt1/_containers.py:138-168"]}
{"id": "C121", "title": "The diagnostic plots show the values of the observations", "statement": "plot.scatter draws exactly one point for each observation: its modelled and its measured value. plot.fit_timeseries draws exactly the wanted components and the dataset for the observations of the selected years and months, converted from the unit of the fit to the unit of the plot with the incidence angle of the observation, at the time stamp (and in the second plot at the incidence angle) of the observation. plot.fit_errors draws the residual of each observation at its time stamp and at its incidence angle, the mean residual of each measurement at its time stamp, and for every incidence angle of the dataset the mean residual of the observations at this angle.", "quantifier": "all datasets, groupings (also unsorted ones), units, selections, model values", "why_tests_cant": "Tests only check that the functions run; whether each drawn value belongs to the right observation depends on the order of the groups, repeated time stamps and the padding of the arrays.", "anchors": ["rt1/rtplots.py:452-540", "rt1/rtplots.py:593-706", "rt1/rtplots.py:748-885", "rt1/rtfits.py:775-783", "rt1/rtfits.py:2519-2543"]}
{"id": "C122", "title": "Log messages are delivered completely", "statement": "After start_log_to_file, the file contains every message of rt1 with at least the level of the handler, in order and once, whatever is done with other handlers; the console shows exactly the messages with at least its level. The text of a message keeps all its lines, indented after the first one. set_log_handler_level changes the first handler with the name and raises IndexError if there is none. The log-file of a processing run contains all records before the end of the run. Removing the results removes exactly the handlers that write into the removed folder.", "quantifier": "all histories of log operations and messages, texts, levels, handlers, queues", "why_tests_cant": "Messages depend on the whole history of handlers and levels and on the logging configuration of the importing program; tests redirect logging and check single calls.", "anchors": ["rt1/__init__.py:21-61", "rt1/__init__.py:64-126", "rt1/__init__.py:129-235", "rt1/rtprocess.py:160-188", "rt1/rtprocess.py:245-261"]}
{"id": "C123", "title": "MultiFits objects survive dumps and transfers", "statement": "Dumping (mini or full), loading and sending a MultiFits object to another process keeps the names of the configurations, their order, and the definition and results of each fit; a full dump restores the complete object and a mini-dump leaves the dumped object unchanged. Operations fail only if the file cannot be opened. configs[key] returns the fit with the name, or the fit at the position (from the end for negative numbers).", "quantifier": "all objects, sequences of dumps, loads and transfers, names and positions", "why_tests_cant": "The marks for mini-dumps, the shared data and the attribute `_parent` have effects over several operations; tests dump and load one object once.", "anchors": ["rt1/rtfits.py:51-78", "rt1/rtfits.py:3126-3163", "rt1/rtfits.py:3213-3218", "rt1/rtfits.py:3281-3300", "rt1/rtfits.py:3375-3393"]}
{"id": "C124", "title": "Fits are loaded from the database of the result, through handlers that are re-opened", "statement": "Without dumps load_fit reads the database in the results-folder of this result, in its state at some time since the last scan (exactly the present one after rescan() if the folder is not changed), whatever is done with this and other results, whichever handlers are closed and whenever the garbage collector runs. Without a database at the last scan an AssertionError is raised. Handlers and selectors the user keeps read the file they have opened.", "quantifier": "all sequences of scans, reads, changes of the folders, closed and collected handlers of any number of results", "why_tests_cant": "The cache is shared by all results, and the effects depend on the order of operations on several objects and on the garbage collection.", "anchors": ["rt1/rtresults.py:175-206", "rt1/rtresults.py:302-307", "rt1/rtresults.py:495", "rt1/rtresults.py:535-548", "rt1/rtresults.py:900-920"]}
{"id": "C125", "title": "Intermediate results belong to the last recorded fit and are shown for the right iterations and groups", "statement": "After performfit(intermediate_results=True) the recorded parameters, residuals and jacobians are exactly those of the evaluations of this fit in their order, whatever was done with the object before. plot.intermediate_residuals shows, for exactly the iterations selected by iter_slice, the absolute value of the mean (absolute or relative, weighted) error of all observations of each group, sorted and labelled by the groups; plot.intermediate_results shows the mean value of each fitted parameter for each evaluation, one panel per parameter.", "quantifier": "all sequences of fits and calls of the optimizer, all datasets, groups, weights, slices and numbers of iterations", "why_tests_cant": "Errors are stored in the order of the fit-groups and plotted with the order of the dataset: a test with sorted groups can not see the difference.", "anchors": ["rt1/rtfits.py:1947-1948", "rt1/rtfits.py:2292-2341", "rt1/rtplots.py:1222-1463", "rt1/rtplots.py:2860-3194"]}
{"id": "C126", "title": "plot.results and plot.single_results show the selected measurements", "statement": "plot.results shows, for each selected measurement, the modelled values and the measurements of exactly the observations of its fit-group (and the results of the start-values), labelled by the measurement and marked at its date. plot.single_results shows the measurements and the modelled values (sorted by the incidence-angle) of exactly the observations of the selected measurements, given by number or by date, labelled with the first and the last date and the number of observations.", "quantifier": "all datasets, fit-groups, model-values, selections, labels and sorting algorithms", "why_tests_cant": "Plots are compared by images for one dataset and all measurements; the labels of selections are not checked.", "anchors": ["rt1/rtplots.py:932-1053", "rt1/rtplots.py:1055-1220"]}
{"id": "C127", "title": "interpolate_to_index interpolates linearly in time", "statement": "interpolate_to_index(data, index) returns a Series (or a DataFrame with the same columns) with the given index; each value is the linear interpolation between the two neighbouring dates of the data, exactly the given value at the dates of the data, within the bounds of the data, and nan outside of the range of their dates, independent of the order of the data. Lists and arrays are treated like Series with the index data_index.", "quantifier": "all series and frames with at least two (distinct) dates, all indexes, all conversions of dates to numbers", "why_tests_cant": "The function is not tested at all; exactness and independence of the order concern all sets of dates.", "anchors": ["rt1/general_functions.py:302-351"]}
{"id": "C128", "title": "RT1.jacobian uses the current V, SRF and parameters", "statement": "After any sequence of attribute assignments to RT1 objects, evaluations of jacobian and calls of _clear_cache(), the jacobian of an object equals the jacobian of a new object with the current attributes; in particular after _clear_cache() has been called.", "quantifier": "all objects, all histories of assignments, evaluations and cache clearings, all parameters", "why_tests_cant": "requires all histories; tests evaluate each object with one V and one SRF only", "anchors": ["rt1/rt1.py:223-239", "rt1/rt1.py:1539-1628", "rt1/rt1.py:1630-1703"]}
{"id": "C129", "title": "RT1 objects are created for valid parameters only", "statement": "RT1(...) succeeds if geometry is a string of four characters, V and SRF are provided, and all elements of omega, tau and NormBRDF are non-negative numbers (or expressions with symbols); otherwise an exception is raised: AssertionError, or TypeError for lists and for NormBRDF=None.", "quantifier": "all geometries, V, SRF, and all numbers, arrays and expressions as omega, tau, NormBRDF", "why_tests_cant": "Tests create objects with some valid parameters; the rejection of all invalid arrays concerns infinitely many inputs.", "anchors": ["rt1/rt1.py:142-200"]}
{"id": "C130", "title": "polarplot shows the phase functions in the colors of the legend", "statement": "polarplot draws, for each set of parameters and each incidence-angle, the phase function and (if requested) its approximation, in the color that the legend assigns to the angle; the legend has one entry for each angle; the limit of the radius is 1.2 times the largest scaled maximum of all functions; invalid arguments raise AssertionError before anything is drawn. It can be called with existing polar axes and with all volume- and surface-objects.", "quantifier": "all phase functions, sets of parameters and lists of incidence-angles", "why_tests_cant": "The function is only called for its figure in tests; colors and limits of all combinations are not checked.", "anchors": ["rt1/rtplots.py:37-262"]}
{"id": "C131", "title": "the slider of printsig0analysis shows the selected measurements", "statement": "printsig0analysis first shows the first range1 measurements; after any sequence of moves of the slider to positions in its range, each line (total, components, data, day-indicator, fractions, and the same for all incidence-angles) shows its own quantity for the measurements that start at the position of the slider, and the label shows the dates of the first and the last of them. It can be called with and without printfullt_0.", "quantifier": "all numbers of measurements, ranges, sequences of positions, with and without components and interaction-contribution", "why_tests_cant": "The slider is interactive; tests do not move it, and a shifted line-counter would only be visible for particular combinations of options.", "anchors": ["rt1/rtplots.py:1465-2334"]}

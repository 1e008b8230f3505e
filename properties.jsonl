{"id": "C01", "title": "Wright density derivatives are exact", "statement": "eos.wright.drho_dtemp(T,S,p) and eos.wright.drho_dsal(T,S,p) return exactly the partial derivatives of eos.wright.density with respect to T and S, wherever density's denominator is non-zero.", "quantifier": "all real T, S, p with non-zero denominator", "why_tests_cant": "a finite-difference test samples points and tolerates error; the identity is between functions on a continuum", "anchors": ["src/momlevel/eos/wright.py: density, drho_dtemp, drho_dsal"]}
{"id": "C02", "title": "alpha and beta are logarithmic derivatives of density", "statement": "For both equations of state alpha(T,S,p) = -(1/rho) d rho/dT and beta(T,S,p) = (1/rho) d rho/dS, i.e. minus/plus the derivative of log density.", "quantifier": "all real T, S, p where the density is defined and positive", "why_tests_cant": "continuum of inputs", "anchors": ["src/momlevel/eos/wright.py: alpha, beta", "src/momlevel/eos/linear.py: alpha, beta"]}
{"id": "C03", "title": "Wright density is well-behaved on the oceanographic range", "statement": "For -2<=T<=40 degC, 0<=S<=42, 0<=p<=1e8 Pa the Wright density has a positive denominator, is positive, strictly increases with pressure and strictly increases with salinity (so beta>0).", "quantifier": "all (T,S,p) in the oceanographic box", "why_tests_cant": "uncountably many inputs; a singular or non-monotone patch can hide between samples", "anchors": ["src/momlevel/eos/wright.py: density, drho_dsal, beta"]}
{"id": "C04", "title": "Wright thermal expansion is positive for sea water", "statement": "For sea-water temperatures and salinities (range stated in the theorem) warming strictly decreases the Wright density at every pressure, so alpha>0.", "quantifier": "all (T,S,p) in the stated box", "why_tests_cant": "uncountably many inputs", "anchors": ["src/momlevel/eos/wright.py: density, drho_dtemp, alpha"]}
{"id": "C05", "title": "Linear EOS is affine, pressure independent and consistent", "statement": "eos.linear.density does not depend on pressure, its finite differences in T and S equal exactly drho_dtemp and drho_dsal times the increment, rho_ref shifts it by exactly -rho_ref.", "quantifier": "all T, S, p, rho_ref", "why_tests_cant": "all inputs", "anchors": ["src/momlevel/eos/linear.py"]}
{"id": "C06", "title": "Equation-of-state names resolve case-insensitively or fail", "statement": "An equation of state string selects the Wright (Linear) function iff it equals 'wright' ('linear') up to case; every other string raises instead of silently selecting a default.", "quantifier": "all strings and all function names", "why_tests_cant": "infinitely many strings", "anchors": ["src/momlevel/util.py: eos_func_from_str", "src/momlevel/derived.py: calc_rho, calc_alpha, calc_beta"]}
{"id": "C07", "title": "Spiciness is evaluated point by point", "statement": "spice(thetao, so) on arrays of any equal shape returns an array of that shape whose every element is the 6x5 Flament polynomial in thetao and so-35 of the corresponding inputs; unequal shapes are rejected.", "quantifier": "all shapes and all values", "why_tests_cant": "all array sizes and ranks", "anchors": ["src/momlevel/spice/flament.py: spice", "src/momlevel/derived.py: calc_spice"]}
{"id": "C08", "title": "Partial-cell thicknesses fill the water column exactly", "statement": "With default top/bottom, calc_dz gives every cell a thickness between 0 and the full layer thickness, and the thicknesses of a column sum to the part of [first interface, last interface] above the sea floor.", "quantifier": "all level counts, all monotone non-negative interfaces, all bathymetries", "why_tests_cant": "all grids and depths", "anchors": ["src/momlevel/derived.py: calc_dz"]}
{"id": "C09", "title": "calc_dz over a depth range is the overlap of cell and range", "statement": "calc_dz(top=a, bottom=b) returns for each cell the length of the intersection of the cell with [a, min(b, depth)]. (Holds only if no single cell strictly contains both ends; otherwise the code overestimates.)", "quantifier": "all grids, all ranges", "why_tests_cant": "all grids and ranges", "anchors": ["src/momlevel/derived.py: calc_dz"]}
{"id": "C10", "title": "calc_dz fractions lie in (0,1] or are missing", "statement": "With fraction=True each value is either missing, exactly when the thickness is zero, or thickness/layer thickness in (0,1].", "quantifier": "all grids and depths", "why_tests_cant": "all grids", "anchors": ["src/momlevel/derived.py: calc_dz"]}
{"id": "C11", "title": "calc_dz rejects negative geometry and treats missing depth as land", "statement": "calc_dz raises AssertionError iff a non-missing depth is negative or a level/interface is negative or missing; with finite limits missing depths yield zero thickness in every cell, never NaN. An infinite depth is not land: with the default limits every layer has its full thickness. A missing top or bottom limit is not ignored: it makes every thickness missing.", "quantifier": "all inputs", "why_tests_cant": "all arrays", "anchors": ["src/momlevel/derived.py: calc_dz"]}
{"id": "C12", "title": "Adjusted N2 is positive, mask-preserving and idempotent (z first)", "statement": "For arrays whose first dimension is the vertical one, adjust_negative_n2 returns a strictly positive value at every non-missing cell, missing exactly where the input is missing, leaves positive cells unchanged, replaces a non-positive cell by the nearest positive value above it (1e-8 if none), and applying it twice is the same as once. It accepts exactly the arrays that have the named vertical dimension and whose first dimension is not empty; any other name raises ValueError.", "quantifier": "all column lengths, all values, all masks", "why_tests_cant": "all columns", "anchors": ["src/momlevel/derived.py: adjust_negative_n2"]}
{"id": "C13", "title": "Adjusted N2 is positive at every time step", "statement": "adjust_negative_n2 on an array with dimensions (time, z, y, x) returns a positive value at every non-missing cell. (False of the code: the surface fill is applied to the first index of the first dimension, i.e. to time 0.)", "quantifier": "all arrays with a leading time dimension", "why_tests_cant": "all arrays", "anchors": ["src/momlevel/derived.py: adjust_negative_n2, calc_n2"]}
{"id": "C14", "title": "Wave speed is defined exactly where the surface N2 is, and non-negative", "statement": "calc_wave_speed on (z,...) input with finite dz is missing exactly where the first layer of N2 is missing, otherwise non-negative and equal to (1/pi) sum sqrt(N2adj) dz; it is positive as soon as one cell with non-missing N2 has positive thickness.", "quantifier": "all columns", "why_tests_cant": "all columns", "anchors": ["src/momlevel/derived.py: calc_wave_speed"]}
{"id": "C15", "title": "Coriolis parameter", "statement": "calc_coriolis is odd in latitude, bounded by twice the rotation rate, strictly increasing between the poles, zero on [-90,90] only at the equator.", "quantifier": "all latitudes", "why_tests_cant": "continuum", "anchors": ["src/momlevel/derived.py: calc_coriolis"]}
{"id": "C16", "title": "Rossby radius", "statement": "calc_rossby_rd is hemispherically symmetric, non-negative for non-negative wave speed, satisfies radius*|f| = c off the equator and is never a finite number at the equator.", "quantifier": "all wave speeds and Coriolis values", "why_tests_cant": "continuum", "anchors": ["src/momlevel/derived.py: calc_rossby_rd"]}
{"id": "C17", "title": "Potential vorticity units", "statement": "calc_pv(units='cm') equals 1e12 times the absolute value of calc_pv(units='m') at every point, both are missing at the same points, and any other unit string raises ValueError.", "quantifier": "all inputs and all unit strings", "why_tests_cant": "all inputs", "anchors": ["src/momlevel/derived.py: calc_pv"]}
{"id": "C18", "title": "Relative vorticity obeys the discrete Stokes theorem", "statement": "The area-weighted sum of calc_rel_vort over the grid equals the circulation on the boundary: on a symmetric grid it is exactly zero, on a non-symmetric grid it reduces to first-row / first-column transports; interior values are the four-edge circulation over the cell area.", "quantifier": "all grid sizes and velocities", "why_tests_cant": "all grids", "anchors": ["src/momlevel/derived.py: calc_rel_vort", "src/momlevel/util.py: get_xgcm_grid"]}
{"id": "C19", "title": "N2 is (g/rho) d rho/dz for the linear EOS and vanishes in a uniform column", "statement": "With eos='linear', calc_n2 equals (9.8/rho) times the discrete vertical density gradient, so it is positive exactly where density increases downwards; for any EOS a column with uniform T and S gives exactly 0; the discrete gradient is exact for quadratics on any non-uniform grid and fewer than three levels raise.", "quantifier": "all columns and coordinates", "why_tests_cant": "all columns", "anchors": ["src/momlevel/derived.py: calc_n2"]}
{"id": "C20", "title": "Stability angle range and meaning", "statement": "calc_stability_angle lies in (-90,90] when defined, is missing when the temperature gradient is zero, and lies strictly between -45 and 45 exactly when the density ratio is negative; therefore it cannot distinguish a doubly stable column from a doubly unstable one (docstring violated).", "quantifier": "all gradients and coefficients", "why_tests_cant": "continuum", "anchors": ["src/momlevel/derived.py: calc_stability_angle"]}
{"id": "C21", "title": "Global mean density is a weighted average", "statement": "For positive volumes and density present wherever volume is, rhoga = masso/volo lies between the smallest and largest density, masso is rho-weighted volume; if density is missing where volume is not the bound fails.", "quantifier": "all grids and fields", "why_tests_cant": "all grids", "anchors": ["src/momlevel/derived.py: calc_masso, calc_volo, calc_rhoga"]}
{"id": "C22", "title": "Potential density", "statement": "calc_pdens(level) is the density at the constant pressure level*1e4+patm at every point; with the linear EOS it does not depend on level; levels outside [0,7500] raise.", "quantifier": "all fields and levels", "why_tests_cant": "all inputs", "anchors": ["src/momlevel/derived.py: calc_pdens"]}
{"id": "C23", "title": "Inverse barometer balances the surface pressure", "statement": "inverse_barometer*rho*g + pso = 0 wherever defined; it is negative for positive pressure and density; missing exactly when an input is missing.", "quantifier": "all fields", "why_tests_cant": "all inputs", "anchors": ["src/momlevel/dynamic.py: inverse_barometer"]}
{"id": "C24", "title": "Steric height is zero at the reference time", "statement": "With no supplied reference, steric/thermosteric/halosteric (local and global) return exactly 0 at the first time level at every ocean point, for every EOS.", "quantifier": "all datasets, all variants, both domains", "why_tests_cant": "all datasets", "anchors": ["src/momlevel/steric.py: steric", "src/momlevel/reference.py: setup_reference_state"]}
{"id": "C25", "title": "Local steric results are missing exactly on land", "statement": "The local sea-level result at (t,y,x) is missing iff the reference volcello of the top layer at (y,x) is missing, and delta_rho is missing iff reference volcello or either density is missing.", "quantifier": "all datasets", "why_tests_cant": "all masks", "anchors": ["src/momlevel/steric.py: steric"]}
{"id": "C26", "title": "Thermosteric ignores salinity change, halosteric ignores temperature change", "statement": "Changing the input salinity after the first time step never changes thermosteric output; changing temperature after the first step never changes halosteric output (local and global).", "quantifier": "all pairs of datasets that agree on the other fields", "why_tests_cant": "relational property over pairs of datasets", "anchors": ["src/momlevel/steric.py: steric"]}
{"id": "C27", "title": "Linear EOS: steric = thermosteric + halosteric", "statement": "With equation_of_state='linear' the local steric height equals the sum of thermosteric and halosteric heights at every point and time; with Wright it does not in general.", "quantifier": "all datasets", "why_tests_cant": "all datasets", "anchors": ["src/momlevel/steric.py: steric, thermosteric, halosteric"]}
{"id": "C28", "title": "Sign of local steric change", "statement": "If density nowhere increases relative to the reference the local sea level change is >= 0; in particular with the linear EOS column warming raises thermosteric height, and with Wright in the oceanographic range column salinification lowers halosteric height.", "quantifier": "all datasets in range", "why_tests_cant": "all datasets", "anchors": ["src/momlevel/steric.py: steric"]}
{"id": "C29", "title": "Global steric height formula and sign", "statement": "Global steric equals (volo/total area)*log(rhoga*volo/masso(t)); it is positive iff the mass of the reference volume at time t is below the reference mass, zero iff equal.", "quantifier": "all datasets with positive volume and mass", "why_tests_cant": "all datasets", "anchors": ["src/momlevel/steric.py: steric"]}
{"id": "C30", "title": "steric rejects bad requests before producing output", "statement": "steric raises for a missing required variable or wrong rank, unknown variant or EOS, or a name in varname_map that the dataset does not have; but any domain string other than 'global' silently behaves as 'local'.", "quantifier": "all datasets and option strings", "why_tests_cant": "all strings", "anchors": ["src/momlevel/steric.py: steric", "src/momlevel/util.py: validate_dataset"]}
{"id": "C31", "title": "Reference state is the requested time slice and is self-consistent", "statement": "setup_reference_state returns thetao, so, volcello at time_index unchanged, rho from them, volo = sum volcello, masso = sum rho*volcello, rhoga*volo = masso; it raises when a spatial dimension has size one; an absent variable or vertical coordinate is a KeyError, an absent areacello an AttributeError.", "quantifier": "all datasets", "why_tests_cant": "all datasets", "anchors": ["src/momlevel/reference.py: setup_reference_state"]}
{"id": "C32", "title": "Feeding the returned reference back changes nothing", "statement": "steric(d) = (r, ref) implies steric(d, reference=ref) = (r, ref).", "quantifier": "all datasets and options", "why_tests_cant": "all datasets", "anchors": ["src/momlevel/steric.py: steric"]}
{"id": "C33", "title": "Reference density scales the local result", "statement": "Local steric height is inversely proportional to rhozero (rhozero*height is independent of rhozero), delta_rho does not depend on it, rhozero=0 raises.", "quantifier": "all datasets, all rhozero", "why_tests_cant": "all inputs", "anchors": ["src/momlevel/steric.py: steric"]}
{"id": "C34", "title": "validate_dataset accepts exactly the valid datasets", "statement": "validate_dataset returns normally iff every required variable is present with the required rank and the cell area is in range (the area clause is waived when strict=False); it reports all problems. A time coordinate on a reference dataset is never detected (docstring/comment violated).", "quantifier": "all datasets and flags", "why_tests_cant": "all datasets", "anchors": ["src/momlevel/util.py: validate_dataset"]}
{"id": "C35", "title": "validate_areacello tolerance", "statement": "validate_areacello is True iff the total area lies strictly within tolerance*reference of reference, invariant under permuting or splitting cells and insensitive to missing cells.", "quantifier": "all area fields", "why_tests_cant": "all fields", "anchors": ["src/momlevel/util.py: validate_areacello"]}
{"id": "C36", "title": "validate_tidegauge_data decision", "statement": "Passes iff arr is a DataArray, each coordinate is either a DataArray or the name of an existing coordinate, and mask is None or a DataArray.", "quantifier": "all argument shapes", "why_tests_cant": "all inputs", "anchors": ["src/momlevel/util.py: validate_tidegauge_data"]}
{"id": "C37", "title": "default_coords", "statement": "Each of the time, vertical and vertical-bounds names is the caller's mapping if present and the MOM6 default otherwise, independently of all other keys.", "quantifier": "all dictionaries", "why_tests_cant": "all dictionaries", "anchors": ["src/momlevel/util.py: default_coords"]}
{"id": "C38", "title": "annual_average is the month-length weighted mean per year", "statement": "For a monthly series each output value is sum(days*value)/sum(days) over the non-missing months of that year; it lies between the smallest and largest month, a constant stays constant, years come out in increasing order, and any year that does not have exactly 12 samples raises.", "quantifier": "all series, calendars, missing patterns", "why_tests_cant": "all series", "anchors": ["src/momlevel/util.py: annual_average"]}
{"id": "C39", "title": "Monthly then annual averaging of daily data is the plain annual mean", "statement": "For complete daily data without gaps on any supported calendar, annual_average(monthly_average(x)) equals the arithmetic mean of all days of each year.", "quantifier": "all years, calendars and values", "why_tests_cant": "all calendars and series lengths", "anchors": ["src/momlevel/util.py: monthly_average, annual_average"]}
{"id": "C40", "title": "annual_cycle statistics", "statement": "annual_cycle returns 12 values, month m being the requested statistic over all samples whose month is m; min<=mean<=max, std>=0 and std=0 iff all samples of the month are equal; mean is idempotent; unknown func or a missing month raises a ValueError, an absent time coordinate a KeyError, an empty one an IndexError.", "quantifier": "all series", "why_tests_cant": "all series", "anchors": ["src/momlevel/util.py: annual_cycle"]}
{"id": "C41", "title": "monthly_average", "statement": "monthly_average returns 12 values per year in chronological order, each the mean of the non-missing samples of that year and month; a year lacking a month raises a ValueError, an absent time coordinate a KeyError, an empty one an IndexError.", "quantifier": "all series", "why_tests_cant": "all series", "anchors": ["src/momlevel/util.py: monthly_average"]}
{"id": "C42", "title": "alphabetize_dataset only reorders", "statement": "alphabetize_dataset returns exactly the same variables with the same contents, in non-decreasing order of name; idempotent and independent of the initial order.", "quantifier": "all datasets", "why_tests_cant": "all datasets", "anchors": ["src/momlevel/util.py: alphabetize_dataset"]}
{"id": "C43", "title": "reset_encoding removes exactly the requested keys", "statement": "After reset_encoding no listed key is left in the object's or (for a Dataset) any variable's encoding, all other keys keep their values, other objects raise ValueError, and the operation is idempotent.", "quantifier": "all objects and key lists", "why_tests_cant": "all objects", "anchors": ["src/momlevel/util.py: reset_encoding"]}
{"id": "C44", "title": "Cell areas of a global uniform grid sum to the sphere", "statement": "standard_grid_cell_area on any uniform n x m grid covering the globe sums to 4 pi r^2; each area is non-negative; the result does not depend on coordinate direction.", "quantifier": "all n,m>=2 and radii", "why_tests_cant": "all grid sizes", "anchors": ["src/momlevel/util.py: standard_grid_cell_area"]}
{"id": "C45", "title": "tile_nominal_coords", "statement": "The 2-D coordinates have dims (y,x), longitude at (j,i) is x[i], latitude at (j,i) is y[j].", "quantifier": "all coordinate vectors", "why_tests_cant": "all sizes", "anchors": ["src/momlevel/util.py: tile_nominal_coords"]}
{"id": "C46", "title": "geolocate_points maps to the nearest unmasked grid point", "statement": "Every returned location carries the index of a model point with mask==1 whose great-circle distance is minimal among all such points; with a threshold exactly the locations with distance <= threshold are returned, in input order; with none all are. The label returned as mod_index is the position among the points with mask==1, not the documented position in df_model.", "quantifier": "all grids, masks, locations, thresholds", "why_tests_cant": "all grids", "anchors": ["src/momlevel/util.py: geolocate_points"]}
{"id": "C47", "title": "Great-circle distance is convention independent", "statement": "The distance used for geolocation is unchanged when any longitude is shifted by 360 degrees, is symmetric, non-negative, zero for identical points and at most pi*rad_earth.", "quantifier": "all pairs of points", "why_tests_cant": "continuum", "anchors": ["src/momlevel/util.py: geolocate_points"]}
{"id": "C48", "title": "extract_tidegauge returns the series at the nearest wet cell", "statement": "The result has exactly one variable per distinct mapped gauge name, holding the input's values at the dimension labels of the nearest wet cell of the last mapped gauge with that name; gauges sharing a name are silently lost; land cells are never selected. A mask whose labels differ from the coordinates' is matched to them by label, in whatever order it lists its cells; if one of its wet cells lies at labels the coordinates do not have, the call fails.", "quantifier": "all arrays, grids, gauge lists", "why_tests_cant": "all inputs", "anchors": ["src/momlevel/tidegauge.py: extract_tidegauge, extract_point"]}
{"id": "C49", "title": "A gauge is never both kept and reported as unmappable", "statement": "With warnings enabled a location is reported as unmappable iff it is dropped. (False: a location at exactly the threshold is reported and kept, and with a NaN threshold every location is dropped without a report. True for every location at any other distance.)", "quantifier": "all locations and thresholds", "why_tests_cant": "boundary values", "anchors": ["src/momlevel/util.py: geolocate_points"]}
{"id": "C50", "title": "Time conversion factors form a groupoid", "statement": "time_conversion_factor(a,a)=1, f(a,b)*f(b,a)=1, f(a,b)*f(b,c)=f(a,c) for all recognised units and all non-zero month/year lengths; unrecognised units raise; zero lengths raise for every pair of units.", "quantifier": "all unit strings, all month/year lengths", "why_tests_cant": "all strings and reals", "anchors": ["src/momlevel/trend.py: time_conversion_factor"]}
{"id": "C51", "title": "calc_linear_trend is the least-squares line", "statement": "The returned slope and intercept minimise the sum of squared misfits over the non-missing samples; an exactly linear series returns its slope scaled to the requested time unit and its intercept.", "quantifier": "all series, times, units", "why_tests_cant": "all series", "anchors": ["src/momlevel/trend.py: calc_linear_trend"]}
{"id": "C52", "title": "linear_detrend(mode='remove')", "statement": "The residual of the default detrend has zero sum and zero first moment over valid samples, missing samples stay missing and no others become missing, detrending twice is the same as once, adding any straight line to the input does not change the result.", "quantifier": "all series", "why_tests_cant": "all series", "anchors": ["src/momlevel/trend.py: linear_detrend, _detrend_array"]}
{"id": "C53", "title": "linear_detrend(mode='correct')", "statement": "The corrected series is the removed series plus the fitted intercept and has zero fitted slope; it equals the input only at the epoch (1970-01-01), so the mean of the input is not preserved in general.", "quantifier": "all series", "why_tests_cant": "all series", "anchors": ["src/momlevel/trend.py: linear_detrend, _detrend_array"]}
{"id": "C54", "title": "Slope units round-trip", "statement": "broadcast_trend(calc_linear_trend(x, time_units=u).slope, time) is the same for every recognised unit u (for inputs whose units attribute does not contain '-1'; otherwise see C55). broadcast_trend raises AssertionError when the slope or the axis is not a DataArray or the axis does not have exactly one dimension.", "quantifier": "all series, units, unit attributes without '-1' tokens", "why_tests_cant": "all strings", "anchors": ["src/momlevel/trend.py: calc_linear_trend, broadcast_trend"]}
{"id": "C55", "title": "linear_detrend works for every units attribute", "statement": "Detrending a cftime series succeeds whatever its units attribute. (False: every variable with a per-something unit such as 'm s-1' raises ValueError.)", "quantifier": "all unit strings", "why_tests_cant": "all strings", "anchors": ["src/momlevel/trend.py: broadcast_trend, calc_linear_trend"]}
{"id": "C56", "title": "Dataset detrending touches only variables with the dimension", "statement": "linear_detrend on a Dataset returns the same variable names, detrends each variable that has the dimension independently of the others, returns the others unchanged; unknown mode raises ValueError, order != 1 AssertionError.", "quantifier": "all datasets", "why_tests_cant": "all datasets", "anchors": ["src/momlevel/trend.py: linear_detrend"]}
{"id": "C57", "title": "Seasonal model is an orthogonal projection", "statement": "In seasonal_model model + residual = input; the residual is orthogonal to the constant, trend, annual and semi-annual regressors; any combination of the regressors is reproduced exactly; fitting the residual again gives a zero model; the fit is linear in the data and separate for each point.", "quantifier": "all time axes, all data", "why_tests_cant": "all series", "anchors": ["src/momlevel/trend.py: seasonal_model, seasonal_cycle_model"]}
{"id": "C58", "title": "deseason does not depend on chunking and its formats agree", "statement": "deseason returns the same values for every chunking of the input; 'model' + 'residuals' = input; 'coeff' applied to the regressors gives 'model'; unknown formats raise.", "quantifier": "all chunkings, all arrays", "why_tests_cant": "all chunk layouts", "anchors": ["src/momlevel/trend.py: deseason, _detrend_deseason_lazy, _detrend_deseason_chunk"]}
{"id": "C59", "title": "deseason leaves its input untouched", "statement": "Calling deseason does not change the attributes of the array passed in. (False: the caller's attribute dictionary is edited in place, and repeated calls accumulate text.)", "quantifier": "all attribute dictionaries, all call sequences", "why_tests_cant": "histories of calls", "anchors": ["src/momlevel/trend.py: deseason"]}
{"id": "C60", "title": "seasonal_cycle_model honours daysinyear", "statement": "The fitted model depends on the scalar daysinyear argument as documented. (False: every scalar is treated as 365.)", "quantifier": "all scalars", "why_tests_cant": "all values", "anchors": ["src/momlevel/trend.py: seasonal_cycle_model"]}
{"id": "C61", "title": "deseason's decimal time increases with time", "statement": "The decimal years used by deseason increase along the time axis. (True when all years have one length, false for calendars mixing leap and common years.)", "quantifier": "all daily axes and calendars", "why_tests_cant": "all axis lengths", "anchors": ["src/momlevel/trend.py: deseason, seasonal_cycle_model"]}
{"id": "C62", "title": "generate_daily_timeaxis lists every day once", "statement": "For every calendar with years of at most 366 days the list is exactly the consecutive days from Jan 1 of start_year up to but excluding Jan 1 of start_year+nyears.", "quantifier": "all start years, lengths, calendars", "why_tests_cant": "all years", "anchors": ["src/momlevel/test_data/time.py: generate_daily_timeaxis"]}
{"id": "C63", "title": "generate_time_stub bounds tile the period", "statement": "Time bounds are contiguous, start at Jan 1 of start_year and end at Jan 1 of start_year+nyears; each time is the midpoint of its bounds; average_DT is positive and sums to the full length; monthly stubs have 12*nyears points; other frequencies raise.", "quantifier": "all start years, lengths, calendars, frequencies", "why_tests_cant": "all years", "anchors": ["src/momlevel/test_data/time.py: generate_time_stub"]}
{"id": "C64", "title": "PV colormap is consistent", "statement": "get_pv_colormap returns as many levels as colours, levels strictly increasing.", "quantifier": "the one result, all adjacent pairs", "why_tests_cant": "trivially finite but pinned by order", "anchors": ["src/momlevel/util.py: get_pv_colormap"]}
{"id": "C65", "title": "Integer input to the linear EOS coefficients", "statement": "eos.linear.alpha and eos.linear.beta called with an integer-typed temperature array return exactly 0 (np.full_like keeps the integer dtype and truncates -0.2 and 0.8), so they are not the log-derivatives of density for integer dtypes (defect recorded).", "quantifier": "all T, S, p", "why_tests_cant": "the tests only use floating arrays; the claim is for every value", "anchors": ["src/momlevel/eos/linear.py: alpha, beta"]}
{"id": "C66", "title": "Annual steric sea level is the annual average of the monthly one", "statement": "steric(..., annual=True) returns the same reference state as annual=False, and each result variable is annual_average of the variable of the same name; it succeeds exactly when the monthly computation does and every year has twelve samples. A time coordinate that is not called 'time' raises a KeyError because the coordinate name is not passed on (defect recorded).", "quantifier": "all datasets, calendars, requests", "why_tests_cant": "the tests use one synthetic dataset whose time coordinate is 'time'", "anchors": ["src/momlevel/steric.py: steric (annual)", "src/momlevel/util.py: annual_average"]}
{"id": "C67", "title": "extract_tidegauge rejects coordinates with different dimensions", "statement": "x and y coordinates whose dimensions differ raise an AssertionError. (True for different numbers of dimensions. False for another order of the same dimensions: the check compares the x coordinate with itself, and on a square grid the series of a wrong cell is returned although a wet cell lies exactly at the gauge.)", "quantifier": "all coordinate pairs", "why_tests_cant": "all dimension orders", "anchors": ["src/momlevel/tidegauge.py: extract_tidegauge"]}
{"id": "C68", "title": "broadcast_trend(subtract_time_zero=True) starts every line at zero", "statement": "With subtract_time_zero=True broadcast_trend returns the broadcast line minus its value at the first point of the given axis, for an axis of any name. (False: the dimension is hard-coded as 'time', any other axis name raises ValueError; true for an axis called 'time'.)", "quantifier": "all slopes, all axes and axis names", "why_tests_cant": "all names and axes", "anchors": ["src/momlevel/trend.py: broadcast_trend"]}
{"id": "C69", "title": "deseason honours tdim", "statement": "deseason works along the dimension named by tdim, whatever its name. (False: the coordinate and the dimension of the result must be called 'time'.)", "quantifier": "all dimension names, all formats", "why_tests_cant": "all names", "anchors": ["src/momlevel/trend.py: deseason"]}
{"id": "C70", "title": "seasonal_model honours tcoord", "statement": "seasonal_model works along the coordinate named by tcoord, whatever its name. (False: any other name than 'time' fails.)", "quantifier": "all coordinate names, all arrays", "why_tests_cant": "all names", "anchors": ["src/momlevel/trend.py: seasonal_model"]}
{"id": "C71", "title": "Coefficients of a plain series", "statement": "deseason with output_format='coeff' returns the six coefficients for every number of dimensions. (False: a series with time as its only dimension raises a TypeError.)", "quantifier": "all arrays, all chunkings", "why_tests_cant": "all dimensionalities", "anchors": ["src/momlevel/trend.py: deseason, _detrend_deseason_chunk"]}
{"id": "C72", "title": "Labels of the seasonal model", "statement": "The model and residuals returned by seasonal_model carry names derived from the input (standard_name with suffix, long_name with prefix, defaults if absent) and the units of the input.", "quantifier": "all attribute dictionaries", "why_tests_cant": "all combinations of attributes", "anchors": ["src/momlevel/trend.py: seasonal_model"]}
{"id": "C73", "title": "seasonal_model's decimal years increase with time", "statement": "The decimal years used by seasonal_model increase from one hour to a later one. (True for years without leap day; false in leap years, where 31 December coincides with the next 1 January.)", "quantifier": "all calendars, all times", "why_tests_cant": "all pairs of dates", "anchors": ["src/momlevel/trend.py: seasonal_model"]}
{"id": "C74", "title": "Generated test data is valid input", "statement": "generate_test_data returns a dataset that validate_dataset accepts in strict mode and on which steric succeeds for both equations of state, all three variants and both domains, for every seed, calendar, start year and number of years, provided the 25 random cell areas do not sum to zero and the uniform draws are non-negative.", "quantifier": "all random generators, seeds, calendars, years", "why_tests_cant": "the tests use one fixed seed", "anchors": ["src/momlevel/test_data/__init__.py: generate_test_data"]}
{"id": "C75", "title": "xy_fields makes a global five by five grid", "statement": "xy_fields adds, at each of the four staggered points, the two index coordinates, cell centres that divide 360 by 180 degrees into 25 equal cells, and areas that sum to exactly 361110920 km2 for all draws whose sum is not zero (positive where the draws are); validate_areacello accepts them at every positive tolerance; other variables stay; an unknown point raises KeyError.", "quantifier": "all generators, seeds, datasets, point names", "why_tests_cant": "all draws", "anchors": ["src/momlevel/test_data/horizontal.py: xy_fields"]}
{"id": "C76", "title": "zlevel_fields makes a consistent vertical grid", "statement": "zlevel_fields adds six interfaces and five levels, each level halfway between its interfaces; the depth, if requested, lies in row j between 0 and interface j+1, and the horizontal grid is added only when it is absent.", "quantifier": "all generators, seeds, datasets", "why_tests_cant": "all datasets and draws", "anchors": ["src/momlevel/test_data/vertical.py: zlevel_fields"]}
{"id": "C77", "title": "Which random stream feeds which field", "statement": "In generate_test_data temperature, salinity and volume read the same draws of the given seed, so salinity and volume are affine functions of temperature, while areas and depths read the draws of seed 123 whatever the seed; all rows of depths read the same five draws.", "quantifier": "all generators, seeds, calendars, years", "why_tests_cant": "all seeds", "anchors": ["src/momlevel/test_data/__init__.py: generate_test_data"]}
{"id": "C78", "title": "Monthly test data and time averages", "statement": "generate_test_data_time gives two fields on (time, lat, lon), one sample per month, drawn from the seeds s and 2s (equal for seed 0); monthly_average returns it unchanged, with the same time axis; annual_average gives one value per year, the month-length weighted mean of the year's twelve samples, at the middle of the year; unknown frequencies raise ValueError.", "quantifier": "all generators, calendars, years, seeds", "why_tests_cant": "all calendars and start years", "anchors": ["src/momlevel/test_data/__init__.py: generate_test_data_time", "src/momlevel/util.py: monthly_average, annual_average"]}
{"id": "C79", "title": "Test data for cell thicknesses", "statement": "generate_test_data_dz has levels midway between interfaces and a depth that is missing in exactly two cells; calc_dz accepts it, every thickness lies between 0 and the layer thickness, and the thicknesses of a column add up to its depth (0 where missing).", "quantifier": "all generators and seeds", "why_tests_cant": "all draws", "anchors": ["src/momlevel/test_data/__init__.py: generate_test_data_dz", "src/momlevel/derived.py: calc_dz"]}
{"id": "C80", "title": "Test data for vorticity", "statement": "generate_test_data_uv gives velocities, Coriolis parameter and corner areas that all read the same draws; calc_rel_vort with default arguments accepts it and equals at interior corners the circulation of the drawn velocities divided by the drawn area.", "quantifier": "all generators, seeds, calendars, years", "why_tests_cant": "all draws", "anchors": ["src/momlevel/test_data/__init__.py: generate_test_data_uv", "src/momlevel/derived.py: calc_rel_vort"]}
{"id": "C81", "title": "Coordinate labels that agree do not matter", "statement": "When the supplied reference has the coordinate labels of the dataset, steric computed with xarray's alignment of labels gives exactly the result (or exception) of the computation by position, for every variant and domain.", "quantifier": "all datasets, references, labels, variants, domains, equations of state", "why_tests_cant": "all labels", "anchors": ["src/momlevel/steric.py: steric", "src/momlevel/derived.py: calc_rho"]}
{"id": "C82", "title": "Reference with other labels: local height", "statement": "Local steric height against a supplied reference compares data and reference label by label and sums over the levels of the reference: a run succeeds only if the reference's labels occur among those of the data in the same order, and levels of the data that the reference lacks are left out without notice. Thermosteric and halosteric runs, local or global, succeed only with equal labels.", "quantifier": "all datasets and references with distinct labels, all equations of state", "why_tests_cant": "all pairs of label lists", "anchors": ["src/momlevel/steric.py: steric", "src/momlevel/derived.py: calc_rho, calc_dz"]}
{"id": "C83", "title": "Reference with other labels: global height", "statement": "Global steric sea level is zero when the data have the density of the reference at every label that both have. (False: the mass is summed over the common labels only, while volume and mean density are those of the whole reference.)", "quantifier": "all datasets and references with distinct labels", "why_tests_cant": "all pairs of label lists", "anchors": ["src/momlevel/steric.py: steric", "src/momlevel/derived.py: calc_masso"]}
{"id": "C84", "title": "Results carry long_name and units", "statement": "The result of every calculation function (calc_alpha \u2026 calc_wave_speed, inverse_barometer, standard_grid_cell_area) has the attributes long_name and units; units agree between fields of the same kind, and the equation of state and reference level used are recorded. (False for calc_rossby_rd and calc_wave_speed, whose key is misspelt 'long name'.)", "quantifier": "all functions, equation-of-state names and levels", "why_tests_cant": "all names and levels; no test looks at attributes of these functions", "anchors": ["src/momlevel/derived.py: attrs of every calc_ function", "src/momlevel/dynamic.py: inverse_barometer"]}
{"id": "C85", "title": "Unit string of potential vorticity", "statement": "The numbers returned by calc_pv, in the unit named by the units attribute, are the potential vorticity (its absolute value for units='cm'). (False for units='cm': the label '10^14 cm-1 s-1' multiplies by 10^14 once more instead of dividing, a factor of 10^28.)", "quantifier": "all inputs", "why_tests_cant": "tests compare numbers, not numbers times units", "anchors": ["src/momlevel/derived.py: calc_pv"]}
{"id": "C86", "title": "Attributes of adjusted N2", "statement": "adjust_negative_n2 keeps every attribute of its argument except 'comment', which says that an adjustment was made; calc_n2 is labelled with or without adjustment and the comment tells which.", "quantifier": "all attribute dictionaries", "why_tests_cant": "all dictionaries", "anchors": ["src/momlevel/derived.py: adjust_negative_n2, calc_n2"]}
{"id": "C87", "title": "Metadata of steric results", "statement": "Every variable of a successful steric run has a long_name (naming the variant) and units, coordinates have the attributes of the input's, and every variable is marked to be written as dtype. (The last is false for annual=True: averaging loses the encoding.)", "quantifier": "all successful runs, dtypes, attribute dictionaries", "why_tests_cant": "the tests do not look at encodings", "anchors": ["src/momlevel/steric.py: steric"]}
{"id": "C88", "title": "annual_average carries attributes over", "statement": "annual_average of a Dataset keeps the global attributes, those of every averaged variable and of every coordinate that survives, including the time coordinate. (The last is false when tcoord is not 'time': the result's coordinate is called 'time' and has no attributes.)", "quantifier": "all datasets, attribute dictionaries, time coordinate names", "why_tests_cant": "the tests use one dataset whose time coordinate is 'time'", "anchors": ["src/momlevel/util.py: annual_average"]}
{"id": "C89", "title": "Attributes of extracted gauge series", "statement": "Each series of extract_tidegauge records every column of its row in the mapped table (name, position, distance, grid indices) as attributes and keeps the attributes of the array. (False where a column has the name of an attribute: the column wins.)", "quantifier": "all attribute dictionaries and gauge tables", "why_tests_cant": "all column names", "anchors": ["src/momlevel/tidegauge.py: extract_point"]}
{"id": "C90", "title": "N2 on cell interfaces", "statement": "calc_n2(interfaces=...) gives the buoyancy frequency g(alpha T_z - beta S_z) of the linearly interpolated columns at every cell edge between two levels with data. (False: interpolation masks the outermost edges, and the second-order difference then loses two edges at the top and two at the bottom; with adjust_negative=True it always raises; and with an xgcm that refuses to transform periodic axes it always raises, since the grid is made without periodic=False.)", "quantifier": "all columns, levels, interfaces, equations of state", "why_tests_cant": "no test uses the option", "anchors": ["src/momlevel/derived.py: calc_n2"]}
{"id": "C91", "title": "Rounding error of the equations of state", "statement": "On the oceanographic range every function of the two equations of state, computed with rounding after each operation (unit roundoff u at most 1e-6), is within a fixed multiple of u of its exact value (Wright density: 29071 u, i.e. 4e-12 kg m-3 in double and 0.002 kg m-3 in single precision); the computed density and haline contraction coefficient are positive.", "quantifier": "all temperatures, salinities and pressures of the range; all rounding functions of the standard model", "why_tests_cant": "tests compare single points in one precision", "anchors": ["src/momlevel/eos/wright.py: density, drho_dtemp, drho_dsal, alpha, beta", "src/momlevel/eos/linear.py: density, alpha, beta"]}
{"id": "C92", "title": "Rounding error of the local steric height", "statement": "The local steric height of a column, computed with rounding in any order of summation, is within u (70 + (8.1 + 1.05 d) D / 900) H of the exact one (H column depth, D bound of the density changes, d additions per level): 1e-9 m in double and 6 cm in single precision for any ocean column; it is exactly zero where temperature and salinity equal the reference; a height larger than the bound keeps its sign.", "quantifier": "all columns, orders of summation and rounding functions", "why_tests_cant": "error bounds over all columns", "anchors": ["src/momlevel/steric.py: steric"]}
{"id": "C93", "title": "Coordinates beside the vertical one", "statement": "Which variables of the dataset are marked as coordinates never matters for global requests. A local request fails with ValueError as soon as the dataset has, besides the vertical coordinate, another coordinate that is a scalar (an ensemble member, a reference date) or lies along the vertical only; turning it into an ordinary variable gives the run back, with the same result.", "quantifier": "all datasets, coordinate sets, references, variants, equations of state", "why_tests_cant": "test datasets carry index coordinates only", "anchors": ["src/momlevel/derived.py: calc_dz", "src/momlevel/steric.py: steric"]}
{"id": "C94", "title": "Parts of the domain", "statement": "A local steric request for a part of the domain (some rows, columns or times, in any order, with repetitions), made with the same part of the reference, gives that part of the result for the whole domain. Without a supplied reference this is still true of rows and columns, unless a single one is taken: then the request always fails; it is true of times if the first is kept first.", "quantifier": "all datasets, dimensions other than the vertical ones, lists of positions, variants, equations of state", "why_tests_cant": "tests run on one small domain and never on parts of it", "anchors": ["src/momlevel/steric.py: steric", "src/momlevel/reference.py: setup_reference_state"]}
{"id": "C95", "title": "Order of the cells and choice of times in global results", "statement": "Global steric results, strict validation included, do not change when the rows or columns of the domain are reordered, whether the reference is supplied or computed. With a supplied reference, choosing times before the call or after it is the same; without one, likewise if the first time is kept first.", "quantifier": "all datasets, permutations, lists of times, variants, equations of state", "why_tests_cant": "tests use a single ordering of one domain", "anchors": ["src/momlevel/steric.py: steric", "src/momlevel/derived.py: calc_masso", "src/momlevel/derived.py: calc_volo", "src/momlevel/util.py: validate_areacello"]}
{"id": "C96", "title": "Diagnostics of a part of the domain", "statement": "Density, thermal expansion and haline contraction, potential density, the inverse barometer, cell heights (with any top, bottom and fraction), buoyancy frequency (on levels or interfaces), stability angle, Coriolis parameter, Rossby radius, relative and potential vorticity of some positions along a dimension are those positions of the result for the whole domain, for any list of positions; the dimension may be any but the vertical ones and, for the vorticities, those of the horizontal grid. For the adjusted buoyancy frequency and the wave speed the dimension must also not be the first one of the array: there the statement is false (a time step on its own is adjusted otherwise than within a series).", "quantifier": "all arrays, positions, dimensions, equations of state, options", "why_tests_cant": "tests use whole arrays of fixed shapes", "anchors": ["src/momlevel/derived.py: calc_rho", "src/momlevel/derived.py: calc_pdens", "src/momlevel/derived.py: calc_dz", "src/momlevel/derived.py: calc_n2", "src/momlevel/derived.py: adjust_negative_n2", "src/momlevel/derived.py: calc_wave_speed", "src/momlevel/derived.py: calc_rel_vort", "src/momlevel/derived.py: calc_pv", "src/momlevel/dynamic.py: inverse_barometer"]}
{"id": "C97", "title": "Time averages, trends and seasonal cycles of a part of the domain", "statement": "Annual averages, monthly averages, annual cycles (of arrays and of datasets, every statistic), linear trends (slope and intercept with their attributes), broadcast trend lines, detrended arrays (both modes), seasonal_model and deseason (every output, whatever the chunks) of some positions along a dimension other than time are those positions of the result for the whole array: nothing is mixed between points.", "quantifier": "all arrays, datasets, positions, dimensions, time axes, chunkings, options", "why_tests_cant": "tests use single points or compare averages over the whole array", "anchors": ["src/momlevel/util.py: annual_average", "src/momlevel/util.py: annual_cycle", "src/momlevel/util.py: monthly_average", "src/momlevel/trend.py: calc_linear_trend", "src/momlevel/trend.py: broadcast_trend", "src/momlevel/trend.py: linear_detrend", "src/momlevel/trend.py: seasonal_model", "src/momlevel/trend.py: deseason"]}
{"id": "C98", "title": "Buoyancy frequency of a stably stratified column", "statement": "With the default equation of state, in a column whose temperature does not rise and whose salinity does not fall with depth (one of them changing), within Wright's oceanic range and where thermal expansion is positive, calc_n2 is positive at every level; if temperature rises and salinity falls it is negative. This holds at every level but the first and the last; there it is false (a mixed layer over a sharp thermocline gives a negative value at the surface), because the derivative is extrapolated with the second-order one-sided difference. For uniform salinity the sign at the two ends is decided by an explicit inequality between the two nearest temperature gradients. In general, at every level, N2 is 9.8 times the relative rate at which Wright's density at the pressure of the level changes in the direction given by the discrete derivatives of temperature and salinity, so its sign is that of this rate.", "quantifier": "all columns, depths, temperatures, salinities, levels", "why_tests_cant": "tests pin down a sum of N2 over one random field", "anchors": ["src/momlevel/derived.py: calc_n2", "src/momlevel/eos/wright.py: alpha", "src/momlevel/eos/wright.py: beta"]}
{"id": "C99", "title": "Mean of the local heights and the global height", "statement": "On a grid whose cell volumes are area times thickness, for each variant and time: with M the area mean of the local heights (reference density rho0), G the global height, g the mean density of the reference and g' that of the time, rho0*M = (V/A)(g - g') and G = (V/A) log(g/g'), hence rho0*M/g <= G <= rho0*M/g'. The two domains thus agree to first order, and the global height is never below the mean local height if rho0 is the mean density of the reference.", "quantifier": "all datasets on such grids, times, variants, equations of state, reference densities", "why_tests_cant": "tests compare each domain with a stored number and never one with the other", "anchors": ["src/momlevel/steric.py: steric", "src/momlevel/reference.py: setup_reference_state", "src/momlevel/derived.py: calc_masso", "src/momlevel/derived.py: calc_dz"]}
{"id": "C100", "title": "Order of dimensions does not matter", "statement": "If the variables of a dataset, of a supplied reference and the pressure are the same arrays with their dimensions in any other order, steric (any variant, domain, renaming, annual averages included) and setup_reference_state fail with the same error or return the same values; so do density, expansion coefficients, potential density, inverse barometer, mass, volume, thickness, Coriolis parameter, Rossby radius, unadjusted buoyancy frequency (also on interfaces), stability angle, relative and potential vorticity, annual and monthly averages, annual cycle, linear trends, trend lines and detrending, seasonal_model and deseason (every output, whatever the chunks).", "quantifier": "all datasets, arrays, orders of dimensions, sizes, options, error cases included", "why_tests_cant": "tests use one order of dimensions throughout", "anchors": ["src/momlevel/steric.py: steric", "src/momlevel/reference.py: setup_reference_state", "src/momlevel/derived.py: calc_dz", "src/momlevel/derived.py: calc_n2", "src/momlevel/derived.py: calc_masso", "src/momlevel/util.py: annual_average", "src/momlevel/util.py: validate_dataset", "src/momlevel/trend.py: linear_detrend"]}
{"id": "C101", "title": "Order of dimensions in the adjustment of negative N2", "statement": "adjust_negative_n2, calc_n2(adjust_negative=True) and calc_wave_speed do not depend on the order of dimensions. False: the surface is taken to be index 0 of whatever dimension comes first, so (time, z_l) data are adjusted otherwise than (z_l, time) data. It holds as long as the same dimension stays first.", "quantifier": "all arrays, orders, sizes", "why_tests_cant": "tests use one order of dimensions", "anchors": ["src/momlevel/derived.py: adjust_negative_n2", "src/momlevel/derived.py: calc_wave_speed", "src/momlevel/derived.py: calc_n2"]}
{"id": "C102", "title": "Labels of density arguments have to match", "statement": "calc_rho, calc_alpha, calc_beta, calc_pdens and inverse_barometer of arrays taken from different objects give a result only if every dimension shared by two arguments carries the same labels in both; otherwise ValueError. The value at each label is the equation of state applied to the arguments at that label.", "quantifier": "all labelled arrays, label types, dimensions, equations of state", "why_tests_cant": "tests use arrays of one dataset; mismatched labels have unboundedly many shapes", "anchors": ["src/momlevel/derived.py: calc_rho", "src/momlevel/derived.py: calc_alpha", "src/momlevel/derived.py: calc_beta", "src/momlevel/derived.py: calc_pdens", "src/momlevel/dynamic.py: inverse_barometer"]}
{"id": "C103", "title": "Mass accounts for every cell", "statement": "calc_masso adds density times volume over every cell of the density and of the volume. False: labels present on one side only are dropped without error (even all of them, which gives mass 0). It holds if the labels agree; in general the sum runs over the common labels, and calc_rhoga has the common times.", "quantifier": "all labelled arrays, dimensions, time coordinate names", "why_tests_cant": "tests use arrays of one dataset", "anchors": ["src/momlevel/derived.py: calc_masso", "src/momlevel/derived.py: calc_rhoga"]}
{"id": "C104", "title": "Wave speed, Rossby radius and potential vorticity of arrays with other labels", "statement": "calc_rossby_rd and calc_pv have exactly the labels common to their arguments and combine values label by label. calc_wave_speed sums over the levels common to N2 and dz; it succeeds exactly if each horizontal label of N2 occurs in dz and raises ValueError otherwise.", "quantifier": "all labelled arrays with z_l first in N2", "why_tests_cant": "tests use arrays of one dataset", "anchors": ["src/momlevel/derived.py: calc_wave_speed", "src/momlevel/derived.py: calc_rossby_rd", "src/momlevel/derived.py: calc_pv"]}
{"id": "C105", "title": "Changes over time do not depend on the reference state", "statement": "Two runs on the same data with two reference states (own or supplied, fixed in time, with the same wet cells) give local steric heights whose change between any two times is the same at every point, for every equation of state. The global steric height changes by V/A*log(m/m') whatever the reference density. Thermosteric and halosteric changes do not depend on the reference with the linear equation of state; with Wright's they do.", "quantifier": "all datasets on an ocean grid, reference states, times, points, equations of state", "why_tests_cant": "tests use a single reference state; the claim compares all pairs of references", "anchors": ["src/momlevel/steric.py: steric", "src/momlevel/reference.py: setup_reference_state"]}
{"id": "C106", "title": "Size of thermosteric and halosteric heights (Wright)", "statement": "With Wright's equation of state and water in the oceanographic range: density rises by between 0.676 and 0.82 kg m-3 per unit of salinity, and changes by between -0.48 and +0.113 kg m-3 per degree of warming. So the halosteric height is at most 0.82/rhozero times the sum over wet cells of thickness*|S-S0|, and, where no cell freshens, at least 0.676/rhozero times that sum (downwards); the thermosteric height is at most 0.48/rhozero times the sum of thickness*|T-T0|, and, where no cell cools, not below -0.113/rhozero times that sum.", "quantifier": "all datasets on an ocean grid with water in the oceanographic range, all points and times", "why_tests_cant": "bounds over a continuum of temperatures, salinities and pressures", "anchors": ["src/momlevel/steric.py: steric", "src/momlevel/eos/wright.py: density"]}
{"id": "C107", "title": "Closure error of the thermosteric and halosteric parts (Wright)", "statement": "With Wright's equation of state the local steric height differs from the sum of thermosteric and halosteric heights by at most 0.0045/rhozero times the sum over wet cells of thickness*|dT|*|dS|. Where temperature and salinity change in the same direction in every cell, the steric height is the larger one; where they change in opposite directions in every cell it is the smaller one; strictly, if some wet cell of positive thickness changes in both.", "quantifier": "all datasets on an ocean grid with water in the oceanographic range, all points and times", "why_tests_cant": "tests do not compare the three variants; the sign depends on the mixed derivative of the equation of state over its whole range", "anchors": ["src/momlevel/steric.py: steric", "src/momlevel/eos/wright.py: density"]}
{"id": "C108", "title": "Averaging before and after (Wright)", "statement": "With the same reference state, the thermosteric height computed from a weighted mean (over times) of the temperature lies below the same mean of the thermosteric heights, by between 0.0015/rhozero and 0.01/rhozero times the sum over wet cells of thickness times the weighted variance of the temperature. Averaging temperature first is thus never equal to averaging the heights where the temperature varies.", "quantifier": "all datasets on an ocean grid with water in the oceanographic range, all finite sets of times and weights >= 0 with sum 1", "why_tests_cant": "quantifies over all weightings and temperature histories", "anchors": ["src/momlevel/steric.py: steric", "src/momlevel/eos/wright.py: density"]}
{"id": "C109", "title": "Buoyancy frequency at every wet cell", "statement": "Over a sea floor (temperature and salinity on the first m of n levels, missing below) calc_n2 gives a finite value at every wet cell. (False: it is defined at level k exactly if level k+1 is wet too and m >= 3, or if m = n. The lowest wet cell over a sea floor is always missing and a column with one or two wet levels has no value at all. Where defined, it is g(alpha T_z - beta S_z) as in a full column.)", "quantifier": "all columns, level heights, wet depths, equations of state", "why_tests_cant": "tests use random fields without a sea floor", "anchors": ["src/momlevel/derived.py: calc_n2"]}
{"id": "C110", "title": "Wave speed and Rossby radius of the whole water column", "statement": "From temperature and salinity over a sea floor (calc_n2, calc_wave_speed, calc_rossby_rd): the wave speed is defined wherever there is water and every wet cell contributes with its thickness. (False: it is missing exactly where fewer than three levels are wet, and the thickness of the lowest wet cell - the partial bottom cell of calc_dz - has no influence unless the water reaches the last level. What holds: finite, non-negative and, if a cell with water below has positive thickness, positive wherever three levels are wet; the radius off the equator is missing exactly where the wave speed is and else is wave speed / |f|.)", "quantifier": "all three-dimensional fields (vertical dimension first) in Wright's oceanographic range, all sea floors, all thicknesses", "why_tests_cant": "tests use random fields without a sea floor", "anchors": ["src/momlevel/derived.py: calc_wave_speed", "src/momlevel/derived.py: calc_n2", "src/momlevel/derived.py: calc_rossby_rd"]}
{"id": "C111", "title": "The origin of time does not matter to seasonal_model", "statement": "If the decimal years of two time axes differ by a constant, seasonal_model gives the same model and residual on both; in particular moving all dates by a number of years that maps leap years to leap years changes nothing.", "quantifier": "all arrays, axes, calendars and shifts", "why_tests_cant": "all axes", "anchors": ["src/momlevel/trend.py: seasonal_model"]}
{"id": "C112", "title": "deseason and seasonal_model agree on daily data", "statement": "On gap-free daily data deseason and seasonal_model return the same model and the same residuals. (True without leap years; false in leap years, where one counts years of 366 days and the other years of 365 days, and false for the 360-day calendar.)", "quantifier": "all daily axes, all data with or without missing values", "why_tests_cant": "all axes; the tests never compare the two functions", "anchors": ["src/momlevel/trend.py: deseason, seasonal_cycle_model, seasonal_model"]}
{"id": "C113", "title": "deseason removes an annual cycle", "statement": "The residuals of a pure annual cycle are zero, whatever the sampling of the time axis. (False: time is counted in samples of a day. In years of one length an annual cycle with p samples per year is removed exactly if p is the number of days of the year or half of it; twelve monthly values keep theirs, whatever amplitude, phase and length.)", "quantifier": "all amplitudes, phases, sampling rates above two per year, lengths from eight samples", "why_tests_cant": "tests use daily data only", "anchors": ["src/momlevel/trend.py: deseason, seasonal_cycle_model"]}
{"id": "C114", "title": "Seasonal residuals have no linear trend", "statement": "calc_linear_trend of the residuals of seasonal_model (or of deseason on daily data) is zero. (True in the calendar without leap years at whole hours; false in other calendars, where decimal years are not proportional to time.)", "quantifier": "all arrays, axes and units", "why_tests_cant": "the tests never compose the functions", "anchors": ["src/momlevel/trend.py: seasonal_model, deseason, calc_linear_trend"]}
{"id": "C115", "title": "Trend per year", "statement": "With time_units='yr' the slope of a series linear in time is its change from a date to the same date of the next year. (False: 'yr' means 365 days in every calendar; true exactly if the year has 365 days; 73/72 of the change in the 360-day calendar.)", "quantifier": "all linear series, calendars and pairs of dates", "why_tests_cant": "tests use one calendar", "anchors": ["src/momlevel/trend.py: calc_linear_trend, time_conversion_factor"]}
{"id": "C116", "title": "Parts of the input of geolocate_points", "statement": "Mapping a list of locations is mapping its parts: a concatenation maps exactly if both parts do, and rows and warnings are concatenated. Rows of the model frame outside the mask play no role. A smaller threshold selects rows from the result of a larger one. More usable points never give larger distances. The order of the model points affects neither distances nor, where the nearest point is unique, the point chosen.", "quantifier": "all frames, thresholds, masks, radii and every nearest-neighbour structure", "why_tests_cant": "one frame and one list are tested", "anchors": ["src/momlevel/util.py: geolocate_points"]}
{"id": "C117", "title": "annual_cycle of daily data and of its monthly averages", "statement": "The mean annual cycle of complete daily data equals the mean annual cycle of monthly_average of these data. (True for every month of one length in all years; false for February with leap years, where the first weights the years by the length of the month and the second equally.)", "quantifier": "all arrays without missing values, all complete daily axes and calendars", "why_tests_cant": "the tests never compose the functions", "anchors": ["src/momlevel/util.py: annual_cycle, monthly_average"]}
{"id": "C118", "title": "Averages and trends of a superposition", "statement": "For a*u + b*v (without missing values) annual_average, monthly_average and annual_cycle (mean) return a times the result for u plus b times the result for v; the slope and intercept of calc_linear_trend and the output of linear_detrend likewise. So do residuals, model and coefficients of deseason, whatever the chunks of the three arrays.", "quantifier": "all real coefficients, all arrays without missing values on one time axis, all calendars", "why_tests_cant": "the tests check single series", "anchors": ["src/momlevel/util.py: annual_average, monthly_average, annual_cycle", "src/momlevel/trend.py: calc_linear_trend, linear_detrend"]}
{"id": "C119", "title": "Wave speed and stratification of a column", "statement": "Raising N2 at a level never lowers calc_wave_speed. (True when no level is unstable; false otherwise, since a negative N2 is replaced by a neighbouring value.) For a stable column the wave speed lies between sqrt(min N2)*H/pi and sqrt(max N2)*H/pi, scales with the square root of N2 and with the thickness, and does not change when a layer is cut in two.", "quantifier": "all N2 columns, thicknesses, numbers of levels", "why_tests_cant": "the tests compare one recorded sum", "anchors": ["src/momlevel/derived.py: calc_wave_speed, adjust_negative_n2"]}
{"id": "C120", "title": "Cutting layers into thinner ones", "statement": "When the layers of a grid are cut into thinner ones, the thicknesses calc_dz gives to the parts of a layer add up to the thickness of the layer, and with the linear equation of state neither the local nor the global steric, thermosteric and halosteric heights change. (With Wright's equation they do change.)", "quantifier": "all grids and refinements, bathymetries, times and points, masks", "why_tests_cant": "the tests use a single vertical grid", "anchors": ["src/momlevel/derived.py: calc_dz", "src/momlevel/steric.py: steric"]}
{"id": "C121", "title": "Cell volumes and areas as factors", "statement": "If all cell volumes are multiplied by c > 0 and all areas by q > 0, volo and masso are multiplied by c, rhoga is unchanged, and the global heights and reference_height are multiplied by c/q. The local heights do not depend on areacello at all, and on volcello only through which cells are missing.", "quantifier": "all datasets, equations of state, variants, times, factors", "why_tests_cant": "the tests use one set of cell sizes", "anchors": ["src/momlevel/steric.py: steric", "src/momlevel/reference.py: setup_reference_state", "src/momlevel/derived.py: calc_masso, calc_volo, calc_rhoga"]}
{"id": "C122", "title": "Rounding error of the global steric height", "statement": "With Wright's equation of state, in any floating-point format with rounding to nearest and with any order of the additions, the computed global height differs from the exact one by at most u(H(97+1.05(d_m+d_0)) + (1.05(d_V+d_A+kappa)+2.1)|h| + w), u the unit roundoff, w the smallest normal number, H volume over area (at least 1 m, areas at least 1 m2) and d the numbers of additions per cell: 3e-8 m in double precision (10000 additions per cell), 21 cm in single precision (100 additions). It is exactly 0 where nothing changes. With p binary digits it is 0 or at least 0.99 H/2^p: heights below about 0.2 mm cannot be represented in single precision.", "quantifier": "all oceans in the range of validity, all summation orders, all formats with at least 20 digits, all logarithms with relative error kappa*u", "why_tests_cant": "the tests compare recorded sums with a relative tolerance, in double precision only", "anchors": ["src/momlevel/steric.py: steric", "src/momlevel/derived.py: calc_masso, calc_volo, calc_rhoga", "src/momlevel/eos/wright.py: density"]}
{"id": "C123", "title": "Gauge extraction commutes with time averages and trends", "statement": "extract_tidegauge only picks series: two arrays on the same grid that differ in their values and along the time dimension give the same gauges, each at the same cell. Hence extracting from the annual averages, monthly averages, annual cycles (every statistic), slopes and intercepts of an array gives the annual averages, monthly averages, annual cycles, slopes and intercepts of the extracted series. Residuals and model of deseason may likewise be computed before or after the extraction.", "quantifier": "all arrays, coordinates (one- or two-dimensional, by name or as arrays), masks, thresholds, gauge tables, time axes", "why_tests_cant": "the tests extract from one array and never combine extraction with an average or a trend", "anchors": ["src/momlevel/tidegauge.py: extract_tidegauge, extract_point", "src/momlevel/util.py: annual_average, monthly_average, annual_cycle", "src/momlevel/trend.py: calc_linear_trend"]}
{"id": "C124", "title": "Averages preserve order and do not amplify errors", "statement": "If one series exceeds another by at most d at every sample (same gaps), then so do their annual averages, monthly averages and mean, minimum and maximum annual cycles; d = 0 is preservation of order. If the series differ by at most d, so do the standard deviations of the annual cycle.", "quantifier": "all series with gaps, all time axes and calendars, all d", "why_tests_cant": "the tests average single series and compare recorded values", "anchors": ["src/momlevel/util.py: annual_average, monthly_average, annual_cycle"]}
{"id": "C125", "title": "Thicknesses within depth ranges", "statement": "calc_dz(top, bottom) gives every cell its overlap with the range plus max(0, min(b - max(top, D), min(top, D) - a)), a and b the ends of the cell and D = min(depth, bottom). In a column at most one layer is affected, by at most half its thickness, so the sum over the column exceeds the length of the range by at most that. The thicknesses of two adjacent ranges add up to at least those of the joint range, and exactly if the ranges meet at an interface. A wider range never gives less.", "quantifier": "all grids, bathymetries with gaps, all top and bottom", "why_tests_cant": "the tests use ranges whose ends lie in different layers", "anchors": ["src/momlevel/derived.py: calc_dz"]}
{"id": "C126", "title": "Rounding of calc_dz", "statement": "In floating point with any monotone rounding, every thickness of calc_dz is the exact thickness rounded once, whatever the boundaries, so its relative error is at most the unit roundoff (above the underflow threshold) and a deeper sea floor or a higher top never gives less. The computed fraction stays within [0, 1] and is exactly 1 in complete cells. With the first interface at 0 the thicknesses of a column, added up in any order, give min(depth, last interface) within (1+u)^(d+1) - 1 (d additions deep). With depths in whole metres (below 2^p) thicknesses and sums are exact. Rounding to nearest with p digits is monotone.", "quantifier": "all interfaces, depths and boundaries, all formats, all orders of summation", "why_tests_cant": "the tests use a handful of round numbers in double precision", "anchors": ["src/momlevel/derived.py: calc_dz"]}
{"id": "C127", "title": "Rounding of averages in time", "statement": "The annual average computed in floating point, in any order of summation, differs from the exact one by at most (1+u)^(d+2) - 1 times the average of the absolute values; monthly averages and mean annual cycles by (1+u)^(d+1) - 1. The sum of the weights is exact as long as it fits the format. For whole samples whose weighted sum fits the format the computed weighted average is the exact one rounded once.", "quantifier": "all series with gaps, calendars, formats of at least 9 digits, all orders of summation", "why_tests_cant": "the tests compare recorded values to a tolerance", "anchors": ["src/momlevel/util.py: annual_average, monthly_average, annual_cycle"]}
{"id": "C128", "title": "Spiciness rises with temperature and salinity", "statement": "Warmer water of the same salinity and saltier water of the same temperature is spicier, over the whole range of oceanic conditions (-2 to 40 degC, salinity 0 to 42). False: the polynomial is used without a check of its range; at salinity 10 warming from 10 to 15 degC lowers calc_spice by more than 19, at 10 degC raising the salinity from 5 to 15 lowers it by more than 12. True for salinities from 30 to 39 and -2 to 40 degC (temperature), 30 to 40 and -2 to 35 degC (salinity).", "quantifier": "all fields of temperature and salinity", "why_tests_cant": "one recorded sum of spiciness says nothing about its slope", "anchors": ["src/momlevel/spice/flament.py: spice", "src/momlevel/derived.py: calc_spice"]}
{"id": "C129", "title": "Size of trends", "statement": "The slope of calc_linear_trend lies between the smallest and the largest rate of change between two valid samples; it is not negative (positive) if the series never falls (and rises somewhere), and likewise for falling series. Moving every sample by at most e moves the slope by at most e * sum|t - tm| / sum (t - tm)^2. Removing the trend never increases the sum of squared departures from any constant.", "quantifier": "all series with gaps, axes and time units", "why_tests_cant": "tests fit a few made-up lines", "anchors": ["src/momlevel/trend.py: calc_linear_trend, linear_detrend"]}
{"id": "C130", "title": "The solver's cut-off does not disturb trends", "statement": "The least-squares solver drops singular values below n*eps times the largest. On an axis of n points at least d apart and at most M from the origin this never changes calc_linear_trend when 2 n^2 eps M < d, wherever values are missing; for complete series 8 eps M < d is enough. In double precision it never acts on up to 20000 daily or 100000 monthly values within ten thousand years of 1970. For two neighbouring doubles near 1e16 it does act.", "quantifier": "all axes, series, gaps and numbers of points", "why_tests_cant": "the condition depends on the length, origin and spacing of the axis", "anchors": ["src/momlevel/trend.py: calc_linear_trend"]}
{"id": "C131", "title": "Wave speed and Rossby radius in floating point", "statement": "Computed in floating point with relative rounding error u per operation, calc_wave_speed differs from its exact value by a relative error of at most (1+u)^(d+3)/(1-u) - 1, d the depth of the summation tree, whatever the order in which the layers are added; calc_rossby_rd has one factor (1+u) more. In double precision with up to 75 levels the relative error of both is at most 1e-14.", "quantifier": "all columns of layer thicknesses and buoyancy frequencies, all orders of summation, all roundings", "why_tests_cant": "tests compare one recorded sum on one machine", "anchors": ["src/momlevel/derived.py: calc_wave_speed, calc_rossby_rd"]}
{"id": "C132", "title": "Vorticity in floating point", "statement": "Computed in floating point, calc_rel_vort differs from the exact circulation per area by at most ((1+u)^4 - 1) times the sum of the magnitudes of the four edge contributions divided by the cell area. calc_pv without interpolation has a relative error of at most (1+u)^3 - 1, so in double precision it always has the right sign.", "quantifier": "all velocities, cell sizes, areas, Coriolis parameters and buoyancy frequencies; all roundings", "why_tests_cant": "tests compare one recorded sum on one machine", "anchors": ["src/momlevel/derived.py: calc_rel_vort, calc_pv"]}
{"id": "C133", "title": "Buoyancy frequency in floating point", "statement": "Computed in floating point with Wright's equation of state, calc_n2 differs from its exact value by at most |g| u (0.47|dT/dz| + 0.21|dS/dz| + 14/h), u the unit roundoff and h the smallest distance between levels, for temperatures -2..40, salinities 0..42, depths to 9900 m and surface pressures to 1e6 Pa, also where numpy's gradient takes the formula for equal spacing because the rounded spacings agree. In double precision with levels at least 1 m apart and gradients up to 10 per metre the error is at most 2.4e-14 s-2 and larger values have the right sign; uniform water gives at most 14 |g| u / h instead of zero.", "quantifier": "all columns with increasing depths in the stated range, all levels, all roundings with unit roundoff at most 1e-6 (no underflow)", "why_tests_cant": "tests compare one recorded value on one machine", "anchors": ["src/momlevel/derived.py: calc_n2"]}
{"id": "C134", "title": "Curvature of Wright's equation of state and what it does to steric heights", "statement": "On the oceanic range, Wright's density falls more per degree in warmer water (0.003 to 0.02 kg/m3 per degree squared) and under higher pressure, salt adds less under pressure, density rises with pressure by 3e-7 to 5.3e-7 kg/m3 per Pa, mixing two waters of one salinity never lightens them, alpha increases strictly with temperature and pressure and beta decreases strictly with pressure. Hence two columns of equal depth, mask and reference salinity with the same warming: the warmer one rises more, by at least 0.003/rhozero times the sum of thickness, warming and difference of initial temperature; and a run with larger patm gives a larger thermosteric height for the same warming, by 5e-10 to 4.5e-9 per Pa over rhozero times the sum of thickness and warming.", "quantifier": "all temperatures, salinities and pressures in the oceanic range; all datasets, columns, masks, surface pressures", "why_tests_cant": "tests compare a few recorded values", "anchors": ["src/momlevel/eos/wright.py: density, alpha, beta", "src/momlevel/steric.py: thermosteric"]}
{"id": "C135", "title": "Averages in time of a linear series stay on its line", "statement": "Samples at the middle of the months of a series that is linear in time: every annual average is the value of the same line at the time stamped on it, so the trend and the intercept calc_linear_trend finds in the annual averages are those of the samples. Complete daily samples at one time of day: the monthly averages lie on a parallel line, so their trend is that of the samples; they lie on the line of the samples when the time of day is noon and at no other time of day (unless the slope is zero): daily data stamped at midnight, as generate_daily_timeaxis makes them, give monthly averages half a day behind.", "quantifier": "all calendars, years, slopes, intercepts, times of day, array shapes", "why_tests_cant": "needs every calendar, year and slope; tests use random data", "anchors": ["src/momlevel/util.py: annual_average, monthly_average", "src/momlevel/trend.py: calc_linear_trend"]}
{"id": "C136", "title": "Rounding error of spiciness", "statement": "Spiciness computed in floating point: in whatever order the thirty terms are added up, the result differs from the exact polynomial by at most ((1+u)^(7+d) (1+v)^2 - 1) times the sum of the magnitudes of the terms (u the unit roundoff, v the relative accuracy of the library's powers, d the largest number of additions a term goes through). For temperatures of magnitude up to 40 and salinities from 30 to 40 that sum is at most 327, so with powers right to two units of roundoff calc_spice is right to 2e-12 in double and to 1e-3 in single precision.", "quantifier": "all finite temperatures and salinities, array shapes, orders of summation, rounding functions with the standard error bound for which 35 is representable", "why_tests_cant": "a bound over all inputs and all summation orders; tests compare one printed value", "anchors": ["src/momlevel/spice/flament.py: spice", "src/momlevel/derived.py: calc_spice"]}
{"id": "C137", "title": "Levels without depths count as 0, 1, 2, \u2026 metres", "statement": "A dataset whose vertical dimension has no coordinate values is not rejected by steric: for the global domain the result and the reference state are exactly those of the same dataset with the depths 0, 1, 2, \u2026 metres, for every variant, equation of state and reference. In the reference state of such a dataset level k has the density at the pressure 10000 k + patm, however deep it is.", "quantifier": "all datasets, coordinate names, variants, equations of state, references", "why_tests_cant": "tests always use data with depths; the silent fallback is xarray's", "anchors": ["src/momlevel/steric.py: steric", "src/momlevel/reference.py: setup_reference_state"]}
{"id": "C138", "title": "Local sea level without depths has a spurious dimension", "statement": "If the levels have no coordinate values, calc_dz does not compare the numbers of levels and interfaces, and its result has a dimension dim_0 with one entry per layer besides the vertical dimension, along which it is constant. Local steric of a dataset whose vertical dimension has no coordinate fails if another coordinate lies along that dimension alone or if exactly one coordinate is a scalar; otherwise it succeeds where it does with the depths 0, 1, 2, \u2026 metres, with the same reference state and density change; its sea level carries the dimension dim_0, and entry j there is -(1/rhozero) times the thickness of layer j times the sum of the density changes of all levels, where the reference volume at the surface is not missing.", "quantifier": "all datasets without depths, interfaces, sea floors, variants, equations of state, references", "why_tests_cant": "tests always use data with depths; the extra dimension comes from a DataArray built with empty coordinates", "anchors": ["src/momlevel/derived.py: calc_dz", "src/momlevel/steric.py: steric"]}
{"id": "C139", "title": "The linear equation of state rejects a pressure with dimensions of its own", "statement": "calc_rho, calc_alpha and calc_beta with the linear equation of state raise ValueError exactly when the pressure has a dimension that neither temperature nor salinity has and whose length is not 1 (of any length if both are numbers); otherwise they give the linear formulas on the union of the dimensions. With Wright's equation of state every pressure is accepted, on the union of the dimensions. Hence calc_pdens (levels 0 to 7500 m) and inverse_barometer with the linear equation of state raise ValueError when the surface pressure has such a dimension, for instance a pressure series over one steady ocean.", "quantifier": "all arrays, all spellings of the equation of state", "why_tests_cant": "tests use pressures on the grid of the temperature; the error comes from apply_ufunc, since the linear formulas ignore the pressure", "anchors": ["src/momlevel/derived.py: calc_rho, calc_alpha, calc_beta, calc_pdens", "src/momlevel/dynamic.py: inverse_barometer", "src/momlevel/eos/linear.py"]}
{"id": "C140", "title": "Vorticity of flows whose vorticity is known", "statement": "At every corner with centres on both sides, calc_rel_vort gives 0 for a flow with a velocity potential on the centres, b - c on a Cartesian grid of any uneven spacing when u changes by c per metre northward and v by b per metre eastward (whatever else u does eastward and v northward), and hence 2*Omega for solid-body rotation about any point. In the last row of corners of a non-symmetric grid the edge outside the grid carries nothing: a flow that is the same in every row has the vorticity u*dx/area there, which is not zero.", "quantifier": "all sizes, spacings, potentials, rates; symmetric and not", "why_tests_cant": "the tests compare sums over random velocities with stored numbers", "anchors": ["src/momlevel/derived.py: calc_rel_vort"]}
{"id": "C141", "title": "Which samples a trend depends on", "statement": "calc_linear_trend gives the same slope and intercept for two series with the same valid samples (positions and values), in any order and with any missing samples in between, provided two valid samples lie at different positions. If all valid samples lie at one position t0, with mean v, the slope is v*t0*n/D and the intercept v*T/D with T the sum of the squared positions of all n samples, missing ones included, and D = t0^2*n + T; so a lone non-zero sample has a non-zero slope that depends on the positions of the missing samples, and linear_detrend(mode='correct') changes its value.", "quantifier": "all arrays, axes, units, orders", "why_tests_cant": "tests use complete series in order of time; the lone sample needs the scaling inside polyfit", "anchors": ["src/momlevel/trend.py: calc_linear_trend, linear_detrend"]}
{"id": "C142", "title": "Metadata of the reference state", "statement": "setup_reference_state returns thetao, so, volcello, rho, volo, masso, rhoga and areacello in this order. thetao, so, volcello and areacello carry the attributes they had in the input; rho, volo, masso and rhoga have a long_name and units, with units kg m-3, m3, kg and kg m-3, and rho's comment names the equation of state as it was passed. steric's own reference takes the attributes from the variables that varname_map renames to these, and a reference that is passed is returned with its attributes.", "quantifier": "all datasets, attributes, maps of names, names of equations of state", "why_tests_cant": "the tests compare sums of values and never look at the attributes of the reference", "anchors": ["src/momlevel/reference.py: setup_reference_state", "src/momlevel/steric.py: steric"]}
{"id": "C143", "title": "Inverse barometer and potential density in floating point", "statement": "With numbers of relative precision u, the inverse barometer height differs from -p/(rho*g) by at most 611*u metres (Wright) and 79*u metres (linear) for -2..40 degC, 0..42 psu, pressures up to 1200 hPa and g between 9.7 and 9.9: 7e-14 m in double and 4e-5 m in single precision. The potential density for levels between 0 and 7500 m differs from Wright's formula by at most 28948*u kg/m3.", "quantifier": "all values in the ranges, every rounding to nearest of at least 20 bits", "why_tests_cant": "a test sees single inputs in one precision", "anchors": ["src/momlevel/dynamic.py: inverse_barometer", "src/momlevel/derived.py: calc_pdens"]}
{"id": "C144", "title": "No overflow on the oceanographic range", "statement": "With numbers that round, overflow to infinity beyond a largest number M and give inf or NaN for a division by zero, the density, its derivatives and coefficients (Wright and linear), the inverse barometer, the potential density and the local steric height of a column of up to a million levels are finite on the oceanographic range whenever M >= 1e20 (single precision: 3.4e38), so the error bounds of C91, C92 and C143 hold for them. A missing temperature, salinity or pressure makes Wright's density, derivatives and coefficients missing. In half precision (M = 65504) Wright's density is missing everywhere, because the constant 5.790749e8 is infinite.", "quantifier": "all values in the ranges, every rounding of at least 20 bits, every order of summation; for half precision all inputs", "why_tests_cant": "tests use double precision on a few inputs", "anchors": ["src/momlevel/eos/wright.py", "src/momlevel/eos/linear.py", "src/momlevel/dynamic.py: inverse_barometer", "src/momlevel/derived.py: calc_pdens", "src/momlevel/steric.py: steric"]}
{"id": "C145", "title": "Cells centred on a pole, and uneven axes", "statement": "A cell of standard_grid_cell_area centred on a pole has area zero. On a uniform grid with centres on both poles (-90, -90+d, ..., 90) the areas add up to 4 pi r^2 cos(d/2), less than the surface of the sphere: the polar caps are missing. The spacing of every cell is that of the first two entries of each axis, so the later entries of an uneven axis do not change the size of a cell.", "quantifier": "all latitudes, longitudes and radii; both directions", "why_tests_cant": "the tests use one grid without cells on the poles", "anchors": ["src/momlevel/util.py: standard_grid_cell_area"]}
{"id": "C146", "title": "Extremes and spread of daily data and of its monthly averages", "statement": "For complete daily data, the minimum over the years of the monthly averages lies between the minimum and the maximum over all days of that calendar month: annual_cycle of the daily data with min <= annual_cycle of monthly_average with min <= the same with max <= annual_cycle of the daily data with max. The standard deviation of the monthly averages is at most that of the days in every calendar month that has the same length in all years. For February with a leap year among the years it can be larger: every year counts the same in one and every day the same in the other.", "quantifier": "all complete daily axes in every calendar, all finite data, all output years", "why_tests_cant": "the tests only use means of monthly averages of one data set", "anchors": ["src/momlevel/util.py: annual_cycle", "src/momlevel/util.py: monthly_average"]}
{"id": "C147", "title": "Cell areas in floating point", "statement": "In floating point with unit roundoff u <= 1e-6, a cell area of standard_grid_cell_area differs from the area of the quadrangle by at most 1.01 u (pi/180 r^2) ((2k+49) W + (S + (2k+49) u)(6.01 |lon| + 13 W)), with W the width in degrees, S the difference of the sines of the two edges, lon the longitude of the centre, and k the accuracy of the sine function in units of roundoff. The prefactor is computed in Python scalars, at least as precise. The width is the difference of two edges, so its error grows with the longitude and does not shrink with the cell.", "quantifier": "all roundings with relative error u, all axes with latitudes within 90 degrees and spacing at most 180, all radii", "why_tests_cant": "tests compare a few cells in double precision", "anchors": ["src/momlevel/util.py: standard_grid_cell_area"]}
{"id": "C148", "title": "Potential vorticity near land and at the edge of the grid", "statement": "calc_pv with interpolation needs N2 only in the cells beside a corner: the value there is (zeta + f)/g times a quarter of the sum of N2 over the cells beside the corner that are in the grid. If N2 is missing in one of them the result is missing. Within the grid the result lies between those of the smallest and largest neighbour. For uniform N2 it is (zeta + f) N2/g within the grid, but half of it at corners on an edge (the last row and column; on a symmetric grid also the first) and a quarter where two edges meet, because cells outside the grid count as zero. Likewise calc_rel_vort is missing at a corner beside a missing velocity.", "quantifier": "all grids and all fields, symmetric or not; missing values anywhere", "why_tests_cant": "the tests check sums of one random field without land", "anchors": ["src/momlevel/derived.py: calc_pv", "src/momlevel/derived.py: calc_rel_vort", "src/momlevel/util.py: get_xgcm_grid"]}
{"id": "C149", "title": "Regimes of double diffusion", "statement": "Where the stratification is stable (calc_n2 positive, positive expansion and contraction coefficients), calc_stability_angle is within +-45 degrees exactly for warm fresh water over cold salty water, above 45 exactly for warm salty over cold fresh water (where salt fingers grow), below -45 exactly for cold fresh over warm salty water, 45 without a salinity gradient and missing without a temperature gradient. So the docstring, which puts salt fingering below -45 degrees, has the sign wrong. Over a sea floor the angle is missing at the lowest wet level and in columns with fewer than three wet levels, as N2 is.", "quantifier": "all columns over a flat or a raised sea floor, all equations of state", "why_tests_cant": "the tests compare one sum for random data without land; the regimes are a statement on all gradients", "anchors": ["src/momlevel/derived.py: calc_stability_angle", "src/momlevel/derived.py: calc_n2"]}
{"id": "C150", "title": "Mean and variance of seasonal models", "statement": "At every point with a finite series the residuals of seasonal_model and of deseason have mean zero and the model has the mean of the data; the squared deviations of the data from any constant (with the mean: its variance) are those of the model plus the squares of the residuals, so no residual exceeds the spread of the data. For two series on one time axis the squared differences of the models and of the residuals add up to the squared differences of the data: errors are not amplified.", "quantifier": "all finite series, all time axes, all chunkings", "why_tests_cant": "holds for every series and every choice of dates, including the irregular times deseason makes in leap years", "anchors": ["src/momlevel/trend.py: seasonal_model", "src/momlevel/trend.py: deseason"]}
{"id": "C151", "title": "Stability angle and density ratio", "statement": "Where both gradients are defined and the temperature gradient does not vanish, calc_stability_angle is 45 degrees plus the arctangent of the density ratio R if R < 1, 90 degrees if R = 1 and the arctangent minus 135 degrees if R > 1. On either side of 1 it grows with R by at most 180/pi degrees per unit; at R = 1 (neutral stratification) it jumps from +90 to -90 degrees, so that an arbitrarily small change of R can turn the angle by half a turn.", "quantifier": "all density ratios, all columns over a flat or a raised sea floor, all equations of state", "why_tests_cant": "continuum; the jump is at a single ratio", "anchors": ["src/momlevel/derived.py: calc_stability_angle"]}
{"id": "C152", "title": "Order of water masses by potential density", "statement": "With Wright's equation of state, if one of two waters is at least as warm and at least as salty as the other, the excess of its potential density over the other's shrinks strictly with the reference level, by 5e-6 to 45e-6 kg/m3 per metre and degree plus 3e-6 to 10e-6 per metre and salinity unit. Hence if it is not the denser one at some level it is strictly the lighter one at every deeper level: the order of two waters changes at most once. A colder and saltier water is denser at every level. The order does depend on the level: 8 degrees/35.2 is denser than 0 degrees/34 at the surface and lighter at 2000 m.", "quantifier": "all pairs of cells with -2..40 degrees, 0..42 salinity and pressures up to 1e8 Pa, all reference levels", "why_tests_cant": "continuum of pairs of waters and of levels", "anchors": ["src/momlevel/derived.py: calc_pdens", "src/momlevel/eos/wright.py: density"]}
{"id": "C153", "title": "Attributes of monthly averages and climatologies", "statement": "monthly_average and annual_cycle of a Dataset return exactly the numeric variables, each with its own attributes (if xarray's group reductions keep attributes) and without encoding; coordinates off the time axis are unchanged. Unlike annual_average they lose the global attributes and the attributes of the time coordinate, for every Dataset; so annual averages of monthly averages have neither, while annual averages of the data have both.", "quantifier": "all Datasets, all choices of numeric variables and of the time coordinate, xarray keeping attributes or not", "why_tests_cant": "unbounded sets of variables, coordinates and attributes", "anchors": ["src/momlevel/util.py: monthly_average, annual_cycle, annual_average"]}
{"id": "C154", "title": "Response of the inverse barometer", "statement": "With Wright's equation of state a rise of the surface pressure by dp over the same water lowers inverse_barometer by between dp/(1035 g) and dp/(991 g): 0.98 to 1.03 cm per hPa for the default gravity. The height itself lies between -p/(991 g) and -p/(1035 g), about -10 m, since the whole pressure counts and not its departure from a mean; therefore an even pressure gives an uneven height: at 1000 hPa everywhere it is more than 7 cm lower over water of 28 degrees/33 than over water of 0 degrees/35.", "quantifier": "all arrays; water of -2..40 degrees and 0..42 salinity, pressures up to 1200 hPa, all positive gravities", "why_tests_cant": "continuum of waters and pressures", "anchors": ["src/momlevel/dynamic.py: inverse_barometer", "src/momlevel/eos/wright.py: density"]}
{"id": "C155", "title": "Accuracy of vertical derivatives and of the buoyancy frequency", "statement": "On any grid of at least three levels the vertical derivative used by calc_n2 differs from the true derivative of a smooth profile by at most M/6 times the product of the distances to the two other levels it uses (inside: the neighbours; at the ends: the next two), M a bound of the third derivative; for cubics the difference is exactly that. Hence calc_n2 differs from g times (alpha dT/dz - beta dS/dz) by at most |g| (|alpha| MT + |beta| MS)/6 times that product; with Wright's equation of state and default gravity by at most (0.00081 MT + 0.0014 MS) times it.", "quantifier": "all level positions, all three times differentiable profiles, all ocean conditions", "why_tests_cant": "continuum of profiles and grids", "anchors": ["src/momlevel/derived.py: calc_n2"]}
{"id": "C156", "title": "Accuracy of the local steric height", "statement": "With levels in the middle of their cells and a smooth profile of the density anomaly, the local height of every variant differs from -1/rho0 times the integral of the anomaly from the first interface to the sea floor by at most (M/24 sum of cubed thicknesses of the full cells + M1/2 times wet part times full thickness of the bottom cell)/rho0, M and M1 bounds of the second and first derivative; if the sea floor is an interface by at most M H^2/24 times the depth over rho0, H the largest thickness. For a linear anomaly the full cells are exact but the partial bottom cell, whose density is taken at the middle of the full cell, is off by slope times wet part times dry part over 2 rho0.", "quantifier": "all oceans, grids, equations of state, variants, smooth anomaly profiles, sea floors", "why_tests_cant": "continuum of profiles, grids and depths", "anchors": ["src/momlevel/steric.py: steric", "src/momlevel/derived.py: calc_dz"]}
{"id": "C157", "title": "Accuracy of the relative vorticity", "statement": "On a Cartesian grid of any spacing with corners half way between centres, calc_rel_vort of a smooth flow differs from dv/dx - du/dy at every corner with centres on both sides by at most (Mv dx^2 + Mu dy^2)/24, Mv and Mu bounds of the third derivatives; for u = p(x) - c y^3, v = q(y) + b x^3 it exceeds the true vorticity by exactly (b dx^2 + c dy^2)/4.", "quantifier": "all Cartesian grids, smooth flows, symmetric or not", "why_tests_cant": "continuum of flows and grids", "anchors": ["src/momlevel/derived.py: calc_rel_vort"]}
{"id": "C158", "title": "Accuracy of the wave speed", "statement": "For a stably stratified column with the levels in the middle of their layers and smooth N(z), calc_wave_speed differs from (1/pi) times the integral of N over the layers by at most M/(24 pi) times the sum of the cubed thicknesses, M a bound of the second derivative of N; with layers no thicker than H by at most M H^2 D/(24 pi), D the depth. The Rossby radius differs from (1/(pi |f|)) times the integral by at most that over |f|.", "quantifier": "all columns, layers, smooth stratifications", "why_tests_cant": "continuum of stratifications", "anchors": ["src/momlevel/derived.py: calc_wave_speed", "src/momlevel/derived.py: calc_rossby_rd"]}
{"id": "C159", "title": "Trends of smooth series", "statement": "If the valid samples along the dimension are those of a differentiable function f, whatever samples are missing, the slope of calc_linear_trend is f'(t), in the requested unit, for some moment t between the first and the last sample, hence within M/2 times the length of the record of f' in its middle, M a bound of the second derivative. For evenly spaced samples without gaps over a record of length L it differs from f' in the middle of the record by at most M L^2/24, M a bound of the third derivative; for a quadratic series (constant acceleration) it is exactly the rate of change in the middle.", "quantifier": "all arrays, differentiable series, positions, missing samples, units", "why_tests_cant": "continuum of series", "anchors": ["src/momlevel/trend.py: calc_linear_trend"]}
{"id": "C160", "title": "Averages in time of smooth series", "statement": "If monthly samples, stamped at the middle of their months, are those of a function of time with second derivative at most M, every value of annual_average differs from the average of the function over the whole year by at most M/24 times the square of 31 days; if complete daily samples at noon are, every value of monthly_average differs from the average of the function over the whole month by at most M/24 times the square of a day. This holds in every calendar.", "quantifier": "all smooth series, calendars, years, points", "why_tests_cant": "continuum of series", "anchors": ["src/momlevel/util.py: annual_average", "src/momlevel/util.py: monthly_average"]}
{"id": "C161", "title": "Computed values and the continuous ocean", "statement": "The values computed in double precision differ from those of the continuous ocean by at most the error of the discretisation plus a bound of the rounding errors: the local steric height of a column (Wright, any variant, any order of summation) from -1/rho0 times the integral of the density anomaly by the bound of C156 plus 1e-9 m; the wave speed with up to 75 levels from 1/pi times the integral of N by the bound of C158 times 1+1e-14 plus 1e-14 of itself; N2 with levels at least 1 m apart from -9.8 (alpha dT/dz - beta dS/dz) by the bound of C155 plus 2.4e-14 s-2; the relative vorticity of a flow with speeds up to W, at a corner with centres on both sides, from dv/dx - du/dy by the bound of C157 plus ((1+u)^4-1) 2 W (1/dx + 1/dy).", "quantifier": "all smooth profiles and flows, grids, orders of summation", "why_tests_cant": "continuum of profiles; tests have no true values to compare with", "anchors": ["src/momlevel/steric.py: steric", "src/momlevel/derived.py: calc_wave_speed", "src/momlevel/derived.py: calc_n2", "src/momlevel/derived.py: calc_rel_vort"]}
{"id": "C162", "title": "Errors in coordinates", "statement": "If the coordinates given for the locations are off by at most the angle d and those of the model points by at most e (great-circle angles), then geolocate_points reports distances that are off by at most rad_earth*(d+e); the model point it finds is at most 2*rad_earth*(d+e) farther away than the nearest one, and it is the nearest one if all other usable points are farther by more than that; a threshold enlarged by rad_earth*(d+e) keeps every location kept with true coordinates. extract_tidegauge returns the same series for gauges off by at most d if for each of them one wet cell is nearer than all others by more than 2*6378 km*d. Errors of latitude and longitude amount to an angle of at most |dlat| + cos(lat) |dlon|.", "quantifier": "all tables of model points and locations, all errors, all searches for nearest points", "why_tests_cant": "continuum of coordinates and errors", "anchors": ["src/momlevel/util.py: geolocate_points", "src/momlevel/tidegauge.py: extract_tidegauge"]}
{"id": "C163", "title": "Time conversion factors in floating point", "statement": "For months and years of 1 to 1000 days the rounded value of time_conversion_factor differs from the exact ratio of the units by at most 20 units of rounding (2.3e-15 in double precision), and a slope converted from per nanosecond to another unit by at most 24. The exact laws of C50 do not survive rounding: in double precision the factor from minutes to seconds is 60 + 2^-47, and with days_per_year=365.2425 the factor from years to years is 1 - 2^-53.", "quantifier": "all recognised units, all lengths of months and years from 1 to 1000 days, all slopes", "why_tests_cant": "the tests compare a few factors with approx; which factors are exact depends on the lengths given", "anchors": ["src/momlevel/trend.py: time_conversion_factor", "src/momlevel/trend.py: calc_linear_trend"]}
{"id": "C164", "title": "Errors in temperature and salinity", "statement": "Take two data sets on the same grid, with reference volumes in the same cells, with values in the oceanographic range, and Wright's equation of state. The local steric heights of a column differ by at most 1/rhozero times the sum over its wet cells of thickness times 0.48 (|dT| + |dT0|) + 0.82 (|dS| + |dS0|), where dT, dS are the differences of the data at that time and dT0, dS0 those at the reference time. Temperatures right to eT and salinities right to eS therefore give the height of H metres of water to (0.96 eT + 1.64 eS) H / rhozero. The thermosteric heights differ by at most the temperature part plus 0.0045 |T - T0| |dS0| per cell, and the halosteric heights by the salinity part plus 0.0045 |dT0| |S - S0| per cell. The global steric heights differ by at most (0.96 eT + 1.64 eS)/987 times the mean depth.", "quantifier": "all pairs of data sets on one grid, all columns, all errors within the oceanographic range", "why_tests_cant": "the tests use one synthetic data set and never compare the results for two", "anchors": ["src/momlevel/steric.py: steric", "src/momlevel/eos/wright.py: density"]}
{"id": "C165", "title": "Errors in stratification", "statement": "Small errors in N2 and in the thicknesses give small errors in calc_wave_speed. (True for columns with N2 positive on all levels: errors of at most e in N2 and h in the thicknesses change the speed by at most (sqrt(e) * sum of thicknesses + h * sum of sqrt(N2))/pi, and by at most (e/(2 sqrt(a)) * sum of thicknesses + h * sum of sqrt(N2))/pi if N2 is at least a on all levels. False otherwise: however small e is, there are two columns whose N2 differ by at most e with wave speeds 2 and at most 1.5, because an unstable level counts with the value of the level above.)", "quantifier": "all N2 columns, thicknesses, errors, numbers of levels", "why_tests_cant": "the tests compare one recorded sum; a jump at N2 = 0 needs two nearby inputs", "anchors": ["src/momlevel/derived.py: calc_wave_speed, adjust_negative_n2"]}
{"id": "C166", "title": "Errors in velocities", "statement": "Take two data sets on one grid whose velocities differ by at most e. At every corner the relative vorticities differ by at most e times the length of the edges around the corner (those outside the grid count nothing) divided by the corner's area, and errors that go round the corner attain this bound. If the relative vorticities differ by at most a and the values of N2 around the corner by at most n, with N2 at most M there, the potential vorticities differ by at most (a M + |zeta' + f| n) / g.", "quantifier": "all pairs of data sets on one grid, symmetric or not, all corners, all errors", "why_tests_cant": "the tests compare a single synthetic data set with stored sums", "anchors": ["src/momlevel/derived.py: calc_rel_vort", "src/momlevel/derived.py: calc_pv"]}
{"id": "C167", "title": "Errors in temperature and salinity, and spiciness", "statement": "At temperatures from -2 to 35 degrees and salinities from 33 to 37, the values calc_spice gives for two pairs of fields differ by at most 0.41 times the difference in temperature plus 0.86 times the difference in salinity. Warming alone raises the spiciness by 0.018 to 0.41 per degree and salt alone by 0.67 to 0.86 per unit. Of two waters of equal spiciness the warmer one is fresher, by 0.02 to 0.62 per degree.", "quantifier": "all fields of any shape, all positions with temperature and salinity in the stated range", "why_tests_cant": "the tests check one recorded sum", "anchors": ["src/momlevel/spice/flament.py: spice", "src/momlevel/derived.py: calc_spice"]}
{"id": "C168", "title": "Errors in temperature and salinity, and buoyancy frequency", "statement": "Temperatures known to eT and salinities known to eS on levels at least h apart: the squared buoyancy frequency of calc_n2 with Wright's equation is right to (0.0049 eT + 0.0083 eS) times 2/h within the column and times 6/h at its first and last level, plus (0.00021 eT + 0.00005 eS) times the gradient of temperature and (0.00005 eT + 0.00002 eS) times that of salinity, from the change of the expansion coefficients. The coefficients alpha and beta change by at most 2.1e-5 and 5.1e-6 per degree, and 5.1e-6 and 1.8e-6 per unit of salinity.", "quantifier": "all columns of at least three levels in any increasing spacing, all pairs of fields of any shape within the range of the ocean at the level in question", "why_tests_cant": "the tests check recorded sums at one column", "anchors": ["src/momlevel/derived.py: calc_n2", "src/momlevel/eos/wright.py: alpha, beta"]}
{"id": "C169", "title": "Errors in temperature, salinity and pressure, and potential density and inverse barometer", "statement": "With Wright's equation of state, the values of calc_pdens for the same reference level differ by at most 0.48 times the difference in temperature plus 0.82 times the difference in salinity (-2 to 40 degrees, 0 to 42 psu). At the surface (pressure up to 1200 hPa) the heights of inverse_barometer for two sets of fields differ by at most (dp/991 + 0.06 dT + 0.103 dS)/g, that is 1.03 cm per hPa and 6 mm per degree for the default gravity.", "quantifier": "all fields of any shape, all reference levels from 0 to 7500, all positive gravities, all positions within the stated range", "why_tests_cant": "the tests check recorded sums of one field", "anchors": ["src/momlevel/derived.py: calc_pdens", "src/momlevel/dynamic.py: inverse_barometer"]}
{"id": "C170", "title": "Errors in latitude and wave speed, and Coriolis parameter and Rossby radius", "statement": "The Coriolis parameters calc_coriolis gives for two latitudes differ by at most pi^2/3888000 (2.54e-6 per second) per degree. Off the equator the radii calc_rossby_rd gives for wave speeds c and c' at latitudes x and x' differ by at most (1944000/pi |c'-c| + pi/2 r |x'-x|)/|x'|, r the first radius.", "quantifier": "all latitudes (for the radius: between the poles and not zero), all wave speeds, arrays of any shape", "why_tests_cant": "the tests check recorded sums of one field", "anchors": ["src/momlevel/derived.py: calc_coriolis", "src/momlevel/derived.py: calc_rossby_rd"]}
{"id": "C171", "title": "Errors in depth, and cell thicknesses", "statement": "If the depth, top and bottom given to calc_dz are each off by some amount, no thickness is off by more than the largest of the three. With the default limits the errors of the thicknesses of a column, added without regard to sign, come to at most the error of the depth, and a deeper sea floor makes no cell thinner.", "quantifier": "all grids with rising interfaces, all pairs of bathymetries with a depth at the position in question, all limits", "why_tests_cant": "the tests check one grid", "anchors": ["src/momlevel/derived.py: calc_dz"]}

{
 "claims": [
  {
   "property": "C01",
   "status": "proved",
   "theorems": [
    "Momlevel.Props.C01_density_formula",
    "Momlevel.Props.C01_drho_dtemp",
    "Momlevel.Props.C01_drho_dsal",
    "Momlevel.Props.C01_float_finite",
    "Momlevel.Props.C01_float_nan"
   ],
   "note": "HasDerivAt over ℝ for all T,S,p with non-zero denominator; the float model agrees on finite input and propagates NaN."
  },
  {
   "property": "C02",
   "status": "proved",
   "theorems": [
    "Momlevel.Props.C02_wright_alpha",
    "Momlevel.Props.C02_wright_beta",
    "Momlevel.Props.C02_linear_density",
    "Momlevel.Props.C02_linear_alpha",
    "Momlevel.Props.C02_linear_beta",
    "Momlevel.Props.C02_float_finite"
   ],
   "note": "Both equations of state, floating dtype (integer dtype: see C65)."
  },
  {
   "property": "C03",
   "status": "proved",
   "theorems": [
    "Momlevel.Props.C03_pos",
    "Momlevel.Props.C03_increasing_pressure",
    "Momlevel.Props.C03_increasing_salinity",
    "Momlevel.Props.C03_beta_pos"
   ],
   "note": "Whole box -2..40 degC, 0..42 psu, 0..1e8 Pa."
  },
  {
   "property": "C04",
   "status": "proved",
   "theorems": [
    "Momlevel.Props.C04_decreasing_temperature",
    "Momlevel.Props.C04_alpha_pos",
    "Momlevel.Props.C04_fresh_water_counterexample"
   ],
   "note": "Proved for T >= 4.5-0.23 S within the box (all S>=28.3); counterexample for fresh water shows a restriction is needed."
  },
  {
   "property": "C05",
   "status": "proved",
   "theorems": [
    "Momlevel.Props.C05_pressure_independent",
    "Momlevel.Props.C05_affine",
    "Momlevel.Props.C05_constants",
    "Momlevel.Props.C05_rho_ref"
   ],
   "note": ""
  },
  {
   "property": "C06",
   "status": "proved",
   "theorems": [
    "Momlevel.Props.C06_wright",
    "Momlevel.Props.C06_linear",
    "Momlevel.Props.C06_other",
    "Momlevel.Props.C06_other_valueError",
    "Momlevel.Props.C06_distinct",
    "Momlevel.Props.C06_dunder_leak"
   ],
   "note": "Up to ASCII case; dunder attribute names of the package raise AttributeError/KeyError instead of ValueError (C06_dunder_leak)."
  },
  {
   "property": "C07",
   "status": "proved",
   "theorems": [
    "Momlevel.Props.C07_numpy",
    "Momlevel.Props.C07_shape_mismatch",
    "Momlevel.Props.C07_scalar",
    "Momlevel.Props.C07_calc_spice",
    "Momlevel.Props.C07_calc_spice_reject"
   ],
   "note": "Pointwise Flament polynomial for numpy, scalar and DataArray calls, plus rejection of mismatched shapes."
  },
  {
   "property": "C08",
   "status": "proved",
   "theorems": [
    "Momlevel.Props.C08_cell",
    "Momlevel.Props.C08_column_sum"
   ],
   "note": ""
  },
  {
   "property": "C09",
   "status": "partial",
   "theorems": [
    "Momlevel.Props.C09_overlap_iff",
    "Momlevel.Props.C09_overlap_partial",
    "Momlevel.Props.C09_bounds",
    "Momlevel.Props.C09_counterexample"
   ],
   "note": "Defect: when the range's top and bottom fall in the same cell the result exceeds the overlap (C09_counterexample). Exact condition: C09_overlap_iff; overlap proved whenever no cell contains both cuts."
  },
  {
   "property": "C10",
   "status": "proved",
   "theorems": [
    "Momlevel.Props.C10_fraction"
   ],
   "note": ""
  },
  {
   "property": "C11",
   "status": "proved",
   "theorems": [
    "Momlevel.Props.C11_assertion_iff",
    "Momlevel.Props.C11_land_zero",
    "Momlevel.Props.C11_length_mismatch",
    "Momlevel.Props.C11_infinite",
    "Momlevel.Props.C11_missing_limit"
   ],
   "note": ""
  },
  {
   "property": "C12",
   "status": "proved",
   "theorems": [
    "Momlevel.Props.C12_adjust",
    "Momlevel.Props.C12_positive",
    "Momlevel.Props.C12_idempotent",
    "Momlevel.Props.C12_defined"
   ],
   "note": ""
  },
  {
   "property": "C13",
   "status": "partial",
   "theorems": [
    "Momlevel.Props.C13_time_first",
    "Momlevel.Props.C13_counterexample",
    "Momlevel.Props.C13_positive_partial",
    "Momlevel.Props.C13_positive_iff"
   ],
   "note": "Defect: with time first only the first time step's surface is filled (C13_counterexample). Positivity holds for columns whose surface value is positive. C13_positive_iff is the exact condition."
  },
  {
   "property": "C14",
   "status": "proved",
   "theorems": [
    "Momlevel.Props.C14_formula",
    "Momlevel.Props.C14_sign",
    "Momlevel.Props.C14_zcoord_ignored"
   ],
   "note": "C14_zcoord_ignored records that the zcoord argument is not passed on to the adjustment."
  },
  {
   "property": "C15",
   "status": "proved",
   "theorems": [
    "Momlevel.Props.C15_formula",
    "Momlevel.Props.C15_odd",
    "Momlevel.Props.C15_bound",
    "Momlevel.Props.C15_increasing",
    "Momlevel.Props.C15_sign"
   ],
   "note": ""
  },
  {
   "property": "C16",
   "status": "proved",
   "theorems": [
    "Momlevel.Props.C16_off_equator",
    "Momlevel.Props.C16_equator",
    "Momlevel.Props.C16_symmetric",
    "Momlevel.Props.C16_missing"
   ],
   "note": ""
  },
  {
   "property": "C17",
   "status": "proved",
   "theorems": [
    "Momlevel.Props.C17_cm",
    "Momlevel.Props.C17_bad_units",
    "Momlevel.Props.C17_defaults",
    "Momlevel.Props.C17_no_interp",
    "Momlevel.Props.C17_interp"
   ],
   "note": "Model of xgcm Grid interp/diff with fill value 0."
  },
  {
   "property": "C18",
   "status": "proved",
   "theorems": [
    "Momlevel.Props.C18_circulation",
    "Momlevel.Props.C18_grid",
    "Momlevel.Props.C18_stokes",
    "Momlevel.Props.C18_defaults_and_missing"
   ],
   "note": "Symmetric (outer) and non-symmetric (right) grids; xgcm padding with 0 assumed."
  },
  {
   "property": "C19",
   "status": "proved",
   "theorems": [
    "Momlevel.Props.C19_formula",
    "Momlevel.Props.C19_defaults",
    "Momlevel.Props.C19_adjusted",
    "Momlevel.Props.C19_linear",
    "Momlevel.Props.C19_linear_sign",
    "Momlevel.Props.C19_uniform",
    "Momlevel.Props.C19_gradient_exact",
    "Momlevel.Props.C19_too_few_levels"
   ],
   "note": "interfaces=None branch of calc_n2."
  },
  {
   "property": "C20",
   "status": "proved",
   "theorems": [
    "Momlevel.Props.C20_turner_regimes",
    "Momlevel.Props.C20_angle",
    "Momlevel.Props.C20_range",
    "Momlevel.Props.C20_sign_blind",
    "Momlevel.Props.C20_docstring_counterexample"
   ],
   "note": "C20_docstring_counterexample refutes the documented stability criterion."
  },
  {
   "property": "C21",
   "status": "proved",
   "theorems": [
    "Momlevel.Props.C21_masso",
    "Momlevel.Props.C21_volo",
    "Momlevel.Props.C21_bounds",
    "Momlevel.Props.C21_missing_density_counterexample"
   ],
   "note": "C21_missing_density_counterexample refutes the bound when density is missing where volume is not."
  },
  {
   "property": "C22",
   "status": "proved",
   "theorems": [
    "Momlevel.Props.C22_value",
    "Momlevel.Props.C22_defaults",
    "Momlevel.Props.C22_rejects",
    "Momlevel.Props.C22_linear_level",
    "Momlevel.Props.C22_wright_increasing"
   ],
   "note": ""
  },
  {
   "property": "C23",
   "status": "proved",
   "theorems": [
    "Momlevel.Props.C23_balance",
    "Momlevel.Props.C23_defaults",
    "Momlevel.Props.C23_missing"
   ],
   "note": ""
  },
  {
   "property": "C24",
   "status": "proved",
   "theorems": [
    "Momlevel.Props.C24_local",
    "Momlevel.Props.C24_global"
   ],
   "note": "annual=False; exact zero (or missing) at time index 0. Global needs a finite non-zero mean density and finite reference height."
  },
  {
   "property": "C25",
   "status": "proved",
   "theorems": [
    "Momlevel.Props.C25_formula",
    "Momlevel.Props.C25_missing",
    "Momlevel.Props.C25_delta_rho",
    "Momlevel.Props.C25_shape"
   ],
   "note": "Includes the explicit column sum (C25_formula)."
  },
  {
   "property": "C26",
   "status": "proved",
   "theorems": [
    "Momlevel.Props.C26_thermosteric",
    "Momlevel.Props.C26_halosteric"
   ],
   "note": "Equality of whole results including failures."
  },
  {
   "property": "C27",
   "status": "proved",
   "theorems": [
    "Momlevel.Props.C27_wright_counterexample",
    "Momlevel.Props.C27_linear"
   ],
   "note": "C27_wright_counterexample shows the sum rule fails for Wright."
  },
  {
   "property": "C28",
   "status": "proved",
   "theorems": [
    "Momlevel.Props.C28_sign",
    "Momlevel.Props.C28_linear_warming",
    "Momlevel.Props.C28_wright_salinification",
    "Momlevel.Props.C28_wright_warming"
   ],
   "note": ""
  },
  {
   "property": "C29",
   "status": "proved",
   "theorems": [
    "Momlevel.Props.C29_formula",
    "Momlevel.Props.C29_own_reference"
   ],
   "note": ""
  },
  {
   "property": "C30",
   "status": "proved",
   "theorems": [
    "Momlevel.Props.C30_supplied",
    "Momlevel.Props.C30_invalid",
    "Momlevel.Props.C30_invalid_reference",
    "Momlevel.Props.C30_variant",
    "Momlevel.Props.C30_eos",
    "Momlevel.Props.C30_reference_type",
    "Momlevel.Props.C30_domain",
    "Momlevel.Props.C30_rename",
    "Momlevel.Props.C30_rename_unknown",
    "Momlevel.Props.C30_rename_values",
    "Momlevel.Props.C30_defaults",
    "Momlevel.Props.C30_success"
   ],
   "note": "Also success of every well-formed request (C30_success). C30_domain records that any domain other than 'global' silently means local."
  },
  {
   "property": "C31",
   "status": "proved",
   "theorems": [
    "Momlevel.Props.C31_no_variable",
    "Momlevel.Props.C31_no_depth",
    "Momlevel.Props.C31_slice",
    "Momlevel.Props.C31_density",
    "Momlevel.Props.C31_no_area",
    "Momlevel.Props.C31_defaults",
    "Momlevel.Props.C31_index",
    "Momlevel.Props.C31_singleton"
   ],
   "note": ""
  },
  {
   "property": "C32",
   "status": "proved",
   "theorems": [
    "Momlevel.Props.C32_feedback"
   ],
   "note": ""
  },
  {
   "property": "C33",
   "status": "proved",
   "theorems": [
    "Momlevel.Props.C33_scaling",
    "Momlevel.Props.C33_zero",
    "Momlevel.Props.C33_global"
   ],
   "note": ""
  },
  {
   "property": "C34",
   "status": "proved",
   "theorems": [
    "Momlevel.Props.C34_reports_all",
    "Momlevel.Props.C34_iff",
    "Momlevel.Props.C34_defaults",
    "Momlevel.Props.C34_time_coordinate_undetected",
    "Momlevel.Props.C34_time_coordinate_counterexample"
   ],
   "note": "Acceptance characterised exactly. Records a defect: a time coordinate on a reference dataset is never detected (C34_time_coordinate_undetected)."
  },
  {
   "property": "C35",
   "status": "proved",
   "theorems": [
    "Momlevel.Props.C35_iff",
    "Momlevel.Props.C35_defaults",
    "Momlevel.Props.C35_total_only",
    "Momlevel.Props.C35_missing"
   ],
   "note": ""
  },
  {
   "property": "C36",
   "status": "proved",
   "theorems": [
    "Momlevel.Props.C36_iff"
   ],
   "note": ""
  },
  {
   "property": "C37",
   "status": "proved",
   "theorems": [
    "Momlevel.Props.C37_lookup",
    "Momlevel.Props.C37_other_keys",
    "Momlevel.Props.C37_none"
   ],
   "note": ""
  },
  {
   "property": "C38",
   "status": "proved",
   "theorems": [
    "Momlevel.Props.C38_value",
    "Momlevel.Props.C38_twelve",
    "Momlevel.Props.C38_no_axis",
    "Momlevel.Props.C38_bounds",
    "Momlevel.Props.C38_constant",
    "Momlevel.Props.C38_dataset",
    "Momlevel.Props.C38_static",
    "Momlevel.Props.C38_dataset_success"
   ],
   "note": "Annual average of DataArrays and Datasets, all calendars, missing values."
  },
  {
   "property": "C39",
   "status": "proved",
   "theorems": [
    "Momlevel.Props.C39_daily"
   ],
   "note": "For complete daily data the day-of-month weights give the plain mean over the year."
  },
  {
   "property": "C40",
   "status": "proved",
   "theorems": [
    "Momlevel.Props.C40_value",
    "Momlevel.Props.C40_errors",
    "Momlevel.Props.C40_no_axis",
    "Momlevel.Props.C40_axis",
    "Momlevel.Props.C40_order",
    "Momlevel.Props.C40_idempotent",
    "Momlevel.Props.C40_dataset"
   ],
   "note": "All four statistics, the time axis, the error cases, ordering and idempotence."
  },
  {
   "property": "C41",
   "status": "proved",
   "theorems": [
    "Momlevel.Props.C41_dataset",
    "Momlevel.Props.C41_value",
    "Momlevel.Props.C41_no_axis",
    "Momlevel.Props.C41_complete"
   ],
   "note": "Monthly average: values, axis and the completeness condition."
  },
  {
   "property": "C42",
   "status": "proved",
   "theorems": [
    "Momlevel.Props.C42_reorder",
    "Momlevel.Props.C42_canonical",
    "Momlevel.Props.C42_idempotent"
   ],
   "note": "Permutation, order, canonical form, idempotence."
  },
  {
   "property": "C43",
   "status": "proved",
   "theorems": [
    "Momlevel.Props.C43_dataarray",
    "Momlevel.Props.C43_dataset",
    "Momlevel.Props.C43_other",
    "Momlevel.Props.C43_idempotent"
   ],
   "note": "Full characterisation of the remaining keys for DataArrays and Datasets."
  },
  {
   "property": "C44",
   "status": "proved",
   "theorems": [
    "Momlevel.Props.C44_value",
    "Momlevel.Props.C44_default",
    "Momlevel.Props.C44_short",
    "Momlevel.Props.C44_integral",
    "Momlevel.Props.C44_region",
    "Momlevel.Props.C44_globe",
    "Momlevel.Props.C44_reverse",
    "Momlevel.Props.C44_dataarray"
   ],
   "note": "Formula, surface integral, regional and global sums, direction independence, DataArray labels."
  },
  {
   "property": "C45",
   "status": "proved",
   "theorems": [
    "Momlevel.Props.C45_value",
    "Momlevel.Props.C45_type"
   ],
   "note": "Dimensions and values of both results."
  },
  {
   "property": "C46",
   "status": "proved",
   "theorems": [
    "Momlevel.Props.C46_map",
    "Momlevel.Props.C46_success",
    "Momlevel.Props.C46_no_ocean",
    "Momlevel.Props.C46_loc_names",
    "Momlevel.Props.C46_default",
    "Momlevel.Props.C46_mod_index"
   ],
   "note": "For every ball tree that returns a nearest point (ties open). C46_map is the full characterisation, C46_success when it succeeds; C46_mod_index: mod_index is the position among unmasked rows, not in df_model as documented; C46_loc_names: lat/lon columns are needed whatever loc_coords says."
  },
  {
   "property": "C47",
   "status": "proved",
   "theorems": [
    "Momlevel.Props.C47_angle",
    "Momlevel.Props.C47_shift",
    "Momlevel.Props.C47_symm",
    "Momlevel.Props.C47_range",
    "Momlevel.Props.C47_zero",
    "Momlevel.Props.C47_triangle",
    "Momlevel.Props.C47_meridian"
   ],
   "note": "The haversine distance equals the angle between the directions (C47_angle); also the triangle inequality."
  },
  {
   "property": "C48",
   "status": "proved",
   "theorems": [
    "Momlevel.Props.C48_value",
    "Momlevel.Props.C48_names",
    "Momlevel.Props.C48_success",
    "Momlevel.Props.C48_wet",
    "Momlevel.Props.C48_flat",
    "Momlevel.Props.C48_no_file",
    "Momlevel.Props.C48_arguments",
    "Momlevel.Props.C48_lost",
    "Momlevel.Props.C48_us_lost",
    "Momlevel.Props.C48_mask_labels",
    "Momlevel.Props.C48_mask_outside",
    "Momlevel.Props.C48_mask_success"
   ],
   "note": "C48_value for 2-D coordinates, C48_flat for 1-D ones; C48_lost, C48_us_lost: gauges sharing a name are lost, also with the default table; C48_mask_labels: a mask is matched to the grid by label; C48_mask_outside: a wet mask cell outside the grid makes the call fail; C48_mask_success: it goes through otherwise."
  },
  {
   "property": "C49",
   "status": "partial",
   "theorems": [
    "Momlevel.Props.C49_reported",
    "Momlevel.Props.C49_partial",
    "Momlevel.Props.C49_iff",
    "Momlevel.Props.C49_none",
    "Momlevel.Props.C49_disabled",
    "Momlevel.Props.C49_counterexample",
    "Momlevel.Props.C49_nan"
   ],
   "note": "False as stated: C49_counterexample (distance equal to the threshold), C49_nan. C49_partial is the true part. C49_iff: the claim holds exactly when no location lies at the threshold."
  },
  {
   "property": "C50",
   "status": "proved",
   "theorems": [
    "Momlevel.Props.C50_value",
    "Momlevel.Props.C50_self",
    "Momlevel.Props.C50_inverse",
    "Momlevel.Props.C50_chain",
    "Momlevel.Props.C50_unknown",
    "Momlevel.Props.C50_zero"
   ],
   "note": "Factor = ratio of unit lengths; self, inverse, chain laws; AssertionError for unknown units; ZeroDivisionError for zero lengths whatever the units."
  },
  {
   "property": "C51",
   "status": "proved",
   "theorems": [
    "Momlevel.Props.C51_least_squares",
    "Momlevel.Props.C51_unique",
    "Momlevel.Props.C51_exact",
    "Momlevel.Props.C51_missing",
    "Momlevel.Props.C51_unknown_unit",
    "Momlevel.Props.C51_no_dim",
    "Momlevel.Props.C51_units"
   ],
   "note": "Least squares over valid samples, uniqueness, exact recovery, all-missing, unknown unit, missing dimension. Exact arithmetic; assumes not every position is 0."
  },
  {
   "property": "C52",
   "status": "proved",
   "theorems": [
    "Momlevel.Props.C52_residual",
    "Momlevel.Props.C52_idempotent",
    "Momlevel.Props.C52_add_line"
   ],
   "note": "Residual has zero sum and zero first moment, missing pattern kept, idempotent, invariant under adding lines."
  },
  {
   "property": "C53",
   "status": "proved",
   "theorems": [
    "Momlevel.Props.C53_counterexample",
    "Momlevel.Props.C53_value",
    "Momlevel.Props.C53_no_slope",
    "Momlevel.Props.C53_epoch",
    "Momlevel.Props.C53_mean"
   ],
   "note": "correct = removed + intercept, zero refitted slope, unchanged only at the epoch, exact change of the sum; counterexample to mean preservation."
  },
  {
   "property": "C54",
   "status": "proved",
   "theorems": [
    "Momlevel.Props.C54_arguments",
    "Momlevel.Props.C54_roundtrip"
   ],
   "note": "Round trip through every recognised unit for plain units attributes."
  },
  {
   "property": "C55",
   "status": "partial",
   "theorems": [
    "Momlevel.Props.C55_counterexample",
    "Momlevel.Props.C55_per",
    "Momlevel.Props.C55_partial"
   ],
   "note": "False as stated: C55_per shows ValueError for every units string containing '-1' on a cftime axis, C55_counterexample refutes the claim; C55_partial is the part that holds."
  },
  {
   "property": "C56",
   "status": "proved",
   "theorems": [
    "Momlevel.Props.C56_order",
    "Momlevel.Props.C56_mode",
    "Momlevel.Props.C56_dataset",
    "Momlevel.Props.C56_other"
   ],
   "note": "Dataset result characterised exactly; order and mode errors; TypeError for other objects."
  },
  {
   "property": "C57",
   "status": "proved",
   "theorems": [
    "Momlevel.Props.C57_fit",
    "Momlevel.Props.C57_missing",
    "Momlevel.Props.C57_reproduces",
    "Momlevel.Props.C57_refit",
    "Momlevel.Props.C57_linear",
    "Momlevel.Props.C57_pointwise",
    "Momlevel.Props.C57_cycle",
    "Momlevel.Props.C57_cycle_lengths",
    "Momlevel.Props.C57_cycle_missing"
   ],
   "note": "Exact arithmetic; np.linalg.pinv modelled as the Moore-Penrose inverse (existence and uniqueness proved)."
  },
  {
   "property": "C58",
   "status": "proved",
   "theorems": [
    "Momlevel.Props.C58_fit",
    "Momlevel.Props.C58_coeff",
    "Momlevel.Props.C58_chunks",
    "Momlevel.Props.C58_missing",
    "Momlevel.Props.C58_unknown",
    "Momlevel.Props.C58_no_dim"
   ],
   "note": "For tdim='time'; dask blocks modelled; 'coeff' for arrays with another dimension than time (see C71)."
  },
  {
   "property": "C59",
   "status": "partial",
   "theorems": [
    "Momlevel.Props.C59_effect",
    "Momlevel.Props.C59_partial",
    "Momlevel.Props.C59_accumulates",
    "Momlevel.Props.C59_counterexample"
   ],
   "note": "The claim is false: C59_counterexample, C59_accumulates. C59_partial characterises when a call leaves the attributes as they were; C59_effect gives the exact edit."
  },
  {
   "property": "C60",
   "status": "partial",
   "theorems": [
    "Momlevel.Props.C60_ignored",
    "Momlevel.Props.C60_partial",
    "Momlevel.Props.C60_counterexample"
   ],
   "note": "The claim is false: C60_ignored, C60_counterexample. C60_partial: right for 365 days."
  },
  {
   "property": "C61",
   "status": "partial",
   "theorems": [
    "Momlevel.Props.C61_partial",
    "Momlevel.Props.C61_decreases",
    "Momlevel.Props.C61_iff",
    "Momlevel.Props.C61_counterexample"
   ],
   "note": "The claim is false for calendars with leap years: C61_decreases, C61_counterexample. C61_partial: true when all years have one length. C61_iff is the exact condition on two days."
  },
  {
   "property": "C62",
   "status": "proved",
   "theorems": [
    "Momlevel.Props.C62_members",
    "Momlevel.Props.C62_order"
   ],
   "note": "Exactly the days of the requested years, in order."
  },
  {
   "property": "C63",
   "status": "proved",
   "theorems": [
    "Momlevel.Props.C63_monthly",
    "Momlevel.Props.C63_daily",
    "Momlevel.Props.C63_frequency",
    "Momlevel.Props.C63_calendar"
   ],
   "note": "Monthly and daily stubs, bounds and rejected frequencies."
  },
  {
   "property": "C64",
   "status": "proved",
   "theorems": [
    "Momlevel.Props.C64_levels"
   ],
   "note": "All levels written out, increasing, as many as colours."
  },
  {
   "property": "C65",
   "status": "proved",
   "theorems": [
    "Momlevel.Props.C65_integer_dtype_zero",
    "Momlevel.Props.C65_integer_dtype_wrong"
   ],
   "note": "Records a defect: the claim for integer dtypes is refuted."
  },
  {
   "property": "C66",
   "status": "proved",
   "theorems": [
    "Momlevel.Props.C66_off",
    "Momlevel.Props.C66_value",
    "Momlevel.Props.C66_complete",
    "Momlevel.Props.C66_other_time_name",
    "Momlevel.Props.C66_rename",
    "Momlevel.Props.C66_counterexample"
   ],
   "note": "Includes the recorded defect: another name of the time coordinate makes annual=True fail."
  },
  {
   "property": "C67",
   "status": "partial",
   "theorems": [
    "Momlevel.Props.C67_partial",
    "Momlevel.Props.C67_counterexample"
   ],
   "note": "False as stated: C67_counterexample. C67_partial: different rank raises."
  },
  {
   "property": "C68",
   "status": "partial",
   "theorems": [
    "Momlevel.Props.C68_partial",
    "Momlevel.Props.C68_other_name",
    "Momlevel.Props.C68_counterexample"
   ],
   "note": "False as stated: C68_other_name gives ValueError for every axis not called 'time' (C68_counterexample); C68_partial proves it for 'time'."
  },
  {
   "property": "C69",
   "status": "partial",
   "theorems": [
    "Momlevel.Props.C69_fails",
    "Momlevel.Props.C69_coeff_fails",
    "Momlevel.Props.C69_counterexample",
    "Momlevel.Props.C69_partial"
   ],
   "note": "The claim is false: C69_fails, C69_coeff_fails, C69_counterexample. C69_partial: true for the name 'time'."
  },
  {
   "property": "C70",
   "status": "partial",
   "theorems": [
    "Momlevel.Props.C70_counterexample",
    "Momlevel.Props.C70_partial",
    "Momlevel.Props.C70_fails",
    "Momlevel.Props.C70_errors"
   ],
   "note": "The claim is false: C70_fails, C70_counterexample. C70_partial: true for the name 'time'."
  },
  {
   "property": "C71",
   "status": "partial",
   "theorems": [
    "Momlevel.Props.C71_fails",
    "Momlevel.Props.C71_counterexample",
    "Momlevel.Props.C71_partial"
   ],
   "note": "The claim is false: C71_fails, C71_counterexample. C71_partial: true with another dimension."
  },
  {
   "property": "C72",
   "status": "proved",
   "theorems": [
    "Momlevel.Props.C72_labels"
   ],
   "note": "Attributes modelled as strings."
  },
  {
   "property": "C73",
   "status": "partial",
   "theorems": [
    "Momlevel.Props.C73_partial",
    "Momlevel.Props.C73_counterexample",
    "Momlevel.Props.C73_iff"
   ],
   "note": "The claim is false in leap years: C73_counterexample. C73_partial: true for years without leap day. C73_iff is the exact condition."
  },
  {
   "property": "C74",
   "status": "proved",
   "theorems": [
    "Momlevel.Props.C74_usable"
   ],
   "note": "Pseudo-random numbers are an arbitrary function of seed and index."
  },
  {
   "property": "C75",
   "status": "proved",
   "theorems": [
    "Momlevel.Props.C75_grid",
    "Momlevel.Props.C75_unknown",
    "Momlevel.Props.C75_total",
    "Momlevel.Props.C75_valid"
   ],
   "note": "Generator arbitrary."
  },
  {
   "property": "C76",
   "status": "proved",
   "theorems": [
    "Momlevel.Props.C76_levels",
    "Momlevel.Props.C76_depth_range"
   ],
   "note": "Generator arbitrary."
  },
  {
   "property": "C77",
   "status": "proved",
   "theorems": [
    "Momlevel.Props.C77_fields",
    "Momlevel.Props.C77_affine",
    "Momlevel.Props.C77_seed"
   ],
   "note": "The shared stream is a property of the code, stated as it is."
  },
  {
   "property": "C78",
   "status": "proved",
   "theorems": [
    "Momlevel.Props.C78_fields",
    "Momlevel.Props.C78_seed_zero",
    "Momlevel.Props.C78_monthly",
    "Momlevel.Props.C78_annual",
    "Momlevel.Props.C78_frequency"
   ],
   "note": "Datasets: numeric variables; the bounds and date variables of the stub are left out."
  },
  {
   "property": "C79",
   "status": "proved",
   "theorems": [
    "Momlevel.Props.C79_fields",
    "Momlevel.Props.C79_thickness"
   ],
   "note": "Uniform draws assumed in [0, 1)."
  },
  {
   "property": "C80",
   "status": "proved",
   "theorems": [
    "Momlevel.Props.C80_fields",
    "Momlevel.Props.C80_vorticity"
   ],
   "note": "No random area is zero."
  },
  {
   "property": "C81",
   "status": "proved",
   "theorems": [
    "Momlevel.Props.C81_same_labels"
   ],
   "note": "xarray's default joins assumed: inner for arithmetic, exact for apply_ufunc and xr.where."
  },
  {
   "property": "C82",
   "status": "proved",
   "theorems": [
    "Momlevel.Props.C82_mixed_exact",
    "Momlevel.Props.C82_local"
   ],
   "note": "Same assumption about joins. The silent omission of levels is a property of the code, stated as it is."
  },
  {
   "property": "C83",
   "status": "partial",
   "theorems": [
    "Momlevel.Props.C83_counterexample",
    "Momlevel.Props.C83_value",
    "Momlevel.Props.C83_partial"
   ],
   "note": "False as stated (C83_counterexample: data with one level of a two-level reference). C83_value gives the value for all labels; C83_partial proves the claim when the data have every label of the reference."
  },
  {
   "property": "C84",
   "status": "partial",
   "theorems": [
    "Momlevel.Props.C84_exact",
    "Momlevel.Props.C84_counterexample",
    "Momlevel.Props.C84_misspelt",
    "Momlevel.Props.C84_partial",
    "Momlevel.Props.C84_eos",
    "Momlevel.Props.C84_level",
    "Momlevel.Props.C84_units"
   ],
   "note": "False as stated (C84_counterexample). C84_exact: exactly the Rossby radius and the wave speed lack long_name. calc_dz assigns no attributes and is not in the list."
  },
  {
   "property": "C85",
   "status": "partial",
   "theorems": [
    "Momlevel.Props.C85_cm",
    "Momlevel.Props.C85_partial",
    "Momlevel.Props.C85_counterexample"
   ],
   "note": "False for units='cm' (C85_counterexample, C85_cm gives the factor) if the label is read as UDUNITS reads it. C85_partial proves it for units='m'."
  },
  {
   "property": "C86",
   "status": "proved",
   "theorems": [
    "Momlevel.Props.C86_attrs",
    "Momlevel.Props.C86_n2"
   ],
   "note": "Attributes as dictionaries of strings."
  },
  {
   "property": "C87",
   "status": "partial",
   "theorems": [
    "Momlevel.Props.C87_names",
    "Momlevel.Props.C87_labels",
    "Momlevel.Props.C87_coords",
    "Momlevel.Props.C87_annual",
    "Momlevel.Props.C87_counterexample",
    "Momlevel.Props.C87_partial"
   ],
   "note": "False for annual=True (C87_counterexample, C87_annual gives the exact metadata). C87_labels, C87_coords and C87_partial prove the rest. Assumes that xarray's weighted mean drops encodings."
  },
  {
   "property": "C88",
   "status": "partial",
   "theorems": [
    "Momlevel.Props.C88_variables",
    "Momlevel.Props.C88_coords",
    "Momlevel.Props.C88_time",
    "Momlevel.Props.C88_counterexample",
    "Momlevel.Props.C88_partial"
   ],
   "note": "False for tcoord other than 'time' (C88_counterexample). C88_variables, C88_coords, C88_time say exactly what is kept; C88_partial proves the claim for tcoord='time'."
  },
  {
   "property": "C89",
   "status": "partial",
   "theorems": [
    "Momlevel.Props.C89_attrs",
    "Momlevel.Props.C89_counterexample",
    "Momlevel.Props.C89_partial"
   ],
   "note": "False when a column of the table has the name of an attribute (C89_counterexample). C89_attrs is exact; C89_partial proves the claim for the other names."
  },
  {
   "property": "C90",
   "status": "partial",
   "theorems": [
    "Momlevel.Props.C90_value",
    "Momlevel.Props.C90_linear_profile",
    "Momlevel.Props.C90_missing",
    "Momlevel.Props.C90_edges",
    "Momlevel.Props.C90_refused",
    "Momlevel.Props.C90_adjust",
    "Momlevel.Props.C90_counterexample",
    "Momlevel.Props.C90_partial"
   ],
   "note": "False as stated (C90_counterexample; C90_edges, C90_missing give the missing edges exactly, C90_adjust and C90_refused the failures). C90_value and C90_linear_profile give the value at every other edge; C90_partial states it for the linear equation of state. Assumes the documented behaviour of xgcm's linear transform."
  },
  {
   "property": "C91",
   "status": "proved",
   "theorems": [
    "Momlevel.Props.C91_wright_density",
    "Momlevel.Props.C91_wright_derivatives",
    "Momlevel.Props.C91_wright_coefficients",
    "Momlevel.Props.C91_signs",
    "Momlevel.Props.C91_linear",
    "Momlevel.Props.C91_nearest",
    "Momlevel.Props.C91_precision"
   ],
   "note": "Interval computation with a proved soundness theorem, evaluated in the kernel; assumes the standard model of rounding with one precision, no overflow. C91_nearest shows that rounding to nearest fits."
  },
  {
   "property": "C92",
   "status": "proved",
   "theorems": [
    "Momlevel.Props.C92_formula",
    "Momlevel.Props.C92_error",
    "Momlevel.Props.C92_sign",
    "Momlevel.Props.C92_precision",
    "Momlevel.Props.C92_zero",
    "Momlevel.Props.C92_steric"
   ],
   "note": "C92_steric ties the exact column to a run of steric; thicknesses and the input fields are taken as exact numbers of the format, missing levels are left out of the sum."
  },
  {
   "property": "C93",
   "status": "proved",
   "theorems": [
    "Momlevel.Props.C93_global",
    "Momlevel.Props.C93_never",
    "Momlevel.Props.C93_error",
    "Momlevel.Props.C93_reset"
   ],
   "note": "calc_dz hands the coordinates of dset[zcoord] to a one-dimensional DataArray without naming its dimension; xarray then infers it only from a single coordinate. Assumes that the vertical coordinate has values."
  },
  {
   "property": "C94",
   "status": "proved",
   "theorems": [
    "Momlevel.Props.C94_times_own",
    "Momlevel.Props.C94_tile",
    "Momlevel.Props.C94_tile_own",
    "Momlevel.Props.C94_single"
   ],
   "note": "Positions are given as a list (isel). The part is validated with strict=False, since its total area is not that of the global ocean. Arrays name no dimension twice and depend on their own dimensions only."
  },
  {
   "property": "C95",
   "status": "proved",
   "theorems": [
    "Momlevel.Props.C95_order",
    "Momlevel.Props.C95_order_own",
    "Momlevel.Props.C95_times",
    "Momlevel.Props.C95_times_own"
   ],
   "note": "Exact arithmetic: sums in floating point may differ in the last digits when reordered."
  },
  {
   "property": "C96",
   "status": "proved",
   "theorems": [
    "Momlevel.Props.C96_eos",
    "Momlevel.Props.C96_pdens",
    "Momlevel.Props.C96_barometer",
    "Momlevel.Props.C96_rotation",
    "Momlevel.Props.C96_stability",
    "Momlevel.Props.C96_adjust",
    "Momlevel.Props.C96_adjust_first_counterexample",
    "Momlevel.Props.C96_n2",
    "Momlevel.Props.C96_wave",
    "Momlevel.Props.C96_dz",
    "Momlevel.Props.C96_n2_adjusted",
    "Momlevel.Props.C96_n2_interfaces",
    "Momlevel.Props.C96_vorticity",
    "Momlevel.Props.C96_pv"
   ],
   "note": "A pressure with a length-one axis along the dimension keeps it only if one position is taken (numba kernels reject other broadcasts). The exception along the first dimension comes from positional indexing in adjust_negative_n2 and calc_wave_speed and is witnessed by C96_adjust_first_counterexample. Spice is not included: C07 gives it value by value."
  },
  {
   "property": "C97",
   "status": "proved",
   "theorems": [
    "Momlevel.Props.C97_annual",
    "Momlevel.Props.C97_monthly",
    "Momlevel.Props.C97_cycle",
    "Momlevel.Props.C97_annual_ds",
    "Momlevel.Props.C97_monthly_ds",
    "Momlevel.Props.C97_cycle_ds",
    "Momlevel.Props.C97_trend",
    "Momlevel.Props.C97_broadcast",
    "Momlevel.Props.C97_detrend",
    "Momlevel.Props.C97_seasonal",
    "Momlevel.Props.C97_deseason"
   ],
   "note": "For a request that succeeds on the whole array. The part carries the same time index and attributes; its other indexes and its chunks may be anything. For deseason values are compared at the times of the axis."
  },
  {
   "property": "C98",
   "status": "partial",
   "theorems": [
    "Momlevel.Props.C98_inner_partial",
    "Momlevel.Props.C98_inner_unstable",
    "Momlevel.Props.C98_surface_iff",
    "Momlevel.Props.C98_bottom_iff",
    "Momlevel.Props.C98_surface_counterexample",
    "Momlevel.Props.C98_value",
    "Momlevel.Props.C98_surface_direction",
    "Momlevel.Props.C98_bottom_direction"
   ],
   "note": "False as stated at the first and last level (C98_surface_counterexample). C98_inner_partial and C98_inner_unstable give the sign at every other level. C98_value gives the exact value and sign condition at every level for all profiles of temperature and salinity, with the directions at the two ends written out in C98_surface_direction and C98_bottom_direction; C98_surface_iff and C98_bottom_iff are the case of uniform salinity."
  },
  {
   "property": "C99",
   "status": "proved",
   "theorems": [
    "Momlevel.Props.C99_mean"
   ],
   "note": "For runs with the first time step as reference, positive densities in wet cells, a column without top cell being land throughout, at least one wet cell."
  },
  {
   "property": "C100",
   "status": "proved",
   "theorems": [
    "Momlevel.Props.C100_steric",
    "Momlevel.Props.C100_eos",
    "Momlevel.Props.C100_pdens",
    "Momlevel.Props.C100_barometer",
    "Momlevel.Props.C100_sums",
    "Momlevel.Props.C100_dz",
    "Momlevel.Props.C100_rotation",
    "Momlevel.Props.C100_n2",
    "Momlevel.Props.C100_n2_interfaces",
    "Momlevel.Props.C100_stability",
    "Momlevel.Props.C100_vorticity",
    "Momlevel.Props.C100_pv",
    "Momlevel.Props.C100_annual",
    "Momlevel.Props.C100_monthly",
    "Momlevel.Props.C100_cycle",
    "Momlevel.Props.C100_annual_ds",
    "Momlevel.Props.C100_monthly_ds",
    "Momlevel.Props.C100_cycle_ds",
    "Momlevel.Props.C100_steric_annual",
    "Momlevel.Props.C100_trend",
    "Momlevel.Props.C100_broadcast",
    "Momlevel.Props.C100_detrend",
    "Momlevel.Props.C100_seasonal",
    "Momlevel.Props.C100_deseason"
   ],
   "note": "Renaming must not give two dimensions of a variable the same name; annual_average with another name of the time coordinate must not meet a further dimension called time; vorticities where the velocities (n2) lack the corner dimension created. calc_spice in any order is C07."
  },
  {
   "property": "C101",
   "status": "partial",
   "theorems": [
    "Momlevel.Props.C101_adjust_partial",
    "Momlevel.Props.C101_adjust_counterexample",
    "Momlevel.Props.C101_wave_partial",
    "Momlevel.Props.C101_n2_adjusted_partial"
   ],
   "note": "False of the code: C101_adjust_counterexample. Proved while the first dimension stays the first (C101_adjust_partial, C101_wave_partial, C101_n2_adjusted_partial)."
  },
  {
   "property": "C102",
   "status": "proved",
   "theorems": [
    "Momlevel.Props.C102_value",
    "Momlevel.Props.C102_reject",
    "Momlevel.Props.C102_pdens",
    "Momlevel.Props.C102_barometer",
    "Momlevel.Props.C102_sizes",
    "Momlevel.Props.C102_same",
    "Momlevel.Props.C102_same_pdens",
    "Momlevel.Props.C102_same_barometer"
   ],
   "note": "Exact join of apply_ufunc; attributes omitted."
  },
  {
   "property": "C103",
   "status": "partial",
   "theorems": [
    "Momlevel.Props.C103_value",
    "Momlevel.Props.C103_disjoint",
    "Momlevel.Props.C103_all_partial",
    "Momlevel.Props.C103_rhoga",
    "Momlevel.Props.C103_sizes",
    "Momlevel.Props.C103_same",
    "Momlevel.Props.C103_counterexample",
    "Momlevel.Props.C103_same_rhoga"
   ],
   "note": "False as stated (C103_counterexample, C103_disjoint). C103_value gives the value for all labels, C103_all_partial the claim for agreeing labels."
  },
  {
   "property": "C104",
   "status": "proved",
   "theorems": [
    "Momlevel.Props.C104_rossby",
    "Momlevel.Props.C104_pv",
    "Momlevel.Props.C104_wave",
    "Momlevel.Props.C104_same",
    "Momlevel.Props.C104_same_pv",
    "Momlevel.Props.C104_same_wave"
   ],
   "note": "calc_pv without interpolation and in the default units."
  },
  {
   "property": "C105",
   "status": "proved",
   "theorems": [
    "Momlevel.Props.C105_local",
    "Momlevel.Props.C105_linear",
    "Momlevel.Props.C105_global",
    "Momlevel.Props.C105_wright_counterexample"
   ],
   "note": "C105_wright_counterexample shows the restriction to the linear equation of state is needed for thermosteric and halosteric. Global case: volume and area of the two references equal."
  },
  {
   "property": "C106",
   "status": "proved",
   "theorems": [
    "Momlevel.Props.C106_density",
    "Momlevel.Props.C106_halosteric",
    "Momlevel.Props.C106_thermosteric"
   ],
   "note": "Exact arithmetic. Reference = first time level, atmospheric pressure a number."
  },
  {
   "property": "C107",
   "status": "proved",
   "theorems": [
    "Momlevel.Props.C107_closure"
   ],
   "note": "Exact arithmetic. Reference = first time level, atmospheric pressure a number."
  },
  {
   "property": "C108",
   "status": "proved",
   "theorems": [
    "Momlevel.Props.C108_average"
   ],
   "note": "Exact arithmetic. Any reference fixed in time, the same for both runs."
  },
  {
   "property": "C109",
   "status": "partial",
   "theorems": [
    "Momlevel.Props.C109_partial",
    "Momlevel.Props.C109_counterexample"
   ],
   "note": "False of the code: C109_counterexample. C109_partial gives the exact condition and the value."
  },
  {
   "property": "C110",
   "status": "partial",
   "theorems": [
    "Momlevel.Props.C110_partial",
    "Momlevel.Props.C110_bottom_ignored",
    "Momlevel.Props.C110_counterexample"
   ],
   "note": "False of the code: C110_counterexample, C110_bottom_ignored. C110_partial says where the results are defined and their signs."
  },
  {
   "property": "C111",
   "status": "proved",
   "theorems": [
    "Momlevel.Props.C111_origin",
    "Momlevel.Props.C111_years"
   ],
   "note": ""
  },
  {
   "property": "C112",
   "status": "partial",
   "theorems": [
    "Momlevel.Props.C112_partial",
    "Momlevel.Props.C112_counterexample"
   ],
   "note": "False of the code: C112_counterexample (leap years). C112_partial for daily data without leap years."
  },
  {
   "property": "C113",
   "status": "partial",
   "theorems": [
    "Momlevel.Props.C113_iff",
    "Momlevel.Props.C113_monthly",
    "Momlevel.Props.C113_partial",
    "Momlevel.Props.C113_counterexample"
   ],
   "note": "False of the code: C113_monthly, C113_counterexample. C113_iff gives the exact condition; C113_partial is the daily case."
  },
  {
   "property": "C114",
   "status": "partial",
   "theorems": [
    "Momlevel.Props.C114_partial",
    "Momlevel.Props.C114_deseason",
    "Momlevel.Props.C114_counterexample"
   ],
   "note": "False of the code: C114_counterexample (360-day calendar). C114_partial, C114_deseason for the calendar without leap years."
  },
  {
   "property": "C115",
   "status": "partial",
   "theorems": [
    "Momlevel.Props.C115_value",
    "Momlevel.Props.C115_iff",
    "Momlevel.Props.C115_partial",
    "Momlevel.Props.C115_counterexample"
   ],
   "note": "False of the code: C115_counterexample. C115_iff gives the exact condition; C115_partial is the calendar without leap years."
  },
  {
   "property": "C116",
   "status": "proved",
   "theorems": [
    "Momlevel.Props.C116_split",
    "Momlevel.Props.C116_land",
    "Momlevel.Props.C116_threshold",
    "Momlevel.Props.C116_more_points",
    "Momlevel.Props.C116_order"
   ],
   "note": ""
  },
  {
   "property": "C117",
   "status": "partial",
   "theorems": [
    "Momlevel.Props.C117_weights",
    "Momlevel.Props.C117_partial",
    "Momlevel.Props.C117_counterexample"
   ],
   "note": "False of the code: C117_counterexample (February, 1979-1980). C117_partial for months of one length; C117_weights gives the weights of the years in general."
  },
  {
   "property": "C118",
   "status": "proved",
   "theorems": [
    "Momlevel.Props.C118_annual",
    "Momlevel.Props.C118_monthly",
    "Momlevel.Props.C118_cycle",
    "Momlevel.Props.C118_trend",
    "Momlevel.Props.C118_detrend",
    "Momlevel.Props.C118_deseason"
   ],
   "note": "One theorem per function. Minimum, maximum and standard deviation are not linear and not meant."
  },
  {
   "property": "C119",
   "status": "partial",
   "theorems": [
    "Momlevel.Props.C119_formula",
    "Momlevel.Props.C119_bounds",
    "Momlevel.Props.C119_scale",
    "Momlevel.Props.C119_refine",
    "Momlevel.Props.C119_partial",
    "Momlevel.Props.C119_counterexample"
   ],
   "note": "False of the code as stated: C119_counterexample (N2 raised from -1 to 1/4 lowers the wave speed, because a negative value is replaced by the one above). C119_partial: true for stable columns; C119_formula, C119_bounds, C119_scale, C119_refine for stable columns."
  },
  {
   "property": "C120",
   "status": "proved",
   "theorems": [
    "Momlevel.Props.C120_dz",
    "Momlevel.Props.C120_local",
    "Momlevel.Props.C120_wright_counterexample",
    "Momlevel.Props.C120_global"
   ],
   "note": "C120_dz for every equation of state; C120_local and C120_global for the linear one; C120_wright_counterexample shows that this cannot be extended to Wright's."
  },
  {
   "property": "C121",
   "status": "proved",
   "theorems": [
    "Momlevel.Props.C121_global",
    "Momlevel.Props.C121_local"
   ],
   "note": "C121_global for the factors, C121_local for the local heights."
  },
  {
   "property": "C122",
   "status": "proved",
   "theorems": [
    "Momlevel.Props.C122_error",
    "Momlevel.Props.C122_precision",
    "Momlevel.Props.C122_zero",
    "Momlevel.Props.C122_resolution",
    "Momlevel.Props.C122_steric"
   ],
   "note": "C122_error, C122_precision, C122_zero, C122_resolution about the model with rounded numbers; C122_steric ties the exact height to a run of steric. Overflow is not modelled. The areas are at least 1 m2, the volumes at least 1 m3 and the mean depth at least 1 m."
  },
  {
   "property": "C123",
   "status": "proved",
   "theorems": [
    "Momlevel.Props.C123_same_place",
    "Momlevel.Props.C123_annual",
    "Momlevel.Props.C123_monthly",
    "Momlevel.Props.C123_cycle",
    "Momlevel.Props.C123_trend",
    "Momlevel.Props.C123_deseason"
   ],
   "note": "C123_same_place for the cells; C123_annual, C123_monthly, C123_cycle, C123_trend. The time dimension must not be a dimension of the coordinates."
  },
  {
   "property": "C124",
   "status": "proved",
   "theorems": [
    "Momlevel.Props.C124_annual",
    "Momlevel.Props.C124_monthly",
    "Momlevel.Props.C124_cycle"
   ],
   "note": "NoMore d u v: both missing, or u <= v + d."
  },
  {
   "property": "C125",
   "status": "proved",
   "theorems": [
    "Momlevel.Props.C125_value",
    "Momlevel.Props.C125_column",
    "Momlevel.Props.C125_ranges",
    "Momlevel.Props.C125_monotone"
   ],
   "note": "C125_value is exact for every range, including those for which C09 fails."
  },
  {
   "property": "C126",
   "status": "proved",
   "theorems": [
    "Momlevel.Props.C126_model",
    "Momlevel.Props.C126_model_fraction",
    "Momlevel.Props.C126_rounded",
    "Momlevel.Props.C126_error",
    "Momlevel.Props.C126_monotone",
    "Momlevel.Props.C126_fraction",
    "Momlevel.Props.C126_column",
    "Momlevel.Props.C126_whole"
   ],
   "note": "C126_model and C126_model_fraction tie the rounded formula to calcDz in exact arithmetic; comparisons are exact, no underflow in C126_column."
  },
  {
   "property": "C127",
   "status": "proved",
   "theorems": [
    "Momlevel.Props.C127_weighted",
    "Momlevel.Props.C127_mean",
    "Momlevel.Props.C127_weights",
    "Momlevel.Props.C127_whole",
    "Momlevel.Props.C127_annual",
    "Momlevel.Props.C127_monthly",
    "Momlevel.Props.C127_cycle"
   ],
   "note": "Stated against the results of annualAverage, monthlyAverage and annualCycle in exact arithmetic; products are rounded before being added, no underflow."
  },
  {
   "property": "C128",
   "status": "partial",
   "theorems": [
    "Momlevel.Props.C128_warmer_partial",
    "Momlevel.Props.C128_saltier_partial",
    "Momlevel.Props.C128_brackish",
    "Momlevel.Props.C128_fresher",
    "Momlevel.Props.C128_counterexample"
   ],
   "note": "False of the code outside the range the polynomial was fitted for (C128_brackish, C128_fresher, C128_counterexample); C128_warmer_partial and C128_saltier_partial prove it for open-ocean salinities."
  },
  {
   "property": "C129",
   "status": "proved",
   "theorems": [
    "Momlevel.Props.C129_bounds",
    "Momlevel.Props.C129_rising",
    "Momlevel.Props.C129_falling",
    "Momlevel.Props.C129_sensitivity",
    "Momlevel.Props.C129_variance"
   ],
   "note": "For every series with valid samples at two positions; slopes per unit of position, times the positive unit factor."
  },
  {
   "property": "C130",
   "status": "proved",
   "theorems": [
    "Momlevel.Props.C130_same",
    "Momlevel.Props.C130_complete",
    "Momlevel.Props.C130_double",
    "Momlevel.Props.C130_acts"
   ],
   "note": "Model/TrendCut adds the cut-off to calcLinearTrend; the truncated solution is an arbitrary parameter. C130_acts shows that the condition on the axis is needed."
  },
  {
   "property": "C131",
   "status": "proved",
   "theorems": [
    "Momlevel.Props.C131_model",
    "Momlevel.Props.C131_wave",
    "Momlevel.Props.C131_radius",
    "Momlevel.Props.C131_double"
   ],
   "note": "Rounded column of calc_wave_speed and calc_rossby_rd in Model/RoundingWave; C131_model ties it to the exact model. Square root rounded like any other operation."
  },
  {
   "property": "C132",
   "status": "proved",
   "theorems": [
    "Momlevel.Props.C132_vorticity",
    "Momlevel.Props.C132_pv",
    "Momlevel.Props.C132_pv_sign"
   ],
   "note": "Rounded point values in Model/RoundingVort, for interior cells and finite inputs; no overflow or underflow."
  },
  {
   "property": "C133",
   "status": "proved",
   "theorems": [
    "Momlevel.Props.C133_model",
    "Momlevel.Props.C133_gradient",
    "Momlevel.Props.C133_n2",
    "Momlevel.Props.C133_sign",
    "Momlevel.Props.C133_double",
    "Momlevel.Props.C133_uniform"
   ],
   "note": "Rounded column of calc_n2 in Model/RoundingN2; C133_model ties its formulas to the exact model. Wright's equation; no underflow."
  },
  {
   "property": "C134",
   "status": "proved",
   "theorems": [
    "Momlevel.Props.C134_warming",
    "Momlevel.Props.C134_mixing",
    "Momlevel.Props.C134_pressure",
    "Momlevel.Props.C134_coefficients",
    "Momlevel.Props.C134_thermosteric",
    "Momlevel.Props.C134_patm"
   ],
   "note": "Bounds of the second derivatives by interval evaluation (Lemmas/WrightPressure, WrightBounds) and the mean value theorem; real arithmetic."
  },
  {
   "property": "C135",
   "status": "proved",
   "theorems": [
    "Momlevel.Props.C135_annual",
    "Momlevel.Props.C135_monthly",
    "Momlevel.Props.C135_noon",
    "Momlevel.Props.C135_not_noon",
    "Momlevel.Props.C135_trend_annual",
    "Momlevel.Props.C135_trend_monthly"
   ],
   "note": "Real or rational arithmetic; positions in time as cftime_to_float computes them (nanoseconds since 1970)."
  },
  {
   "property": "C136",
   "status": "proved",
   "theorems": [
    "Momlevel.Props.C136_exact",
    "Momlevel.Props.C136_error",
    "Momlevel.Props.C136_size",
    "Momlevel.Props.C136_bound",
    "Momlevel.Props.C136_double",
    "Momlevel.Props.C136_single"
   ],
   "note": "Standard model of rounding without overflow and underflow; numpy's power is assumed accurate to a relative error v (2u for the two numbers)."
  },
  {
   "property": "C137",
   "status": "proved",
   "theorems": [
    "Momlevel.Props.C137_numbers",
    "Momlevel.Props.C137_density"
   ],
   "note": "Global domain; no renaming of variables."
  },
  {
   "property": "C138",
   "status": "proved",
   "theorems": [
    "Momlevel.Props.C138_repeated",
    "Momlevel.Props.C138_dz",
    "Momlevel.Props.C138_local",
    "Momlevel.Props.C138_numbers",
    "Momlevel.Props.C138_coordinates"
   ],
   "note": "Model/DzBare is a second model of the same lines for levels without coordinates; no renaming of variables."
  },
  {
   "property": "C139",
   "status": "proved",
   "theorems": [
    "Momlevel.Props.C139_linear",
    "Momlevel.Props.C139_wright",
    "Momlevel.Props.C139_surface"
   ],
   "note": "Exact condition for the error."
  },
  {
   "property": "C140",
   "status": "proved",
   "theorems": [
    "Momlevel.Props.C140_potential",
    "Momlevel.Props.C140_linear",
    "Momlevel.Props.C140_rotation",
    "Momlevel.Props.C140_last_row"
   ],
   "note": "Inner corners exact; the last row of corners stated too."
  },
  {
   "property": "C141",
   "status": "proved",
   "theorems": [
    "Momlevel.Props.C141_samples",
    "Momlevel.Props.C141_one_position",
    "Momlevel.Props.C141_lone_sample",
    "Momlevel.Props.C141_missing_matters"
   ],
   "note": "With the exact result where the line is not determined by the data."
  },
  {
   "property": "C142",
   "status": "proved",
   "theorems": [
    "Momlevel.Props.C142_names",
    "Momlevel.Props.C142_inherited",
    "Momlevel.Props.C142_calculated",
    "Momlevel.Props.C142_steric",
    "Momlevel.Props.C142_given"
   ],
   "note": "Attributes of the input are a parameter; the order and names of the variables are those of the value model."
  },
  {
   "property": "C143",
   "status": "proved",
   "theorems": [
    "Momlevel.Props.C143_barometer",
    "Momlevel.Props.C143_pdens",
    "Momlevel.Props.C143_exact",
    "Momlevel.Props.C143_precision"
   ],
   "note": "For every rounding that meets `Format`; overflow is not modelled."
  },
  {
   "property": "C144",
   "status": "proved",
   "theorems": [
    "Momlevel.Props.C144_wright",
    "Momlevel.Props.C144_linear",
    "Momlevel.Props.C144_surface",
    "Momlevel.Props.C144_column",
    "Momlevel.Props.C144_precision",
    "Momlevel.Props.C144_missing",
    "Momlevel.Props.C144_half"
   ],
   "note": "The constants are numbers of the array's format, as in numpy 2 with Python scalars."
  },
  {
   "property": "C145",
   "status": "proved",
   "theorems": [
    "Momlevel.Props.C145_pole",
    "Momlevel.Props.C145_total",
    "Momlevel.Props.C145_spacing"
   ],
   "note": "The area-zero cells follow from the two edges of the cell lying on the same parallel."
  },
  {
   "property": "C146",
   "status": "proved",
   "theorems": [
    "Momlevel.Props.C146_extremes",
    "Momlevel.Props.C146_std",
    "Momlevel.Props.C146_spread",
    "Momlevel.Props.C146_february"
   ],
   "note": "C146_std gives both standard deviations by formula; C146_february is a concrete leap February where the monthly averages spread more than the days."
  },
  {
   "property": "C147",
   "status": "proved",
   "theorems": [
    "Momlevel.Props.C147_exact",
    "Momlevel.Props.C147_area",
    "Momlevel.Props.C147_nearest"
   ],
   "note": "C147_exact identifies the formula with the model of the function; C147_nearest is the case of correctly rounded sine with p >= 20 binary digits."
  },
  {
   "property": "C148",
   "status": "proved",
   "theorems": [
    "Momlevel.Props.C148_value",
    "Momlevel.Props.C148_missing",
    "Momlevel.Props.C148_uniform",
    "Momlevel.Props.C148_bounds",
    "Momlevel.Props.C148_vorticity_missing"
   ],
   "note": "Strengthens C17_interp, which asks for N2 in every cell. xgcm's boundary='fill' with fill value 0 is part of the trusted model."
  },
  {
   "property": "C149",
   "status": "proved",
   "theorems": [
    "Momlevel.Props.C149_floor",
    "Momlevel.Props.C149_regimes",
    "Momlevel.Props.C149_salt_fingers"
   ],
   "note": "The pressures given to calc_stability_angle are those calc_n2 computes. Extends C20 to columns over a sea floor and to the sign of N2; C149_salt_fingers is the witness against the docstring."
  },
  {
   "property": "C150",
   "status": "proved",
   "theorems": [
    "Momlevel.Props.C150_model",
    "Momlevel.Props.C150_deseason",
    "Momlevel.Props.C150_residual",
    "Momlevel.Props.C150_errors",
    "Momlevel.Props.C150_deseason_errors"
   ],
   "note": "Exact arithmetic; numpy's pinv is the Moore-Penrose inverse of the model."
  },
  {
   "property": "C151",
   "status": "proved",
   "theorems": [
    "Momlevel.Props.C151_closed",
    "Momlevel.Props.C151_sensitivity",
    "Momlevel.Props.C151_jump"
   ],
   "note": "R = (beta dS/dz)/(alpha dT/dz) as in the code; exact arithmetic."
  },
  {
   "property": "C152",
   "status": "proved",
   "theorems": [
    "Momlevel.Props.C152_excess",
    "Momlevel.Props.C152_once",
    "Momlevel.Props.C152_always",
    "Momlevel.Props.C152_reversal"
   ],
   "note": "Exact arithmetic; atmospheric pressure a scalar."
  },
  {
   "property": "C153",
   "status": "proved",
   "theorems": [
    "Momlevel.Props.C153_monthly",
    "Momlevel.Props.C153_cycle",
    "Momlevel.Props.C153_global",
    "Momlevel.Props.C153_time"
   ],
   "note": "Whether xarray keeps the attributes of a reduced variable is a parameter; every averaged variable has the time dimension."
  },
  {
   "property": "C154",
   "status": "proved",
   "theorems": [
    "Momlevel.Props.C154_response",
    "Momlevel.Props.C154_size",
    "Momlevel.Props.C154_uneven"
   ],
   "note": "Exact arithmetic; rounding is C143."
  },
  {
   "property": "C155",
   "status": "proved",
   "theorems": [
    "Momlevel.Props.C155_derivative",
    "Momlevel.Props.C155_sharp",
    "Momlevel.Props.C155_n2",
    "Momlevel.Props.C155_wright"
   ],
   "note": "Exact arithmetic."
  },
  {
   "property": "C156",
   "status": "proved",
   "theorems": [
    "Momlevel.Props.C156_error",
    "Momlevel.Props.C156_second_order",
    "Momlevel.Props.C156_linear"
   ],
   "note": "Exact arithmetic; first time level as reference; the cells down to the sea floor have a reference volume."
  },
  {
   "property": "C157",
   "status": "proved",
   "theorems": [
    "Momlevel.Props.C157_error",
    "Momlevel.Props.C157_cubic"
   ],
   "note": "Exact arithmetic; corners with centres on both sides; the other rows are C140_last_row."
  },
  {
   "property": "C158",
   "status": "proved",
   "theorems": [
    "Momlevel.Props.C158_error",
    "Momlevel.Props.C158_second_order",
    "Momlevel.Props.C158_radius"
   ],
   "note": "Exact arithmetic; stable columns (unstable ones: C119)."
  },
  {
   "property": "C159",
   "status": "proved",
   "theorems": [
    "Momlevel.Props.C159_moment",
    "Momlevel.Props.C159_gaps",
    "Momlevel.Props.C159_middle",
    "Momlevel.Props.C159_quadratic"
   ],
   "note": "Exact arithmetic over the reals."
  },
  {
   "property": "C160",
   "status": "proved",
   "theorems": [
    "Momlevel.Props.C160_annual",
    "Momlevel.Props.C160_monthly"
   ],
   "note": "Exact arithmetic. Daily samples at other times of day: C135_not_noon."
  },
  {
   "property": "C161",
   "status": "proved",
   "theorems": [
    "Momlevel.Props.C161_height",
    "Momlevel.Props.C161_wave",
    "Momlevel.Props.C161_n2",
    "Momlevel.Props.C161_vorticity"
   ],
   "note": "Combines C92, C131-C133 (rounding) with C155-C158 (discretisation); the modelled rounding is that of these properties."
  },
  {
   "property": "C162",
   "status": "proved",
   "theorems": [
    "Momlevel.Props.C162_coordinates",
    "Momlevel.Props.C162_errors",
    "Momlevel.Props.C162_threshold",
    "Momlevel.Props.C162_gauges",
    "Momlevel.Props.C162_gauges_flat"
   ],
   "note": "The gauge part is for runs without threshold, with one- or two-dimensional coordinates."
  },
  {
   "property": "C163",
   "status": "proved",
   "theorems": [
    "Momlevel.Props.C163_exact",
    "Momlevel.Props.C163_error",
    "Momlevel.Props.C163_slope",
    "Momlevel.Props.C163_minute",
    "Momlevel.Props.C163_year"
   ],
   "note": "The rounding model has no limit on the exponent (the factors are far from overflow and underflow)."
  },
  {
   "property": "C164",
   "status": "proved",
   "theorems": [
    "Momlevel.Props.C164_steric",
    "Momlevel.Props.C164_thermosteric",
    "Momlevel.Props.C164_halosteric",
    "Momlevel.Props.C164_size",
    "Momlevel.Props.C164_global"
   ],
   "note": "Reference taken from the first time level; exact arithmetic. C164_global needs cell volumes that are area times thickness in both data sets."
  },
  {
   "property": "C165",
   "status": "partial",
   "theorems": [
    "Momlevel.Props.C165_partial",
    "Momlevel.Props.C165_linear",
    "Momlevel.Props.C165_counterexample"
   ],
   "note": "False of the code as stated: C165_counterexample (the wave speed jumps where N2 of a level passes through 0). C165_partial and C165_linear: true, with bounds, for columns with positive N2."
  },
  {
   "property": "C166",
   "status": "proved",
   "theorems": [
    "Momlevel.Props.C166_vorticity",
    "Momlevel.Props.C166_pv"
   ],
   "note": "Exact arithmetic; velocities and metric factors without missing values at the edges around the corner's slice (CGrid); calc_pv with units m."
  },
  {
   "property": "C167",
   "status": "proved",
   "theorems": [
    "Momlevel.Props.C167_errors",
    "Momlevel.Props.C167_slopes",
    "Momlevel.Props.C167_compensated"
   ],
   "note": "Exact arithmetic; the range of the open ocean. Outside it C128 gives counterexamples to monotony."
  },
  {
   "property": "C168",
   "status": "proved",
   "theorems": [
    "Momlevel.Props.C168_coefficients",
    "Momlevel.Props.C168_sizes",
    "Momlevel.Props.C168_n2"
   ],
   "note": "Default gravity, atmospheric pressure and equation of state; exact arithmetic."
  },
  {
   "property": "C169",
   "status": "proved",
   "theorems": [
    "Momlevel.Props.C169_pdens",
    "Momlevel.Props.C169_barometer"
   ],
   "note": "Exact arithmetic."
  },
  {
   "property": "C170",
   "status": "proved",
   "theorems": [
    "Momlevel.Props.C170_coriolis",
    "Momlevel.Props.C170_radius"
   ],
   "note": "Exact arithmetic; the library's rotation rate of one turn per 86400 s."
  },
  {
   "property": "C171",
   "status": "proved",
   "theorems": [
    "Momlevel.Props.C171_range",
    "Momlevel.Props.C171_column"
   ],
   "note": "Exact arithmetic; fraction=False."
  }
 ]
}
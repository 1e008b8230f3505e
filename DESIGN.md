# Formal model of jkrasting/momlevel in Lean 4 — design

## 1. Trusted base

* Lean 4.33.0's kernel.  Every theorem is checked by it; `native_decide` and `bv_decide` are not used.
* Axioms: every theorem of the project depends on a subset of `propext`, `Classical.choice`,
  `Quot.sound` (the three standard axioms of Lean and Mathlib) and on nothing else.  No axiom is added.
  `lean/Verif/Audit.lean` is part of the build and checks this for *every* theorem in the namespace
  `Momlevel`: the build fails if a theorem depends on any other axiom (`sorryAx` included).
* Mathlib (source at /app/mathlib4-4.33.0), imported one module at a time.
* The hand translation from Python to Lean.  The code is not run here; each model definition cites the
  file and lines it models and states its simplifications.
* The behaviour of the external libraries (numpy, xarray, dask, pandas, scikit-learn, xgcm, cftime) as
  described in 1.3.

### 1.1 Numbers
Floating point is replaced by `Fl K`: `nan | ninf | fin x | pinf` with `x` in a linearly ordered field `K`
(`ℝ` where log, sqrt, sin or pi occur, any ordered field elsewhere).  Kept: NaN propagation, comparisons
with NaN are False, infinities and NaN from division by zero and from arithmetic with infinities,
reductions that skip NaN.  Not modelled: rounding (except in `Model/Rounding.lean`, `RoundingGlobal.lean`, `RoundingDz.lean`, `RoundingAverage.lean`, `RoundingSpice.lean`,
  `RoundingWave.lean`, `RoundingVort.lean`, `RoundingN2.lean`, `RoundingSurface.lean`, `RoundingArea.lean` and `RoundingUnits.lean`, C91, C92, C122, C126, C127, C131, C132, C133, C136, C143, C147, C161, C163), overflow (except in `Model/Overflow.lean`, C144) and underflow, signed zero (a zero divisor
counts as +0), dtype conversion (except `np.full_like` on integers, C65).  Python scalar division by zero is
an exception, numpy division by zero is inf or NaN.

### 1.2 Arrays, datasets, exceptions
A `DataArray` is an ordered list of named dimensions with sizes plus a function from an index
environment (dimension name ↦ index) to values (`DA`, `Model/DA.lean`).  Broadcasting is by name as in
xarray.  A `Dataset` is an ordered list of named arrays plus the names of its coordinates.  Functions that
can raise return `Except PyErr α`; the exception class is part of the statement of the theorems.
Index *alignment* is modelled separately for `steric` with a supplied reference (`Model/Align.lean`: labelled
arrays, inner join for arithmetic, exact join for `apply_ufunc` and `xr.where`; C81–C83) and for the derived
quantities (`Model/AlignDerived.lean`; C102–C104); C81 and the `_same` theorems prove that
it changes nothing when labels agree.  Everywhere else operands have identical labels on shared dimensions,
which holds for variables of one Dataset.  Not modelled: printing and warnings (except the
warnings of `geolocate_points`), encodings other than in `reset_encoding` and the
`dtype` of `steric`, plotting.  In `Model/Dz.lean` and `Model/Steric.lean` the
levels given to `calc_dz` have coordinate values; `Model/DzBare.lean` is for levels without, where `calc_dz`
invents a dimension `dim_0`.  Attributes are modelled where a property is about them (trend units,
`seasonal_model`, `deseason`, `Model/Attrs.lean`), apart from the values.

### 1.3 External calls (assumed behaviour)
* numpy/xarray elementwise arithmetic, `where`, `fillna`, `ffill`, `isel`, `squeeze`, `transpose`,
  `sum/mean/min/max/std(skipna)`, `weighted().mean`, `groupby`: modelled concretely.
* `xr.apply_ufunc`: elementwise with broadcasting.  For the linear equation of state, which ignores
  pressure, a dimension that only pressure has is an error (`applyEos`).  For `calc_spice` the numpy
  function sees the raw arrays, so the shape check of `spice` and the row-major order are modelled
  (`ufuncData`, `flatIndex`).
* `DataArray.differentiate(edge_order=2)` = `np.gradient`: the uniform and the non-uniform stencils and
  the one-sided edge formulas are modelled concretely; fewer than three levels raise.
* `xarray.polyfit(deg=1)`: exact least squares over the non-missing samples; when all valid times coincide,
  the least-norm solution after numpy's column scaling; an infinite value gives NaN.  The cut-off `rcond`
  is added in `Model/TrendCut.lean`, and C130 shows where it changes nothing.
* `numpy.linalg.pinv`: the Moore–Penrose inverse in exact arithmetic.  `Model/Pinv.lean` proves that it
  exists and is unique; the model uses that matrix.
* `sklearn.BallTree(..., metric="haversine").query(k=1)`: any search that returns a nearest point; ties are
  left open (the theorems hold for every such search).  `check_array` rejects empty and non-finite input.
* `xgcm.Grid.diff/interp`, centre to corner, `boundary="fill"`: modelled concretely with fill value 0, for
  the positions "right" and "outer".
* `cftime` calendars noleap, all_leap, 360_day, julian, proleptic_gregorian: leap rule, month lengths,
  date arithmetic and comparison are modelled concretely.  Years are positive; the mixed `standard`
  calendar is covered only from 1583 on, where it is proleptic Gregorian; the time of day is a number of
  microseconds; `timedelta / 2` rounds half to even.
* dask `map_overlap(depth=0)`: the chunk function is applied to every block of an arbitrary chunking.
* pandas `concat(axis=1)`: row by row for equal indices, otherwise an outer join by label; a comparison
  with None is False.  A csv file is a table; its absence fails the existence assertion.
* `str.lower`, `str.split`, `str.replace`: modelled on character lists (ASCII plus the Kelvin sign for
  `lower`, sufficient for comparison with ASCII names).
* `np.random.default_rng(seed).normal/uniform`: an arbitrary function of the seed and of the row-major index
  of the draw; the theorems hold for every such function (under stated bounds on the draws).
* Python dictionaries: association lists with replacement in place; xarray's `attrs` setter copies, its
  getter does not (C59).

### 1.4 Which code is modelled

| code | modelled | not modelled |
|---|---|---|
| eos/wright.py, eos/linear.py | all functions, elementwise | — |
| spice/flament.py | `spice` | — |
| derived.py | all functions (see Derived, Dz, AdjustN2, Coriolis, XGrid, Spice) | attributes of `calc_dz` |
| dynamic.py | `inverse_barometer` and its attributes | — |
| reference.py | `setup_reference_state` and the attributes | — |
| steric.py | `steric`, `thermosteric`, `halosteric`, `annual` option | `verbose`; which coordinates the result has (a parameter of the metadata model) |
| util.py | all functions, the averages for DataArrays and Datasets | text of messages, the deprecated alias `linear_detrend` |
| trend.py | all functions | warnings, result coordinates |
| tidegauge.py | both functions and the attributes of the series | — |
| test_data/time.py | both functions | — |
| test_data/__init__.py, horizontal.py, vertical.py | all functions | attributes |

## 2. Layout
* `lean/Verif/Model/*` the model.
* `lean/Verif/Spec/*` small specifications, written without the model's helper functions.
* `lean/Verif/Lemmas/*` auxiliary lemmas.
* `lean/Verif/Props/*` property theorems, named `Cxx_...`, with examples beside them that meet the
  hypotheses.  `*Cases.lean` hold larger concrete inputs.
* `lean/Verif/Props/Recorded.lean` values recorded in the repository's tests (section 5).
* `lean/Verif/Audit.lean` the axiom check (1).
* `properties.jsonl`, `MANIFEST.json` (property ↦ theorems), `seeded/LOG.jsonl` (mutation tests).

Naming: `_counterexample` proves that a claim (or a documented statement) is false of the code;
`_partial` is the part of a claim that does hold when the full claim is false or not proved.

## 3. Per property

| id | modelled | how it is proved |
|---|---|---|
| C01, C02 | Wright and linear equations of state over ℝ and over floats | `HasDerivAt` calculus on an independently written rational function; NaN propagation by cases |
| C03, C04 | Wright density on the oceanographic box | polynomial inequalities (bounds on each factor, then `nlinarith`/monotonicity); counterexample for fresh water |
| C05 | linear density, coefficients, `rho_ref` | field algebra |
| C06 | `eos_func_from_str`, `str.lower` | characterwise case analysis; all other strings fail |
| C07 | `spice` on (shape, row-major data), `calc_spice` | list induction, row-major index arithmetic |
| C08–C11 | `calc_dz` | per-cell clamp algebra, telescoping by induction over the levels; C09 is false when one cell contains both cuts: exact condition, counterexample, partial |
| C12, C13 | `adjust_negative_n2` | induction along z; C13 is false with time first: counterexample, partial |
| C14 | `calc_wave_speed` | sums of non-negatives |
| C15, C16 | `calc_coriolis`, `calc_rossby_rd` | trigonometry of Mathlib |
| C17, C18 | `calc_pv`, `calc_rel_vort`, xgcm grid | case analysis; telescoping sums over both axes |
| C19 | `calc_n2`, `np.gradient` | stencil algebra, exactness on quadratics |
| C20 | `calc_stability_angle` | arctan bounds, sign analysis of the density ratio |
| C21–C23 | `calc_masso/volo/rhoga/pdens`, `inverse_barometer` | weighted-mean inequalities, algebra |
| C24–C33 | `steric` and `setup_reference_state` on datasets in the exception monad | inversion of the pipeline into a pointwise formula; success theorem for well-formed requests |
| C34–C37 | `validate_*`, `default_coords` | exact decision (iff) |
| C38–C41, C66 | `annual_average`, `annual_cycle`, `monthly_average`, `steric(annual=True)` | groups as filtered positions, list induction, calendar sums |
| C42, C43 | `alphabetize_dataset`, `reset_encoding` | permutations, association lists |
| C44, C45 | `standard_grid_cell_area`, `tile_nominal_coords` | telescoping sine sum; surface integral |
| C46, C47, C49 | `geolocate_points` | nearest-point contract of the tree; spherical geometry in ℝ³ |
| C48, C67 | `extract_tidegauge` | inversion of the pipeline; success theorem; concrete gauge tables; masks matched by label (`Props/TidegaugeMask`) |
| C50–C56, C68 | linear trends | least squares by completing the square; character-list induction for units |
| C57, C58, C69–C73 | `seasonal_model`, `seasonal_cycle_model`, `deseason` | Penrose equations ⇒ projection; blocks located by induction over chunk sizes; attributes as dictionaries |
| C59 | attribute dictionary of the caller | exact effect; counterexample; partial (when nothing changes) |
| C60, C61, C73 | decimal times | counterexamples on calendars; partial for years of one length |
| C62, C63 | test_data/time.py | induction over days with the calendar's ordinal |
| C74–C77 | test_data: `generate_test_data`, `xy_fields`, `zlevel_fields` | look-ups in the assembled dataset, finite sums of draws, success theorem of `steric` |
| C78 | `generate_test_data_time`, averages of Datasets | groups of the monthly axis located by division with remainder, then C38/C41 |
| C79, C80 | `generate_test_data_dz`, `generate_test_data_uv` | hypotheses of C08/C18 established for the generated fields |
| C81–C83 | `steric` on labelled arrays | join algebra on label lists; values by label (`LA.sel`); sums over labels are independent of the order of dimensions; C83 is false: counterexample, partial |
| C84–C89 | attribute dictionaries and encodings (Model/Attrs) | exhaustive over the functions; association-list algebra for all dictionaries; counterexamples and partials for C84, C85, C87–C89 |
| C90 | `calc_n2(interfaces=…)`, `np.interp` with masked edges; whether xgcm refuses the transform is a parameter | position of a point among the nodes by counting; stencil lemmas for missing values; counterexample, partial |
| C91, C92 | equations of state and one water column over numbers whose operations round (`Model/Rounding.lean`) | expressions obtained by running the model at the type of expressions; verified interval and error computation (kernel `decide`), induction over the tree of additions |
| C93 | coordinates handed to `xr.DataArray` in `calc_dz` (`levelsAlone`) | case analysis of the run; equality of runs on datasets with the same variables |
| C94 | `isel` with lists of positions (`Spec.pick`) applied to the inputs of `steric` | every step of the local computation commutes with `pick`; validation through C34 |
| C95 | the same for the global computation | a permutation of positions permutes the index environments; sums are invariant |
| C96 | the same for the functions of `derived.py` and `dynamic.py` (`Props/Local`) | each array operation commutes with `pick`; counterexample along the first dimension for `adjust_negative_n2` |
| C97 | the same for the time functions of `util.py` and `trend.py` (`Props/LocalTime`) | each reduction looks at one series at a time, and the series of the part are series of the whole |
| C98 | sign of `calc_n2` in stably and unstably stratified columns with Wright's equation (`Props/N2Sign`) | the inner derivative is a weighted mean of the two slopes, α and β are positive (C03, C04); counterexample and exact condition at the two ends |
| C99 | both domains of `steric` on one dataset (`Props/MeanHeight`) | local and global results as sums over the wet cells, exchanged sums, 1 - 1/x ≤ log x ≤ x - 1 |
| C100 | `steric`, the reference state, diagnostics, averages and trends on data with permuted dimensions (`Spec/Transpose`, `Lemmas/Transpose`, `Props/DimOrder`, `Props/DimOrderDerived`, `Props/DimOrderSeason`) | every operation on arrays respects the relation "same values, permuted dimensions", errors included (`SameOutcome`); sums over permuted dimensions are permuted sums |
| C101 | the same for `adjust_negative_n2` and `calc_wave_speed` (`Props/DimOrderDerived`) | counterexample; proved for orders with the same first dimension |
| C102–C104 | derived quantities of arrays with other labels (`Model/AlignDerived`, `Props/AlignDerived`; with the same labels `Props/AlignSame`) | join algebra of C81–C83; C103 is false: counterexample, exact value, partial |
| C105 | change of the reference state (`Props/ChangeRef`; also `C30_supplied`: every run with a complete supplied reference succeeds) | difference of the column sums of C25; logarithm of C29; counterexample for Wright |
| C106–C108 | bounds of Wright's derivatives and what follows for the heights (`Props/WrightSize`) | signs of polynomials in three variables by Bernstein coefficients (`Lemmas/Bernstein`, checked by kernel reduction), mean value theorem (`Lemmas/WrightBounds`, `Lemmas/WrightDiff`), column sums of C25 |
| C109, C110 | `calc_n2`, `calc_wave_speed`, `calc_rossby_rd` over a sea floor (`Props/Bottom`) | the stencil of the difference uses three levels; exact condition for a missing value; counterexamples |
| C111–C114 | seasonal fits on different axes (`Props/SeasonOrigin`, `Props/SeasonSampling`, `Props/SeasonTrend`) | a shift rotates the harmonics; on daily axes the two decimal times differ by a constant; a sampled wave with another angle is annihilated by no recurrence of the regressors; counterexamples |
| C115 | `calc_linear_trend(time_units='yr')` (`Props/TrendYear`) | from C51; year lengths per calendar; counterexample |
| C116 | `geolocate_points` on parts of its input (`Props/GeolocateParts`) | success condition as an equivalence; nearest points of C46 |
| C117 | `annual_cycle` of `monthly_average` of daily data (`Props/DailyCycle`) | C38/C40 composed; sums over a month split by years; counterexample |
| C118 | superposition of averages and trends (`Props/Linear`) | C38/C40/C41 and the normal equations are linear |
| C119 | wave speed of a stable column (`Props/WaveColumn`) | C14_formula with the infill switched off; monotonicity of the square root; counterexample |
| C120 | cut layers (`Props/Refine`, `Props/RefineGlobal`) | overlap lengths add up; `local_value` and `global_value` regrouped by layer; counterexample for Wright |
| C121 | cell sizes (`Props/CellSize`) | runs decomposed by `refData_of`, `globalRun_of`, `localRun_of`; a constant factor passes through every sum |
| C122 | global height in rounded arithmetic (`Model/RoundingGlobal`, `Lemmas/Near`, `Props/RoundingGlobal`) | relative errors as exponents (`Near`); the volume cancels in the ratio of densities; gap of the format at 1; `global_value` |
| C123 | gauge extraction (`Props/GaugeTime`) | every step of `extractTidegauge` depends only on coordinates, labels and sizes off time; `Spec.seriesAt` commutes with the reductions |
| C124 | averages (`Spec/Order`, `Props/AverageOrder`) | from `C38_value`, `C41_value`, `C40_value`; Cauchy-Schwarz for the standard deviation |
| C125 | `calc_dz` with a range (`Props/DzRange`) | case analysis of the two clippings; telescoping overlaps |
| C126 | `calc_dz` in rounded arithmetic (`Model/RoundingDz`, `Props/RoundingDz`) | monotone maps commute with minimum and maximum; `SumTree.sum_error`; `calcDz_ok` |
| C127 | averages in rounded arithmetic (`Model/RoundingAverage`, `Spec/RoundingAverage`, `Props/RoundingAverage`) | `SumTree.sum_error` and one division; from `C38_value`, `C41_value`, `C40_value` |
| C128 | `calc_spice` (`Props/SpiceSign`) | derivatives of the polynomial, positive on a rectangle by its Bernstein form; counterexamples in brackish water; partial |
| C129 | `calc_linear_trend`, `linear_detrend` (`Props/TrendSize`) | sum over all pairs of samples; normal equations with centred times |
| C130 | `calc_linear_trend` with the cut-off of the solver (`Model/TrendCut`, `Props/TrendCut`) | eigenvalues of a two by two matrix through determinant and trace; spread of separated points |
| C131 | `calc_wave_speed`, `calc_rossby_rd` in floating point (`Model/RoundingWave`, `Props/RoundingWave`) | positive terms: relative errors multiply; any summation tree |
| C132 | `calc_rel_vort`, `calc_pv` in floating point (`Model/RoundingVort`, `Props/RoundingVort`) | error of each edge, then of the differences; no cancellation in products |
| C133 | `calc_n2` in floating point (`Model/RoundingN2`, `Props/RoundingN2`) | count of roundings in each weight of numpy's gradient; interval bounds for the coefficients |
| C134 | curvature of Wright's density in temperature and pressure; thermosteric height in warmer water and under higher `patm` (`Lemmas/WrightPressure`, `Props/WrightCurvature`) | interval bounds of mixed derivatives, mean value theorem twice |
| C135 | averages in time of a linear series (`Props/LinearSeries`) | the months of a year weighted with their lengths balance at the stamp of the year; the days of a month balance at its stamp when sampled at noon; `C51_exact` for the trend |
| C136 | rounding of spiciness (`Props/RoundingSpice`) | each term of the table is a product of rounded factors; `SumTree.sum_error` over any order of the additions; interval bound of the size of the terms |
| C137 | `steric`, `setup_reference_state` without depths (`Props/NoDepths`) | both datasets give the same look-ups; `Spec.IsDepth` says what stands in for the depths |
| C138 | `calc_dz`, local `steric` without depths (`Model/DzBare`, `Props/DzBare`) | the thicknesses are those of `calcDz` along `dim_0` (C08), constant along the levels, so the sum over levels factors |
| C139 | `applyEos` with pressures of any dimensions (`Props/PressureDims`) | case analysis of the check in `apply_ufunc` |
| C140 | as C18 (`Props/VorticityFlows`) | `C18_circulation` with the edges written as differences |
| C141 | as C51 (`Props/TrendSamples`) | misfits agree under a bijection of the valid samples, and the least-squares line is unique; the lone sample from the scaled least-norm solution |
| C142 | attributes of reference.py (`Model/AttrsReference`, `Props/AttrsReference`) | evaluation; renaming by induction on the list of variables |
| C143 | dynamic.py and `calc_pdens` with rounding (`Model/RoundingSurface`, `Props/RoundingSurface`) | interval checker of C91 |
| C144 | the same formulas with overflow, NaN and division by zero (`Model/Overflow`, `Lemmas/Overflow`, `Props/Overflow`) | interval checker on every intermediate result; non-finite values propagate |
| C145 | `standard_grid_cell_area` with centres on the poles (`Props/Poles`) | the edges beyond a pole fold back; telescoping over the inner rows |
| C146 | `annual_cycle` with min, max, std of daily data and of `monthly_average` (`Props/DailyExtremes`) | an average lies between the extremes; splitting of a variance into groups; counterexample with February 29 |
| C147 | `standard_grid_cell_area` with rounding (`Model/RoundingArea`, `Props/RoundingArea`) | error of the edges through the Lipschitz bound of sine; products of relative errors |
| C148 | `calc_pv`, `calc_rel_vort` at coasts and edges (`Spec/Beside`, `Props/PvEdges`) | the padded neighbours as a sum over the cells beside a corner; counting them |
| C149 | `calc_stability_angle` over a sea floor, with `calc_n2` (`Props/StabilityFloor`) | `differentiate_floor` (C109); signs of `a t < b s`; C20_turner_regimes |
| C150 | `seasonal_model`, `deseason` (`Props/SeasonSize`) | orthogonality of the residual to every combination of regressors |
| C151 | `calc_stability_angle` (`Props/StabilityRatio`) | addition theorem of the arctangent; mean value theorem |
| C152 | `calc_pdens` with Wright's equation of state (`Props/PotentialOrder`) | the bounds on mixed second derivatives of C134; a concrete pair of waters for the reversal |
| C153 | metadata of `monthly_average`, `annual_cycle` (`Model/AttrsAverage`, `Props/AttrsAverage`) | membership in filtered and updated dictionaries |
| C154 | `inverse_barometer` (`Props/Barometer`) | closed form of p/rho(p+dp) differences; kernel-checked polynomial bounds on the surface range |
| C155 | `calc_n2` (`Lemmas/GradientError`, `Props/N2Error`) | derivative of the interpolation error by Rolle's theorem |
| C156 | local `steric`, partial cells (`Lemmas/MidpointRule`, `Props/StericQuadrature`) | midpoint rule by Rolle's theorem, composite sums by induction |
| C157 | `calc_rel_vort` (`Props/VorticityError`) | circulation as difference quotients, midpoint rule |
| C158 | `calc_wave_speed` (`Props/WaveError`) | formula of C119, midpoint rule |
| C159 | `calc_linear_trend` (`Props/TrendSmooth`) | chords by the mean value theorem, Darboux's theorem; Taylor's formula and vanishing odd moments |
| C160 | `annual_average`, `monthly_average` (`Props/SmoothSeries`) | samples as midpoints of months and days, composite midpoint rule |
| C161 | `steric`, `calc_wave_speed`, `calc_n2`, `calc_rel_vort` (`Props/TotalError`) | triangle inequality between rounding bounds and discretisation bounds |
| C162 | `geolocate_points`, `extract_tidegauge` (`Props/GeolocateErrors`, `Props/TidegaugeErrors`) | triangle inequality of great-circle angles (C47) applied to the minimality in C46/C48; concavity of the sine for the angle of two points on a parallel |
| C163 | `time_conversion_factor`, `calc_linear_trend` (`Model/RoundingUnits`, `Props/RoundingUnits`) | relative errors of products and quotients (`Lemmas/Near`); the two counterexamples by evaluating round-to-nearest |
| C164 | `steric`, `thermosteric`, `halosteric` with Wright's equation (`Props/StericErrors`, `Props/StericErrorsGlobal`) | closed form of the local height (`local_value`), bounds of the differences and of the mixed difference of Wright's density (`Lemmas/WrightDiff`); globally a Lipschitz bound of the logarithm |
| C165 | `calc_wave_speed`, `adjust_negative_n2` (`Props/WaveSensitivity`) | formula of C119, Hölder and Lipschitz bounds of the square root; counterexample with two levels |
| C166 | `calc_rel_vort`, `calc_pv` (`Props/VortSensitivity`) | difference of the circulations of `C18_circulation` term by term; at most four cells beside a corner, and the product rule for `C148_value` |
| C167 | `calc_spice`, `spice` (`Props/SpiceErrors`) | Bernstein form of the distance of both derivatives from their bounds, mean value inequality |
| C168 | `calc_n2`, Wright's `alpha`, `beta` (`Lemmas/WrightSalt`, `Props/N2Sensitivity`) | second derivatives of density along salinity bounded over the box, `np.gradient` as weighted mean or extrapolation of two slopes, product rule |
| C169 | `calc_pdens`, `inverse_barometer` (`Props/SurfaceErrors`) | `abs_diff_rho` along a path with corners in the box, `pv_diff` of C154 for the pressure |
| C170 | `calc_coriolis`, `calc_rossby_rd` (`Props/RossbyErrors`) | the sine has slope at most 1 and stays above its chord up to the pole |
| C171 | `calc_dz` (`Props/DzErrors`) | minimum and maximum have slope at most 1; the thicknesses of a column telescope |
| C64 | `get_pv_colormap` | evaluation of the (fixed) table |
| C65 | `np.full_like` dtype | evaluation; counterexample |

All properties can be expressed in the model; none is not applicable.  Properties that are false of the code
(C09, C13, C49, C55, C59–C61, C67–C71, C73, C83–C85, C87–C90, C98, C101, C103, C109, C110,
C112–C115, C117, C119, C128, C165) are recorded with status `partial`: a theorem proves the
negation with a concrete witness, another one states what does hold.

## 4. Mutation tests
`seeded/LOG.jsonl` records edits of the model that imitate realistic bugs.  Each was made in a scratch copy
and rebuilt; a proof that fails is replaced there by `sorry`, the build is continued, and the theorems that then
depend on `sorryAx` are the ones listed as failed.  A claim none of whose theorems fails although the edit
makes it false leads to a stronger theorem (field `theorems_tightened`).

## 5. Validation of the model against the recorded test values
The model was compared with the numbers that /repo/tests asserts.  In a scratch copy the text of
`Verif/Model` was compiled with `ℝ` replaced by doubles (the pseudo-inverse by Gauss–Jordan elimination, date
arithmetic by closed formulas); the random draws of numpy's `default_rng` (seeds 123, 246, 999) were
reproduced from its definition (SeedSequence, PCG64, ziggurat).  The functions were then run on the same data
as the tests.  `Props/Recorded` holds the cases that can be checked in exact arithmetic inside the build.

* Agreement to all recorded digits: equations of state (scalars and arrays), `spice`, `calc_dz`, `calc_n2`,
  `adjust_negative_n2`, `calc_wave_speed`, `calc_rossby_rd`, `calc_stability_angle`, `calc_pv`, `calc_masso`,
  `calc_rhoga`, `inverse_barometer`, the local heights, `annual_average`, `monthly_average`, `annual_cycle`
  (all statistics), intercepts and slopes per year, `broadcast_trend`, `linear_detrend`, `get_pv_colormap`
  (its checksum), `geolocate_points` (names, indices; distances to the tolerance of the test).
* Agreement only because the tests' absolute tolerance 1e-8 exceeds the numbers (these tests accept any
  small number): sums of `calc_rel_vort` and `calc_coriolis`, the global heights, slopes per nanosecond.  The recorded slope per nanosecond contradicts the recorded slope per year; the recorded
  `reference_height` differs by 0.4 %.
* `calc_rho`, `calc_pdens`: the recorded sums differ from the model by 5e-6, within the tests' tolerance of
  1e-5, while `calc_masso` of the same density agrees to nine digits.
* Not run: `seasonal_model` and the default mode of `linear_detrend` (the tests assert only that a sum of
  residuals is small), `extract_tidegauge` (netCDF input), checksums of whole datasets made with dask.

{
 "claims": [
  {
   "property": "C01",
   "status": "proved",
   "theorems": [
    "Verif.Time.grace_calendar_roundtrip",
    "Verif.Time.calendar_grace_roundtrip",
    "Verif.Time.grace_month_order",
    "Verif.Time.grace_month_decimal",
    "Verif.Time.calendarToGrace_round"
   ],
   "note": ""
  },
  {
   "property": "C02",
   "status": "proved",
   "theorems": [
    "Verif.Time.leap_stnd_exclusive",
    "Verif.Time.leapCond_iff",
    "Verif.Time.calendarDays_spec",
    "Verif.Time.calendarDays_4000"
   ],
   "note": ""
  },
  {
   "property": "C03",
   "status": "proved",
   "theorems": [
    "Verif.Time.mjd_spec",
    "Verif.Time.convertCalendarDates_next",
    "Verif.Time.convertCalendarDates_epoch",
    "Verif.Time.january_skew",
    "Verif.Time.march_august_skew"
   ],
   "note": ""
  },
  {
   "property": "C04",
   "status": "proved",
   "theorems": [
    "Verif.Time.convertJulian_ranges",
    "Verif.Time.convertJulian_inverse",
    "Verif.Time.calendar_julian_roundtrip",
    "Verif.Time.convertJulian_right_inverse",
    "Verif.Time.convertJulian_injective"
   ],
   "note": ""
  },
  {
   "property": "C05",
   "status": "proved",
   "theorems": [
    "Verif.Time.decimal_of_date",
    "Verif.Time.decimal_of_dofy",
    "Verif.Time.decimal_range",
    "Verif.Time.decimal_strictMono",
    "Verif.Time.decimal_mid_month"
   ],
   "note": ""
  },
  {
   "property": "C06",
   "status": "proved",
   "theorems": [
    "Verif.Time.calendarToJulian_one_day_early",
    "Verif.Time.calendar_chain_previous_day"
   ],
   "note": ""
  },
  {
   "property": "C07",
   "status": "proved",
   "theorems": [
    "Verif.Time.adjust_unique",
    "Verif.Time.adjust_triple",
    "Verif.Time.adjust_pair_late",
    "Verif.Time.adjust_pair_early",
    "Verif.Time.adjust_pair_gap",
    "Verif.Time.adjustMonths_nodup",
    "Verif.Time.adjustMonths_repair"
   ],
   "note": ""
  },
  {
   "property": "C08",
   "status": "proved",
   "theorems": [
    "Verif.Time.reduce_strictly_sorted",
    "Verif.Time.reduce_mem_newest",
    "Verif.Time.reduce_one_per_date",
    "Verif.Time.reduce_order_independent"
   ],
   "note": ""
  },
  {
   "property": "C09",
   "status": "proved",
   "theorems": [
    "Verif.Time.deltaTime_comp",
    "Verif.Time.deltaTime_inverse",
    "Verif.Time.deltaTime_same_instant",
    "Verif.Time.parseDateString_exact",
    "Verif.Time.parseDateString_units",
    "Verif.Time.toSec_table",
    "Verif.Time.parseDateString_zero_iff",
    "Verif.Time.split3_spec"
   ],
   "note": ""
  },
  {
   "property": "C10",
   "status": "proved",
   "theorems": [
    "Verif.Dates.calDate_midpoint",
    "Verif.Dates.rawMonth_midpoint",
    "Verif.Dates.tdec_midpoint",
    "Verif.Dates.tdec_one_day_late",
    "Verif.Dates.totDays_midpoint",
    "Verif.Dates.cnes_number",
    "Verif.Dates.buildDict_keys",
    "Verif.Dates.buildDict_last",
    "Verif.Dates.graceDate_files"
   ],
   "note": ""
  },
  {
   "property": "C11",
   "status": "proved",
   "theorems": [
    "Verif.Dates.findMonths_bounds",
    "Verif.Dates.findMonths_total",
    "Verif.Dates.findMonths_missing_sorted",
    "Verif.Dates.findMonths_exact",
    "Verif.Dates.findMonths_exact_cnes",
    "Verif.Dates.findMonths_dropped",
    "Verif.Dates.findMonths_count"
   ],
   "note": ""
  },
  {
   "property": "C15",
   "status": "proved",
   "theorems": [
    "Verif.Harmonics.nHarm_eq",
    "Verif.Harmonics.flatten_spec",
    "Verif.Harmonics.flatten_rows",
    "Verif.Harmonics.expand_flatten",
    "Verif.Harmonics.flatten_expand",
    "Verif.Harmonics.flatten_fails"
   ],
   "note": ""
  },
  {
   "property": "C16",
   "status": "proved",
   "theorems": [
    "Verif.Harmonics.windowed_spec",
    "Verif.Harmonics.windowed_rejects",
    "Verif.Harmonics.subtract_add",
    "Verif.Harmonics.add_subtract",
    "Verif.Harmonics.divide_spec",
    "Verif.Harmonics.divide_multiply"
   ],
   "note": ""
  },
  {
   "property": "C17",
   "status": "proved",
   "theorems": [
    "Verif.Harmonics.truncate_spec",
    "Verif.Harmonics.truncate_default",
    "Verif.Harmonics.truncate_order_zero",
    "Verif.Harmonics.truncate_truncate",
    "Verif.Harmonics.truncate_scale",
    "Verif.Harmonics.truncate_windowed"
   ],
   "note": ""
  },
  {
   "property": "C22",
   "status": "proved",
   "theorems": [
    "Verif.Harmonics.scale_scale",
    "Verif.Harmonics.scale_spec",
    "Verif.Harmonics.scaleVec_single",
    "Verif.Harmonics.scaleVec_series",
    "Verif.Harmonics.scaleVec_dates",
    "Verif.Harmonics.drift_spec",
    "Verif.Harmonics.convolve_spec",
    "Verif.Harmonics.convolve_rejects",
    "Verif.Harmonics.convolve_convolve"
   ],
   "note": ""
  },
  {
   "property": "C24",
   "status": "proved",
   "theorems": [
    "Verif.Harmonics.triangle_columns",
    "Verif.Harmonics.masked_array_entry",
    "Verif.Harmonics.masked_array_mask",
    "Verif.Harmonics.masked_array_lossless"
   ],
   "note": ""
  },
  {
   "property": "C57",
   "status": "proved",
   "theorems": [
    "Verif.Harmonics.ascii_roundtrip"
   ],
   "note": ""
  },
  {
   "property": "C18",
   "status": "proved",
   "theorems": [
    "Verif.Harmonics.subset_missing",
    "Verif.Harmonics.subset_spec",
    "Verif.Harmonics.subset_perm",
    "Verif.Harmonics.subset_all",
    "Verif.Harmonics.subset_repeated_object",
    "Verif.Harmonics.subset_repeated_request",
    "Verif.Spatial.subset_spec",
    "Verif.Spatial.subset_missing",
    "Verif.Spatial.index_spec"
   ],
   "note": ""
  },
  {
   "property": "C19",
   "status": "proved",
   "theorems": [
    "Verif.Harmonics.fromList_spec",
    "Verif.Harmonics.fromList_split",
    "Verif.Spatial.fromList_spec"
   ],
   "note": ""
  },
  {
   "property": "C20",
   "status": "proved",
   "theorems": [
    "Verif.Harmonics.iteration",
    "Verif.Harmonics.index_field",
    "Verif.Harmonics.nested_loop_exhausts",
    "Verif.Harmonics.fromList_split"
   ],
   "note": ""
  },
  {
   "property": "C21",
   "status": "proved",
   "theorems": [
    "Verif.Harmonics.mean_value",
    "Verif.Harmonics.mean_applied",
    "Verif.Harmonics.mean_removed_zero",
    "Verif.Harmonics.mean_idempotent",
    "Verif.Harmonics.mean_differences"
   ],
   "note": ""
  },
  {
   "property": "C23",
   "status": "proved",
   "theorems": [
    "Verif.Harmonics.run_coeffs",
    "Verif.Harmonics.ilm_first_read",
    "Verif.Harmonics.ilm_later_read",
    "Verif.Harmonics.amp_first_read",
    "Verif.Harmonics.amp_later_read",
    "Verif.Harmonics.ilm_stale"
   ],
   "note": ""
  },
  {
   "property": "C25",
   "status": "proved",
   "theorems": [
    "Verif.Harmonics.amplitude_eq",
    "Verif.Harmonics.degreeAmplitude_spec",
    "Verif.Harmonics.degAmp_triangle",
    "Verif.Harmonics.degAmp_nonneg",
    "Verif.Harmonics.degAmp_eq_zero",
    "Verif.Harmonics.degAmp_scale",
    "Verif.Harmonics.degAmp_add"
   ],
   "note": ""
  },
  {
   "property": "C12",
   "status": "proved",
   "theorems": [
    "Verif.Dates.inputMonths_spec",
    "Verif.Dates.inputMonths_findMonths",
    "Verif.Input.replaceStage_spec",
    "Verif.Input.replaceStage_missing",
    "Verif.Input.replaceStage_ok",
    "Verif.Input.deg1Stage_spec",
    "Verif.Input.deg1Stage_missing",
    "Verif.Input.replaceAll_spec"
   ],
   "note": ""
  },
  {
   "property": "C13",
   "status": "proved",
   "theorems": [
    "Verif.Input.readGrace_entry",
    "Verif.Input.readGrace_ok_iff",
    "Verif.Input.readGrace_truncation",
    "Verif.Input.readGrace_irrelevant",
    "Verif.Input.poleTide_csr_gfz",
    "Verif.Input.poleTide_csr_before"
   ],
   "note": ""
  },
  {
   "property": "C14",
   "status": "proved",
   "theorems": [
    "Verif.Input.corrOf_ranges",
    "Verif.Input.readEcmwf_spec",
    "Verif.Input.readEcmwf_order",
    "Verif.Input.atmStage_spec",
    "Verif.Input.atm_total"
   ],
   "note": ""
  },
  {
   "property": "C26",
   "status": "proved",
   "theorems": [
    "Verif.Spatial.updateMask_consistent",
    "Verif.Spatial.updateMask_mask",
    "Verif.Spatial.updateMask_data",
    "Verif.Spatial.updateMask_mask_mono",
    "Verif.Spatial.updateMask_valid",
    "Verif.Spatial.updateMask_noFill",
    "Verif.Spatial.updateMask_same",
    "Verif.Spatial.updateMask_idem",
    "Verif.Spatial.copy_same",
    "Verif.Spatial.copy_consistent",
    "Verif.Spatial.replaceInvalid_spec",
    "Verif.Spatial.replaceInvalid_consistent_iff",
    "Verif.Spatial.pointwise_spec",
    "Verif.Spatial.offset_scale_values",
    "Verif.Spatial.history_consistent",
    "Verif.Spatial.power_breaks",
    "Verif.Spatial.replaceInvalid_breaks",
    "Verif.Spatial.offset_masks_valid"
   ],
   "note": ""
  },
  {
   "property": "C27",
   "status": "proved",
   "theorems": [
    "Verif.Spatial.flip_cell",
    "Verif.Spatial.flip_flip",
    "Verif.Spatial.flip_keeps_coordinates",
    "Verif.Spatial.flip_time_months",
    "Verif.Spatial.transpose_cell",
    "Verif.Spatial.transpose_inverse",
    "Verif.Spatial.transpose_keeps_latitudes"
   ],
   "note": ""
  },
  {
   "property": "C28",
   "status": "proved",
   "theorems": [
    "Verif.Spatial.statistics_nan",
    "Verif.Spatial.statistics_shape",
    "Verif.Spatial.mean_cell",
    "Verif.Spatial.sum_cell",
    "Verif.Spatial.max_cell",
    "Verif.Spatial.min_cell",
    "Verif.Spatial.statistics_noFill",
    "Verif.Spatial.mean_masks_valid",
    "Verif.Spatial.removeMean_cell",
    "Verif.Spatial.removeMean_zero",
    "Verif.Spatial.removeMean_fill_contaminates"
   ],
   "note": ""
  },
  {
   "property": "C58",
   "status": "proved",
   "theorems": [
    "Verif.Spatial.gain_minimises",
    "Verif.Spatial.kfactor_data",
    "Verif.Spatial.kfactor_error",
    "Verif.Spatial.kfactor_error_lost",
    "Verif.Spatial.kfactor_zero"
   ],
   "note": ""
  },
  {
   "property": "C59",
   "status": "proved",
   "theorems": [
    "Verif.Spatial.Alias.copy_isolated",
    "Verif.Spatial.Alias.copy_values",
    "Verif.Spatial.Alias.flip_shares",
    "Verif.Spatial.Alias.flip_mutates"
   ],
   "note": ""
  },
  {
   "property": "C29",
   "status": "proved",
   "theorems": [
    "Verif.Geocenter.toCartesian_spec",
    "Verif.Geocenter.copy_keeps",
    "Verif.Geocenter.toCartesian_incomplete",
    "Verif.Geocenter.fromCartesian_toCartesian",
    "Verif.Geocenter.fromCartesian_toCartesian_noErr",
    "Verif.Geocenter.toCartesian_fromCartesian",
    "Verif.Geocenter.fromCartesian_missing",
    "Verif.Geocenter.toCmwe_spec",
    "Verif.Geocenter.toMmwe_ten",
    "Verif.Geocenter.fromCmwe_toCmwe",
    "Verif.Geocenter.fromMmwe_toMmwe",
    "Verif.Geocenter.toMatrix_spec",
    "Verif.Geocenter.fromMatrix_toMatrix",
    "Verif.Geocenter.subtract_add",
    "Verif.Geocenter.divide_multiply",
    "Verif.Geocenter.removeMean_zero",
    "Verif.Geocenter.copy_radius",
    "Verif.Geocenter.copy_loses_sigma"
   ],
   "note": ""
  },
  {
   "property": "C60",
   "status": "proved",
   "theorems": [
    "Verif.Geocenter.fromTellus_spec",
    "Verif.Geocenter.fromTellus_truncated",
    "Verif.Geocenter.fromTellus_order"
   ],
   "note": ""
  },
  {
   "property": "C30",
   "status": "proved",
   "theorems": [
    "Verif.Legendre.colombo_correct",
    "Verif.Legendre.colombo_above_diagonal",
    "Verif.Legendre.colombo_pole",
    "Verif.Legendre.colombo_pole_deviation",
    "Verif.Legendre.colombo_LMAX_zero"
   ],
   "note": "at the poles the code keeps eps^m instead of 0; stated and proved as such"
  },
  {
   "property": "C31",
   "status": "proved",
   "theorems": [
    "Verif.Legendre.holmes_correct",
    "Verif.Legendre.mohlenkamp_correct",
    "Verif.Legendre.algorithms_agree",
    "Verif.Legendre.holmes_low_degree"
   ],
   "note": ""
  },
  {
   "property": "C32",
   "status": "proved",
   "theorems": [
    "Verif.Legendre.colombo_derivative",
    "Verif.Legendre.derivative_all",
    "Verif.Legendre.Plm_hasDerivAt"
   ],
   "note": ""
  },
  {
   "property": "C33",
   "status": "proved",
   "theorems": [
    "Verif.Legendre.legendrePolynomials_correct",
    "Verif.Legendre.legendrePolynomials_agree",
    "Verif.Legendre.legendrePolynomials_north",
    "Verif.Legendre.legendrePolynomials_derivative",
    "Verif.Legendre.dLeg_at_pole"
   ],
   "note": ""
  },
  {
   "property": "C34",
   "status": "proved",
   "theorems": [
    "Verif.Synthesis.clenshaw_correct",
    "Verif.Synthesis.clenshaw_order_zero_sine",
    "Verif.Synthesis.clenshaw_degree_zero",
    "Verif.Synthesis.clenshaw_eq_stokesSummation"
   ],
   "note": ""
  },
  {
   "property": "C35",
   "status": "proved",
   "theorems": [
    "Verif.Synthesis.harmSumCore_eq",
    "Verif.Synthesis.harmonicSummation_correct",
    "Verif.Synthesis.harmonicSummation_default",
    "Verif.Synthesis.harmSumCore_linear",
    "Verif.Synthesis.harmSumCore_window",
    "Verif.Synthesis.harmonicSummation_periodic",
    "Verif.Synthesis.stokesSummation_correct"
   ],
   "note": ""
  },
  {
   "property": "C36",
   "status": "proved",
   "theorems": [
    "Verif.Synthesis.gaussWeights_exact",
    "Verif.Synthesis.gaussWeights_decrease",
    "Verif.Synthesis.gauss_half_width",
    "Verif.Synthesis.gaussWeights_spec",
    "Verif.Synthesis.gaussWeights_small",
    "Verif.Synthesis.gaussWeights_LMAX_zero",
    "Verif.Synthesis.gaussWeights_bounds"
   ],
   "note": ""
  },
  {
   "property": "C61",
   "status": "proved",
   "theorems": [
    "Verif.Synthesis.harmTransform_correct",
    "Verif.Synthesis.harmTransform_aliased"
   ],
   "note": ""
  },
  {
   "property": "C62",
   "status": "proved",
   "theorems": [
    "Verif.Synthesis.zonal_geostrophic",
    "Verif.Synthesis.meridional_geostrophic",
    "Verif.Synthesis.zonal_degree_one_wrong",
    "Verif.Synthesis.zonal_general",
    "Verif.Synthesis.flow_smoothed",
    "Verif.Synthesis.currents_ignore_LMIN",
    "Verif.Synthesis.currents_LMIN_not_excluded",
    "Verif.Synthesis.currents_linear"
   ],
   "note": "exact Legendre functions (C01); the meridional component is positive southward"
  },
  {
   "property": "C37",
   "status": "proved",
   "theorems": [
    "Verif.Analysis.genStokes_bounds_raise",
    "Verif.Analysis.genStokes_correct",
    "Verif.Analysis.genStokes_linear",
    "Verif.Analysis.genStokes_zero",
    "Verif.Analysis.genStokes_periodic",
    "Verif.Analysis.genStokes_seam",
    "Verif.Analysis.genStokes_transpose",
    "Verif.Analysis.genStokes_square",
    "Verif.Analysis.genStokes_truncate",
    "Verif.Analysis.genStokes_unknown",
    "Verif.Analysis.genHarmonics_eq",
    "Verif.Analysis.genPointLoad_correct",
    "Verif.Analysis.genPointLoad_append",
    "Verif.Analysis.genPointLoad_single",
    "Verif.Analysis.gigatonnes_agree"
   ],
   "note": "fourier method of gen_harmonics is not part of the claim"
  },
  {
   "property": "C40",
   "status": "proved",
   "theorems": [
    "Verif.Units.get_by_name",
    "Verif.Units.attributes_units",
    "Verif.Units.harmonic_ratios",
    "Verif.Units.harmonic_love",
    "Verif.Units.spatial_ratio",
    "Verif.Units.harmonic_spatial",
    "Verif.Units.harmonic_spatial_ellipsoidal",
    "Verif.Units.mass_eq",
    "Verif.Units.mass_ellipsoid",
    "Verif.Units.rad_volume",
    "Verif.Units.microGal_mass",
    "Verif.Units.cmwe_degree_zero",
    "Verif.Units.harmonic_fresh",
    "Verif.Units.spatial_stale",
    "Verif.Units.bycode_spec",
    "Verif.Units.bycode_table",
    "Verif.Units.bycode_get",
    "Verif.Units.get_spec",
    "Verif.Units.get_uncomputed",
    "Verif.Units.pa_no_attributes"
   ],
   "note": ""
  },
  {
   "property": "C63",
   "status": "proved",
   "theorems": [
    "Verif.Legendre.legendre_normalized",
    "Verif.Legendre.legendre_normalized_pole",
    "Verif.Legendre.legendre_unnormalized",
    "Verif.Legendre.legendre_unnormalized_pole",
    "Verif.Legendre.legendre_agrees"
   ],
   "note": "the underflow approximation branch is outside the claim"
  },
  {
   "property": "C64",
   "status": "proved",
   "theorems": [
    "Verif.Analysis.mass_cmwe",
    "Verif.Analysis.mass_gigatonnes",
    "Verif.Analysis.mass_points",
    "Verif.Analysis.roundtrip"
   ],
   "note": ""
  },
  {
   "property": "C38",
   "status": "proved",
   "theorems": [
    "Verif.Loads.capCoeff_sphere",
    "Verif.Loads.plAlpha_correct",
    "Verif.Loads.discLoad_correct",
    "Verif.Loads.sphericalCap_correct",
    "Verif.Loads.capAngle_spec",
    "Verif.Loads.disc_mass",
    "Verif.Loads.cap_mass",
    "Verif.Loads.load_rotate",
    "Verif.Loads.load_scale",
    "Verif.Loads.load_zonal_raises"
   ],
   "note": "single disc/cap; load is the code shared by gen_disc_load and gen_spherical_cap"
  },
  {
   "property": "C39",
   "status": "proved",
   "theorems": [
    "Verif.Destripe.column_window",
    "Verif.Destripe.fit_unique",
    "Verif.Destripe.column_short",
    "Verif.Destripe.column_outside",
    "Verif.Destripe.column_quadratic",
    "Verif.Destripe.column_linear",
    "Verif.Destripe.column_local",
    "Verif.Destripe.nsmooth_spec",
    "Verif.Destripe.destripe_spec",
    "Verif.Destripe.default_high_orders",
    "Verif.Destripe.rmat_unit"
   ],
   "note": "lstsq modelled as the exact solution of the (regular) normal equations"
  },
  {
   "property": "C50",
   "status": "proved",
   "theorems": [
    "Verif.TimeSeries.epoch_spec",
    "Verif.TimeSeries.regressFit_criteria",
    "Verif.TimeSeries.alpha_spec",
    "Verif.TimeSeries.lstsq_spec",
    "Verif.TimeSeries.regress_projection",
    "Verif.TimeSeries.projection_unique",
    "Verif.TimeSeries.regress_epoch",
    "Verif.TimeSeries.regress_equal_weights",
    "Verif.TimeSeries.regress_orthogonal",
    "Verif.TimeSeries.regress_beta",
    "Verif.TimeSeries.regress_R2",
    "Verif.TimeSeries.regressFit_errors",
    "Verif.TimeSeries.regressFit_wsse",
    "Verif.TimeSeries.regressFit_none",
    "Verif.TimeSeries.loglik_maximum",
    "Verif.TimeSeries.propagate"
   ],
   "note": "lstsq/inv in exact arithmetic; erf and Student quantile are parameters"
  },
  {
   "property": "C51",
   "status": "proved",
   "theorems": [
    "Verif.TimeSeries.piecewiseFit_core",
    "Verif.TimeSeries.piecewise_trends",
    "Verif.TimeSeries.change_breakpoint",
    "Verif.TimeSeries.change_breaktime",
    "Verif.TimeSeries.piecewise_no_break",
    "Verif.TimeSeries.piecewise_error_weighted",
    "Verif.TimeSeries.piecewise_error_known",
    "Verif.TimeSeries.argmin_spec"
   ],
   "note": ""
  },
  {
   "property": "C54",
   "status": "proved",
   "theorems": [
    "Verif.TimeSeries.amplitude_spec"
   ],
   "note": ""
  },
  {
   "property": "C65",
   "status": "proved",
   "theorems": [
    "Verif.TimeSeries.aliasing_spec"
   ],
   "note": ""
  },
  {
   "property": "C52",
   "status": "proved",
   "theorems": [
    "Verif.TimeSeries.moving_spec",
    "Verif.TimeSeries.moving_none",
    "Verif.TimeSeries.moving_linear",
    "Verif.TimeSeries.moving_linear_time",
    "Verif.TimeSeries.moving_periodic",
    "Verif.TimeSeries.moving_bounds",
    "Verif.TimeSeries.loess_none",
    "Verif.TimeSeries.loess_narrow",
    "Verif.TimeSeries.loess_spec",
    "Verif.TimeSeries.loess_exact",
    "Verif.TimeSeries.loess_error_exact",
    "Verif.TimeSeries.exTimes_ok",
    "Verif.TimeSeries.windowWeight_pos",
    "Verif.TimeSeries.windowWeight_linear",
    "Verif.TimeSeries.windowWeight_sym",
    "Verif.TimeSeries.totalWeight_pos",
    "Verif.TimeSeries.weighted_spec",
    "Verif.TimeSeries.weighted_exact"
   ],
   "note": ""
  },
  {
   "property": "C53",
   "status": "proved",
   "theorems": [
    "Verif.TimeSeries.sgLength_default",
    "Verif.TimeSeries.sgWindow_none",
    "Verif.TimeSeries.savgol_none",
    "Verif.TimeSeries.vander_fullRank",
    "Verif.TimeSeries.convolve_mid",
    "Verif.TimeSeries.savgol_spec",
    "Verif.TimeSeries.savgol_exact",
    "Verif.TimeSeries.savgol_linear"
   ],
   "note": "np.mat is taken to exist (removed in NumPy 2)"
  },
  {
   "property": "C66",
   "status": "proved",
   "theorems": [
    "Verif.TimeSeries.lomb_omega",
    "Verif.TimeSeries.lomb_period",
    "Verif.TimeSeries.lomb_frequency_wrong",
    "Verif.TimeSeries.lomb_reciprocal",
    "Verif.TimeSeries.argmax_spec",
    "Verif.TimeSeries.lomb_peak",
    "Verif.TimeSeries.independentFreq_pos",
    "Verif.TimeSeries.lomb_probability",
    "Verif.TimeSeries.lomb_contour",
    "Verif.TimeSeries.lomb_centroid",
    "Verif.TimeSeries.lomb_nyquist",
    "Verif.TimeSeries.lomb_affine"
   ],
   "note": "scipy.signal.lombscargle is a parameter; the FREQUENCY range clause is proved to fail (lomb_frequency_wrong)"
  },
  {
   "property": "C41",
   "status": "proved",
   "theorems": [
    "Verif.SeaLevel.bodyTide_table",
    "Verif.SeaLevel.fluid_table",
    "Verif.SeaLevel.custom_love",
    "Verif.SeaLevel.seaLevel_mass",
    "Verif.SeaLevel.seaLevel_mass_fill",
    "Verif.SeaLevel.seaLevel_land",
    "Verif.SeaLevel.seaLevel_equation",
    "Verif.SeaLevel.seaLevel_returns",
    "Verif.SeaLevel.seaLevel_scale",
    "Verif.SeaLevel.seaLevel_no_load",
    "Verif.SeaLevel.seaLevel_add_one",
    "Verif.SeaLevel.seaLevel_stable",
    "Verif.SeaLevel.seaLevel_cm_frame",
    "Verif.SeaLevel.seaLevel_polar",
    "Verif.SeaLevel.demo_wellPosed"
   ],
   "note": "Non-convergence is not reported by the code (seaLevel_returns). Grid must not be square (gen_harmonics would read it transposed). Divisions by zero that make the field NaN are modelled as no result."
  },
  {
   "property": "C42",
   "status": "proved",
   "theorems": [
    "Verif.Mascons.wrapCenter_spec",
    "Verif.Mascons.output_spec",
    "Verif.Mascons.gsfc_cells",
    "Verif.Mascons.toGsfc_spec",
    "Verif.Mascons.toGsfc_bounds",
    "Verif.Mascons.toGsfc_west_none",
    "Verif.Mascons.fromGsfc_spec",
    "Verif.Mascons.fromJpl_spec",
    "Verif.Mascons.grids_spec",
    "Verif.Mascons.gsfc_roundtrip",
    "Verif.Mascons.jpl_spec",
    "Verif.Mascons.jpl_coords",
    "Verif.Mascons.jpl_cells",
    "Verif.Mascons.jpl_roundtrip"
   ],
   "note": "to_jpl divides by the number of latitudes once too often: jpl_roundtrip proves the value comes back divided; western mascons are NaN on a 0..360 grid (toGsfc_west_none)"
  },
  {
   "property": "C43",
   "status": "proved",
   "theorems": [
    "Verif.Tools.wrapLongitudes_range",
    "Verif.Tools.wrapLongitudes_congr",
    "Verif.Tools.wrapLongitudes_fixed",
    "Verif.Tools.wrapLongitudes_idem",
    "Verif.Tools.wrapLongitudes_periodic",
    "Verif.Tools.argminAbs_spec",
    "Verif.Tools.shiftGrid_first_raises",
    "Verif.Tools.shiftGrid_columns",
    "Verif.Tools.shiftGrid_perm",
    "Verif.Tools.shiftGrid_increasing"
   ],
   "note": "wrap over the reals via the complex argument; shift_grid over rationals; the documented 'starting longitude' is one period west, and a split at the first column always raises"
  },
  {
   "property": "C67",
   "status": "proved",
   "theorems": [
    "Verif.Tools.nearestIdx_spec",
    "Verif.Tools.interpGrid_nearest",
    "Verif.Tools.interpGrid_nodes",
    "Verif.Tools.oceanMask_surface",
    "Verif.Tools.oceanMask_not_ocean",
    "Verif.Tools.maskCell_spec"
   ],
   "note": "order 0 only; mask_oceans masks land, contrary to its documentation"
  },
  {
   "property": "C68",
   "status": "proved",
   "theorems": [
    "Verif.Tools.levels_spec",
    "Verif.Tools.cptNodes_spec",
    "Verif.Tools.cptNodes_ends",
    "Verif.Tools.cptNodes_increasing",
    "Verif.Tools.cptNodes_refused",
    "Verif.Tools.rgb255_range",
    "Verif.Tools.cptNodes_ignores_inner_ends",
    "Verif.Tools.setMaxDegree_raises",
    "Verif.Tools.setMaxDegree_intended"
   ],
   "note": "lines after the regular expressions; the HSV conversion is a parameter"
  },
  {
   "property": "C44",
   "status": "proved",
   "theorems": [
    "Verif.LoveNumbers.readLove_file",
    "Verif.LoveNumbers.readLove_between",
    "Verif.LoveNumbers.readLove_degree0",
    "Verif.LoveNumbers.readLove_beyond",
    "Verif.LoveNumbers.readLove_last_lost",
    "Verif.LoveNumbers.readLove_truncated_gap",
    "Verif.LoveNumbers.readLove_degree1",
    "Verif.LoveNumbers.readLove_unknown",
    "Verif.LoveNumbers.parseRow_columns",
    "Verif.LoveNumbers.transform_differences",
    "Verif.LoveNumbers.transform_frames",
    "Verif.LoveNumbers.transform_CM_zero",
    "Verif.LoveNumbers.alpha_case",
    "Verif.LoveNumbers.transform_compose",
    "Verif.LoveNumbers.transform_not_from_CM",
    "Verif.LoveNumbers.readLove_transform",
    "Verif.LoveNumbers.resolveLmax_none"
   ],
   "note": "tables with increasing degrees, lines after the regular expression; the last line of the file is not used when LMAX reaches it"
  },
  {
   "property": "C45",
   "status": "proved",
   "theorems": [
    "Verif.Utilities.psplit_same",
    "Verif.Utilities.urlSplit_none_iff",
    "Verif.Utilities.urlSplit_relative",
    "Verif.Utilities.urlSplit_absolute",
    "Verif.Utilities.urlSplit_url",
    "Verif.Utilities.join_urlSplit",
    "Verif.Utilities.join_urlSplit_relative",
    "Verif.Utilities.s3_bucket_key",
    "Verif.Utilities.s3_key_missing",
    "Verif.Utilities.s3_uppercase"
   ],
   "note": "strings are lists of characters; url_split recurses for ever on strings beginning with two slashes"
  },
  {
   "property": "C46",
   "status": "proved",
   "theorems": [
    "Verif.Utilities.uniqueName_inj",
    "Verif.Utilities.createUnique_smallest",
    "Verif.Utilities.createUnique_terminates",
    "Verif.Utilities.createUnique_forever",
    "Verif.Utilities.step_preserves",
    "Verif.Utilities.createUnique_distinct"
   ],
   "note": "exclusive creation is taken to be atomic; interleavings of any number of callers, deletions excluded; the loop never ends when every open fails"
  },
  {
   "property": "C47",
   "status": "proved",
   "theorems": [
    "Verif.Utilities.even_spec",
    "Verif.Utilities.ceil_spec"
   ],
   "note": "over any ordered field with floor"
  },
  {
   "property": "C48",
   "status": "proved",
   "theorems": [
    "Verif.Utilities.download_spec",
    "Verif.Utilities.download_sync",
    "Verif.Utilities.download_crash",
    "Verif.Utilities.copyFile_spec",
    "Verif.Utilities.listing_aligned",
    "Verif.Utilities.listing_short"
   ],
   "note": "the network is an argument; crash points are the chunk boundaries of the local write"
  },
  {
   "property": "C49",
   "status": "proved",
   "theorems": [
    "Verif.Utilities.relOf_iff",
    "Verif.Utilities.cmr_pages",
    "Verif.Utilities.cmr_single_page_lost",
    "Verif.Utilities.cmr_no_feed",
    "Verif.Utilities.cmr_goes_on",
    "Verif.Utilities.filterJson_aligned",
    "Verif.Utilities.filterJson_shift"
   ],
   "note": "responses are an arbitrary sequence of pages"
  },
  {
   "property": "C69",
   "status": "proved",
   "theorems": [
    "Verif.Utilities.argsOfLine_words",
    "Verif.Utilities.argsOfLine_clean"
   ],
   "note": "ASCII white space"
  },
  {
   "property": "C55",
   "status": "proved",
   "theorems": [
    "Verif.Ocean.landFunction_codes",
    "Verif.Ocean.findIsolated_correct",
    "Verif.Ocean.findIsolated_one_row",
    "Verif.Ocean.landArea_simplified",
    "Verif.Ocean.landArea_range",
    "Verif.Ocean.landArea_keeps",
    "Verif.Ocean.simplify_not_idempotent",
    "Verif.Ocean.land_ocean_both",
    "Verif.Ocean.land_ocean_correct",
    "Verif.Ocean.square_transposed",
    "Verif.Ocean.ocean_fraction"
   ],
   "note": "isolated = land cell with at most one of four land neighbours (the row next to a pole counts twice); simplification is one pass only; a square mask is transposed by gen_stokes; reading the mask file is not modelled"
  },
  {
   "property": "C56",
   "status": "proved",
   "theorems": [
    "Verif.Weekly.take_nearest",
    "Verif.Weekly.average_correct",
    "Verif.Weekly.average_bounds",
    "Verif.Weekly.average_const",
    "Verif.Weekly.average_linear",
    "Verif.Weekly.average_local",
    "Verif.Weekly.average_all",
    "Verif.Weekly.convertWeekly_correct",
    "Verif.Weekly.convertWeekly_int_dates",
    "Verif.Weekly.average_no_neighbours"
   ],
   "note": "for every sorting function in the place of np.argsort (ties unspecified); the daily samples are centred half a day early; integer date lists truncate the output times"
  },
  {
   "property": "C71",
   "status": "proved",
   "theorems": [
    "Verif.Fourier.fourierLegendre_correct",
    "Verif.Fourier.fourierLegendre_zero",
    "Verif.Fourier.fourierLegendre_domain",
    "Verif.Legendre.Plm_orthogonal"
   ],
   "note": "exact real arithmetic; mmax = lmax (the only use in the code); smaller mmax truncates the columns and norms"
  },
  {
   "property": "C72",
   "status": "proved",
   "theorems": [
    "Verif.Fourier.legendreGradient_meridional",
    "Verif.Fourier.legendreGradient_upper",
    "Verif.Fourier.legendreGradient_zonal_value",
    "Verif.Fourier.legendreGradient_zonal_sectoral",
    "Verif.Fourier.legendreGradient_zonal_low",
    "Verif.Fourier.legendreGradient_zonal_wrong",
    "Verif.Fourier.harmonicGradients_meridional",
    "Verif.Fourier.harmonicGradients_zonal_field",
    "Verif.Fourier.harmonicGradients_not_gradient",
    "Verif.Fourier.harmonicGradients_linear",
    "Verif.Fourier.harmonicGradients_domain"
   ],
   "note": "the documented gradient property is false of the code: the theorems say what is returned and give counterexamples"
  },
  {
   "property": "C73",
   "status": "proved",
   "theorems": [
    "Verif.Fourier.fourier_roundtrip",
    "Verif.Fourier.fourier_linear",
    "Verif.Fourier.fourier_poles_constant",
    "Verif.Fourier.fourier_one_pole",
    "Verif.Fourier.fourier_odd_order",
    "Verif.Fourier.fourier_plm_linear",
    "Verif.Fourier.fourier_plm_supplied",
    "Verif.Fourier.core_exact",
    "Verif.Fourier.kern_integral",
    "Verif.Fourier.cell_orthogonal"
   ],
   "note": "exact real arithmetic; MMAX = LMAX in the round trip; at most 49000 latitudes (beyond, np.isclose takes the last cell for the pole)"
  },
  {
   "property": "C70",
   "status": "proved",
   "theorems": [
    "Verif.Kernel.kernel_best",
    "Verif.Kernel.corr_exact",
    "Verif.Kernel.dfactor_values",
    "Verif.Kernel.kernel_raises",
    "Verif.Kernel.kernel_no_error",
    "Verif.Kernel.kernel_damps",
    "Verif.Kernel.kernel_monotone",
    "Verif.Kernel.kernel_scale_invariant",
    "Verif.Kernel.half_width"
   ],
   "note": "exact real arithmetic; divisions by zero excluded by hypothesis; array sizes of the inputs not modelled"
  },
  {
   "property": "C74",
   "status": "proved",
   "theorems": [
    "Verif.DegreeOne.setup_succeeds",
    "Verif.DegreeOne.pass_balance",
    "Verif.DegreeOne.calcDegreeOne_isSome",
    "Verif.DegreeOne.calcDegreeOne_passes",
    "Verif.DegreeOne.calcDegreeOne_mean",
    "Verif.DegreeOne.rate_bounds",
    "Verif.DegreeOne.pass_shrinks",
    "Verif.DegreeOne.passes_contract",
    "Verif.DegreeOne.truth_fixed",
    "Verif.DegreeOne.degree_one_recovered",
    "Verif.DegreeOne.balance_unsmoothed",
    "Verif.DegreeOne.fixed_series",
    "Verif.DegreeOne.balanced_geocenter",
    "Verif.DegreeOne.solvers_agree",
    "Verif.DegreeOne.unknown_solver",
    "Verif.DegreeOne.regular_global",
    "Verif.DegreeOne.coarse_usable",
    "Verif.DegreeOne.coarse_global",
    "Verif.DegreeOne.coarse_full",
    "Verif.DegreeOne.pass_fingerprint",
    "Verif.DegreeOne.goOn_iff"
   ],
   "note": "exact real arithmetic; uniform sea level layer (with fingerprints, pass_fingerprint: the sea level map is an argument of the model); grids with different numbers of meridians and parallels (gen_stokes transposes square ones)"
  },
  {
   "property": "C75",
   "status": "proved",
   "theorems": [
    "Verif.MasconFit.array_size",
    "Verif.MasconFit.calcMascon_succeeds",
    "Verif.MasconFit.unknown_solver",
    "Verif.MasconFit.fit_best",
    "Verif.MasconFit.masses_recovered",
    "Verif.MasconFit.solvers_agree",
    "Verif.MasconFit.masses_linear",
    "Verif.MasconFit.masses_local",
    "Verif.MasconFit.error_propagation",
    "Verif.MasconFit.leakage_zero",
    "Verif.MasconFit.reconstruct_exact",
    "Verif.MasconFit.redistributed_mass",
    "Verif.MasconFit.gtPerCm_grid",
    "Verif.MasconFit.kernel_measures_mass",
    "Verif.MasconFit.kernel_dual",
    "Verif.MasconFit.fit2_mean",
    "Verif.MasconFit.fit2_wrong",
    "Verif.MasconFit.fit2_inv",
    "Verif.MasconFit.order_limit",
    "Verif.MasconFit.reconstruct_field",
    "Verif.MasconFit.sound_solver",
    "Verif.MasconFit.demo_independent",
    "Verif.MasconFit.demo_mass"
   ],
   "note": "exact real arithmetic; LAPACK drivers are any function solving the normal equations; the claim is false of FIT_METHOD=2 (fit2_mean, fit2_wrong, fit2_inv)"
  },
  {
   "property": "C76",
   "status": "proved",
   "theorems": [
    "Verif.SLR.findNumbers_row",
    "Verif.SLR.pyFloat_lit",
    "Verif.SLR.pyInt_chars",
    "Verif.SLR.split_words",
    "Verif.SLR.mjdTime_date",
    "Verif.SLR.month_of_start",
    "Verif.SLR.skipHeader_found",
    "Verif.SLR.skipHeader_missing",
    "Verif.SLR.c20_tn",
    "Verif.SLR.c20_gravis",
    "Verif.SLR.gFlag_iff",
    "Verif.SLR.c20_gfz",
    "Verif.SLR.c20_csr",
    "Verif.SLR.search_iff",
    "Verif.SLR.search_lits",
    "Verif.SLR.kindC20_iff",
    "Verif.SLR.kindC30_iff",
    "Verif.SLR.kindC40_iff",
    "Verif.SLR.kindC50_iff",
    "Verif.SLR.kindCS2_iff",
    "Verif.SLR.months_distinct",
    "Verif.SLR.month_of_record",
    "Verif.SLR.c20_podaac",
    "Verif.SLR.c30_tn",
    "Verif.SLR.c30_tn_none",
    "Verif.SLR.c30_gravis",
    "Verif.SLR.c50_gsfc",
    "Verif.SLR.c50_gsfc_short",
    "Verif.SLR.lares_tables",
    "Verif.SLR.cs2_csr",
    "Verif.SLR.cs2_gravis",
    "Verif.SLR.cs2_unknown",
    "Verif.SLR.cs2_weekly_table",
    "Verif.SLR.cs2_weekly_harmonics",
    "Verif.SLR.weekly_zonal",
    "Verif.SLR.block_mean",
    "Verif.SLR.readMonthly_spec",
    "Verif.SLR.csrMonth_wrong_arc",
    "Verif.SLR.readMonthly_refused",
    "Verif.SLR.readMonthly_no_header",
    "Verif.SLR.readWeekly_spec",
    "Verif.SLR.hasProduct_iff",
    "Verif.SLR.readHarmonics_kinds",
    "Verif.SLR.meanStart_rules",
    "Verif.SLR.zonal_monthly",
    "Verif.SLR.tnFile_ok",
    "Verif.SLR.aWeek_ok"
   ],
   "note": "readers as functions of the characters of the file; np.loadtxt is a parameter; exact arithmetic. Disagreements: c50_gsfc_short, lares_tables (one row), c20_podaac (three lines)."
  },
  {
   "property": "C77",
   "status": "proved",
   "theorems": [
    "Verif.GIA.rxAll_num",
    "Verif.GIA.pyFloat_tok",
    "Verif.GIA.pyInt_tok",
    "Verif.GIA.gia_coefficients",
    "Verif.GIA.gia_truncation",
    "Verif.GIA.gia_sizes",
    "Verif.GIA.gia_unknown",
    "Verif.GIA.gia_raises",
    "Verif.GIA.title_ij05",
    "Verif.GIA.title_ice6g",
    "Verif.GIA.title_w12a",
    "Verif.GIA.title_sm09",
    "Verif.GIA.title_ice6gD",
    "Verif.GIA.title_aw13",
    "Verif.GIA.ice6gD_headers",
    "Verif.GIA.wu_short",
    "Verif.GIA.gia_object",
    "Verif.GIA.header_digit",
    "Verif.GIA.gia_citation",
    "Verif.GIA.negative_degree",
    "Verif.GIA.ice6gD_repeated",
    "Verif.GIA.outName_spec"
   ],
   "note": "reader as a function of the characters of the file; np.loadtxt is a parameter; exact arithmetic. Disagreements: gia_object (MMAX keyword always fails), header_digit (a header line with a number is taken as data), gia_unknown (a misspelt type silently gives zeros)."
  },
  {
   "property": "C78",
   "status": "proved",
   "theorems": [
    "Verif.GeoRead.rxAll_lrow",
    "Verif.GeoRead.isoDate_text",
    "Verif.GeoRead.ymd_text",
    "Verif.GeoRead.ym_text",
    "Verif.GeoRead.julianMonth_spec",
    "Verif.GeoRead.gravis_spec",
    "Verif.GeoRead.gravis_no_header",
    "Verif.GeoRead.aod_spec",
    "Verif.GeoRead.aod_other_month",
    "Verif.GeoRead.aod_names",
    "Verif.GeoRead.slr_spec",
    "Verif.GeoRead.slr_release",
    "Verif.GeoRead.slr_missing_column",
    "Verif.GeoRead.slr_aod_spec",
    "Verif.GeoRead.slr_aod_fails",
    "Verif.GeoRead.swenson_spec",
    "Verif.GeoRead.swenson_no_header",
    "Verif.GeoRead.uci_roundtrip",
    "Verif.GeoRead.uci_no_header",
    "Verif.GeoRead.tellus_text_spec",
    "Verif.GeoRead.tellus_no_header",
    "Verif.GeoRead.gravis_plain",
    "Verif.GeoRead.isoDate_iff",
    "Verif.GeoRead.ymd_valid",
    "Verif.GeoRead.ym_iff",
    "Verif.GeoRead.aod_empty",
    "Verif.GeoRead.aod_name_text",
    "Verif.GeoRead.uci_missing",
    "Verif.GeoRead.uci_attributes"
   ],
   "note": "readers as functions of the characters of the files; the YAML parser of the UCI header is a parameter; exact arithmetic (single precision of dealiasing numbers not modelled). Disagreements: slr_release (the default release=None always raises), slr_aod_fails/aod_names (reader and writer of dealiasing files use different names), julianMonth_spec (months of the day before), aod_spec (default radius instead of that of the object)"
  },
  {
   "property": "C79",
   "status": "proved",
   "theorems": [
    "Verif.Sync.run_other",
    "Verif.Sync.run_file",
    "Verif.Sync.list_idle",
    "Verif.Sync.list_predicts",
    "Verif.Sync.second_run_idle",
    "Verif.Sync.mirror_history",
    "Verif.Sync.checked_run",
    "Verif.Sync.stamped_run",
    "Verif.Sync.crash_state",
    "Verif.Sync.newer_kept",
    "Verif.Sync.crash_kept",
    "Verif.Sync.short_read_kept",
    "Verif.Sync.gzip_copied",
    "Verif.Sync.gzip_truncated_kept",
    "Verif.Sync.gzip_short_raises",
    "Verif.Sync.tar_frozen",
    "Verif.Sync.swarm_complete",
    "Verif.Sync.swarm_capped",
    "Verif.Sync.tar_clobber"
   ],
   "note": "parts of the claim that the programs violate are proved as such (newer_kept, crash_kept, short_read_kept, gzip_truncated_kept, gzip_short_raises, tar_frozen, swarm_capped); listings and network are arguments"
  },
  {
   "property": "C80",
   "status": "proved",
   "theorems": [
    "Verif.Names.runs_lang",
    "Verif.Names.compile_raises_iff",
    "Verif.Names.rl06_names",
    "Verif.Names.rl06_no_mission",
    "Verif.Names.old_names",
    "Verif.Names.lri_names",
    "Verif.Names.lriRelease_text",
    "Verif.Names.cnes_names",
    "Verif.Names.dealias_names",
    "Verif.Names.dealias_names_all",
    "Verif.Names.dealias_old_missed",
    "Verif.Names.parse_dates",
    "Verif.Names.parse_raises_iff",
    "Verif.Names.parse_name",
    "Verif.Names.version_raises_iff",
    "Verif.Names.version_name",
    "Verif.Names.version_gfz_rl05",
    "Verif.Names.reduceNames_raises_iff",
    "Verif.Names.reduceNames_spec",
    "Verif.Names.reduceNames_perm",
    "Verif.Names.index_spec",
    "Verif.Names.index_order",
    "Verif.Names.index_gfz_rl05_raises",
    "Verif.Names.sync_index_spec",
    "Verif.Names.sync_index_old_twice",
    "Verif.Names.index_copies_order",
    "Verif.Names.span_order"
   ],
   "note": "regular expressions at the level of characters (ASCII digits; base names). Violations are proved as such: rl06_no_mission, dealias_old_missed, sync_index_old_twice, index_gfz_rl05_raises, index_copies_order."
  },
  {
   "property": "C81",
   "status": "proved",
   "theorems": [
    "Verif.SpatialIO.roundTo_rounded",
    "Verif.SpatialIO.ascii_lines",
    "Verif.SpatialIO.ascii_no_time",
    "Verif.SpatialIO.ascii_round_trip",
    "Verif.SpatialIO.ascii_round_trip_extent",
    "Verif.SpatialIO.ascii_date_fails",
    "Verif.SpatialIO.ascii_extent_spacing_fails",
    "Verif.SpatialIO.ascii_regional_fails",
    "Verif.SpatialIO.ascii_west_lost",
    "Verif.SpatialIO.ascii_nan_error",
    "Verif.SpatialIO.fromAscii_masked",
    "Verif.SpatialIO.dims_longitudes"
   ],
   "note": "text level, exact arithmetic; file opening and decompression not modelled. Violations are proved as such: ascii_date_fails, ascii_extent_spacing_fails, ascii_regional_fails, ascii_west_lost, ascii_nan_error."
  },
  {
   "property": "C82",
   "status": "proved",
   "theorems": [
    "Verif.SpatialIO.Data.dataset_round_trip",
    "Verif.SpatialIO.Data.dataset_square_transposed",
    "Verif.SpatialIO.Data.dataset_single_row",
    "Verif.SpatialIO.Data.dataset_single_column",
    "Verif.SpatialIO.Data.dataset_mask_lost",
    "Verif.SpatialIO.Data.dataset_list_attributes",
    "Verif.SpatialIO.Data.dataset_no_clobber",
    "Verif.SpatialIO.Data.dataset_attributes",
    "Verif.SpatialIO.Data.dataset_attributes_given",
    "Verif.SpatialIO.Data.dataset_write_changes"
   ],
   "note": "file libraries are taken to store what they are given. Violations are proved as such: dataset_square_transposed, dataset_single_row, dataset_single_column, dataset_mask_lost, dataset_list_attributes, dataset_attributes_given, dataset_write_changes."
  },
  {
   "property": "C83",
   "status": "proved",
   "theorems": [
    "Verif.HarmIO.roundSig_rounded",
    "Verif.HarmIO.roundSig_sig",
    "Verif.HarmIO.ascii_round_trip",
    "Verif.HarmIO.ascii_stable",
    "Verif.HarmIO.ascii_month",
    "Verif.HarmIO.ascii_nan",
    "Verif.HarmIO.ascii_nan_fails",
    "Verif.HarmIO.ascii_any_file"
   ],
   "note": "coefficients are rationals. Violations are proved as such: ascii_month (month of the object not kept), ascii_nan, ascii_nan_fails."
  },
  {
   "property": "C84",
   "status": "proved",
   "theorems": [
    "Verif.HarmIO.Data.dataset_round_trip",
    "Verif.HarmIO.Data.dataset_repeated_months",
    "Verif.HarmIO.Data.dataset_undated",
    "Verif.HarmIO.Data.dataset_other_names",
    "Verif.HarmIO.Data.dataset_no_clobber",
    "Verif.HarmIO.Data.dataset_attributes",
    "Verif.HarmIO.Data.dataset_attributes_keys",
    "Verif.HarmIO.Data.netcdf_shapes",
    "Verif.HarmIO.Data.netcdf_dimensions",
    "Verif.HarmIO.Data.dataset_written_attrs",
    "Verif.HarmIO.Data.read_lengths"
   ],
   "note": "file libraries are taken to store what they are given. Violations are proved as such: dataset_repeated_months, dataset_undated (order axis lost), dataset_other_names, dataset_attributes_keys, dataset_attributes (title kept by the object)."
  },
  {
   "property": "C85",
   "status": "proved",
   "theorems": [
    "Verif.HarmIO.Data.index_round_trip",
    "Verif.HarmIO.Data.index_ascii",
    "Verif.HarmIO.Data.index_too_many",
    "Verif.HarmIO.Data.index_unknown_format",
    "Verif.HarmIO.Data.index_comments",
    "Verif.HarmIO.Data.resolve_compress",
    "Verif.HarmIO.Data.splitLines_boundaries"
   ],
   "note": "the search for names without case is not modelled here."
  },
  {
   "property": "C86",
   "status": "proved",
   "theorems": [
    "Verif.Dealias.days_of_month",
    "Verif.Dealias.days_turn",
    "Verif.Dealias.days_across",
    "Verif.Dealias.daily_found",
    "Verif.Dealias.archive_found",
    "Verif.Dealias.daily_date",
    "Verif.Dealias.blocks_read",
    "Verif.Dealias.blocks_hang",
    "Verif.Dealias.month_mean",
    "Verif.Dealias.month_step",
    "Verif.Dealias.months_listed",
    "Verif.Dealias.months_written",
    "Verif.Dealias.run_upToDate",
    "Verif.Dealias.rerun_same",
    "Verif.Dealias.across_stops",
    "Verif.Dealias.truncated_hangs",
    "Verif.Dealias.tar_date",
    "Verif.Dealias.member_day",
    "Verif.Dealias.geocenter_lines",
    "Verif.Dealias.geocenter_coordinates",
    "Verif.Dealias.oblateness_lines",
    "Verif.Dealias.monthly_program",
    "Verif.Dealias.unknown_raises",
    "Verif.Dealias.outName_month",
    "Verif.Dealias.shm_name",
    "Verif.Dealias.data_name"
   ],
   "note": "exact arithmetic; archives are lists of named texts. Violations are proved as such: days_turn, days_across, across_stops, blocks_hang, truncated_hangs, oblateness_lines."
  },
  {
   "property": "C87",
   "status": "proved",
   "theorems": [
    "Verif.Gfc.itsg_dates",
    "Verif.Gfc.itsg_bad_month",
    "Verif.Gfc.swarm_dates",
    "Verif.Gfc.swarm_model_dates",
    "Verif.Gfc.month_time",
    "Verif.Gfc.month_number",
    "Verif.Gfc.months_of_files",
    "Verif.Gfc.span_time",
    "Verif.Gfc.month_julian",
    "Verif.Gfc.read_agrees",
    "Verif.Gfc.read_itsg",
    "Verif.Gfc.read_swarm",
    "Verif.Gfc.read_swarm_model",
    "Verif.Gfc.read_wrong_case",
    "Verif.Gfc.parse_other",
    "Verif.Gfc.from_gfc_dates",
    "Verif.Gfc.month_zero_days"
   ],
   "note": "exact rationals; dateutil and geoid_toolkit are parameters. Violations are proved as such: itsg_bad_month, span_time, read_swarm_model, read_wrong_case, from_gfc_dates."
  },
  {
   "property": "C88",
   "status": "proved",
   "theorems": [
    "Verif.Share.memory_is_values",
    "Verif.Share.only_target_changes",
    "Verif.Share.untouched_object_stays",
    "Verif.Share.copy_is_independent",
    "Verif.Share.original_is_independent",
    "Verif.Share.dict_shows_present_coefficients",
    "Verif.Share.copies_share_attributes",
    "Verif.Share.title_of_copy_reaches_original",
    "Verif.Share.expand_squeeze"
   ],
   "note": "refinement from memory with shared arrays to independent values; exact field arithmetic; a program stops at the first exception. Deviations proved: dict_shows_present_coefficients, copies_share_attributes, title_of_copy_reaches_original."
  },
  {
   "property": "C89",
   "status": "proved",
   "theorems": [
    "Verif.Maps.spatialMaps_value",
    "Verif.Maps.series_interior",
    "Verif.Maps.static_no_effect",
    "Verif.Maps.compensated_mass",
    "Verif.Maps.dataFile_fails",
    "Verif.Maps.missing_month_fails",
    "Verif.Maps.single_month_redistribution_fails",
    "Verif.Maps.formats_paired",
    "Verif.Maps.axes_spec",
    "Verif.Maps.fileName_injective",
    "Verif.Maps.combine_value",
    "Verif.Maps.combine_order_fails",
    "Verif.Maps.combine_mean_index_fails",
    "Verif.Maps.weights_spec",
    "Verif.Maps.bounds_spec",
    "Verif.Maps.synthesis_order_fails"
   ],
   "note": "exact real arithmetic; inputs already read into objects. Deviations proved: dataFile_fails, single_month_redistribution_fails, combine_order_fails, combine_mean_index_fails."
  },
  {
   "property": "C90",
   "status": "proved",
   "theorems": [
    "Verif.LoveText.read_table",
    "Verif.LoveText.read_missing",
    "Verif.LoveText.table_columns",
    "Verif.LoveText.tables_known",
    "Verif.LoveText.tables_distinct",
    "Verif.LoveText.load_tables",
    "Verif.LoveText.formats_agree",
    "Verif.LoveText.readText_lmax",
    "Verif.LoveText.transform_shared",
    "Verif.LoveText.transform_twice",
    "Verif.LoveText.blank_end"
   ],
   "note": "exact rational arithmetic; negative degrees and infinite Love numbers treated as exceptions; file search not modelled. Deviations: transform_twice (CM), blank_end, example on D exponents before the degree."
  },
  {
   "property": "C91",
   "status": "proved",
   "theorems": [
    "Verif.GraceText.product_of",
    "Verif.GraceText.marker_of",
    "Verif.GraceText.center_of",
    "Verif.GraceText.marker_exists",
    "Verif.GraceText.file_dates",
    "Verif.GraceText.data_read",
    "Verif.GraceText.file_read",
    "Verif.GraceText.file_entry",
    "Verif.GraceText.file_readable",
    "Verif.GraceText.header_kind",
    "Verif.GraceText.gfc_header",
    "Verif.GraceText.bad_name",
    "Verif.GraceText.bad_product",
    "Verif.GraceText.nameOf_ok",
    "Verif.GraceText.nameOf_parts",
    "Verif.GraceText.written_iff",
    "Verif.GraceText.written_read",
    "Verif.GraceText.index_lists",
    "Verif.GraceText.quote_replaced",
    "Verif.GraceText.quote_kept",
    "Verif.GraceText.rstrip_spec",
    "Verif.GraceText.header_states"
   ],
   "note": "YAML parser is an arbitrary function; gzip and file access not modelled; exact rational arithmetic; quotation marks in headers excluded by hypothesis; years at century turns excluded by hypothesis (Skewed)."
  },
  {
   "property": "C92",
   "status": "proved",
   "theorems": [
    "Verif.SpatialError.error_value",
    "Verif.SpatialError.cached_value",
    "Verif.SpatialError.errorMap_count",
    "Verif.SpatialError.errorMap_scale",
    "Verif.SpatialError.variance_mono",
    "Verif.SpatialError.variance_zonal",
    "Verif.SpatialError.monthly_windows",
    "Verif.SpatialError.few_months_fail",
    "Verif.SpatialError.deltaName_injective",
    "Verif.SpatialError.later_run",
    "Verif.SpatialError.repeated_run",
    "Verif.SpatialError.stale_errors",
    "Verif.SpatialError.repeated_run_ascii",
    "Verif.SpatialError.signal_no_error"
   ],
   "note": "real arithmetic; the windows must determine the fit (WindowOk, proved for monthly dates); file contents of netCDF4/HDF5 at dataset level; the ascii number format is an arbitrary function."
  },
  {
   "property": "C93",
   "status": "proved",
   "theorems": [
    "Verif.MeanField.mean_coefficients",
    "Verif.MeanField.error_between",
    "Verif.MeanField.data_file",
    "Verif.MeanField.own_mean",
    "Verif.MeanField.text_file",
    "Verif.MeanField.gfc_file",
    "Verif.MeanField.gfc_parameters",
    "Verif.MeanField.gfc_not_readable",
    "Verif.MeanField.meanName_injective",
    "Verif.MeanField.unknown_format",
    "Verif.MeanField.mean_formats"
   ],
   "note": "exact arithmetic, square root as a function; the month variable of the file (a mean, read by no program) is modelled by its integer part; external ICGEM reader is an arbitrary function whose parameters come from the header lines."
  },
  {
   "property": "C94",
   "status": "proved",
   "theorems": [
    "Verif.RegMaps.regress_components",
    "Verif.RegMaps.labels_right_iff",
    "Verif.RegMaps.labelled_eq_fitted",
    "Verif.RegMaps.regress_right",
    "Verif.RegMaps.regress_mislabelled",
    "Verif.RegMaps.regress_waves",
    "Verif.RegMaps.regress_measures",
    "Verif.RegMaps.names_distinct",
    "Verif.RegMaps.regress_succeeds",
    "Verif.RegMaps.regress_no_cycles",
    "Verif.RegMaps.regress_exact",
    "Verif.RegMaps.inName_eq",
    "Verif.RegMaps.months_spec",
    "Verif.RegMaps.break_right",
    "Verif.RegMaps.break_errors",
    "Verif.RegMaps.break_waves",
    "Verif.RegMaps.break_fails",
    "Verif.RegMaps.break_succeeds",
    "Verif.RegMaps.result_name"
   ],
   "note": "real arithmetic; quantiles of Student's distribution and file access are parameters; masks of cells not modelled; orders above 2 raise. Deviations: regress_mislabelled, regress_no_cycles, break_errors (second slope)."
  },
  {
   "property": "C95",
   "status": "proved",
   "theorems": [
    "Verif.ScaleMaps.scale_value",
    "Verif.ScaleMaps.run_composed",
    "Verif.ScaleMaps.outputs_cells",
    "Verif.ScaleMaps.minimum_degree_ignored",
    "Verif.ScaleMaps.removed_fails",
    "Verif.ScaleMaps.text_fails",
    "Verif.ScaleMaps.written_rows",
    "Verif.ScaleMaps.square_exchanged",
    "Verif.ScaleMaps.lonlat_fails",
    "Verif.ScaleMaps.names_differ",
    "Verif.ScaleMaps.gain_power",
    "Verif.ScaleMaps.leakage_le"
   ],
   "note": "real arithmetic; without ocean redistribution of removed fields (removal raises); variables of the factor file are given; attributes, logs and permissions not modelled. Deviations: minimum_degree_ignored, removed_fails, text_fails, square_exchanged, lonlat_fails."
  },
  {
   "property": "C96",
   "status": "proved",
   "theorems": [
    "Verif.Convert.convert_written",
    "Verif.Convert.convert_value",
    "Verif.Convert.convert_square",
    "Verif.Convert.convert_written_square_series",
    "Verif.Convert.convert_undated_series",
    "Verif.Convert.convertText_fails",
    "Verif.Convert.written_read",
    "Verif.Convert.written_square"
   ],
   "note": "real arithmetic; Love numbers, global attributes given; NaN cells without fill value are an error of the model (in the code NaN coefficients); undated single maps not treated. Deviations: convert_square, convert_written_square_series, convert_undated_series, convertText_fails."
  },
  {
   "property": "C97",
   "status": "proved",
   "theorems": [
    "Verif.Uplift.uplift_program",
    "Verif.Uplift.month_maps",
    "Verif.Uplift.archive_step",
    "Verif.Uplift.arch_chosen",
    "Verif.Uplift.arch_date",
    "Verif.Uplift.text_fails",
    "Verif.Uplift.empty_skipped",
    "Verif.Uplift.short_file_hangs",
    "Verif.Uplift.uplift_refused",
    "Verif.Uplift.no_date_raises"
   ],
   "note": "real arithmetic; Love numbers and grid axes given; years of four digits (not divisible by 4000); every archive holds at least one daily file. Deviations: the missing days in IsUplift, text_fails, empty_skipped, short_file_hangs."
  },
  {
   "property": "C98",
   "status": "proved",
   "theorems": [
    "Verif.Fingerprint.fingerprint_maps",
    "Verif.Fingerprint.fingerprint_local",
    "Verif.Fingerprint.fingerprint_scale",
    "Verif.Fingerprint.fingerprint_refused",
    "Verif.Fingerprint.grid_file",
    "Verif.Fingerprint.single_file",
    "Verif.Fingerprint.series_fails",
    "Verif.Fingerprint.text_file",
    "Verif.Fingerprint.text_mass",
    "Verif.Fingerprint.series_hdf5"
   ],
   "note": "real arithmetic; files as the objects read from them; text values are not rounded. Deviations: series_fails, fingerprint_refused."
  },
  {
   "property": "C99",
   "status": "proved",
   "theorems": [
    "Verif.Extrap.regress_best",
    "Verif.Extrap.regress_exact",
    "Verif.Extrap.regress_relative",
    "Verif.Extrap.regress_linear",
    "Verif.Extrap.regress_shift",
    "Verif.Extrap.best_unique",
    "Verif.Extrap.regress_refused",
    "Verif.Extrap.modelled_spec",
    "Verif.Extrap.modelled_exact",
    "Verif.Extrap.modelled_ok",
    "Verif.Extrap.regress_mean_date"
   ],
   "note": "real arithmetic; lstsq is the minimiser of smallest norm, no singular value cut-off. Deviations: regress_refused."
  },
  {
   "property": "C100",
   "status": "proved",
   "theorems": [
    "Verif.MonthsIndex.index_written",
    "Verif.MonthsIndex.index_stops",
    "Verif.MonthsIndex.index_empty_file",
    "Verif.MonthsIndex.run_disk",
    "Verif.MonthsIndex.written_dictionary",
    "Verif.MonthsIndex.run_shows",
    "Verif.MonthsIndex.datesFile_dated",
    "Verif.MonthsIndex.ex_run",
    "Verif.MonthsIndex.ex_twice",
    "Verif.MonthsIndex.ex_single",
    "Verif.MonthsIndex.ex_empty"
   ],
   "note": "months below 1000, years of four digits, names of at most 21 characters (else the columns shift). Deviations: index_stops, index_empty_file."
  },
  {
   "property": "C101",
   "status": "proved",
   "theorems": [
    "Verif.Login.login_opener",
    "Verif.Login.login_failed",
    "Verif.Login.login_known",
    "Verif.Login.login_known_rejected",
    "Verif.Login.login_password",
    "Verif.Login.login_username",
    "Verif.Login.login_asked",
    "Verif.Login.login_end",
    "Verif.Login.known_exists",
    "Verif.Login.token_request",
    "Verif.Login.token_no_build",
    "Verif.Login.token_environment",
    "Verif.Login.login_empty"
   ],
   "note": "an opener is the credentials it was built with; cookies, SSL context and handlers not modelled. Deviations: login_known_rejected, login_end, login_failed, token_environment."
  },
  {
   "property": "C102",
   "status": "proved",
   "theorems": [
    "Verif.Containers.nextField_series",
    "Verif.Containers.nextGeo_series",
    "Verif.Containers.loop_once",
    "Verif.Containers.loop_copy",
    "Verif.Containers.loop_nested",
    "Verif.Containers.loop_peek",
    "Verif.Containers.zip_self",
    "Verif.Containers.single_skipped",
    "Verif.Containers.undated_raises",
    "Verif.Containers.unmasked_raises",
    "Verif.Containers.short_dates",
    "Verif.Containers.len_series",
    "Verif.Containers.len_scalar",
    "Verif.Containers.len_zeros",
    "Verif.Containers.str_raises",
    "Verif.Containers.str_list"
   ],
   "note": "fields are abstract; the number of rounds of a loop is bounded by a fuel larger than the series (any). Deviations: loop_nested, loop_peek, zip_self, single_skipped, undated_raises, unmasked_raises, short_dates, len_scalar, len_zeros, str_raises."
  },
  {
   "property": "C103",
   "status": "proved",
   "theorems": [
    "Verif.MonteCarlo.monteCarlo_mean_zero",
    "Verif.MonteCarlo.monteCarlo_spread",
    "Verif.MonteCarlo.monteCarlo_error_range",
    "Verif.MonteCarlo.monteCarlo_noise_free",
    "Verif.MonteCarlo.monteCarlo_agrees",
    "Verif.MonteCarlo.dmatN_split",
    "Verif.MonteCarlo.monteCarlo_error_data",
    "Verif.MonteCarlo.monteCarlo_error_scale",
    "Verif.MonteCarlo.noise_bound",
    "Verif.MonteCarlo.monteCarlo_unknown"
   ],
   "note": "exact arithmetic; reading of the data, delta file and output formats not modelled here. Deviation: monteCarlo_noise_free (GIA and atmosphere not restored)."
  },
  {
   "property": "C104",
   "status": "proved",
   "theorems": [
    "Verif.Cmr.shortnames_isSome",
    "Verif.Cmr.shortnames_grace",
    "Verif.Cmr.shortnames_single",
    "Verif.Cmr.granule_selected",
    "Verif.Cmr.query_gsm",
    "Verif.Cmr.query_dealias",
    "Verif.Cmr.query_version",
    "Verif.Cmr.query_no_product",
    "Verif.Cmr.query_level1"
   ],
   "note": "the wildcard matching of the server is a specification of CMR, not code of the project. Deviations: query_version, query_no_product, shortnames_single."
  },
  {
   "property": "C105",
   "status": "proved",
   "theorems": [
    "Verif.Raster.raster_value",
    "Verif.Raster.raster_order_fails",
    "Verif.Raster.raster_agrees",
    "Verif.Raster.cells_square",
    "Verif.Raster.cells_outside",
    "Verif.Raster.cells_displaced"
   ],
   "note": "exact arithmetic; pyproj and geoid_toolkit are an arbitrary position function; the output file is not modelled. Deviations: raster_order_fails, cells_outside, cells_displaced."
  },
  {
   "property": "C106",
   "status": "proved",
   "theorems": [
    "Verif.Summary.order_outcome",
    "Verif.Summary.order_right",
    "Verif.Summary.labels_right_iff'",
    "Verif.Summary.default_right",
    "Verif.Summary.break_outcome",
    "Verif.Summary.break_right'",
    "Verif.Summary.nothing_given",
    "Verif.Summary.names_inj",
    "Verif.Summary.all_labelled_iff",
    "Verif.Summary.labels_eq_iff"
   ],
   "note": "exact arithmetic; the quantile function of scipy.stats is a parameter; number formats of the summary lines are not modelled. Deviations: second halves of order_outcome and break_outcome, labels_right_iff'."
  },
  {
   "property": "C107",
   "status": "proved",
   "theorems": [
    "Verif.QuickPlot.fits",
    "Verif.QuickPlot.printed_right",
    "Verif.QuickPlot.criteria",
    "Verif.QuickPlot.monthly_curve",
    "Verif.QuickPlot.all_curve",
    "Verif.QuickPlot.repeated_fails",
    "Verif.QuickPlot.span_right",
    "Verif.QuickPlot.individual_fails",
    "Verif.QuickPlot.common_saved"
   ],
   "note": "exact arithmetic; matplotlib is represented by the list of points handed to it (NaN interrupts a curve); quantile function is a parameter. Deviations: repeated_fails, second half of span_right, individual_fails."
  },
  {
   "property": "C108",
   "status": "proved",
   "theorems": [
    "Verif.Fetch.unixTime_right",
    "Verif.Fetch.unixTime_order",
    "Verif.Fetch.unixTime_fraction",
    "Verif.Fetch.ftpList_right",
    "Verif.Fetch.ftpList_fails",
    "Verif.Fetch.checkFtp_right"
   ],
   "note": "ASCII digits; dateutil is a parameter (used for texts that strptime refuses). Observations: a stamp with a digit missing may be accepted; fractional seconds are taken as local time by dateutil."
  },
  {
   "property": "C109",
   "status": "proved",
   "theorems": [
    "Verif.Fetch.csr_mirror",
    "Verif.Fetch.csr_again",
    "Verif.Fetch.csr_nothing",
    "Verif.Fetch.csr_safe",
    "Verif.Fetch.csr_fails",
    "Verif.Fetch.csr_lri",
    "Verif.Fetch.csr_lri_again",
    "Verif.Fetch.has_meaning",
    "Verif.Fetch.gfz_mirror",
    "Verif.Fetch.gfz_again",
    "Verif.Fetch.gfz_fails",
    "Verif.Fetch.gfz_safe",
    "Verif.Fetch.gsfc_copyName",
    "Verif.Fetch.gsfc_noName",
    "Verif.Fetch.gsfc_mirror",
    "Verif.Fetch.gsfc_copy",
    "Verif.Fetch.ftpList_login",
    "Verif.Fetch.http_killed"
   ],
   "note": "hypothesis: the hash tells the contents involved apart; permissions, directories, SSL and chunks are not modelled. Deviations: csr_nothing, third part of gfz_fails, last part of gsfc_copy."
  },
  {
   "property": "C110",
   "status": "proved",
   "theorems": [
    "Verif.FileNames.search_exact",
    "Verif.FileNames.search_iff",
    "Verif.FileNames.search_none_iff",
    "Verif.FileNames.search_case",
    "Verif.FileNames.search_longer",
    "Verif.FileNames.search_order",
    "Verif.FileNames.fromFile_reader",
    "Verif.FileNames.reader_path",
    "Verif.FileNames.fromFile_other",
    "Verif.FileNames.toFile_fromFile",
    "Verif.FileNames.toFile_other",
    "Verif.FileNames.fromFile_longer",
    "Verif.FileNames.filename_object"
   ],
   "note": "ASCII names without metacharacters (others: parameter); readers and writers are parameters (their round trips are C58 etc.). Deviations: search_longer, search_order, fromFile_other, toFile_other, fromFile_longer."
  },
  {
   "property": "C111",
   "status": "proved",
   "theorems": [
    "Verif.GeoFigures.months_right",
    "Verif.GeoFigures.draw_right",
    "Verif.GeoFigures.draw_fails",
    "Verif.GeoFigures.draw_empty",
    "Verif.GeoFigures.variation_sum",
    "Verif.GeoFigures.draw_shift",
    "Verif.GeoFigures.span_iff",
    "Verif.GeoFigures.span_error",
    "Verif.GeoFigures.axis_covers",
    "Verif.GeoFigures.axis_cuts",
    "Verif.GeoFigures.processingCenters_right",
    "Verif.GeoFigures.processingCenters_iff",
    "Verif.GeoFigures.processingCenters_unknown",
    "Verif.GeoFigures.oceanModels_right",
    "Verif.GeoFigures.compareTellus_iff",
    "Verif.GeoFigures.maxVar_right",
    "Verif.GeoFigures.rms_le_max",
    "Verif.GeoFigures.deviations_cancel",
    "Verif.GeoFigures.single_run",
    "Verif.GeoFigures.mcPanel_right",
    "Verif.GeoFigures.oceanModels_drawn"
   ],
   "note": "exact real arithmetic; readers are parameters (modelled elsewhere); appearance of the plots is not modelled. Deviations: draw_empty, axis_cuts."
  },
  {
   "property": "C112",
   "status": "proved",
   "theorems": [
    "Verif.Geocenter.Attrs.toDict_right",
    "Verif.Geocenter.Attrs.fromDict_right",
    "Verif.Geocenter.Attrs.dict_roundtrip",
    "Verif.Geocenter.Attrs.fromDict_stale",
    "Verif.Geocenter.Attrs.fromVariables_right",
    "Verif.Geocenter.Attrs.copy_right",
    "Verif.Geocenter.scale_right",
    "Verif.Geocenter.scale_scale",
    "Verif.Geocenter.scale_undo",
    "Verif.Geocenter.scale_cartesian",
    "Verif.Geocenter.scale_radius",
    "Verif.Geocenter.power_right",
    "Verif.Geocenter.power_power",
    "Verif.Geocenter.scale_missing",
    "Verif.Geocenter.Attrs.toDict_names",
    "Verif.Geocenter.Attrs.copy_errors",
    "Verif.Geocenter.Attrs.fresh_errors"
   ],
   "note": "exact real arithmetic, natural powers. Deviations: fromDict_stale, second part of copy_right, scale_radius."
  },
  {
   "property": "C113",
   "status": "proved",
   "theorems": [
    "Verif.JobLog.main_success",
    "Verif.JobLog.main_failure",
    "Verif.JobLog.main_log_success",
    "Verif.JobLog.main_log_failure",
    "Verif.JobLog.main_log_missing",
    "Verif.JobLog.main_verbose",
    "Verif.JobLog.main_interrupt",
    "Verif.JobLog.status_blind",
    "Verif.JobLog.interrupt_status",
    "Verif.JobLog.argLines_lines",
    "Verif.JobLog.text_log"
   ],
   "note": "messages logged by the analysis itself and the text of tracebacks are not modelled. Deviations: main_failure, status_blind, main_log_success (empty log), main_log_failure, main_log_missing, main_verbose."
  },
  {
   "property": "C114",
   "status": "proved",
   "theorems": [
    "Verif.PlotGrid.pixel_centered",
    "Verif.PlotGrid.pixel_global",
    "Verif.PlotGrid.pixel_plain",
    "Verif.PlotGrid.odd_columns_wrong",
    "Verif.PlotGrid.bilinear_node",
    "Verif.PlotGrid.bilinear_valid",
    "Verif.PlotGrid.bilinear_range",
    "Verif.PlotGrid.bilinear_decreasing",
    "Verif.PlotGrid.scaleFlip_cell",
    "Verif.PlotGrid.scaled_fill",
    "Verif.PlotGrid.landMask_hides_land",
    "Verif.PlotGrid.landMask_dimensions",
    "Verif.PlotGrid.landMask_noFill",
    "Verif.PlotGrid.prepare_mask",
    "Verif.PlotGrid.main_ignores_mask",
    "Verif.PlotGrid.main_shows_all",
    "Verif.PlotGrid.oceans_spec",
    "Verif.PlotGrid.average_scale",
    "Verif.PlotGrid.average_between",
    "Verif.PlotGrid.average_constant",
    "Verif.PlotGrid.valid_mem",
    "Verif.PlotGrid.valid_length",
    "Verif.PlotGrid.arange_spec",
    "Verif.PlotGrid.arange_end",
    "Verif.PlotGrid.levels_spec",
    "Verif.PlotGrid.contours_spec",
    "Verif.PlotGrid.spacing_spec",
    "Verif.PlotGrid.dims_spec",
    "Verif.PlotGrid.dims_negative",
    "Verif.PlotGrid.dims_other",
    "Verif.PlotGrid.order_spec",
    "Verif.PlotGrid.image_unknown",
    "Verif.PlotGrid.panels_plain",
    "Verif.PlotGrid.panels_mask",
    "Verif.PlotGrid.zoomed_ignored",
    "Verif.PlotGrid.extend_list",
    "Verif.PlotGrid.first_unknown",
    "Verif.PlotGrid.default_format_fails",
    "Verif.PlotGrid.stale_panel",
    "Verif.PlotGrid.remove_no_figure",
    "Verif.PlotGrid.mainPanels_ignores_mask",
    "Verif.PlotGrid.shown_cell",
    "Verif.PlotGrid.movie_all",
    "Verif.PlotGrid.movie_global_fails",
    "Verif.PlotGrid.movie_mask_fails",
    "Verif.PlotGrid.label_spec",
    "Verif.PlotGrid.label_wrong",
    "Verif.PlotGrid.fieldMapping_spec"
   ],
   "note": "exact arithmetic; cubic splines, projections and drawing are not modelled; readers are parameters. Deviations: odd_columns_wrong, bilinear_decreasing, scaled_fill, landMask_hides_land, landMask_dimensions, main_ignores_mask, dims_negative, panels_mask, default_format_fails, stale_panel, remove_no_figure, movie_global_fails, movie_mask_fails, label_wrong."
  },
  {
   "property": "C115",
   "status": "proved",
   "theorems": [
    "Verif.Colours.hsv_spec",
    "Verif.Colours.isHsv_unique",
    "Verif.Colours.isHsv_unit",
    "Verif.Colours.hsv_negative",
    "Verif.Colours.hsv_round_trip",
    "Verif.Colours.rgb_round_trip",
    "Verif.Colours.custom_joughin",
    "Verif.Colours.custom_rignot",
    "Verif.Colours.custom_seroussi",
    "Verif.Colours.custom_small",
    "Verif.Colours.custom_unknown",
    "Verif.Colours.custom_case",
    "Verif.Colours.cpt_spec",
    "Verif.Colours.cpt_locations",
    "Verif.Colours.convert_spec",
    "Verif.Colours.extreme_spec",
    "Verif.Colours.small_flags",
    "Verif.Colours.small_model",
    "Verif.Colours.cpt_errors",
    "Verif.Colours.cpt_jump",
    "Verif.Colours.levels_spec",
    "Verif.Colours.step_zero",
    "Verif.Colours.step_positive",
    "Verif.Colours.mapName_inj",
    "Verif.Colours.options_spec"
   ],
   "note": "exact arithmetic; matplotlib and the regular expressions of from_cpt are not modelled; names are ASCII. Deviations: hsv_negative, custom_small, small_flags, small_model, cpt_jump, step_zero."
  },
  {
   "property": "C116",
   "status": "proved",
   "theorems": [
    "Verif.SpatialIndex.index_round_trip",
    "Verif.SpatialIndex.index_round_trip_all",
    "Verif.SpatialIndex.index_square_transposed",
    "Verif.SpatialIndex.index_too_many",
    "Verif.SpatialIndex.index_single_map",
    "Verif.SpatialIndex.index_no_data",
    "Verif.SpatialIndex.index_unknown_format",
    "Verif.SpatialIndex.index_then_file"
   ],
   "note": "netCDF4 and HDF5 files with dates; months, errors and the search for names without case are not modelled; numbers are stored exactly. Deviations: index_square_transposed, index_single_map, index_no_data, index_unknown_format, index_then_file."
  },
  {
   "property": "C117",
   "status": "proved",
   "theorems": [
    "Verif.Describe.months_of_list",
    "Verif.Describe.series_has_no_text",
    "Verif.Describe.has_text_iff",
    "Verif.Describe.harmonics_text",
    "Verif.Describe.zonal_text",
    "Verif.Describe.len_spec",
    "Verif.Describe.len_zero",
    "Verif.Describe.single_month",
    "Verif.Describe.squeeze_keep",
    "Verif.Describe.extent_spec",
    "Verif.Describe.spacing_regular",
    "Verif.Describe.spacing_single",
    "Verif.Describe.fromDict_spec",
    "Verif.Describe.fromDict_noFill",
    "Verif.Describe.fromDict_mask",
    "Verif.Describe.fromDict_stale",
    "Verif.Describe.fromDict_stale_error",
    "Verif.Describe.fromDict_noData"
   ],
   "note": "arrays are flattened; the text of numbers is a parameter. Deviations: series_has_no_text, zonal_text, single_month, squeeze_keep, fromDict_mask, fromDict_stale, fromDict_stale_error."
  },
  {
   "property": "C118",
   "status": "proved",
   "theorems": [
    "Verif.Legendre.dispatch_refuses",
    "Verif.Legendre.dispatch_documented_name",
    "Verif.Legendre.dispatch_case",
    "Verif.Legendre.dispatch_values",
    "Verif.Legendre.dispatch_mohlenkamp_beyond",
    "Verif.Legendre.dispatch_low_degree",
    "Verif.SeaLevel.sleSm_correct",
    "Verif.SeaLevel.slePoint_eq",
    "Verif.SeaLevel.slePoint_correct",
    "Verif.SeaLevel.sleField_eq"
   ],
   "note": "exact real arithmetic, one point at a time. Deviations: dispatch_documented_name, dispatch_mohlenkamp_beyond, dispatch_low_degree."
  },
  {
   "property": "C119",
   "status": "proved",
   "theorems": [
    "Verif.Graz.folder_of_product",
    "Verif.Graz.folder_of_other",
    "Verif.Graz.sync_ok_iff",
    "Verif.Graz.sync_files",
    "Verif.Graz.sync_list",
    "Verif.Graz.sync_twice",
    "Verif.Graz.sync_index",
    "Verif.Graz.listed_names",
    "Verif.Graz.sync_keeps",
    "Verif.Graz.sync_mixed",
    "Verif.Graz.sync_refused"
   ],
   "note": "transfers are those of C79; permissions, the log and failures during a transfer are not modelled. Deviations: sync_mixed, listed_names, folder_of_other, sync_refused."
  },
  {
   "property": "C120",
   "status": "proved",
   "theorems": [
    "Verif.GeoFile.written_read",
    "Verif.GeoFile.variables_of_header",
    "Verif.GeoFile.two_colons_unreadable",
    "Verif.GeoFile.ice6g_unreadable",
    "Verif.GeoFile.header_facts"
   ],
   "note": "the YAML reader is modelled for the subset that the header uses (no quoted or flow values, no scalars over several lines); texts are assumed to have no line break. Deviation: ice6g_unreadable."
  },
  {
   "property": "C121",
   "status": "proved",
   "theorems": [
    "Verif.Resolution.resolution_wave",
    "Verif.Resolution.resolution_cap",
    "Verif.Resolution.resolution_decreasing",
    "Verif.Resolution.resolution_radius",
    "Verif.Resolution.cap_wave",
    "Verif.Resolution.run_spec",
    "Verif.Resolution.seasonal_spec",
    "Verif.Resolution.seasonal_period",
    "Verif.Resolution.seasonal_bound"
   ],
   "note": "real arithmetic for floating point arithmetic"
  },
  {
   "property": "C122",
   "status": "proved",
   "theorems": [
    "Verif.GeoFile.mc_written_read",
    "Verif.GeoFile.mc_format_string",
    "Verif.GeoFile.mc_header_facts"
   ],
   "note": "exact decimal rounding for the printing of floating point numbers; the subset of YAML of the header as in C120"
  },
  {
   "property": "C123",
   "status": "proved",
   "theorems": [
    "Verif.Drive.credentials_spec",
    "Verif.Drive.signIn_result",
    "Verif.Drive.file_raises",
    "Verif.Drive.endpoint_table",
    "Verif.Drive.run_opener",
    "Verif.Drive.refused_stays",
    "Verif.Drive.list_spec",
    "Verif.Drive.list_fails",
    "Verif.Drive.file_spec",
    "Verif.Drive.file_fails",
    "Verif.Drive.file_mirror",
    "Verif.Drive.gsfc_spec",
    "Verif.Drive.gsfc_name",
    "Verif.Drive.metadata_spec",
    "Verif.Drive.metadata_endpoint",
    "Verif.Drive.metadata_pattern"
   ],
   "note": "the HTML and JSON parsers are outside: pages are given by the texts of their cells and links; regular expressions as predicates"
  },
  {
   "property": "C124",
   "status": "proved",
   "theorems": [
    "Verif.Notebook.order_le_degree",
    "Verif.Notebook.degree_sets_order",
    "Verif.Notebook.numbers_bounded",
    "Verif.Notebook.files_match",
    "Verif.Notebook.pick_adds",
    "Verif.Notebook.comma_splits",
    "Verif.Notebook.products_offered",
    "Verif.Notebook.settled_agrees",
    "Verif.Notebook.product_keeps_months",
    "Verif.Notebook.degree_table",
    "Verif.Notebook.observers_raise",
    "Verif.Notebook.boxes_stay"
   ],
   "note": "ipywidgets and traitlets are taken as described at the head of the model; what the functions do with values in between, while a menu is being filled, is left out"
  },
  {
   "property": "C125",
   "status": "proved",
   "theorems": [
    "Verif.Upload.upload_spec",
    "Verif.Upload.upload_stops",
    "Verif.Upload.upload_default",
    "Verif.Upload.upload_one_level",
    "Verif.Upload.upload_keeps",
    "Verif.Upload.upload_absolute",
    "Verif.Upload.upload_again",
    "Verif.Upload.model_name",
    "Verif.Upload.model_name_twice",
    "Verif.Upload.model_name_line",
    "Verif.Upload.links_count",
    "Verif.Upload.icgem_spec",
    "Verif.Upload.icgem_fails"
   ],
   "note": "the ftp server is taken as described at the head of the model; the HTML parser is outside: a page is the list of its links"
  }
 ]
}
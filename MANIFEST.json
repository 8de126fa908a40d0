{
 "claims": [
  {
   "property": "C01",
   "status": "proved",
   "theorems": [
    "Verif.Lob.C01_never_panics",
    "Verif.Lob.C01_consistent",
    "Verif.Lob.C01_step"
   ],
   "note": "u64 arguments; HashMap and BTreeMap modelled as lookup function and sorted list."
  },
  {
   "property": "C02",
   "status": "proved",
   "theorems": [
    "Verif.Lob.C02_reject",
    "Verif.Lob.C02_accept"
   ],
   "note": ""
  },
  {
   "property": "C03",
   "status": "proved",
   "theorems": [
    "Verif.Lob.C03_reject",
    "Verif.Lob.C03_accept"
   ],
   "note": ""
  },
  {
   "property": "C04",
   "status": "proved",
   "theorems": [
    "Verif.Lob.C04_add_cancel"
   ],
   "note": ""
  },
  {
   "property": "C05",
   "status": "proved",
   "theorems": [
    "Verif.Lob.C05_conservation"
   ],
   "note": ""
  },
  {
   "property": "C06",
   "status": "proved",
   "theorems": [
    "Verif.Lob.C06_price_priority"
   ],
   "note": ""
  },
  {
   "property": "C07",
   "status": "proved",
   "theorems": [
    "Verif.Lob.C07_time_priority"
   ],
   "note": ""
  },
  {
   "property": "C08",
   "status": "proved",
   "theorems": [
    "Verif.Lob.C08_frame"
   ],
   "note": ""
  },
  {
   "property": "C09",
   "status": "proved",
   "theorems": [
    "Verif.Lob.C09_refines_price_time_priority"
   ],
   "note": ""
  },
  {
   "property": "C10",
   "status": "proved",
   "theorems": [
    "Verif.OrderBook.C10_arrival_order",
    "Verif.OrderBook.C10_len",
    "Verif.OrderBook.C10_not",
    "Verif.OrderBook.C10_display_injective"
   ],
   "note": ""
  },
  {
   "property": "C11",
   "status": "proved",
   "theorems": [
    "Verif.Time.C11_business_day",
    "Verif.Time.C11_panics_iff",
    "Verif.Time.C11_add_holidays"
   ],
   "note": ""
  },
  {
   "property": "C12",
   "status": "proved",
   "theorems": [
    "Verif.Time.C12_following",
    "Verif.Time.C12_preceding",
    "Verif.Time.C12_business_day_fixed",
    "Verif.Time.C12_result_is_business_day",
    "Verif.Time.C12_idempotent",
    "Verif.Time.C12_following_panics_iff",
    "Verif.Time.C12_preceding_panics_iff"
   ],
   "note": ""
  },
  {
   "property": "C13",
   "status": "proved",
   "theorems": [
    "Verif.Time.C13_modified_following",
    "Verif.Time.C13_modified_preceding",
    "Verif.Time.C13_year_wrap"
   ],
   "note": ""
  },
  {
   "property": "C14",
   "status": "proved",
   "theorems": [
    "Verif.Time.C14_counts",
    "Verif.Time.C14_panics_iff",
    "Verif.Time.C14_reversed",
    "Verif.Time.C14_additive",
    "Verif.Time.C14_bounded",
    "Verif.Time.C14_calendar_day_counts",
    "Verif.Time.C14_business_day_counts"
   ],
   "note": ""
  },
  {
   "property": "C15",
   "status": "proved",
   "theorems": [
    "Verif.Time.C15_formula",
    "Verif.Time.C15_measure"
   ],
   "note": ""
  },
  {
   "property": "C16",
   "status": "proved",
   "theorems": [
    "Verif.Time.C16_formulas",
    "Verif.Time.C16_e_plus",
    "Verif.Time.C16_measure",
    "Verif.Time.C16_whole_years",
    "Verif.Time.C16_whole_years_rest",
    "Verif.Time.C16_agree",
    "Verif.Time.C16_not_additive"
   ],
   "note": ""
  },
  {
   "property": "C17",
   "status": "proved",
   "theorems": [
    "Verif.Time.C17_formula",
    "Verif.Time.C17_split_by_year",
    "Verif.Time.C17_measure"
   ],
   "note": ""
  },
  {
   "property": "C18",
   "status": "proved",
   "theorems": [
    "Verif.Time.C18_formulas",
    "Verif.Time.C18_nl_same_day",
    "Verif.Time.C18_leap_day_defect",
    "Verif.Time.C18_afb_panics_iff",
    "Verif.Time.C18_afb_no_leap",
    "Verif.Time.C18_afb_leap",
    "Verif.Time.C18_afb_next_year"
   ],
   "note": ""
  },
  {
   "property": "C19",
   "status": "proved",
   "theorems": [
    "Verif.Time.C19_first",
    "Verif.Time.C19_last",
    "Verif.Time.C19_day_tests"
   ],
   "note": ""
  },
  {
   "property": "C20",
   "status": "proved",
   "theorems": [
    "Verif.Time.C20_wrong_weekday"
   ],
   "note": ""
  },
  {
   "property": "C21",
   "status": "proved",
   "theorems": [
    "Verif.Time.C21_easter_table",
    "Verif.Time.C21_outside_panics"
   ],
   "note": ""
  },
  {
   "property": "C22",
   "status": "proved",
   "theorems": [
    "Verif.Time.C22_rules",
    "Verif.Time.C22_business_days",
    "Verif.Time.C22_fixed_rules",
    "Verif.Time.C22_lunar_tables_end",
    "Verif.Time.C22_singapore_defect",
    "Verif.Time.C22_argentina_defect",
    "Verif.Time.C22_france_defect",
    "Verif.Time.C22_singapore",
    "Verif.Time.C22_china"
   ],
   "note": ""
  },
  {
   "property": "C23",
   "status": "proved",
   "theorems": [
    "Verif.Time.C23_date_sequence",
    "Verif.Time.C23_date_sequence_panics_iff",
    "Verif.Time.C23_schedule"
   ],
   "note": ""
  },
  {
   "property": "C24",
   "status": "proved",
   "theorems": [
    "Verif.Time.C24_table",
    "Verif.Time.C24_monthly",
    "Verif.Time.C24_annually",
    "Verif.Time.C24_defects",
    "Verif.Time.C24_values"
   ],
   "note": ""
  },
  {
   "property": "C25",
   "status": "proved",
   "theorems": [
    "Verif.Time.C25_metric",
    "Verif.Time.C25_next_day",
    "Verif.Time.C25_years",
    "Verif.Time.C25_year_fraction"
   ],
   "note": ""
  },
  {
   "property": "C26",
   "status": "proved",
   "theorems": [
    "Verif.Autodiff.C26_runs",
    "Verif.Autodiff.C26_gradient_exact",
    "Verif.Autodiff.C26_values",
    "Verif.Autodiff.C26_cbrt"
   ],
   "note": ""
  },
  {
   "property": "C27",
   "status": "proved",
   "theorems": [
    "Verif.Autodiff.C27_tape",
    "Verif.Autodiff.C27_append_only"
   ],
   "note": ""
  },
  {
   "property": "C28",
   "status": "proved",
   "theorems": [
    "Verif.Autodiff.C28_unrelated_zero",
    "Verif.Autodiff.C28_later_operations",
    "Verif.Autodiff.C28_zero"
   ],
   "note": ""
  },
  {
   "property": "C29",
   "status": "proved",
   "theorems": [
    "Verif.Autodiff.C29_log2",
    "Verif.Autodiff.C29_log10",
    "Verif.Autodiff.C29_log_variables",
    "Verif.Autodiff.C29_min_max",
    "Verif.Autodiff.C29_pow"
   ],
   "note": ""
  },
  {
   "property": "C30",
   "status": "proved",
   "theorems": [
    "Verif.Autodiff.C30_structure",
    "Verif.Autodiff.C30_gradients_lost",
    "Verif.Autodiff.C30_misattributed"
   ],
   "note": ""
  },
  {
   "property": "C31",
   "status": "proved",
   "theorems": [
    "Verif.Autodiff.C31_wrt_positional",
    "Verif.Autodiff.C31_sum",
    "Verif.Autodiff.C31_product",
    "Verif.Autodiff.C31_empty_panics"
   ],
   "note": ""
  },
  {
   "property": "C32",
   "status": "proved",
   "theorems": [
    "Verif.Cashflows.C32_add_sub",
    "Verif.Cashflows.C32_scale",
    "Verif.Cashflows.C32_leg_npv",
    "Verif.Cashflows.C32_dates"
   ],
   "note": ""
  },
  {
   "property": "C33",
   "status": "proved",
   "theorems": [
    "Verif.Cashflows.C33_set_some",
    "Verif.Cashflows.C33_not_stored",
    "Verif.Cashflows.C33_reset",
    "Verif.Cashflows.C33_history",
    "Verif.Cashflows.C33_state"
   ],
   "note": ""
  },
  {
   "property": "C34",
   "status": "proved",
   "theorems": [
    "Verif.Data.C34_new",
    "Verif.Data.C34_set_rates",
    "Verif.Data.C34_dates",
    "Verif.Data.C34_first_last",
    "Verif.Data.C34_brackets",
    "Verif.Data.C34_shift",
    "Verif.Data.C34_get_and_insert",
    "Verif.Data.C34_batch",
    "Verif.Data.C34_linear",
    "Verif.Data.C34_exponential",
    "Verif.Data.C34_empty_panics",
    "Verif.Data.C34_set_rate_not_interpolated"
   ],
   "note": ""
  },
  {
   "property": "C35",
   "status": "proved",
   "theorems": [
    "Verif.Portfolios.C35_profit",
    "Verif.Portfolios.C35_order",
    "Verif.Portfolios.C35_update_price",
    "Verif.Portfolios.C35_update_quantity",
    "Verif.Portfolios.C35_weights"
   ],
   "note": ""
  },
  {
   "property": "C36",
   "status": "proved",
   "theorems": [
    "Verif.Fx.C36_arithmetic",
    "Verif.Fx.C36_add_laws",
    "Verif.Fx.C36_comparison",
    "Verif.Fx.C36_eq_not_comparable",
    "Verif.Fx.C36_last_rate",
    "Verif.Fx.C36_convert",
    "Verif.Fx.C36_rate_convert",
    "Verif.Fx.C36_round_trip"
   ],
   "note": ""
  },
  {
   "property": "C37",
   "status": "proved",
   "theorems": [
    "Verif.Fx.C37_rows",
    "Verif.Fx.C37_distinct",
    "Verif.Fx.C37_symbols_shared",
    "Verif.Fx.C37_eq_consistent"
   ],
   "note": ""
  },
  {
   "property": "C38",
   "status": "proved",
   "theorems": [
    "Verif.Math.C38_new",
    "Verif.Math.C38_add_points",
    "Verif.Math.C38_order_independent",
    "Verif.Math.C38_errors",
    "Verif.Math.C38_at_point",
    "Verif.Math.C38_between",
    "Verif.Math.C38_lines",
    "Verif.Math.C38_data_bounds",
    "Verif.Math.C38_integer_steps"
   ],
   "note": ""
  },
  {
   "property": "C39",
   "status": "proved",
   "theorems": [
    "Verif.Math.BSpline.C39_new",
    "Verif.Math.BSpline.C39_value",
    "Verif.Math.BSpline.C39_add_point",
    "Verif.Math.BSpline.C39_range",
    "Verif.Math.BSpline.C39_range_not_evaluable",
    "Verif.Math.BSpline.C39_basis",
    "Verif.Math.BSpline.C39_hull",
    "Verif.Math.BSpline.C39_degree_one",
    "Verif.Math.BSpline.C39_clamped_end"
   ],
   "note": ""
  },
  {
   "property": "C40",
   "status": "proved",
   "theorems": [
    "Verif.Math.Rootfind.C40_bisection",
    "Verif.Math.Rootfind.C40_bisection_continuous",
    "Verif.Math.Rootfind.C40_bisection_succeeds",
    "Verif.Math.Rootfind.C40_bisection_accurate",
    "Verif.Math.Rootfind.C40_premature_stop"
   ],
   "note": ""
  },
  {
   "property": "C41",
   "status": "proved",
   "theorems": [
    "Verif.Math.Statistic.C41_min_max",
    "Verif.Math.Statistic.C41_mean",
    "Verif.Math.Statistic.C41_affine",
    "Verif.Math.Statistic.C41_variance",
    "Verif.Math.Statistic.C41_covariance",
    "Verif.Math.Statistic.C41_correlation",
    "Verif.Math.Statistic.C41_means",
    "Verif.Math.Statistic.C41_order_independent",
    "Verif.Math.Statistic.C41_moments",
    "Verif.Math.Statistic.C41_shape"
   ],
   "note": ""
  },
  {
   "property": "C42",
   "status": "proved",
   "theorems": [
    "Verif.Math.Statistic.C42_quantile",
    "Verif.Math.Statistic.C42_between",
    "Verif.Math.Statistic.C42_monotone",
    "Verif.Math.Statistic.C42_median",
    "Verif.Math.Statistic.C42_order_independent",
    "Verif.Math.Statistic.C42_median_splits",
    "Verif.Math.Statistic.C42_iqr_bounds",
    "Verif.Math.Statistic.C42_iqr_not_quantile_difference"
   ],
   "note": ""
  },
  {
   "property": "C43",
   "status": "proved",
   "theorems": [
    "Verif.Math.Fft.C43_fft",
    "Verif.Math.Fft.C43_panics",
    "Verif.Math.Fft.C43_length_check_too_lax",
    "Verif.Math.Fft.C43_real_dc_nyquist",
    "Verif.Math.Fft.C43_real_walsh",
    "Verif.Math.Fft.C43_real_is_not_dft"
   ],
   "note": ""
  },
  {
   "property": "C44",
   "status": "proved",
   "theorems": [
    "Verif.Math.Sequences.C44_seq",
    "Verif.Math.Sequences.C44_seq_degenerate",
    "Verif.Math.Sequences.C44_seq_diverges",
    "Verif.Math.Sequences.C44_rep",
    "Verif.Math.Sequences.C44_linspace_panics",
    "Verif.Math.Sequences.C44_linspace",
    "Verif.Math.Sequences.C44_linspace_single_nan",
    "Verif.Math.Sequences.C44_cumsum"
   ],
   "note": ""
  },
  {
   "property": "C45",
   "status": "proved",
   "theorems": [
    "Verif.Options.C45_vanilla_parity",
    "Verif.Options.C45_vanilla_shape",
    "Verif.Options.C45_binary",
    "Verif.Options.C45_power",
    "Verif.Options.C45_log",
    "Verif.Options.C45_supershare",
    "Verif.Options.C45_expiry"
   ],
   "note": ""
  },
  {
   "property": "C46",
   "status": "proved",
   "theorems": [
    "Verif.Options.C46_payoff",
    "Verif.Options.C46_parity",
    "Verif.Options.C46_refine",
    "Verif.Options.C46_rebate_ignored"
   ],
   "note": ""
  },
  {
   "property": "C47",
   "status": "proved",
   "theorems": [
    "Verif.Options.Bsm.C47_parity",
    "Verif.Options.Bsm.C47_expectation",
    "Verif.Options.Bsm.C47_delta",
    "Verif.Options.Bsm.C47_vega",
    "Verif.Options.Bsm.C47_volatility",
    "Verif.Options.Bsm.C47_bounds",
    "Verif.Options.Bsm.C47_implied_volatility",
    "Verif.Options.Bsm.C47_theta",
    "Verif.Options.Bsm.C47_rho",
    "Verif.Options.Bsm.C47_rho_fixed_carry",
    "Verif.Options.Bsm.C47_phi",
    "Verif.Options.Bsm.C47_strike",
    "Verif.Options.Bsm.C47_delta_derivatives",
    "Verif.Options.Bsm.C47_gamma_derivatives",
    "Verif.Options.Bsm.C47_vega_derivatives",
    "Verif.Options.Bsm.C47_ultima_wrong",
    "Verif.Options.Bsm.C47_pde",
    "Verif.Options.Bsm.C47_lambda",
    "Verif.Options.Bsm.C47_zeta",
    "Verif.Options.GbsmModel.C47_models_parity",
    "Verif.Options.GbsmModel.C47_models_expectation",
    "Verif.Options.GbsmModel.C47_models_rho",
    "Verif.Options.BlackScholesMerton.C47_instrument",
    "Verif.Options.BlackScholesMerton.C47_implied_roundtrip"
   ],
   "note": ""
  },
  {
   "property": "C48",
   "status": "proved",
   "theorems": [
    "Verif.Options.FdPricer.C48_product",
    "Verif.Options.FdPricer.C48_inverse",
    "Verif.Options.FdPricer.C48_inverse_one",
    "Verif.Options.FdPricer.C48_explicit_step",
    "Verif.Options.FdPricer.C48_implicit_step",
    "Verif.Options.FdPricer.C48_crank_nicolson_step",
    "Verif.Options.FdPricer.C48_panics",
    "Verif.Options.FdPricer.C48_american_dates",
    "Verif.Options.FdPricer.C48_american_intrinsic",
    "Verif.Options.FdPricer.C48_american_ge_european",
    "Verif.Options.FdPricer.C48_nonneg",
    "Verif.Options.FdPricer.C48_boundary_discounted",
    "Verif.Options.FdPricer.C48_negative_price"
   ],
   "note": ""
  },
  {
   "property": "C49",
   "status": "proved",
   "theorems": [
    "Verif.Stochastics.C49_processes",
    "Verif.Stochastics.C49_euler_outcome",
    "Verif.Stochastics.C49_stochastic_volatility_euler",
    "Verif.Stochastics.C49_ode_error",
    "Verif.Stochastics.C49_gaussian_law",
    "Verif.Stochastics.C49_ou_law",
    "Verif.Stochastics.C49_ou_limit",
    "Verif.Stochastics.C49_euler_moments",
    "Verif.Stochastics.C49_unscaled_variance",
    "Verif.Stochastics.C49_gbm_mean",
    "Verif.Stochastics.C49_acf_sum",
    "Verif.Stochastics.C49_fractional_variance",
    "Verif.Stochastics.C49_shape",
    "Verif.Stochastics.C49_schedule",
    "Verif.Stochastics.C49_schedule_exists",
    "Verif.Stochastics.C49_panics_times",
    "Verif.Stochastics.C49_total",
    "Verif.Stochastics.C49_total_jumps_fractional",
    "Verif.Stochastics.C49_euler",
    "Verif.Stochastics.C49_reproducible",
    "Verif.Stochastics.C49_seed_shift",
    "Verif.Stochastics.C49_more_paths",
    "Verif.Stochastics.C49_ode",
    "Verif.Stochastics.C49_gbm_noiseless",
    "Verif.Stochastics.C49_gbm_noiseless_limit",
    "Verif.Stochastics.C49_ou_noiseless",
    "Verif.Stochastics.C49_hull_white_noiseless",
    "Verif.Stochastics.C49_bridge_misses_end",
    "Verif.Stochastics.C49_unscaled_noise",
    "Verif.Stochastics.C49_milstein_correction",
    "Verif.Stochastics.C49_fractional_paths_identical",
    "Verif.Stochastics.C49_fft_not_reproducible",
    "Verif.Stochastics.C49_fractional_double_scaling",
    "Verif.Stochastics.C49_jump_times_shared",
    "Verif.Stochastics.C49_panics_jumps",
    "Verif.Stochastics.C49_cir_fails",
    "Verif.Stochastics.C49_stochastic_volatility_ignored",
    "Verif.Stochastics.C49_bdt_diff"
   ],
   "note": ""
  },
  {
   "property": "C50",
   "status": "proved",
   "theorems": [
    "Verif.Math.GradientDescent.C50_record",
    "Verif.Math.GradientDescent.C50_gradient",
    "Verif.Math.GradientDescent.C50_converges",
    "Verif.Math.GradientDescent.C50_new",
    "Verif.Math.GradientDescent.C50_minimum_not_attained"
   ],
   "note": ""
  },
  {
   "property": "C51",
   "status": "proved",
   "theorems": [
    "Verif.Math.C51_between",
    "Verif.Math.C51_points_and_errors",
    "Verif.Math.C51_exponentials"
   ],
   "note": ""
  },
  {
   "property": "C52",
   "status": "proved",
   "theorems": [
    "Verif.Math.Rootfind.C52_brent",
    "Verif.Math.Rootfind.C52_brent_continuous",
    "Verif.Math.Rootfind.C52_brent_succeeds"
   ],
   "note": ""
  },
  {
   "property": "C53",
   "status": "proved",
   "theorems": [
    "Verif.Math.Rootfind.C53_newton",
    "Verif.Math.Rootfind.C53_exact_root_lost",
    "Verif.Math.Rootfind.C53_newton_succeeds",
    "Verif.Math.Rootfind.C53_newton_accurate"
   ],
   "note": ""
  },
  {
   "property": "C54",
   "status": "proved",
   "theorems": [
    "Verif.Math.Rootfind.C54_panics",
    "Verif.Math.Rootfind.C54_failure_is_zero"
   ],
   "note": ""
  },
  {
   "property": "C55",
   "status": "proved",
   "theorems": [
    "Verif.Math.Quadrature.C55_local",
    "Verif.Math.Quadrature.C55_linear",
    "Verif.Math.Quadrature.C55_monotone",
    "Verif.Math.Quadrature.C55_bounded",
    "Verif.Math.Quadrature.C55_zero",
    "Verif.Math.Quadrature.C55_polynomial",
    "Verif.Math.Quadrature.C55_accuracy"
   ],
   "note": ""
  },
  {
   "property": "C56",
   "status": "proved",
   "theorems": [
    "Verif.Options.C56_lookback_panics",
    "Verif.Options.C56_lookback",
    "Verif.Options.C56_lookback_dominates",
    "Verif.Options.C56_asian_panics",
    "Verif.Options.C56_asian",
    "Verif.Options.C56_averages",
    "Verif.Options.C56_asian_parity"
   ],
   "note": ""
  },
  {
   "property": "C57",
   "status": "proved",
   "theorems": [
    "Verif.Distributions.Gaussian.C57_gaussian_new",
    "Verif.Distributions.Gaussian.C57_gaussian_law",
    "Verif.Distributions.Gaussian.C57_gaussian_quantile",
    "Verif.Distributions.Gaussian.C57_gaussian_moments",
    "Verif.Distributions.Gaussian.C57_gaussian_centre"
   ],
   "note": ""
  },
  {
   "property": "C58",
   "status": "proved",
   "theorems": [
    "Verif.Stochastics.C58_forward",
    "Verif.Stochastics.C58_spot_is_average_forward",
    "Verif.Stochastics.C58_discount_factor",
    "Verif.Stochastics.C58_forward_discount",
    "Verif.Stochastics.C58_discount_antitone",
    "Verif.Stochastics.C58_short_end",
    "Verif.Stochastics.C58_long_end",
    "Verif.Stochastics.C58_parallel_shift",
    "Verif.Stochastics.C58_nelson_siegel",
    "Verif.Stochastics.C58_panics",
    "Verif.Stochastics.C58_zero_lambda",
    "Verif.Stochastics.C58_cost",
    "Verif.Stochastics.C58_cost_panics",
    "Verif.Stochastics.C58_fit_box"
   ],
   "note": ""
  },
  {
   "property": "C59",
   "status": "proved",
   "theorems": [
    "Verif.Options.Bachelier.C59_parity",
    "Verif.Options.Bachelier.C59_expectation",
    "Verif.Options.Bachelier.C59_greeks",
    "Verif.Options.Bachelier.C59_theta",
    "Verif.Options.Bachelier.C59_greeks_ignore_discounting",
    "Verif.Options.Bachelier.C59_heat_equation",
    "Verif.Options.Bachelier.C59_greek_bounds",
    "Verif.Options.Bachelier.C59_volatility",
    "Verif.Options.Bachelier.C59_implied_volatility",
    "Verif.Options.Bachelier.C59_at_the_money",
    "Verif.Options.Bachelier.C59_iv_at_the_money",
    "Verif.Options.Bachelier.C59_iv_intrinsic",
    "Verif.Options.Bachelier.C59_iv_disagree",
    "Verif.Options.Bachelier.C59_iv_limit"
   ],
   "note": ""
  },
  {
   "property": "C60",
   "status": "proved",
   "theorems": [
    "Verif.Options.Sabr02.C60_hagan",
    "Verif.Options.Sabr02.C60_no_smile",
    "Verif.Options.Sabr02.C60_at_the_money",
    "Verif.Options.Sabr02.C60_near_the_money",
    "Verif.Options.Sabr02.C60_pole",
    "Verif.Options.Sabr02.C60_sign",
    "Verif.Options.Sabr02.C60_negative",
    "Verif.Options.Sabr02.C60_zero_correlation",
    "Verif.Options.Sabr02.C60_cost"
   ],
   "note": ""
  },
  {
   "property": "C61",
   "status": "proved",
   "theorems": [
    "Verif.Options.Heston93.C61_finite",
    "Verif.Options.Heston93.C61_short_expiry",
    "Verif.Options.Heston93.C61_branch",
    "Verif.Options.Heston93.C61_parity",
    "Verif.Options.Heston93.C61_homogeneous",
    "Verif.Options.Heston93.C61_riccati",
    "Verif.Options.Heston93.C61_heston_equation",
    "Verif.Options.Heston93.C61_gamma",
    "Verif.Options.Heston93.C61_delta_rho"
   ],
   "note": ""
  },
  {
   "property": "C62",
   "status": "proved",
   "theorems": [
    "Verif.Distributions.C62_new",
    "Verif.Distributions.C62_law",
    "Verif.Distributions.C62_quantile",
    "Verif.Distributions.C62_moments",
    "Verif.Distributions.C62_centre"
   ],
   "note": ""
  },
  {
   "property": "C63",
   "status": "proved",
   "theorems": [
    "Verif.Distributions.C63_new",
    "Verif.Distributions.C63_law",
    "Verif.Distributions.C63_moments",
    "Verif.Distributions.C63_mode",
    "Verif.Distributions.C63_unimplemented",
    "Verif.Distributions.C63_sample_truncated"
   ],
   "note": ""
  },
  {
   "property": "C64",
   "status": "proved",
   "theorems": [
    "Verif.Distributions.C64_new",
    "Verif.Distributions.C64_law",
    "Verif.Distributions.C64_moments",
    "Verif.Distributions.C64_mode",
    "Verif.Distributions.C64_median_inexact",
    "Verif.Distributions.C64_quantile",
    "Verif.Distributions.C64_quantile_capped",
    "Verif.Distributions.C64_quantile_panics",
    "Verif.Distributions.C64_sample_truncated"
   ],
   "note": ""
  },
  {
   "property": "C65",
   "status": "proved",
   "theorems": [
    "Verif.Distributions.C65_new",
    "Verif.Distributions.C65_continuous_law",
    "Verif.Distributions.C65_continuous_moments",
    "Verif.Distributions.C65_continuous_degenerate",
    "Verif.Distributions.C65_discrete_law",
    "Verif.Distributions.C65_discrete_off_integers",
    "Verif.Distributions.C65_discrete_moments",
    "Verif.Distributions.C65_discrete_variance_wrong",
    "Verif.Distributions.C65_sample"
   ],
   "note": ""
  },
  {
   "property": "C66",
   "status": "proved",
   "theorems": [
    "Verif.Distributions.C66_new",
    "Verif.Distributions.C66_pmf",
    "Verif.Distributions.C66_pmf_off_support",
    "Verif.Distributions.C66_cdf_wrong",
    "Verif.Distributions.C66_quantile",
    "Verif.Distributions.C66_moments",
    "Verif.Distributions.C66_mode",
    "Verif.Distributions.C66_median_wrong"
   ],
   "note": ""
  },
  {
   "property": "C67",
   "status": "proved",
   "theorems": [
    "Verif.Distributions.C67_new",
    "Verif.Distributions.C67_pmf",
    "Verif.Distributions.C67_cdf",
    "Verif.Distributions.C67_quantile",
    "Verif.Distributions.C67_moments"
   ],
   "note": ""
  },
  {
   "property": "C68",
   "status": "proved",
   "theorems": [
    "Verif.Distributions.C68_new",
    "Verif.Distributions.C68_pmf",
    "Verif.Distributions.C68_cdf",
    "Verif.Distributions.C68_quantile",
    "Verif.Distributions.C68_moments",
    "Verif.Distributions.C68_mode",
    "Verif.Distributions.C68_median_entropy_wrong",
    "Verif.Distributions.C68_sample_wrong"
   ],
   "note": ""
  },
  {
   "property": "C69",
   "status": "proved",
   "theorems": [
    "Verif.ML.C69_outcome",
    "Verif.ML.C69_too_few_samples",
    "Verif.ML.C69_least_squares",
    "Verif.ML.C69_residuals",
    "Verif.ML.C69_exact_recovery",
    "Verif.ML.C69_predict",
    "Verif.ML.C69_qr",
    "Verif.ML.C69_svd",
    "Verif.ML.C69_svd_underdetermined"
   ],
   "note": ""
  },
  {
   "property": "C70",
   "status": "proved",
   "theorems": [
    "Verif.ML.C70_intercept_minimiser",
    "Verif.ML.C70_origin_minimiser",
    "Verif.ML.C70_succeeds",
    "Verif.ML.C70_no_penalty",
    "Verif.ML.C70_shrinkage",
    "Verif.ML.C70_negative_penalty"
   ],
   "note": ""
  },
  {
   "property": "C71",
   "status": "proved",
   "theorems": [
    "Verif.ML.C71_intercept",
    "Verif.ML.C71_more_rounds_no_worse",
    "Verif.ML.C71_no_worse_than_constant",
    "Verif.ML.C71_converges",
    "Verif.ML.C71_fixed_point",
    "Verif.ML.C71_strong_penalty"
   ],
   "note": ""
  },
  {
   "property": "C72",
   "status": "proved",
   "theorems": [
    "Verif.ML.C72_labels_not_checked",
    "Verif.ML.C72_predict",
    "Verif.ML.C72_converged",
    "Verif.ML.C72_newton_steps",
    "Verif.ML.C72_balanced_nan",
    "Verif.ML.C72_one_class",
    "Verif.ML.C72_separability_one_sided",
    "Verif.ML.C72_separable_misclassified",
    "Verif.ML.C72_misclassification",
    "Verif.ML.C72_cross_entropy_sign"
   ],
   "note": ""
  },
  {
   "property": "C73",
   "status": "proved",
   "theorems": [
    "Verif.ML.C73_neighbours",
    "Verif.ML.C73_majority",
    "Verif.ML.C73_panics",
    "Verif.ML.C73_nearest",
    "Verif.ML.C73_two_neighbours_farther",
    "Verif.ML.C73_labels_truncated",
    "Verif.ML.C73_integer_labels",
    "Verif.ML.C73_predict",
    "Verif.ML.C73_metrics"
   ],
   "note": ""
  },
  {
   "property": "C74",
   "status": "proved",
   "theorems": [
    "Verif.ML.C74_f64",
    "Verif.ML.C74_gaussian_f64_wrong",
    "Verif.ML.C74_vector",
    "Verif.ML.C74_variable",
    "Verif.ML.C74_relu_at_zero",
    "Verif.ML.C74_sigmoid",
    "Verif.ML.C74_relations"
   ],
   "note": ""
  },
  {
   "property": "C75",
   "status": "proved",
   "theorems": [
    "Verif.Options.LsPricer.C75_homogeneous",
    "Verif.Options.C75_path_law",
    "Verif.Options.LsPricer.C75_single_step_bias",
    "Verif.Options.LsPricer.C75_new",
    "Verif.Options.LsPricer.C75_backward_induction",
    "Verif.Options.LsPricer.C75_stopping",
    "Verif.Options.LsPricer.C75_bounds",
    "Verif.Options.LsPricer.C75_reproducible",
    "Verif.Options.LsPricer.C75_generators_distinct",
    "Verif.Options.LsPricer.C75_neighbouring_seeds",
    "Verif.Options.LsPricer.C75_below_intrinsic"
   ],
   "note": ""
  },
  {
   "property": "C76",
   "status": "proved",
   "theorems": [
    "Verif.Options.C76_gbm_error",
    "Verif.Options.C76_gbm_confidence",
    "Verif.Options.C76_bachelier_confidence",
    "Verif.Options.C76_bachelier",
    "Verif.Options.C76_unscaled",
    "Verif.Options.C76_variance",
    "Verif.Options.C76_gbm_parity_bias",
    "Verif.Options.C76_price",
    "Verif.Options.C76_vanilla",
    "Verif.Options.C76_parity",
    "Verif.Options.C76_barrier_parity",
    "Verif.Options.C76_nonneg",
    "Verif.Options.C76_strike",
    "Verif.Options.C76_reproducible",
    "Verif.Options.C76_no_price",
    "Verif.Options.C76_power_negative"
   ],
   "note": ""
  },
  {
   "property": "C77",
   "status": "proved",
   "theorems": [
    "Verif.Options.AnalyticPricer.C77_rho",
    "Verif.Options.AnalyticPricer.C77_future_rho_wrong",
    "Verif.Options.AnalyticPricer.C77_ultima",
    "Verif.Options.AnalyticPricer.C77_bachelier_zero_volatility",
    "Verif.Options.AnalyticPricer.C77_bachelier_greeks",
    "Verif.Options.AnalyticPricer.C77_bachelier_implied",
    "Verif.Options.AnalyticPricer.C77_heston_greeks",
    "Verif.Options.AnalyticPricer.C77_heston_greeks_parity",
    "Verif.Options.AnalyticPricer.C77_price",
    "Verif.Options.AnalyticPricer.C77_parity",
    "Verif.Options.AnalyticPricer.C77_expiry_day",
    "Verif.Options.AnalyticPricer.C77_expired_as_alive",
    "Verif.Options.AnalyticPricer.C77_expired_has_value",
    "Verif.Options.AnalyticPricer.C77_decay",
    "Verif.Options.AnalyticPricer.C77_greeks",
    "Verif.Options.AnalyticPricer.C77_time_greeks",
    "Verif.Options.AnalyticPricer.C77_bachelier",
    "Verif.Options.AnalyticPricer.C77_heston_parity",
    "Verif.Options.AnalyticPricer.C77_updates"
   ],
   "note": ""
  },
  {
   "property": "C78",
   "status": "proved",
   "theorems": [
    "Verif.ImpliedVol.C78_price_accuracy",
    "Verif.ImpliedVol.C78_derivatives",
    "Verif.ImpliedVol.C78_normalised_price",
    "Verif.ImpliedVol.C78_classification",
    "Verif.ImpliedVol.C78_homogeneous",
    "Verif.ImpliedVol.C78_put_call_parity",
    "Verif.ImpliedVol.C78_exchange",
    "Verif.ImpliedVol.C78_time_scaling",
    "Verif.ImpliedVol.C78_fixed_point",
    "Verif.ImpliedVol.C78_critical_roundtrip",
    "Verif.ImpliedVol.C78_nodes",
    "Verif.ImpliedVol.C78_guess",
    "Verif.ImpliedVol.C78_interpolation",
    "Verif.ImpliedVol.C78_interpolation_second",
    "Verif.ImpliedVol.C78_interpolation_monotone",
    "Verif.ImpliedVol.C78_maps",
    "Verif.ImpliedVol.C78_lower_order",
    "Verif.ImpliedVol.C78_upper_order",
    "Verif.ImpliedVol.C78_round_order",
    "Verif.ImpliedVol.C78_middle_order_two",
    "Verif.ImpliedVol.C78_middle_order_atm"
   ],
   "note": ""
  },
  {
   "property": "C79",
   "status": "proved",
   "theorems": [
    "Verif.Iso.C79_from_alpha_2",
    "Verif.Iso.C79_from_alpha_2_none",
    "Verif.Iso.C79_country_shape",
    "Verif.Iso.C79_country_distinct",
    "Verif.Iso.C79_operating_flag",
    "Verif.Iso.C79_mic_distinct",
    "Verif.Iso.C79_operating_exists",
    "Verif.Iso.C79_expired_segment",
    "Verif.Iso.C79_market_country"
   ],
   "note": ""
  },
  {
   "property": "C80",
   "status": "proved",
   "theorems": [
    "Verif.Autodiff.C80_text",
    "Verif.Autodiff.C80_nodes",
    "Verif.Autodiff.C80_edges",
    "Verif.Autodiff.C80_acyclic",
    "Verif.Autodiff.C80_inputs",
    "Verif.Autodiff.C80_gradient",
    "Verif.Autodiff.C80_connected"
   ],
   "note": ""
  },
  {
   "property": "C81",
   "status": "proved",
   "theorems": [
    "Verif.Math.RiskReward.C81_leverage",
    "Verif.Math.RiskReward.C81_burke_leverage",
    "Verif.Math.RiskReward.C81_burke",
    "Verif.Math.RiskReward.C81_alpha",
    "Verif.Math.RiskReward.C81_alpha_linear",
    "Verif.Math.RiskReward.C81_sortino_sharpe",
    "Verif.Math.RiskReward.C81_return_on_var"
   ],
   "note": ""
  },
  {
   "property": "C82",
   "status": "proved",
   "theorems": [
    "Verif.Options.FdPricer.C82_black_scholes",
    "Verif.Options.FdPricer.C82_converges",
    "Verif.Options.FdPricer.C82_scheme",
    "Verif.Options.FdPricer.C82_stability",
    "Verif.Options.FdPricer.C82_discrete_error",
    "Verif.Options.FdPricer.C82_consistent",
    "Verif.Options.FdPricer.C82_error",
    "Verif.Options.FdPricer.C82_crank_nicolson",
    "Verif.Options.FdPricer.C82_ends_damped",
    "Verif.Options.FdPricer.C82_deep_call"
   ],
   "note": ""
  },
  {
   "property": "C83",
   "status": "proved",
   "theorems": [
    "Verif.Distributions.C83_size",
    "Verif.Distributions.C83_gaussian",
    "Verif.Distributions.C83_exponential",
    "Verif.Distributions.C83_bernoulli",
    "Verif.Distributions.C83_poisson",
    "Verif.Distributions.C83_uniform",
    "Verif.Distributions.C83_gamma_wrong",
    "Verif.Distributions.C83_chi_squared_wrong",
    "Verif.Distributions.C83_discrete_uniform_wrong",
    "Verif.Distributions.C83_binomial_wrong"
   ],
   "note": ""
  },
  {
   "property": "C84",
   "status": "proved",
   "theorems": [
    "Verif.Autodiff.C84_classes",
    "Verif.Autodiff.C84_signum",
    "Verif.Autodiff.C84_eq",
    "Verif.Autodiff.C84_order",
    "Verif.Autodiff.C84_order_defects",
    "Verif.Autodiff.C84_round",
    "Verif.Autodiff.C84_round_untaped"
   ],
   "note": ""
  },
  {
   "property": "C85",
   "status": "proved",
   "theorems": [
    "Verif.Time.HebrewCal.C85_hebrew_dates",
    "Verif.Time.HebrewCal.C85_holidays",
    "Verif.Time.HebrewCal.C85_business_days",
    "Verif.Time.HebrewCal.C85_independence",
    "Verif.Time.HebrewCal.C85_leap_year_defect"
   ],
   "note": ""
  },
  {
   "property": "C86",
   "status": "proved",
   "theorems": [
    "Verif.Float.C86_sum",
    "Verif.Float.C86_sum_exact",
    "Verif.Float.C86_sum_order",
    "Verif.Float.C86_mean",
    "Verif.Float.C86_mean_outside",
    "Verif.Float.C86_variance_nonneg",
    "Verif.Float.C86_cumsum",
    "Verif.Float.C86_npv",
    "Verif.Float.C86_variance_error"
   ],
   "note": ""
  },
  {
   "property": "C87",
   "status": "proved",
   "theorems": [
    "Verif.Float.C87_quantile_panics",
    "Verif.Float.C87_quantile_between",
    "Verif.Float.C87_quantile_monotone",
    "Verif.Float.C87_quantile_finite",
    "Verif.Float.C87_median",
    "Verif.Float.C87_median_overflow",
    "Verif.Float.C87_median_error",
    "Verif.Float.C87_quantile_error"
   ],
   "note": ""
  },
  {
   "property": "C88",
   "status": "proved",
   "theorems": [
    "Verif.Float.C88_seq_ends",
    "Verif.Float.C88_seq_hangs",
    "Verif.Float.C88_seq_hangs_example",
    "Verif.Float.C88_seq_negative",
    "Verif.Float.C88_seq",
    "Verif.Float.C88_seq_drops_end",
    "Verif.Float.C88_linspace",
    "Verif.Float.C88_linspace_defined",
    "Verif.Float.C88_linspace_last"
   ],
   "note": ""
  },
  {
   "property": "C89",
   "status": "proved",
   "theorems": [
    "Verif.Float.C89_call",
    "Verif.Float.C89_put",
    "Verif.Float.C89_parity",
    "Verif.Float.C89_interpolate",
    "Verif.Float.C89_interpolate_overshoot",
    "Verif.Float.C89_interpolate_error",
    "Verif.Float.C89_day_count",
    "Verif.Float.C89_day_count_not_additive"
   ],
   "note": ""
  },
  {
   "property": "C90",
   "status": "proved",
   "theorems": [
    "Verif.Float.Bisect.C90_bisection",
    "Verif.Float.Bisect.C90_bisection_succeeds",
    "Verif.Float.Bisect.C90_bisection_zero",
    "Verif.Float.Bisect.C90_leaves_interval"
   ],
   "note": ""
  },
  {
   "property": "C91",
   "status": "proved",
   "theorems": [
    "Verif.Float.C91_value",
    "Verif.Float.C91_profit",
    "Verif.Float.C91_order",
    "Verif.Float.C91_order_matters",
    "Verif.Float.C91_profit_ne",
    "Verif.Float.C91_weights_range",
    "Verif.Float.C91_weights_sum",
    "Verif.Float.C91_weights_range_of_single",
    "Verif.Float.C91_exact"
   ],
   "note": ""
  },
  {
   "property": "C92",
   "status": "proved",
   "theorems": [
    "Verif.Float.C92_error",
    "Verif.Float.C92_accuracy",
    "Verif.Float.C92_monotone",
    "Verif.Float.C92_sign",
    "Verif.Float.C92_outside"
   ],
   "note": ""
  },
  {
   "property": "C93",
   "status": "proved",
   "theorems": [
    "Verif.Float.C93_add_sub",
    "Verif.Float.C93_convert",
    "Verif.Float.C93_chain",
    "Verif.Float.C93_round_trip",
    "Verif.Float.C93_split",
    "Verif.Float.C93_not_exact"
   ],
   "note": ""
  },
  {
   "property": "C94",
   "status": "proved",
   "theorems": [
    "Verif.Float.AD.C94_tapes",
    "Verif.Float.AD.C94_gradient_error",
    "Verif.Float.AD.C94_nonneg",
    "Verif.Float.AD.C94_chain_rule",
    "Verif.Float.AD.C94_exact",
    "Verif.Float.AD.C94_program_exact",
    "Verif.Float.AD.C94_not_exact",
    "Verif.Float.AD.C94_order_matters"
   ],
   "note": ""
  },
  {
   "property": "C95",
   "status": "proved",
   "theorems": [
    "Verif.Float.Fft.C95_fft_error",
    "Verif.Float.Fft.C95_fft_relative",
    "Verif.Float.Fft.C95_whole",
    "Verif.Float.Fft.C95_not_exact"
   ],
   "note": ""
  },
  {
   "property": "C96",
   "status": "proved",
   "theorems": [
    "Verif.Float.Fd.C96_implicit_nan",
    "Verif.Float.Fd.C96_crank_nicolson_nan",
    "Verif.Float.Fd.C96_square_grids",
    "Verif.Float.Fd.C96_american_intrinsic",
    "Verif.Float.Fd.C96_explicit_error"
   ],
   "note": ""
  },
  {
   "property": "C97",
   "status": "proved",
   "theorems": [
    "Verif.Float.Sim.C97_times",
    "Verif.Float.Sim.C97_times_last",
    "Verif.Float.Sim.C97_euler_error",
    "Verif.Float.Sim.C97_gbm_error",
    "Verif.Float.Sim.C97_abm_error",
    "Verif.Float.Sim.C97_ou_error",
    "Verif.Float.Sim.C97_hull_white_error",
    "Verif.Float.Sim.C97_bm_error",
    "Verif.Float.Sim.C97_ho_lee_error"
   ],
   "note": ""
  },
  {
   "property": "C98",
   "status": "proved",
   "theorems": [
    "Verif.Float.Bsm.C98_extended",
    "Verif.Float.Bsm.C98_expiry_nan",
    "Verif.Float.Bsm.C98_expiry_payoff",
    "Verif.Float.Bsm.C98_price_error",
    "Verif.Float.Bsm.C98_parity",
    "Verif.Float.Bsm.C98_delta_error"
   ],
   "note": ""
  },
  {
   "property": "C99",
   "status": "proved",
   "theorems": [
    "Verif.Float.Corr.C99_panics",
    "Verif.Float.Corr.C99_symmetric",
    "Verif.Float.Corr.C99_self",
    "Verif.Float.Corr.C99_correlation",
    "Verif.Float.Corr.C99_correlation_error",
    "Verif.Float.Corr.C99_standard_deviation",
    "Verif.Float.Corr.C99_correlation_over_one",
    "Verif.Float.Corr.C99_constant",
    "Verif.Float.Corr.C99_constant_minus_one"
   ],
   "note": ""
  },
  {
   "property": "C100",
   "status": "proved",
   "theorems": [
    "Verif.Float.Mean.C100_harmonic_error",
    "Verif.Float.Mean.C100_asian_geometric",
    "Verif.Float.Mean.C100_asian_arithmetic",
    "Verif.Float.Mean.C100_asian_infinite",
    "Verif.Float.Mean.C100_panics",
    "Verif.Float.Mean.C100_geometric_error",
    "Verif.Float.Mean.C100_geometric_infinite",
    "Verif.Float.Mean.C100_geometric_zero",
    "Verif.Float.Mean.C100_geometric_stuck"
   ],
   "note": ""
  },
  {
   "property": "C101",
   "status": "proved",
   "theorems": [
    "Verif.Float.Mc.C101_price_error",
    "Verif.Float.Mc.C101_european",
    "Verif.Float.Mc.C101_parity",
    "Verif.Float.Mc.C101_barrier",
    "Verif.Float.Mc.C101_in_out",
    "Verif.Float.Mc.C101_monotone",
    "Verif.Float.Mc.C101_order",
    "Verif.Float.Mc.C101_sign",
    "Verif.Float.Mc.C101_simulated",
    "Verif.Float.Mc.C101_gbm",
    "Verif.Float.Mc.C101_binary",
    "Verif.Float.Mc.C101_asian"
   ],
   "note": ""
  },
  {
   "property": "C102",
   "status": "proved",
   "theorems": [
    "Verif.Float.Nan.C102_lookback_extremes",
    "Verif.Float.Nan.C102_lookback",
    "Verif.Float.Nan.C102_same_path",
    "Verif.Float.Nan.C102_nan_stays",
    "Verif.Float.Nan.C102_overflow",
    "Verif.Float.Nan.C102_exploded",
    "Verif.Float.Nan.C102_same",
    "Verif.Float.Nan.C102_nan_pays_nothing",
    "Verif.Float.Nan.C102_nan_capped",
    "Verif.Float.Nan.C102_nan_asian",
    "Verif.Float.Nan.C102_payoff_sign",
    "Verif.Float.Nan.C102_price_sign",
    "Verif.Float.Nan.C102_nan_paths",
    "Verif.Float.Nan.C102_contracts",
    "Verif.Float.Nan.C102_infinite",
    "Verif.Float.Nan.C102_nan_barrier",
    "Verif.Float.Nan.C102_in_out"
   ],
   "note": ""
  },
  {
   "property": "C103",
   "status": "proved",
   "theorems": [
    "Verif.Float.Sorting.C103_same",
    "Verif.Float.Sorting.C103_interp_new",
    "Verif.Float.Sorting.C103_interp_single",
    "Verif.Float.Sorting.C103_interp_add",
    "Verif.Float.Sorting.C103_interp_at_nan",
    "Verif.Float.Sorting.C103_interp_nan_value",
    "Verif.Float.Sorting.C103_neighbours",
    "Verif.Float.Sorting.C103_sorts",
    "Verif.Float.Sorting.C103_sort_nan",
    "Verif.Float.Sorting.C103_sort_single",
    "Verif.Float.Sorting.C103_statistics",
    "Verif.Float.Sorting.C103_statistics_single",
    "Verif.Float.Sorting.C103_mean",
    "Verif.Float.Sorting.C103_extremes",
    "Verif.Float.Sorting.C103_extreme_values"
   ],
   "note": ""
  },
  {
   "property": "C104",
   "status": "proved",
   "theorems": [
    "Verif.Float.Solve.C104_panics",
    "Verif.Float.Solve.C104_no_sign_change",
    "Verif.Float.Solve.C104_nan_objective",
    "Verif.Float.Solve.C104_nan_guess",
    "Verif.Float.Solve.C104_newton_nan",
    "Verif.Float.Solve.C104_newton_infinite",
    "Verif.Float.Solve.C104_bisection",
    "Verif.Float.Solve.C104_newton",
    "Verif.Float.Solve.C104_brent",
    "Verif.Float.Solve.C104_brent_nan",
    "Verif.Float.Solve.C104_bisection_nan",
    "Verif.Float.Solve.C104_lost_root",
    "Verif.Float.Solve.C104_brent_infinite",
    "Verif.Float.Solve.C104_descent_nan",
    "Verif.Float.Solve.C104_descent",
    "Verif.Float.Solve.C104_same"
   ],
   "note": ""
  },
  {
   "property": "C105",
   "status": "proved",
   "theorems": [
    "Verif.Float.Bsm.C105_extended",
    "Verif.Float.Bsm.C105_expiry_nan",
    "Verif.Float.Bsm.C105_expiry_at_money",
    "Verif.Float.Bsm.C105_expiry_away",
    "Verif.Float.Bsm.C105_vega_error",
    "Verif.Float.Bsm.C105_gamma_error",
    "Verif.Float.Bsm.C105_strike_gamma_error",
    "Verif.Float.Bsm.C105_rho_error",
    "Verif.Float.Bsm.C105_phi_error",
    "Verif.Float.Bsm.C105_strike_delta_error",
    "Verif.Float.Bsm.C105_theta_error"
   ],
   "note": ""
  },
  {
   "property": "C106",
   "status": "proved",
   "theorems": [
    "Verif.Float.Laws.C106_exponential_cdf",
    "Verif.Float.Laws.C106_exponential_small",
    "Verif.Float.Laws.C106_bernoulli_total",
    "Verif.Float.Laws.C106_gaussian_cdf",
    "Verif.Float.Laws.C106_gaussian_cdf_error",
    "Verif.Float.Laws.C106_gamma_overflows",
    "Verif.Float.Laws.C106_gamma_shape",
    "Verif.Float.Laws.C106_chi_squared_large",
    "Verif.Float.Laws.C106_chi_squared_turns",
    "Verif.Float.Laws.C106_chi_squared_panics",
    "Verif.Float.Laws.C106_chi_squared_entropy",
    "Verif.Float.Laws.C106_constructors",
    "Verif.Float.Laws.C106_uniform_cdf",
    "Verif.Float.Laws.C106_uniform_pdf",
    "Verif.Float.Laws.C106_uniform_nan",
    "Verif.Float.Laws.C106_uniform_quantile",
    "Verif.Float.Laws.C106_uniform_quantile_beyond",
    "Verif.Float.Laws.C106_uniform_overflow",
    "Verif.Float.Laws.C106_uniform_mean"
   ],
   "note": ""
  },
  {
   "property": "C107",
   "status": "proved",
   "theorems": [
    "Verif.Distributions.C107_binomial_few",
    "Verif.Distributions.C107_binomial_some",
    "Verif.Distributions.C107_binomial_many",
    "Verif.Distributions.C107_binomial_panics",
    "Verif.Distributions.C107_binomial_truncated",
    "Verif.Distributions.C107_binomial_cdf",
    "Verif.Distributions.C107_binomial_quantile",
    "Verif.Distributions.C107_poisson_mass",
    "Verif.Distributions.C107_poisson_quantile",
    "Verif.Distributions.C107_poisson_quantile_wrong"
   ],
   "note": ""
  },
  {
   "property": "C108",
   "status": "proved",
   "theorems": [
    "Verif.Float.Tape.C108_total",
    "Verif.Float.Tape.C108_contaminates",
    "Verif.Float.Tape.C108_never_infinite",
    "Verif.Float.Tape.C108_confined",
    "Verif.Float.Tape.C108_later",
    "Verif.Float.Tape.C108_same",
    "Verif.Float.Tape.C108_operations",
    "Verif.Float.Tape.C108_unused",
    "Verif.Float.Tape.C108_unused_case"
   ],
   "note": ""
  },
  {
   "property": "C109",
   "status": "proved",
   "theorems": [
    "Verif.Float.Activation.C109_gelu_error",
    "Verif.Float.Activation.C109_gelu_infinite",
    "Verif.Float.Activation.C109_sigmoid",
    "Verif.Float.Activation.C109_sigmoid_error",
    "Verif.Float.Activation.C109_sigmoid_one",
    "Verif.Float.Activation.C109_relu",
    "Verif.Float.Activation.C109_relu_nan",
    "Verif.Float.Activation.C109_softplus_error",
    "Verif.Float.Activation.C109_softplus_overflow",
    "Verif.Float.Activation.C109_softplus_zero",
    "Verif.Float.Activation.C109_gaussian",
    "Verif.Float.Activation.C109_variable_values",
    "Verif.Float.Activation.C109_sigmoid_gradient",
    "Verif.Float.Activation.C109_softplus_gradient",
    "Verif.Float.Activation.C109_relu_variable",
    "Verif.Float.Activation.C109_relu_overflow",
    "Verif.Float.Activation.C109_relu_gradient"
   ],
   "note": ""
  },
  {
   "property": "C110",
   "status": "proved",
   "theorems": [
    "Verif.Float.Curves.C110_cost_panics",
    "Verif.Float.Curves.C110_cost_nonneg",
    "Verif.Float.Curves.C110_cost_nan",
    "Verif.Float.Curves.C110_cost_empty",
    "Verif.Float.Curves.C110_cost_flat",
    "Verif.Float.Curves.C110_cost_overflow",
    "Verif.Float.Curves.C110_cost_error",
    "Verif.Float.Curves.C110_discount_error",
    "Verif.Float.Curves.C110_discount_range",
    "Verif.Float.Curves.C110_panics",
    "Verif.Float.Curves.C110_nan",
    "Verif.Float.Curves.C110_small_lambda",
    "Verif.Float.Curves.C110_large_lambda",
    "Verif.Float.Curves.C110_forward_error",
    "Verif.Float.Curves.C110_spot_error"
   ],
   "note": ""
  },
  {
   "property": "C111",
   "status": "proved",
   "theorems": [
    "Verif.Float.Spline.C111_new",
    "Verif.Float.Spline.C111_add_point",
    "Verif.Float.Spline.C111_point_not_finite",
    "Verif.Float.Spline.C111_nan_control_defect",
    "Verif.Float.Spline.C111_inf_control_defect",
    "Verif.Float.Spline.C111_nan_knot_defect",
    "Verif.Float.Spline.C111_close_knots_defect",
    "Verif.Float.Spline.C111_infinite_knot_defect",
    "Verif.Float.Spline.C111_constant_defect",
    "Verif.Float.Spline.C111_exponential_error",
    "Verif.Float.Spline.C111_total",
    "Verif.Float.Spline.C111_errors",
    "Verif.Float.Spline.C111_spline_error"
   ],
   "note": ""
  },
  {
   "property": "C112",
   "status": "proved",
   "theorems": [
    "Verif.Float.Corr.C112_panics",
    "Verif.Float.Corr.C112_finite",
    "Verif.Float.Corr.C112_skewness_error",
    "Verif.Float.Corr.C112_kurtosis_error",
    "Verif.Float.Corr.C112_constant",
    "Verif.Float.Corr.C112_constant_tenths"
   ],
   "note": ""
  },
  {
   "property": "C113",
   "status": "proved",
   "theorems": [
    "Verif.Float.Reward.C113_ratios",
    "Verif.Float.Reward.C113_burke",
    "Verif.Float.Reward.C113_sign",
    "Verif.Float.Reward.C113_ranking",
    "Verif.Float.Reward.C113_sortino_sharpe",
    "Verif.Float.Reward.C113_no_risk",
    "Verif.Float.Reward.C113_burke_underflow",
    "Verif.Float.Reward.C113_burke_none",
    "Verif.Float.Reward.C113_alpha",
    "Verif.Float.Reward.C113_alpha_ranking",
    "Verif.Float.Reward.C113_alpha_zero",
    "Verif.Float.Reward.C113_market_alpha",
    "Verif.Float.Reward.C113_nan"
   ],
   "note": ""
  },
  {
   "property": "C114",
   "status": "proved",
   "theorems": [
    "Verif.Float.Bach.C114_atm_price",
    "Verif.Float.Bach.C114_atm_vol",
    "Verif.Float.Bach.C114_atm_round_trip",
    "Verif.Float.Bach.C114_extended",
    "Verif.Float.Bach.C114_flat_at_the_money",
    "Verif.Float.Bach.C114_flat_gamma",
    "Verif.Float.Bach.C114_flat",
    "Verif.Float.Bach.C114_price_error",
    "Verif.Float.Bach.C114_parity",
    "Verif.Float.Bach.C114_at_the_money",
    "Verif.Float.Bach.C114_greeks_error"
   ],
   "note": ""
  },
  {
   "property": "C115",
   "status": "proved",
   "theorems": [
    "Verif.Float.Sim.C115_times",
    "Verif.Float.Sim.C115_strang_error",
    "Verif.Float.Sim.C115_strang_gbm_error",
    "Verif.Float.Sim.C115_strang_abm_error",
    "Verif.Float.Sim.C115_milstein_step",
    "Verif.Float.Sim.C115_milstein_additive",
    "Verif.Float.Sim.C115_milstein_error",
    "Verif.Float.Sim.C115_milstein_local",
    "Verif.Float.Sim.C115_milstein_gbm_step",
    "Verif.Float.Sim.C115_milstein_abm_error",
    "Verif.Float.Sim.C115_brownian_without_time",
    "Verif.Float.Sim.C115_ou_error",
    "Verif.Float.Sim.C115_hull_white_error"
   ],
   "note": ""
  },
  {
   "property": "C116",
   "status": "proved",
   "theorems": [
    "Verif.Float.Sim.C116_times",
    "Verif.Float.Sim.C116_jump_error",
    "Verif.Float.Sim.C116_merton_error",
    "Verif.Float.Sim.C116_no_jumps",
    "Verif.Float.Sim.C116_number_of_jumps"
   ],
   "note": ""
  },
  {
   "property": "C117",
   "status": "proved",
   "theorems": [
    "Verif.Float.Paths.C117_not_finite_stays",
    "Verif.Float.Paths.C117_last_value",
    "Verif.Float.Paths.C117_nan_from",
    "Verif.Float.Paths.C117_cir_negative",
    "Verif.Float.Paths.C117_cev_negative",
    "Verif.Float.Paths.C117_bridge",
    "Verif.Float.Paths.C117_bdt_zero_volatility",
    "Verif.Float.Paths.C117_bdt_constant_volatility",
    "Verif.Float.Paths.C117_same",
    "Verif.Float.Paths.C117_same_schemes",
    "Verif.Float.Paths.C117_cir_fails"
   ],
   "note": ""
  }
 ]
}
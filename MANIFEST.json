{
 "claims": [
  {
   "property": "C01",
   "status": "proved",
   "theorems": [
    "Qlab.Props.C01_from_ymd",
    "Qlab.Props.C01_from_ymd_none",
    "Qlab.Props.C01_components_determine"
   ],
   "note": ""
  },
  {
   "property": "C02",
   "status": "proved",
   "theorems": [
    "Qlab.Props.C02_leap_year_rule",
    "Qlab.Props.C02_leap_year",
    "Qlab.Props.C02_days_in_month"
   ],
   "note": ""
  },
  {
   "property": "C03",
   "status": "proved",
   "theorems": [
    "Qlab.Props.C03_serial_lt",
    "Qlab.Props.C03_serial_injective",
    "Qlab.Props.C03_serial_epoch",
    "Qlab.Props.C03_serial_succ",
    "Qlab.Props.C03_serial_surjective"
   ],
   "note": ""
  },
  {
   "property": "C04",
   "status": "proved",
   "theorems": [
    "Qlab.Props.C04_sub_serial",
    "Qlab.Props.C04_sub_antisymm",
    "Qlab.Props.C04_sub_additive",
    "Qlab.Props.C04_sub_eq_zero",
    "Qlab.Props.C04_sub_pos",
    "Qlab.Props.C04_sub_one"
   ],
   "note": ""
  },
  {
   "property": "C05",
   "status": "proved",
   "theorems": [
    "Qlab.Props.C05_add_days",
    "Qlab.Props.C05_add_days_none",
    "Qlab.Props.C05_sub_days",
    "Qlab.Props.C05_add_sub_inverse",
    "Qlab.Props.C05_add_days_add",
    "Qlab.Props.C05_add_days_mono"
   ],
   "note": ""
  },
  {
   "property": "C06",
   "status": "proved",
   "theorems": [
    "Qlab.Props.C06_succ_pred_inverse",
    "Qlab.Props.C06_succ_least",
    "Qlab.Props.C06_pred_greatest",
    "Qlab.Props.C06_succ_none",
    "Qlab.Props.C06_pred_none",
    "Qlab.Props.C06_succ_eq_add_one"
   ],
   "note": ""
  },
  {
   "property": "C07",
   "status": "proved",
   "theorems": [
    "Qlab.Props.C07_add_months",
    "Qlab.Props.C07_add_months_none",
    "Qlab.Props.C07_retry_is_redundant"
   ],
   "note": ""
  },
  {
   "property": "C08",
   "status": "proved",
   "theorems": [
    "Qlab.Props.C08_sub_months",
    "Qlab.Props.C08_sub_months_none",
    "Qlab.Props.C08_sub_add_inverse"
   ],
   "note": ""
  },
  {
   "property": "C09",
   "status": "proved",
   "theorems": [
    "Qlab.Props.C09_add_months_mono",
    "Qlab.Props.C09_add_months_lt",
    "Qlab.Props.C09_add_months_zero",
    "Qlab.Props.C09_add_months_add",
    "Qlab.Props.C09_add_months_two_steps"
   ],
   "note": ""
  },
  {
   "property": "C10",
   "status": "proved",
   "theorems": [
    "Qlab.Props.C10_add_years_panic",
    "Qlab.Props.C10_add_years",
    "Qlab.Props.C10_add_years_some",
    "Qlab.Props.C10_add_years_months"
   ],
   "note": ""
  },
  {
   "property": "C11",
   "status": "proved",
   "theorems": [
    "Qlab.Props.C11_weekday_cycle",
    "Qlab.Props.C11_weekday",
    "Qlab.Props.C11_weekend_roll",
    "Qlab.Props.C11_weekend_roll_total",
    "Qlab.Props.C11_weekend_roll_bounds",
    "Qlab.Props.C11_weekend_roll_idempotent",
    "Qlab.Props.C11_weekend_roll_mono"
   ],
   "note": ""
  },
  {
   "property": "C12",
   "status": "partial",
   "theorems": [
    "Qlab.Props.C12_refuted",
    "Qlab.Props.C12_weekend_roll_month_partial"
   ],
   "note": "violated: a weekend at a month end rolls into another month (C12_refuted); the exact condition is proved"
  },
  {
   "property": "C13",
   "status": "proved",
   "theorems": [
    "Qlab.Props.C13_following",
    "Qlab.Props.C13_following_none",
    "Qlab.Props.C13_following_panic"
   ],
   "note": ""
  },
  {
   "property": "C14",
   "status": "proved",
   "theorems": [
    "Qlab.Props.C14_preceding",
    "Qlab.Props.C14_preceding_none",
    "Qlab.Props.C14_preceding_panic"
   ],
   "note": ""
  },
  {
   "property": "C15",
   "status": "partial",
   "theorems": [
    "Qlab.Props.C15_modified_shipped_partial",
    "Qlab.Props.C15_modified_following_iff_partial",
    "Qlab.Props.C15_modified_preceding_iff_partial",
    "Qlab.Props.C15_modified_following_actual",
    "Qlab.Props.C15_modified_preceding_actual",
    "Qlab.Props.C15_modified_following_partial",
    "Qlab.Props.C15_modified_preceding_partial",
    "Qlab.Props.C15_refuted",
    "Qlab.Props.C15_refuted_general",
    "Qlab.Props.C15_refuted_preceding",
    "Qlab.Props.C15_refuted_preceding_general"
   ],
   "note": "violated: the Modified conventions compare with the unshifted date's month (C15_refuted, C15_refuted_general); the implemented rule and the domain where it agrees are proved; C15_modified_following_iff_partial and C15_modified_preceding_iff_partial give the exact condition"
  },
  {
   "property": "C16",
   "status": "proved",
   "theorems": [
    "Qlab.Props.C16_result_is_business_day",
    "Qlab.Props.C16_business_day_fixed",
    "Qlab.Props.C16_unadjusted",
    "Qlab.Props.C16_idempotent"
   ],
   "note": ""
  },
  {
   "property": "C17",
   "status": "proved",
   "theorems": [
    "Qlab.Props.C17_following_mono",
    "Qlab.Props.C17_preceding_mono",
    "Qlab.Props.C17_preceding_le_following"
   ],
   "note": ""
  },
  {
   "property": "C18",
   "status": "proved",
   "theorems": [
    "Qlab.Props.C18_act360_exact",
    "Qlab.Props.C18_act365_exact",
    "Qlab.Props.C18_act360_total",
    "Qlab.Props.C18_act365_total",
    "Qlab.Props.C18_act360_additive",
    "Qlab.Props.C18_act365_additive",
    "Qlab.Props.C18_act360_strictMono",
    "Qlab.Props.C18_act365_strictMono"
   ],
   "note": ""
  },
  {
   "property": "C19",
   "status": "proved",
   "theorems": [
    "Qlab.Props.C19_thirty360_error",
    "Qlab.Props.C19_thirty360_value",
    "Qlab.Props.C19_thirty360_additive",
    "Qlab.Props.C19_thirty360_fraction",
    "Qlab.Props.C19_thirty360_api_error"
   ],
   "note": ""
  },
  {
   "property": "C20",
   "status": "partial",
   "theorems": [
    "Qlab.Props.C20_refuted",
    "Qlab.Props.C20_thirty360_panic",
    "Qlab.Props.C20_thirty360_no_panic_partial"
   ],
   "note": "violated with overflow checks (C20_refuted); the exact panic domain and the value outside it are proved"
  },
  {
   "property": "C21",
   "status": "proved",
   "theorems": [
    "Qlab.Props.C21_is_holiday"
   ],
   "note": ""
  },
  {
   "property": "C22",
   "status": "proved",
   "theorems": [
    "Qlab.Props.C22_joint_open",
    "Qlab.Props.C22_joint_and",
    "Qlab.Props.C22_joint_assoc",
    "Qlab.Props.C22_joint_idem",
    "Qlab.Props.C22_joint_comm",
    "Qlab.Props.C22_joint_following"
   ],
   "note": ""
  },
  {
   "property": "C23",
   "status": "proved",
   "theorems": [
    "Qlab.Props.C23_easter_monday",
    "Qlab.Props.C23_easter_offset",
    "Qlab.Props.C23_easter_panic",
    "Qlab.Props.C23_easter_monday_range"
   ],
   "note": ""
  },
  {
   "property": "C24",
   "status": "proved",
   "theorems": [
    "Qlab.Props.C24_orthodox_easter_monday",
    "Qlab.Props.C24_orthodox_offset",
    "Qlab.Props.C24_orthodox_panic",
    "Qlab.Props.C24_orthodox_monday_range",
    "Qlab.Props.C24_orthodox_vs_western"
   ],
   "note": ""
  },
  {
   "property": "C25",
   "status": "proved",
   "theorems": [
    "Qlab.Props.C25_count",
    "Qlab.Props.C25_antisymm",
    "Qlab.Props.C25_additive",
    "Qlab.Props.C25_bounds"
   ],
   "note": ""
  },
  {
   "property": "C26",
   "status": "partial",
   "theorems": [
    "Qlab.Props.C26_refuted_flag",
    "Qlab.Props.C26_refuted_panic",
    "Qlab.Props.C26_refuted_additive",
    "Qlab.Props.C26_returns_partial"
   ],
   "note": "violated: include_first skips the first date and equal dates panic with default flags; the exact domain of returning calls is proved"
  },
  {
   "property": "C27",
   "status": "proved",
   "theorems": [
    "Qlab.Props.C27_last_day_of_month",
    "Qlab.Props.C27_end_of_month",
    "Qlab.Props.C27_end_of_month_same_month"
   ],
   "note": ""
  },
  {
   "property": "C28",
   "status": "proved",
   "theorems": [
    "Qlab.Props.C28_weekend_closed",
    "Qlab.Props.C28_russian_exchange",
    "Qlab.Props.C28_israel"
   ],
   "note": ""
  },
  {
   "property": "C29",
   "status": "proved",
   "theorems": [
    "Qlab.Props.C29_panics_iff",
    "Qlab.Props.C29_answers"
   ],
   "note": ""
  },
  {
   "property": "C30",
   "status": "proved",
   "theorems": [
    "Qlab.Props.C30_fixed_holidays_closed"
   ],
   "note": ""
  },
  {
   "property": "C31",
   "status": "proved",
   "theorems": [
    "Qlab.Props.C31_easter_holidays_closed"
   ],
   "note": ""
  },
  {
   "property": "C32",
   "status": "proved",
   "theorems": [
    "Qlab.Props.C32_default_market",
    "Qlab.Props.C32_equal_markets",
    "Qlab.Props.C32_australia",
    "Qlab.Props.C32_canada",
    "Qlab.Props.C32_brazil",
    "Qlab.Props.C32_germany",
    "Qlab.Props.C32_united_states"
   ],
   "note": ""
  },
  {
   "property": "C33",
   "status": "partial",
   "theorems": [
    "Qlab.Props.C33_romania_orthodox",
    "Qlab.Props.C33_refuted",
    "Qlab.Props.C33_ukraine_western_partial",
    "Qlab.Props.C33_ukraine_orthodox_iff_partial"
   ],
   "note": "violated for Ukraine, which follows Western Easter (C33_refuted); Romania proved, Ukraine's actual rule proved, with the exact condition under which Orthodox Easter Monday is closed"
  },
  {
   "property": "C34",
   "status": "proved",
   "theorems": [
    "Qlab.Props.C34_found_iff",
    "Qlab.Props.C34_lower_iff",
    "Qlab.Props.C34_upper_iff",
    "Qlab.Props.C34_any_points",
    "Qlab.Props.C34_unordered",
    "Qlab.Props.C34_std_versions_agree"
   ],
   "note": ""
  },
  {
   "property": "C35",
   "status": "proved",
   "theorems": [
    "Qlab.Props.C35_nodes",
    "Qlab.Props.C35_between",
    "Qlab.Props.C35_affine",
    "Qlab.Props.C35_domain",
    "Qlab.Props.C35_monotone"
   ],
   "note": ""
  },
  {
   "property": "C36",
   "status": "partial",
   "theorems": [
    "Qlab.Props.C36_refuted_panic",
    "Qlab.Props.C36_refuted_flat_extrapolation",
    "Qlab.Props.C36_panic_iff_partial"
   ],
   "note": "violated: one point evaluated at its abscissa panics, and there is no flat extrapolation (C36_refuted_*); the panic domain is proved exactly"
  },
  {
   "property": "C37",
   "status": "proved",
   "theorems": [
    "Qlab.Props.C37_construction",
    "Qlab.Props.C37_nodes",
    "Qlab.Props.C37_cubics",
    "Qlab.Props.C37_domain",
    "Qlab.Props.C37_slopes"
   ],
   "note": ""
  },
  {
   "property": "C38",
   "status": "partial",
   "theorems": [
    "Qlab.Props.C38_nodes_partial",
    "Qlab.Props.C38_constants_partial",
    "Qlab.Props.C38_last_node_value_partial",
    "Qlab.Props.C38_refuted_last_node",
    "Qlab.Props.C38_refuted_constants",
    "Qlab.Props.C38_domain",
    "Qlab.Props.C38_continuous",
    "Qlab.Props.C38_constants_iff_partial"
   ],
   "note": "violated on the last segment: every grid misses its last node unless the ordinate is zero (C38_refuted_last_node); nodes, constants, continuity and domain proved everywhere else; C38_constants_iff_partial says where constants are reproduced"
  },
  {
   "property": "C39",
   "status": "proved",
   "theorems": [
    "Qlab.Props.C39_catmull_rom",
    "Qlab.Props.C39_natural_cubic"
   ],
   "note": ""
  },
  {
   "property": "C40",
   "status": "proved",
   "theorems": [
    "Qlab.Props.C40_nodes",
    "Qlab.Props.C40_domain",
    "Qlab.Props.C40_continuous",
    "Qlab.Props.C40_second_derivative"
   ],
   "note": ""
  },
  {
   "property": "C41",
   "status": "partial",
   "theorems": [
    "Qlab.Props.C41_three_constants_iff_partial",
    "Qlab.Props.C41_smooth_iff_partial",
    "Qlab.Props.C41_three_points_iff_partial",
    "Qlab.Props.C41_refuted_three_points",
    "Qlab.Props.C41_lines_partial",
    "Qlab.Props.C41_refuted_lines",
    "Qlab.Props.C41_refuted_four_points"
   ],
   "note": "violated: kinks at the last two interior nodes, and three points lose a term (C41_refuted_*); smoothness everywhere else, the exact condition, and straight lines for four or more points are proved; C41_three_constants_iff_partial says where three points of equal ordinate are"
  },
  {
   "property": "C42",
   "status": "partial",
   "theorems": [
    "Qlab.Props.C42_returns",
    "Qlab.Props.C42_extra",
    "Qlab.Props.C42_panic_iff",
    "Qlab.Props.C42_size_one",
    "Qlab.Props.C42_rows_partial",
    "Qlab.Props.C42_solves_iff_partial",
    "Qlab.Props.C42_refuted",
    "Qlab.Props.C42_dominant_pivots"
   ],
   "note": "violated for size two or more: the last-but-one back-substitution step is skipped (C42_refuted); residuals and the exact condition are proved"
  },
  {
   "property": "C43",
   "status": "proved",
   "theorems": [
    "Qlab.Props.C43_shape",
    "Qlab.Props.C43_product_length",
    "Qlab.Props.C43_product",
    "Qlab.Props.C43_linear"
   ],
   "note": ""
  },
  {
   "property": "C44",
   "status": "proved",
   "theorems": [
    "Qlab.Props.C44_length_mismatch",
    "Qlab.Props.C44_fit",
    "Qlab.Props.C44_first_failure",
    "Qlab.Props.C44_exhaustive",
    "Qlab.Props.C44_invalid_input_iff",
    "Qlab.Props.C44_invalid_input_thirty360"
   ],
   "note": ""
  },
  {
   "property": "C45",
   "status": "proved",
   "theorems": [
    "Qlab.Props.C45_rejected",
    "Qlab.Props.C45_value_iff",
    "Qlab.Props.C45_error_iff",
    "Qlab.Props.C45_no_panic",
    "Qlab.Props.C45_invalid_input_iff"
   ],
   "note": ""
  },
  {
   "property": "C46",
   "status": "proved",
   "theorems": [
    "Qlab.Props.C46_formula",
    "Qlab.Props.C46_positive",
    "Qlab.Props.C46_unit",
    "Qlab.Props.C46_multiplicative",
    "Qlab.Props.C46_le_one_iff",
    "Qlab.Props.C46_day_counts"
   ],
   "note": ""
  },
  {
   "property": "C47",
   "status": "proved",
   "theorems": [
    "Qlab.Props.C47_linear",
    "Qlab.Props.C47_natural_cubic",
    "Qlab.Props.C47_dates"
   ],
   "note": ""
  },
  {
   "property": "C48",
   "status": "proved",
   "theorems": [
    "Qlab.Props.C48_schedule",
    "Qlab.Props.C48_id",
    "Qlab.Props.C48_schedule_unique"
   ],
   "note": ""
  },
  {
   "property": "C49",
   "status": "partial",
   "theorems": [
    "Qlab.Props.C49_anchored_partial",
    "Qlab.Props.C49_month_partial",
    "Qlab.Props.C49_refuted",
    "Qlab.Props.C49_day_partial",
    "Qlab.Props.C49_anchored_iff_partial",
    "Qlab.Props.C49_months_iff_partial"
   ],
   "note": "violated at month ends: each date is stepped from the one before, so a clamped day stays clamped (C49_refuted); proved for first coupon days up to 28, and the month for all; C49_day_partial gives the exact day of every due date, C49_anchored_iff_partial and C49_months_iff_partial say exactly when all are anchored"
  },
  {
   "property": "C50",
   "status": "proved",
   "theorems": [
    "Qlab.Props.C50_amounts",
    "Qlab.Props.C50_lengths_unique",
    "Qlab.Props.C50_regular_total",
    "Qlab.Props.C50_first_length_bounds",
    "Qlab.Props.C50_last_length_bounds"
   ],
   "note": ""
  },
  {
   "property": "C51",
   "status": "partial",
   "theorems": [
    "Qlab.Props.C51_success_iff_partial",
    "Qlab.Props.C51_panic_iff_partial",
    "Qlab.Props.C51_in_range_partial",
    "Qlab.Props.C51_refuted"
   ],
   "note": "violated: an empty schedule with an irregular first period panics (C51_refuted); the success and panic domains are proved exactly"
  },
  {
   "property": "C52",
   "status": "proved",
   "theorems": [
    "Qlab.Props.C52_fold",
    "Qlab.Props.C52_error",
    "Qlab.Props.C52_panic",
    "Qlab.Props.C52_none_left",
    "Qlab.Props.C52_past_irrelevant",
    "Qlab.Props.C52_sum",
    "Qlab.Props.C52_linear",
    "Qlab.Props.C52_shipped_domain"
   ],
   "note": ""
  },
  {
   "property": "C53",
   "status": "proved",
   "theorems": [
    "Qlab.Props.C53_nonneg",
    "Qlab.Props.C53_pos",
    "Qlab.Props.C53_le_undiscounted",
    "Qlab.Props.C53_monotone"
   ],
   "note": ""
  },
  {
   "property": "C54",
   "status": "proved",
   "theorems": [
    "Qlab.Props.C54_bond_interpolation",
    "Qlab.Props.C54_bond_error",
    "Qlab.Props.C54_new_interpolation_iff",
    "Qlab.Props.C54_discount_interpolation_iff",
    "Qlab.Props.C54_day_count_error"
   ],
   "note": ""
  },
  {
   "property": "C55",
   "status": "proved",
   "theorems": [
    "Qlab.Props.C55_iso",
    "Qlab.Props.C55_order",
    "Qlab.Props.C55_expanded",
    "Qlab.Props.C55_injective"
   ],
   "note": ""
  },
  {
   "property": "C56",
   "status": "partial",
   "theorems": [
    "Qlab.Props.C56_left_slope_partial",
    "Qlab.Props.C56_right_slope_partial",
    "Qlab.Props.C56_refuted",
    "Qlab.Props.C56_smooth_iff_partial",
    "Qlab.Props.C56_refuted_lines",
    "Qlab.Props.C56_lines_partial"
   ],
   "note": "violated: kink at interior nodes (C56_refuted), straight lines not reproduced (C56_refuted_lines); the one-sided slopes are proved, C56_smooth_iff_partial says at which nodes the spline is differentiable, C56_lines_partial on which segments lines are reproduced"
  },
  {
   "property": "C57",
   "status": "partial",
   "theorems": [
    "Qlab.Props.C57_refuted",
    "Qlab.Props.C57_panics_iff_partial"
   ],
   "note": "violated: the empty slice panics (C57_refuted); proved to be the only panic"
  },
  {
   "property": "C58",
   "status": "proved",
   "theorems": [
    "Qlab.Props.C58_domain"
   ],
   "note": ""
  },
  {
   "property": "C59",
   "status": "partial",
   "theorems": [
    "Qlab.Props.C59_refuted",
    "Qlab.Props.C59_strict_partial"
   ],
   "note": "violated: equal dates give 1 (C59_refuted); strictly reversed dates proved rejected"
  },
  {
   "property": "C60",
   "status": "partial",
   "theorems": [
    "Qlab.Props.C60_last_pillar_iff_partial",
    "Qlab.Props.C60_catmull_rom_partial",
    "Qlab.Props.C60_refuted"
   ],
   "note": "violated at the last pillar (C60_refuted); all other pillars proved; C60_last_pillar_iff_partial: the last pillar is repriced exactly for a zero quote"
  },
  {
   "property": "C61",
   "status": "partial",
   "theorems": [
    "Qlab.Props.C61_refuted",
    "Qlab.Props.C61_no_check_partial"
   ],
   "note": "violated: issue and maturity are never checked (C61_refuted); the success domain is C51_success_iff_partial"
  },
  {
   "property": "C62",
   "status": "partial",
   "theorems": [
    "Qlab.Props.C62_coupons_partial",
    "Qlab.Props.C62_refuted",
    "Qlab.Props.C62_weekdays_iff_partial"
   ],
   "note": "violated for the flow at maturity (C62_refuted); proved for every earlier coupon; C62_weekdays_iff_partial: all payments are on weekdays exactly if the maturity is"
  },
  {
   "property": "C63",
   "status": "proved",
   "theorems": [
    "Qlab.Props.C63_flows",
    "Qlab.Props.C63_price"
   ],
   "note": ""
  },
  {
   "property": "C64",
   "status": "proved",
   "theorems": [
    "Qlab.Props.C64_flows",
    "Qlab.Props.C64_price"
   ],
   "note": ""
  },
  {
   "property": "C65",
   "status": "partial",
   "theorems": [
    "Qlab.Props.C65_refuted",
    "Qlab.Props.C65_due_partial",
    "Qlab.Props.C65_left_out_partial",
    "Qlab.Props.C65_workday_partial",
    "Qlab.Props.C65_left_out_iff_partial"
   ],
   "note": "violated for weekend coupons (C65_refuted); proved for flows due after settlement, and for every payment when settlement is on a weekday; C65_left_out_iff_partial gives the exact condition"
  },
  {
   "property": "C66",
   "status": "proved",
   "theorems": [
    "Qlab.Props.C66_botswana",
    "Qlab.Props.C66_southAfrica",
    "Qlab.Props.C66_australia",
    "Qlab.Props.C66_newZealand",
    "Qlab.Props.C66_closed_exactly",
    "Qlab.Props.C66_open_exactly",
    "Qlab.Props.C66_argentina",
    "Qlab.Props.C66_brazil",
    "Qlab.Props.C66_canada",
    "Qlab.Props.C66_chile",
    "Qlab.Props.C66_mexico",
    "Qlab.Props.C66_austria",
    "Qlab.Props.C66_czechRepublic",
    "Qlab.Props.C66_germany",
    "Qlab.Props.C66_hungary",
    "Qlab.Props.C66_poland",
    "Qlab.Props.C66_slovakia",
    "Qlab.Props.C66_switzerland",
    "Qlab.Props.C66_target",
    "Qlab.Props.C66_weekendsOnly",
    "Qlab.Props.C66_china",
    "Qlab.Props.C66_hongKong",
    "Qlab.Props.C66_taiwan",
    "Qlab.Props.C66_japan",
    "Qlab.Props.C66_southKorea",
    "Qlab.Props.C66_denmark",
    "Qlab.Props.C66_finland",
    "Qlab.Props.C66_iceland",
    "Qlab.Props.C66_norway",
    "Qlab.Props.C66_sweden",
    "Qlab.Props.C66_unitedKingdom",
    "Qlab.Props.C66_india",
    "Qlab.Props.C66_indonesia",
    "Qlab.Props.C66_singapore",
    "Qlab.Props.C66_thailand",
    "Qlab.Props.C66_israel",
    "Qlab.Props.C66_france",
    "Qlab.Props.C66_italy",
    "Qlab.Props.C66_romania",
    "Qlab.Props.C66_russia",
    "Qlab.Props.C66_ukraine",
    "Qlab.Props.C66_turkey",
    "Qlab.Props.C66_unitedStates",
    "Qlab.Props.C66_nyse",
    "Qlab.Props.C66_governmentBond",
    "Qlab.Props.C66_sofr"
   ],
   "note": ""
  },
  {
   "property": "C67",
   "status": "partial",
   "theorems": [
    "Qlab.Props.C67_refuted",
    "Qlab.Props.C67_ascension_partial",
    "Qlab.Props.C67_whit_monday_partial"
   ],
   "note": "violated (C67_refuted): coded as fixed 10 and 21 May; the exact days on which the feasts are closed are proved"
  },
  {
   "property": "C68",
   "status": "partial",
   "theorems": [
    "Qlab.Props.C68_refuted",
    "Qlab.Props.C68_election_partial"
   ],
   "note": "violated for elections on 8 November (C68_refuted); proved for all others"
  },
  {
   "property": "C69",
   "status": "proved",
   "theorems": [
    "Qlab.Props.C69_days",
    "Qlab.Props.C69_months",
    "Qlab.Props.C69_years"
   ],
   "note": ""
  },
  {
   "property": "C70",
   "status": "proved",
   "theorems": [
    "Qlab.Props.C70_business_day_in_every_half_month",
    "Qlab.Props.C70_following",
    "Qlab.Props.C70_preceding",
    "Qlab.Props.C70_roll_total",
    "Qlab.Props.C70_modified_conventions"
   ],
   "note": ""
  },
  {
   "property": "C71",
   "status": "proved",
   "theorems": [
    "Qlab.Props.C71_linear_error",
    "Qlab.Props.C71_flat",
    "Qlab.Props.C71_monotone"
   ],
   "note": "floating point is the standard rounding model of Model/Float (instances f32, f64 in Model/Binary); no overflow, underflow, NaN or infinity"
  },
  {
   "property": "C72",
   "status": "proved",
   "theorems": [
    "Qlab.Props.C72_error",
    "Qlab.Props.C72_order"
   ],
   "note": "as C71"
  },
  {
   "property": "C73",
   "status": "proved",
   "theorems": [
    "Qlab.Props.C73_unit",
    "Qlab.Props.C73_le_one",
    "Qlab.Props.C73_antitone",
    "Qlab.Props.C73_error"
   ],
   "note": "as C71; what is needed of exp is a hypothesis (ExpOrdered, ExpWithin), shown to hold for the correctly rounded exp"
  },
  {
   "property": "C74",
   "status": "proved",
   "theorems": [
    "Qlab.Props.C74_error",
    "Qlab.Props.C74_nonneg",
    "Qlab.Props.C74_monotone"
   ],
   "note": "as C73"
  },
  {
   "property": "C75",
   "status": "partial",
   "theorems": [
    "Qlab.Props.C75_first_node_partial",
    "Qlab.Props.C75_refuted_linear",
    "Qlab.Props.C75_catmull_rom_first_partial",
    "Qlab.Props.C75_refuted_catmull_rom",
    "Qlab.Props.C75_natural_cubic_ends_partial",
    "Qlab.Props.C75_refuted_natural_cubic",
    "Qlab.Props.C75_hermite_partial"
   ],
   "note": "violated in f64 by Linear, CatmullRom and NaturalCubic (C75_refuted_*); Hermite is exact at every node, Linear and CatmullRom at the first, NaturalCubic within 3u at the ends"
  },
  {
   "property": "C76",
   "status": "partial",
   "theorems": [
    "Qlab.Props.C76_strict_partial",
    "Qlab.Props.C76_strict_f64_partial",
    "Qlab.Props.C76_refuted_strict",
    "Qlab.Props.C76_additive_partial",
    "Qlab.Props.C76_refuted_additive"
   ],
   "note": "violated (C76_refuted_strict in f32, C76_refuted_additive in f64); strict from 29 bits on, additive up to 8u"
  },
  {
   "property": "C77",
   "status": "proved",
   "theorems": [
    "Qlab.Props.C77_same_outcome",
    "Qlab.Props.C77_flows"
   ],
   "note": "as C71"
  },
  {
   "property": "C78",
   "status": "proved",
   "theorems": [
    "Qlab.Props.C78_hermite",
    "Qlab.Props.C78_hermite_cubic",
    "Qlab.Props.C78_catmull_rom",
    "Qlab.Props.C78_catmull_rom_cubic"
   ],
   "note": "floating point is the standard rounding model of Model/Float (instances f32, f64 in Model/Binary); no overflow, underflow, NaN or infinity"
  },
  {
   "property": "C79",
   "status": "partial",
   "theorems": [
    "Qlab.Props.C79_catmull_rom_partial",
    "Qlab.Props.C79_natural_cubic_partial",
    "Qlab.Props.C79_linear_partial",
    "Qlab.Props.C79_refuted_catmull_rom",
    "Qlab.Props.C79_refuted_natural_cubic",
    "Qlab.Props.C79_refuted_linear_f64",
    "Qlab.Props.C79_catmull_rom_sharp_partial"
   ],
   "note": "violated by both splines (C79_refuted_*), and in f64 by linear interpolation where yields fall (C79_refuted_linear_f64); proved for linear interpolation in exact arithmetic, and for the splines when the yields lie close enough together; for Catmull-Rom up to a ratio of 1 + 3 sqrt(3) (C79_catmull_rom_sharp_partial)"
  },
  {
   "property": "C80",
   "status": "partial",
   "theorems": [
    "Qlab.Props.C80_flat_partial",
    "Qlab.Props.C80_refuted_catmull_rom",
    "Qlab.Props.C80_refuted_natural_cubic",
    "Qlab.Props.C80_catmull_rom_iff_partial",
    "Qlab.Props.C80_natural_cubic_iff_partial"
   ],
   "note": "violated (C80_refuted_*): last period of Catmull-Rom, natural cubic with three pillars; proved elsewhere, with the exact dates (C80_catmull_rom_iff_partial, C80_natural_cubic_iff_partial)"
  },
  {
   "property": "C81",
   "status": "partial",
   "theorems": [
    "Qlab.Props.C81_linear_partial",
    "Qlab.Props.C81_shift_partial",
    "Qlab.Props.C81_parallel_partial",
    "Qlab.Props.C81_refuted_catmull_rom",
    "Qlab.Props.C81_refuted_natural_cubic",
    "Qlab.Props.C81_parallel_catmull_rom_partial",
    "Qlab.Props.C81_parallel_three_partial",
    "Qlab.Props.C81_refuted_parallel",
    "Qlab.Props.C81_pillar_iff_partial",
    "Qlab.Props.C81_natural_pillar_iff_partial",
    "Qlab.Props.C81_natural_three_pillars_iff_partial",
    "Qlab.Props.C81_natural_sign_change"
   ],
   "note": "violated by both splines for single pillars (C81_refuted_*), exactly by the neighbouring pillars for Catmull-Rom (C81_pillar_iff_partial), by every second pillar for the natural cubic with four pillars or more outside the segment before the last but one (C81_natural_pillar_iff_partial), where the sign may change (C81_natural_sign_change), and with three pillars by the first alone, after the second (C81_natural_three_pillars_iff_partial); linear proved, parallel shifts also for Catmull-Rom and natural cubic, except three pillars and a later settlement date (C81_refuted_parallel)"
  },
  {
   "property": "C82",
   "status": "proved",
   "theorems": [
    "Qlab.Props.C82_carry",
    "Qlab.Props.C82_no_flow"
   ],
   "note": ""
  },
  {
   "property": "C83",
   "status": "proved",
   "theorems": [
    "Qlab.Props.C83_combination",
    "Qlab.Props.C83_hermite"
   ],
   "note": ""
  },
  {
   "property": "C84",
   "status": "proved",
   "theorems": [
    "Qlab.Props.C84_text_identifies",
    "Qlab.Props.C84_interpolation",
    "Qlab.Props.C84_order_dates",
    "Qlab.Props.C84_settlement_dates",
    "Qlab.Props.C84_thirty360_dates",
    "Qlab.Props.C84_date_order"
   ],
   "note": "errors a caller constructs with a message of their own can share a text; those returned by the library cannot"
  },
  {
   "property": "C85",
   "status": "proved",
   "theorems": [
    "Qlab.Props.C85_linear",
    "Qlab.Props.C85_catmull_rom",
    "Qlab.Props.C85_natural_cubic",
    "Qlab.Props.C85_hermite"
   ],
   "note": "over the full IEEE 754 model (Model/Ieee): infinities, NaN, both zeros, subnormal numbers"
  },
  {
   "property": "C86",
   "status": "partial",
   "theorems": [
    "Qlab.Props.C86_accepts_iff_partial",
    "Qlab.Props.C86_hermite_accepts_iff_partial",
    "Qlab.Props.C86_sorted_partial",
    "Qlab.Props.C86_hermite_partial",
    "Qlab.Props.C86_refuted"
   ],
   "note": "proved: accepted lists without NaN are in ascending order; refuted: all three constructors accept the abscissae 3, NaN, 1, in every format; C86_accepts_iff_partial and C86_hermite_accepts_iff_partial characterise the accepted lists"
  },
  {
   "property": "C87",
   "status": "partial",
   "theorems": [
    "Qlab.Props.C87_linear_partial",
    "Qlab.Props.C87_linear_first_partial",
    "Qlab.Props.C87_refuted_overflow",
    "Qlab.Props.C87_refuted_repeated"
   ],
   "note": "proved for ordinates and abscissae that are zero or of moderate magnitude, everywhere but at the first node, and at the first node; refuted by overflow of a difference (NaN at a node) and by repeated abscissae"
  },
  {
   "property": "C88",
   "status": "proved",
   "theorems": [
    "Qlab.Props.C88_error",
    "Qlab.Props.C88_order"
   ],
   "note": "the formats need exponents up to 40 only; f32 and f64 have 127 and 1023"
  },
  {
   "property": "C89",
   "status": "partial",
   "theorems": [
    "Qlab.Props.C89_unit_partial",
    "Qlab.Props.C89_le_one_partial",
    "Qlab.Props.C89_antitone_partial",
    "Qlab.Props.C89_error_partial",
    "Qlab.Props.C89_refuted"
   ],
   "note": "proved when time times yield stays below half the largest number; refuted: with the largest finite yield at all pillars the discount factor from a day to itself is NaN; what is needed of exp is a hypothesis, shown to hold for the correctly rounded exp"
  },
  {
   "property": "C90",
   "status": "partial",
   "theorems": [
    "Qlab.Props.C90_error_partial",
    "Qlab.Props.C90_nonneg_partial",
    "Qlab.Props.C90_refuted"
   ],
   "note": "proved when the terms stay below the largest number (accuracy) and when no infinite discount factor meets an amount of zero (sign); refuted on the curve of C89, where every price is NaN"
  },
  {
   "property": "C91",
   "status": "partial",
   "theorems": [
    "Qlab.Props.C91_same_outcome",
    "Qlab.Props.C91_flows_partial",
    "Qlab.Props.C91_refuted"
   ],
   "note": "outcome proved for all data; amounts proved finite and accurate for rates and face values of moderate magnitude; refuted: rate 2 on the largest face value pays infinity"
  },
  {
   "property": "C92",
   "status": "proved",
   "theorems": [
    "Qlab.Props.C92_discount_outcome",
    "Qlab.Props.C92_discount",
    "Qlab.Props.C92_price",
    "Qlab.Props.C92_price_outcome",
    "Qlab.Props.C92_price_relative"
   ],
   "note": "over Model/Float (unbounded exponents), with the gap ratio of the maturities in the bound; dates less than 2^(p-1) days from settlement, which f64 always meets"
  },
  {
   "property": "C93",
   "status": "proved",
   "theorems": [
    "Qlab.Props.C93_discount_outcome",
    "Qlab.Props.C93_price_outcome",
    "Qlab.Props.C93_discount",
    "Qlab.Props.C93_price"
   ],
   "note": "over Model/Ieee; k up to 48 (f32) and 886 (f64) for discount factors, for prices as large as the range of exp leaves room for (31 in f32 with arguments up to 6)"
  },
  {
   "property": "C94",
   "status": "proved",
   "theorems": [
    "Qlab.Props.C94_natural_cubic",
    "Qlab.Props.C94_equidistant"
   ],
   "note": "over Model/Float (unbounded exponent); the constant is 2410 and does not depend on the number of points"
  },
  {
   "property": "C95",
   "status": "partial",
   "theorems": [
    "Qlab.Props.C95_discount_linear",
    "Qlab.Props.C95_discount_catmull_rom_partial",
    "Qlab.Props.C95_discount_natural_cubic_partial",
    "Qlab.Props.C95_linear",
    "Qlab.Props.C95_hermite",
    "Qlab.Props.C95_catmull_rom_partial",
    "Qlab.Props.C95_refuted_catmull_rom",
    "Qlab.Props.C95_catmull_rom_magnitude",
    "Qlab.Props.C95_natural_cubic_partial",
    "Qlab.Props.C95_refuted_natural_cubic",
    "Qlab.Props.C95_natural_cubic_magnitude",
    "Qlab.Props.C95_catmull_rom_sharp_partial",
    "Qlab.Props.C95_catmull_rom_best",
    "Qlab.Props.C95_catmull_rom_magnitude_best"
   ],
   "note": "violated in the last segment of a Catmull-Rom spline and by natural cubic splines through three points; proved elsewhere, and with bounds in terms of the largest ordinate everywhere; the constant of Catmull-Rom is sqrt(3)/9 of the range and no smaller one will do (C95_catmull_rom_sharp_partial, C95_catmull_rom_best, likewise C95_catmull_rom_magnitude_best)"
  },
  {
   "property": "C96",
   "status": "proved",
   "theorems": [
    "Qlab.Props.C96_natural_cubic",
    "Qlab.Props.C96_hermite",
    "Qlab.Props.C96_catmull_rom",
    "Qlab.Props.C96_hermite_nodes",
    "Qlab.Props.C96_linear"
   ],
   "note": "over Model/Ieee; the constants are 6 (linear), 280 (Hermite), 430 (Catmull-Rom) and 2420 (natural cubic)"
  },
  {
   "property": "C97",
   "status": "proved",
   "theorems": [
    "Qlab.Props.C97_discount_outcome",
    "Qlab.Props.C97_price_outcome",
    "Qlab.Props.C97_catmull_rom_discount",
    "Qlab.Props.C97_catmull_rom_price",
    "Qlab.Props.C97_natural_cubic_discount",
    "Qlab.Props.C97_natural_cubic_price"
   ],
   "note": "over Model/Float; the constants are 725 and 1450 (Catmull-Rom) and 2800 and 5600 (natural cubic); the linear curve has its constants in C92"
  },
  {
   "property": "C98",
   "status": "proved",
   "theorems": [
    "Qlab.Props.C98_discount",
    "Qlab.Props.C98_line",
    "Qlab.Props.C98_derivatives",
    "Qlab.Props.C98_convex",
    "Qlab.Props.C98_tangent",
    "Qlab.Props.C98_duration",
    "Qlab.Props.C98_discount_change",
    "Qlab.Props.C98_price_change"
   ],
   "note": "all three interpolators; the duration formula needs an interpolator that reproduces constants"
  },
  {
   "property": "C99",
   "status": "proved",
   "theorems": [
    "Qlab.Props.C99_discount_outcome",
    "Qlab.Props.C99_price_outcome",
    "Qlab.Props.C99_linear_discount",
    "Qlab.Props.C99_linear_price",
    "Qlab.Props.C99_catmull_rom_discount",
    "Qlab.Props.C99_catmull_rom_price",
    "Qlab.Props.C99_natural_cubic_discount",
    "Qlab.Props.C99_natural_cubic_price"
   ],
   "note": "all three interpolators; the outcome without any condition on the values, the accuracy for finite yields, maturities within 2^20 days of settlement and exp accurate on the arguments that occur"
  },
  {
   "property": "C100",
   "status": "proved",
   "theorems": [
    "Qlab.Props.C100_steps",
    "Qlab.Props.C100_none",
    "Qlab.Props.C100_panic",
    "Qlab.Props.C100_count",
    "Qlab.Props.C100_add",
    "Qlab.Props.C100_mono",
    "Qlab.Props.C100_shipped"
   ],
   "note": "the n-step operation is a caller's loop, defined at the top of the file from checked_roll alone"
  },
  {
   "property": "C101",
   "status": "proved",
   "theorems": [
    "Qlab.Props.C101_months_days",
    "Qlab.Props.C101_months_thirty360",
    "Qlab.Props.C101_coupon_periods"
   ],
   "note": "ranges from a table of all month lengths"
  },
  {
   "property": "C102",
   "status": "proved",
   "theorems": [
    "Qlab.Props.C102_thirty360_actual",
    "Qlab.Props.C102_attained",
    "Qlab.Props.C102_fractions"
   ],
   "note": "wrapping build for the fractions"
  },
  {
   "property": "C103",
   "status": "proved",
   "theorems": [
    "Qlab.Props.C103_gregorian_cycle",
    "Qlab.Props.C103_solar_cycle",
    "Qlab.Props.C103_thirty360_shift"
   ],
   "note": "no bound on the dates"
  },
  {
   "property": "C104",
   "status": "proved",
   "theorems": [
    "Qlab.Props.C104_rising",
    "Qlab.Props.C104_falling",
    "Qlab.Props.C104_flat",
    "Qlab.Props.C104_discount"
   ],
   "note": "over Model/Ieee; asks of exp only that it is ordered, 1 at zero and never negative"
  },
  {
   "property": "C105",
   "status": "proved",
   "theorems": [
    "Qlab.Props.C105_flows",
    "Qlab.Props.C105_price",
    "Qlab.Props.C105_rate",
    "Qlab.Props.C105_nonneg"
   ],
   "note": "over Model/Ieee; comparison of results that are not NaN"
  },
  {
   "property": "C106",
   "status": "proved",
   "theorems": [
    "Qlab.Props.C106_curve",
    "Qlab.Props.C106_bond",
    "Qlab.Props.C106_price"
   ],
   "note": "any value type; the bond moved by 400 years must exist"
  },
  {
   "property": "C107",
   "status": "proved",
   "theorems": [
    "Qlab.Props.C107_rescale",
    "Qlab.Props.C107_hermite",
    "Qlab.Props.C107_day_counts"
   ],
   "note": "exact arithmetic"
  },
  {
   "property": "C108",
   "status": "proved",
   "theorems": [
    "Qlab.Props.C108_linear_any",
    "Qlab.Props.C108_catmull_rom_any",
    "Qlab.Props.C108_linear",
    "Qlab.Props.C108_catmull_rom",
    "Qlab.Props.C108_hermite",
    "Qlab.Props.C108_natural_cubic",
    "Qlab.Props.C108_natural_cubic_last"
   ],
   "note": "exact arithmetic, and any value type for linear and Catmull-Rom interpolation"
  },
  {
   "property": "C109",
   "status": "proved",
   "theorems": [
    "Qlab.Props.C109_minus",
    "Qlab.Props.C109_minus_hermite",
    "Qlab.Props.C109_minus_price",
    "Qlab.Props.C109_minus_face",
    "Qlab.Props.C109_formats",
    "Qlab.Props.C109_power",
    "Qlab.Props.C109_power_hermite",
    "Qlab.Props.C109_power_price",
    "Qlab.Props.C109_power_face"
   ],
   "note": "signs in the full IEEE 754 formats; powers of two with an unbounded exponent range"
  },
  {
   "property": "C110",
   "status": "partial",
   "theorems": [
    "Qlab.Props.C110_linear_rate",
    "Qlab.Props.C110_catmull_rom_rate_partial",
    "Qlab.Props.C110_natural_cubic_rate_partial",
    "Qlab.Props.C110_linear",
    "Qlab.Props.C110_natural_cubic_partial",
    "Qlab.Props.C110_hermite",
    "Qlab.Props.C110_refuted_catmull_rom",
    "Qlab.Props.C110_refuted_natural_cubic",
    "Qlab.Props.C110_catmull_rom_rate_sharp"
   ],
   "note": "violated by Catmull-Rom in the last segment and by the natural cubic spline through three points; proved everywhere else, the bounds for linear and Hermite interpolation being attained"
  },
  {
   "property": "C111",
   "status": "proved",
   "theorems": [
    "Qlab.Props.C111_discount",
    "Qlab.Props.C111_price"
   ],
   "note": "for linear interpolation, natural cubic splines with four pillars or more, and Catmull-Rom up to the last pillar but one"
  },
  {
   "property": "C112",
   "status": "partial",
   "theorems": [
    "Qlab.Props.C112_linear_partial",
    "Qlab.Props.C112_rising_partial",
    "Qlab.Props.C112_refuted_linear",
    "Qlab.Props.C112_refuted_catmull_rom",
    "Qlab.Props.C112_refuted_natural_cubic",
    "Qlab.Props.C112_linear_exactly_partial"
   ],
   "note": "violated by falling yields with linear interpolation and by both splines; proved for linear interpolation when forward rates are not negative, in particular for positive yields that do not fall; for linear interpolation exactly characterised by the factors over the first and last day of each period between maturities"
  },
  {
   "property": "C113",
   "status": "proved",
   "theorems": [
    "Qlab.Props.C113_zero_or_nan",
    "Qlab.Props.C113_flat",
    "Qlab.Props.C113_flat_negative",
    "Qlab.Props.C113_flat_accuracy",
    "Qlab.Props.C113_zero",
    "Qlab.Props.C113_zero_price"
   ],
   "note": "zero yields: exact with all interpolators; flat yields: linear interpolation"
  },
  {
   "property": "C114",
   "status": "proved",
   "theorems": [
    "Qlab.Props.C114_chain"
   ],
   "note": "error bound 2 (n + 1) (L + 1) u besides n + 1 errors of exp, n the number of periods"
  },
  {
   "property": "C115",
   "status": "partial",
   "theorems": [
    "Qlab.Props.C115_total_partial",
    "Qlab.Props.C115_on_schedule_partial",
    "Qlab.Props.C115_gap_partial",
    "Qlab.Props.C115_no_gap_iff_partial",
    "Qlab.Props.C115_refuted"
   ],
   "note": "violated when the penultimate coupon date is not itself a coupon date; exact condition and size of the gap proved"
  },
  {
   "property": "C116",
   "status": "proved",
   "theorems": [
    "Qlab.Props.C116_two_closed_weekdays",
    "Qlab.Props.C116_shipped",
    "Qlab.Props.C116_russian_exchange",
    "Qlab.Props.C116_weekends_only",
    "Qlab.Props.C116_mono",
    "Qlab.Props.C116_joint",
    "Qlab.Props.C116_ahead",
    "Qlab.Props.C116_weeks_ahead"
   ],
   "note": ""
  },
  {
   "property": "C117",
   "status": "partial",
   "theorems": [
    "Qlab.Props.C117_following_iff_partial",
    "Qlab.Props.C117_preceding_iff_partial",
    "Qlab.Props.C117_same_month_partial",
    "Qlab.Props.C117_following_short_partial",
    "Qlab.Props.C117_refuted_preceding",
    "Qlab.Props.C117_refuted_following"
   ],
   "note": "Violated: the modified conventions compare with the month of the starting date, so two dates that move into the same weekend can be adjusted in opposite directions (C117_refuted_preceding, C117_refuted_following). Proved: exactly when the order is reversed, and that it is kept for starting dates in the same month and, for ModifiedFollowing, for periods up to about ten months."
  },
  {
   "property": "C118",
   "status": "proved",
   "theorems": [
    "Qlab.Props.C118_price",
    "Qlab.Props.C118_rate_of_price",
    "Qlab.Props.C118_par",
    "Qlab.Props.C118_regular"
   ],
   "note": ""
  },
  {
   "property": "C119",
   "status": "proved",
   "theorems": [
    "Qlab.Props.C119_flat_price",
    "Qlab.Props.C119_yield",
    "Qlab.Props.C119_bond"
   ],
   "note": ""
  },
  {
   "property": "C120",
   "status": "proved",
   "theorems": [
    "Qlab.Props.C120_discounts",
    "Qlab.Props.C120_determined",
    "Qlab.Props.C120_bootstrap"
   ],
   "note": ""
  },
  {
   "property": "C121",
   "status": "proved",
   "theorems": [
    "Qlab.Props.C121_shared_day",
    "Qlab.Props.C121_next_shared_day",
    "Qlab.Props.C121_previous_shared_day",
    "Qlab.Props.C121_following",
    "Qlab.Props.C121_preceding",
    "Qlab.Props.C121_roll_total",
    "Qlab.Props.C121_modified_conventions"
   ],
   "note": ""
  },
  {
   "property": "C122",
   "status": "proved",
   "theorems": [
    "Qlab.Props.C122_period",
    "Qlab.Props.C122_adjusted",
    "Qlab.Props.C122_past_end"
   ],
   "note": ""
  },
  {
   "property": "C123",
   "status": "partial",
   "theorems": [
    "Qlab.Props.C123_months",
    "Qlab.Props.C123_new_year_weekday",
    "Qlab.Props.C123_refuted",
    "Qlab.Props.C123_israel_partial",
    "Qlab.Props.C123_outside_partial",
    "Qlab.Props.C123_yom_kippur"
   ],
   "note": "Violated on 9 and 11 May 2038; every other date from 2013 to 2044 is proved, and all dates outside."
  },
  {
   "property": "C124",
   "status": "partial",
   "theorems": [
    "Qlab.Props.C124_refuted",
    "Qlab.Props.C124_march_partial",
    "Qlab.Props.C124_september_partial",
    "Qlab.Props.C124_wrong_years"
   ],
   "note": "Violated; C124_wrong_years lists the wrong years exactly, all other years from 1980 to 2099 are proved."
  },
  {
   "property": "C125",
   "status": "partial",
   "theorems": [
    "Qlab.Props.C125_tables",
    "Qlab.Props.C125_china",
    "Qlab.Props.C125_hongkong",
    "Qlab.Props.C125_southkorea",
    "Qlab.Props.C125_taiwan_partial",
    "Qlab.Props.C125_singapore_partial",
    "Qlab.Props.C125_refuted",
    "Qlab.Props.C125_mid_autumn",
    "Qlab.Props.C125_dragon_boat_partial",
    "Qlab.Props.C125_refuted_dragon_boat"
   ],
   "note": "Violated by Singapore and Taiwan in the years listed by C125_refuted; China, Hong Kong and South Korea are proved."
  },
  {
   "property": "C126",
   "status": "partial",
   "theorems": [
    "Qlab.Props.C126_year",
    "Qlab.Props.C126_refuted",
    "Qlab.Props.C126_feasts_partial",
    "Qlab.Props.C126_closings_partial"
   ],
   "note": "Violated on the days listed by C126_refuted and 28 October 2013; every other date from 2004 to 2034 is proved."
  },
  {
   "property": "C127",
   "status": "proved",
   "theorems": [
    "Qlab.Props.C127_last_fit_counts",
    "Qlab.Props.C127_unfitted",
    "Qlab.Props.C127_first_error"
   ],
   "note": ""
  },
  {
   "property": "C128",
   "status": "partial",
   "theorems": [
    "Qlab.Props.C128_least_partial",
    "Qlab.Props.C128_refuted"
   ],
   "note": "Violated: three points on a straight line give a curve that bends (C128_refuted). Proved for all data for which the curve has no kink; C41 says which data these are."
  },
  {
   "property": "C129",
   "status": "partial",
   "theorems": [
    "Qlab.Props.C129_linear",
    "Qlab.Props.C129_hermite",
    "Qlab.Props.C129_catmull_rom_partial",
    "Qlab.Props.C129_natural_cubic_partial",
    "Qlab.Props.C129_refuted_catmull_rom",
    "Qlab.Props.C129_refuted_natural_cubic"
   ],
   "note": "Linear interpolation and Hermite splines: proved. Violated by Catmull-Rom (different slopes from the two sides of a point) and natural cubic splines (last equation dropped). Proved for Catmull-Rom on inner segments whose ends have neighbours of equal ordinates, and for natural cubic splines without kinks."
  },
  {
   "property": "C130",
   "status": "partial",
   "theorems": [
    "Qlab.Props.C130_linear",
    "Qlab.Props.C130_hermite",
    "Qlab.Props.C130_catmull_rom_partial",
    "Qlab.Props.C130_natural_cubic_partial",
    "Qlab.Props.C130_refuted_catmull_rom",
    "Qlab.Props.C130_refuted_natural_cubic",
    "Qlab.Props.C130_hermite_exactly",
    "Qlab.Props.C130_catmull_rom_exactly_partial"
   ],
   "note": "Linear interpolation and Hermite splines: proved, each with an exact condition. Violated by Catmull-Rom and natural cubic splines (rising points with a falling curve are given). Proved for Catmull-Rom up to the last but one point, with an exact condition on the points that holds if neighbouring slopes differ by a factor of at most three, and for natural cubic splines through four or more points if the slopes are nearly equal."
  },
  {
   "property": "C131",
   "status": "partial",
   "theorems": [
    "Qlab.Props.C131_linear",
    "Qlab.Props.C131_hermite",
    "Qlab.Props.C131_curve",
    "Qlab.Props.C131_natural_cubic_partial",
    "Qlab.Props.C131_refuted_natural_cubic",
    "Qlab.Props.C131_refuted_catmull_rom"
   ],
   "note": "Linear interpolation, Hermite splines and yield curves with linear interpolation: proved, and only points on the curve have this effect. Violated by Catmull-Rom (slopes depend on the neighbours) and natural cubic splines (last equation dropped). Proved for natural cubic splines if neither curve has a kink (C41)."
  },
  {
   "property": "C132",
   "status": "partial",
   "theorems": [
    "Qlab.Props.C132_linear",
    "Qlab.Props.C132_hermite",
    "Qlab.Props.C132_refuted_natural_cubic",
    "Qlab.Props.C132_refuted_catmull_rom",
    "Qlab.Props.C132_hermite_exactly",
    "Qlab.Props.C132_refuted_catmull_rom_bent",
    "Qlab.Props.C132_catmull_rom_three_partial",
    "Qlab.Props.C132_natural_cubic_partial",
    "Qlab.Props.C132_refuted_natural_cubic_bent"
   ],
   "note": "Linear interpolation and Hermite splines: proved, each with an exact condition. Natural cubic splines: proved convex up to the last point but two for data that bend evenly (second divided differences within a factor of two), and proved never convex on the whole range for such data. Violated by Catmull-Rom, which is convex up to the last but one of four or more points only if all ordinates are equal (three points: exactly on a straight line), and by natural cubic splines."
  },
  {
   "property": "C133",
   "status": "partial",
   "theorems": [
    "Qlab.Props.C133_refuted",
    "Qlab.Props.C133_singapore_partial",
    "Qlab.Props.C133_indonesia",
    "Qlab.Props.C133_india_partial"
   ],
   "note": "Indonesia: proved. Violated by Singapore in 2011 and 2015 to 2018, for which nothing is listed, and by India in 2015 to 2018 and on 13 May 2021. All other feasts: proved."
  },
  {
   "property": "C134",
   "status": "proved",
   "theorems": [
    "Qlab.Props.C134_months_forth_back",
    "Qlab.Props.C134_months_back_forth",
    "Qlab.Props.C134_years",
    "Qlab.Props.C134_adjustments"
   ],
   "note": "Proved for all dates, distances and calendars."
  },
  {
   "property": "C135",
   "status": "proved",
   "theorems": [
    "Qlab.Props.C135_variation",
    "Qlab.Props.C135_stretch",
    "Qlab.Props.C135_steepness"
   ],
   "note": "Proved over the reals for every function through the points."
  },
  {
   "property": "C136",
   "status": "partial",
   "theorems": [
    "Qlab.Props.C136_tables",
    "Qlab.Props.C136_hongkong",
    "Qlab.Props.C136_hongkong_monday_partial",
    "Qlab.Props.C136_refuted_buddha",
    "Qlab.Props.C136_refuted_ching_ming",
    "Qlab.Props.C136_southkorea",
    "Qlab.Props.C136_ching_ming"
   ],
   "note": "The festivals themselves: proved for all calendars. Violated for the days that stand in for a Sunday in Hong Kong: 13 May 2019 and 6 April 2021 are business days. All other such Mondays are proved closed."
  },
  {
   "property": "C137",
   "status": "proved",
   "theorems": [
    "Qlab.Props.C137_unitedKingdom",
    "Qlab.Props.C137_canada",
    "Qlab.Props.C137_newZealand",
    "Qlab.Props.C137_business_days"
   ],
   "note": "The kernel counts every day of every year with the holiday lists that C66 proves exact."
  },
  {
   "property": "C138",
   "status": "proved",
   "theorems": [
    "Qlab.Props.C138_alike",
    "Qlab.Props.C138_issue"
   ],
   "note": "Every number type, floats included."
  },
  {
   "property": "C139",
   "status": "partial",
   "theorems": [
    "Qlab.Props.C139_seasoned_partial",
    "Qlab.Props.C139_seasoned_28",
    "Qlab.Props.C139_price_partial",
    "Qlab.Props.C139_condition",
    "Qlab.Props.C139_refuted"
   ],
   "note": "Holds exactly when the coupon and the next one are due on the same day of the month, so for all bonds whose first coupon is due by the 28th. Violated otherwise: a coupon of 31 August followed by one of 29 February makes the remaining first period look short."
  },
  {
   "property": "C140",
   "status": "partial",
   "theorems": [
    "Qlab.Props.C140_thailand_partial",
    "Qlab.Props.C140_refuted",
    "Qlab.Props.C140_every_year",
    "Qlab.Props.C140_singapore_partial",
    "Qlab.Props.C140_singapore_monday_partial",
    "Qlab.Props.C140_refuted_singapore"
   ],
   "note": "Proved for every year that the calendars list, 2008 and 2005 (Monday) excepted for Singapore; these exceptions and the missing years are refuted."
  },
  {
   "property": "C141",
   "status": "proved",
   "theorems": [
    "Qlab.Props.C141_count",
    "Qlab.Props.C141_none",
    "Qlab.Props.C141_one_less_iff",
    "Qlab.Props.C141_half_years",
    "Qlab.Props.C141_years"
   ],
   "note": "proved for all constructed bonds; the count without the last coupon is an equivalence for first coupons due by the 28th"
  },
  {
   "property": "C142",
   "status": "proved",
   "theorems": [
    "Qlab.Props.C142_product",
    "Qlab.Props.C142_sensitivities"
   ],
   "note": "proved over the reals for all three interpolators"
  }
 ]
}
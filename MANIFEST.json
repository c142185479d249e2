{
 "claims": [
  {
   "property": "C01",
   "status": "proved",
   "theorems": [
    "GosuPP.Props.C01_round_trip",
    "GosuPP.Props.C01_round_trip_closed"
   ],
   "note": ""
  },
  {
   "property": "C02",
   "status": "proved",
   "theorems": [
    "GosuPP.Props.C02_order_irrelevant",
    "GosuPP.Props.C02_parse_chunks"
   ],
   "note": ""
  },
  {
   "property": "C03",
   "status": "proved",
   "theorems": [
    "GosuPP.Props.C03_parse_panics",
    "GosuPP.Props.C03_parse_panics_ascii"
   ],
   "note": ""
  },
  {
   "property": "C04",
   "status": "proved",
   "theorems": [
    "GosuPP.Props.C04_compatible_iff",
    "GosuPP.Props.C04_downward_closed"
   ],
   "note": ""
  },
  {
   "property": "C05",
   "status": "proved",
   "theorems": [
    "GosuPP.Props.C05_score_multiplier_depends",
    "GosuPP.Props.C05_score_multiplier_sign",
    "GosuPP.Props.C05_score_multiplier_value"
   ],
   "note": ""
  },
  {
   "property": "C06",
   "status": "proved",
   "theorems": [
    "GosuPP.Props.C06_getters",
    "GosuPP.Props.C06_history_independent"
   ],
   "note": ""
  },
  {
   "property": "C07",
   "status": "proved",
   "theorems": [
    "GosuPP.Props.C07_ranges"
   ],
   "note": ""
  },
  {
   "property": "C08",
   "status": "proved",
   "theorems": [
    "GosuPP.Props.C08_monotone"
   ],
   "note": ""
  },
  {
   "property": "C09",
   "status": "proved",
   "theorems": [
    "GosuPP.Props.C09_windows_ordered"
   ],
   "note": ""
  },
  {
   "property": "C10",
   "status": "proved",
   "theorems": [
    "GosuPP.Props.C10_inverse",
    "GosuPP.Props.C10_real_eq_base"
   ],
   "note": ""
  },
  {
   "property": "C11",
   "status": "proved",
   "theorems": [
    "GosuPP.Props.C11_bounded",
    "GosuPP.Props.C11_bounded_ieee",
    "GosuPP.Props.C11_exponent_positive"
   ],
   "note": ""
  },
  {
   "property": "C12",
   "status": "proved",
   "theorems": [
    "GosuPP.Props.C12_double_time_first",
    "GosuPP.Props.C12_rate_mods_inert",
    "GosuPP.Props.C12_speed"
   ],
   "note": ""
  },
  {
   "property": "C13",
   "status": "proved",
   "theorems": [
    "GosuPP.Props.C13_range",
    "GosuPP.Props.C13_stats"
   ],
   "note": ""
  },
  {
   "property": "C14",
   "status": "proved",
   "theorems": [
    "GosuPP.Props.C14_approach_rate"
   ],
   "note": ""
  },
  {
   "property": "C15",
   "status": "proved",
   "theorems": [
    "GosuPP.Props.C15_get_original_point_at",
    "GosuPP.Props.C15_get_point_at"
   ],
   "note": ""
  },
  {
   "property": "C16",
   "status": "proved",
   "theorems": [
    "GosuPP.Props.C16_base_beat_length",
    "GosuPP.Props.C16_base_beat_length_ieee"
   ],
   "note": ""
  },
  {
   "property": "C17",
   "status": "proved",
   "theorems": [
    "GosuPP.Props.C17_ratio_bounds",
    "GosuPP.Props.C17_ratio_value"
   ],
   "note": ""
  },
  {
   "property": "C18",
   "status": "proved",
   "theorems": [
    "GosuPP.Props.C18_finalize_again"
   ],
   "note": ""
  },
  {
   "property": "C19",
   "status": "proved",
   "theorems": [
    "GosuPP.Props.C19_bpm"
   ],
   "note": ""
  },
  {
   "property": "C20",
   "status": "proved",
   "theorems": [
    "GosuPP.Props.C20_none_lost",
    "GosuPP.Props.C20_object_of_line",
    "GosuPP.Props.C20_sorted",
    "GosuPP.Props.C20_sorted_of"
   ],
   "note": ""
  },
  {
   "property": "C21",
   "status": "proved",
   "theorems": [
    "GosuPP.Props.C21_combos"
   ],
   "note": ""
  },
  {
   "property": "C22",
   "status": "proved",
   "theorems": [
    "GosuPP.Props.C22_counters"
   ],
   "note": ""
  },
  {
   "property": "C23",
   "status": "proved",
   "theorems": [
    "GosuPP.Props.C23_error_iff"
   ],
   "note": ""
  },
  {
   "property": "C24",
   "status": "proved",
   "theorems": [
    "GosuPP.C24_iff",
    "GosuPP.C24_malformed",
    "GosuPP.C24_only"
   ],
   "note": ""
  },
  {
   "property": "C25",
   "status": "proved",
   "theorems": [
    "GosuPP.Props.C25_comment",
    "GosuPP.Props.C25_unknown_section"
   ],
   "note": ""
  },
  {
   "property": "C26",
   "status": "proved",
   "theorems": [
    "GosuPP.Props.C26_version"
   ],
   "note": ""
  },
  {
   "property": "C27",
   "status": "proved",
   "theorems": [
    "GosuPP.C27_reader",
    "GosuPP.C27_same",
    "GosuPP.C27_too_long"
   ],
   "note": ""
  },
  {
   "property": "C28",
   "status": "proved",
   "theorems": [
    "GosuPP.Props.C28_each_alone",
    "GosuPP.Props.C28_order",
    "GosuPP.Props.C28_parsed"
   ],
   "note": ""
  },
  {
   "property": "C29",
   "status": "proved",
   "theorems": [
    "GosuPP.Props.C29_frame",
    "GosuPP.Props.C29_spinners"
   ],
   "note": ""
  },
  {
   "property": "C30",
   "status": "proved",
   "theorems": [
    "GosuPP.Props.C30_parsed",
    "GosuPP.Props.C30_same_place",
    "GosuPP.Props.C30_stack"
   ],
   "note": ""
  },
  {
   "property": "C31",
   "status": "proved",
   "theorems": [
    "GosuPP.Props.C31_isolated",
    "GosuPP.Props.C31_positions"
   ],
   "note": ""
  },
  {
   "property": "C32",
   "status": "proved",
   "theorems": [
    "GosuPP.C32_clamp",
    "GosuPP.C32_objects",
    "GosuPP.C32_start",
    "GosuPP.C32_total"
   ],
   "note": ""
  },
  {
   "property": "C33",
   "status": "proved",
   "theorems": [
    "GosuPP.C33_empty",
    "GosuPP.C33_length",
    "GosuPP.C33_not_extended",
    "GosuPP.C33_same",
    "GosuPP.C33_zero"
   ],
   "note": ""
  },
  {
   "property": "C34",
   "status": "proved",
   "theorems": [
    "GosuPP.C34_collapse",
    "GosuPP.C34_duration",
    "GosuPP.C34_short_arc"
   ],
   "note": ""
  },
  {
   "property": "C35",
   "status": "proved",
   "theorems": [
    "GosuPP.C35_complete",
    "GosuPP.C35_panic",
    "GosuPP.C35_result",
    "GosuPP.C35_unique"
   ],
   "note": ""
  },
  {
   "property": "C36",
   "status": "proved",
   "theorems": [
    "GosuPP.C36_float32",
    "GosuPP.C36_hangs",
    "GosuPP.C36_parse",
    "GosuPP.C36_terminates"
   ],
   "note": ""
  },
  {
   "property": "C37",
   "status": "proved",
   "theorems": [
    "GosuPP.C37_halves",
    "GosuPP.C37_pieces",
    "GosuPP.C37_subdivide"
   ],
   "note": ""
  },
  {
   "property": "C38",
   "status": "proved",
   "theorems": [
    "GosuPP.C38_bound",
    "GosuPP.C38_edge",
    "GosuPP.C38_outside",
    "GosuPP.C38_rows",
    "GosuPP.C38_second"
   ],
   "note": ""
  },
  {
   "property": "C39",
   "status": "proved",
   "theorems": [
    "GosuPP.C39_count",
    "GosuPP.C39_exact",
    "GosuPP.C39_ticks"
   ],
   "note": ""
  },
  {
   "property": "C40",
   "status": "proved",
   "theorems": [
    "GosuPP.C40_hangs",
    "GosuPP.C40_parsed"
   ],
   "note": ""
  },
  {
   "property": "C41",
   "status": "proved",
   "theorems": [
    "GosuPP.C41_outside",
    "GosuPP.C41_position",
    "GosuPP.C41_start"
   ],
   "note": ""
  },
  {
   "property": "C42",
   "status": "proved",
   "theorems": [
    "GosuPP.C42_repeated"
   ],
   "note": ""
  },
  {
   "property": "C43",
   "status": "proved",
   "theorems": [
    "GosuPP.Props.C43_faults",
    "GosuPP.Props.C43_steps"
   ],
   "note": ""
  },
  {
   "property": "C44",
   "status": "proved",
   "theorems": [
    "GosuPP.Props.C44_first",
    "GosuPP.Props.C44_single"
   ],
   "note": ""
  },
  {
   "property": "C45",
   "status": "proved",
   "theorems": [
    "GosuPP.Props.C45_empty",
    "GosuPP.Props.C45_same"
   ],
   "note": ""
  },
  {
   "property": "C46",
   "status": "proved",
   "theorems": [
    "GosuPP.Props.C46_counts"
   ],
   "note": ""
  },
  {
   "property": "C47",
   "status": "proved",
   "theorems": [
    "GosuPP.Props.C47_empty",
    "GosuPP.Props.C47_hollow"
   ],
   "note": ""
  },
  {
   "property": "C48",
   "status": "proved",
   "theorems": [
    "GosuPP.Props.C48_count",
    "GosuPP.Props.C48_describes",
    "GosuPP.Props.C48_prefix",
    "GosuPP.Props.C48_strain_time"
   ],
   "note": ""
  },
  {
   "property": "C49",
   "status": "proved",
   "theorems": [
    "GosuPP.Props.C49_exact",
    "GosuPP.Props.C49_ieee"
   ],
   "note": ""
  },
  {
   "property": "C50",
   "status": "proved",
   "theorems": [
    "GosuPP.Props.C50_monotone",
    "GosuPP.Props.C50_order"
   ],
   "note": ""
  },
  {
   "property": "C51",
   "status": "proved",
   "theorems": [
    "GosuPP.Props.C51_finite",
    "GosuPP.Props.C51_nondecreasing"
   ],
   "note": ""
  },
  {
   "property": "C52",
   "status": "proved",
   "theorems": [
    "GosuPP.Props.C52_reuse"
   ],
   "note": ""
  },
  {
   "property": "C53",
   "status": "proved",
   "theorems": [
    "GosuPP.Props.C53_combo",
    "GosuPP.Props.C53_n300",
    "GosuPP.Props.C53_total"
   ],
   "note": ""
  },
  {
   "property": "C54",
   "status": "proved",
   "theorems": [
    "GosuPP.Props.C54_accuracy",
    "GosuPP.Props.C54_misses"
   ],
   "note": ""
  },
  {
   "property": "C55",
   "status": "proved",
   "theorems": [
    "GosuPP.Props.C55_flashlight",
    "GosuPP.Props.C55_relax"
   ],
   "note": ""
  },
  {
   "property": "C56",
   "status": "proved",
   "theorems": [
    "GosuPP.Props.C56_negative_total",
    "GosuPP.Props.C56_nonneg",
    "GosuPP.Props.C56_spunout_negative"
   ],
   "note": ""
  },
  {
   "property": "C57",
   "status": "proved",
   "theorems": [
    "GosuPP.Props.C57_fifty_to_miss",
    "GosuPP.Props.C57_lost_hits",
    "GosuPP.Props.C57_worse_play",
    "GosuPP.Props.C57_worse_play_components"
   ],
   "note": ""
  },
  {
   "property": "C58",
   "status": "proved",
   "theorems": [
    "GosuPP.Props.C58_minimum",
    "GosuPP.Props.C58_monotone",
    "GosuPP.Props.C58_no_flashlight",
    "GosuPP.Props.C58_relax"
   ],
   "note": ""
  },
  {
   "property": "C59",
   "status": "proved",
   "theorems": [
    "GosuPP.Props.C59_clamp"
   ],
   "note": ""
  },
  {
   "property": "C63",
   "status": "proved",
   "theorems": [
    "GosuPP.C63_accuracy"
   ],
   "note": ""
  },
  {
   "property": "C64",
   "status": "proved",
   "theorems": [
    "GosuPP.C64_connected",
    "GosuPP.C64_ends",
    "GosuPP.C64_last",
    "GosuPP.C64_position"
   ],
   "note": ""
  },
  {
   "property": "C65",
   "status": "proved",
   "theorems": [
    "GosuPP.C65_arc"
   ],
   "note": ""
  },
  {
   "property": "C66",
   "status": "proved",
   "theorems": [
    "GosuPP.Props.C66_ratings"
   ],
   "note": ""
  },
  {
   "property": "C62",
   "status": "proved",
   "theorems": [
    "GosuPP.Props.C62_hang",
    "GosuPP.Props.C62_panic",
    "GosuPP.Props.C62_returns",
    "GosuPP.Props.C62_returns_exact"
   ],
   "note": ""
  },
  {
   "property": "C67",
   "status": "proved",
   "theorems": [
    "GosuPP.Props.C67_nonneg",
    "GosuPP.Props.C67_rhythm"
   ],
   "note": ""
  },
  {
   "property": "C68",
   "status": "proved",
   "theorems": [
    "GosuPP.Props.C68_double_time",
    "GosuPP.Props.C68_half_time",
    "GosuPP.Props.C68_inputs",
    "GosuPP.Props.C68_mask",
    "GosuPP.Props.C68_mods",
    "GosuPP.Props.C68_stats"
   ],
   "note": ""
  },
  {
   "property": "C69",
   "status": "proved",
   "theorems": [
    "GosuPP.Props.C69_finite",
    "GosuPP.Props.C69_stats"
   ],
   "note": ""
  },
  {
   "property": "C70",
   "status": "proved",
   "theorems": [
    "GosuPP.Props.C70_nondecreasing",
    "GosuPP.Props.C70_peaks",
    "GosuPP.Props.C70_pp",
    "GosuPP.Props.C70_single",
    "GosuPP.Props.C70_stats",
    "GosuPP.Props.C70_step"
   ],
   "note": ""
  },
  {
   "property": "C60",
   "status": "proved",
   "theorems": [
    "GosuPP.C60_exchange",
    "GosuPP.C60_lines",
    "GosuPP.C60_text"
   ],
   "note": ""
  },
  {
   "property": "C61",
   "status": "proved",
   "theorems": [
    "GosuPP.C61_blank",
    "GosuPP.C61_crlf",
    "GosuPP.C61_final",
    "GosuPP.C61_plain"
   ],
   "note": ""
  },
  {
   "property": "C71",
   "status": "proved",
   "theorems": [
    "GosuPP.Props.C71_ar",
    "GosuPP.Props.C71_flashlight",
    "GosuPP.Props.C71_hidden",
    "GosuPP.Props.C71_hidden_fast",
    "GosuPP.Props.C71_ignored",
    "GosuPP.Props.C71_nofail",
    "GosuPP.Props.C71_relax",
    "GosuPP.Props.C71_spunout",
    "GosuPP.Props.C71_total_only",
    "GosuPP.Props.C71_touch"
   ],
   "note": ""
  },
  {
   "property": "C72",
   "status": "proved",
   "theorems": [
    "GosuPP.C72_bezier",
    "GosuPP.C72_catmull",
    "GosuPP.C72_linear",
    "GosuPP.C72_parts",
    "GosuPP.C72_parts_exist",
    "GosuPP.C72_perfect_few",
    "GosuPP.C72_perfect_many",
    "GosuPP.C72_position",
    "GosuPP.C72_unknown",
    "GosuPP.Props.C72_perfect_flat"
   ],
   "note": ""
  },
  {
   "property": "C73",
   "status": "proved",
   "theorems": [
    "GosuPP.C73_curve",
    "GosuPP.C73_empty",
    "GosuPP.C73_ends",
    "GosuPP.C73_length",
    "GosuPP.C73_shrinks",
    "GosuPP.C73_total"
   ],
   "note": ""
  },
  {
   "property": "C74",
   "status": "proved",
   "theorems": [
    "GosuPP.C74_arc",
    "GosuPP.C74_at",
    "GosuPP.C74_catmull",
    "GosuPP.C74_catmull_panic",
    "GosuPP.C74_ends",
    "GosuPP.C74_line",
    "GosuPP.C74_total"
   ],
   "note": ""
  },
  {
   "property": "C75",
   "status": "proved",
   "theorems": [
    "GosuPP.C75_angle",
    "GosuPP.C75_nan",
    "GosuPP.C75_nor",
    "GosuPP.C75_rotate"
   ],
   "note": ""
  },
  {
   "property": "C76",
   "status": "proved",
   "theorems": [
    "GosuPP.Props.C76_events",
    "GosuPP.Props.C76_general",
    "GosuPP.Props.C76_metadata",
    "GosuPP.Props.C76_sliders"
   ],
   "note": ""
  },
  {
   "property": "C77",
   "status": "proved",
   "theorems": [
    "GosuPP.Props.C77_fields",
    "GosuPP.Props.C77_lookup",
    "GosuPP.Props.C77_lost_times"
   ],
   "note": ""
  },
  {
   "property": "C78",
   "status": "proved",
   "theorems": [
    "GosuPP.Props.C78_counters",
    "GosuPP.Props.C78_lookup",
    "GosuPP.Props.C78_numbers",
    "GosuPP.Props.C78_objects",
    "GosuPP.Props.C78_ordered",
    "GosuPP.Props.C78_parses",
    "GosuPP.Props.C78_points",
    "GosuPP.Props.C78_values"
   ],
   "note": ""
  },
  {
   "property": "C79",
   "status": "proved",
   "theorems": [
    "GosuPP.Props.C79_bounds",
    "GosuPP.Props.C79_last",
    "GosuPP.Props.C79_offset",
    "GosuPP.Props.C79_slider_end",
    "GosuPP.Props.C79_slider_higher"
   ],
   "note": ""
  },
  {
   "property": "C80",
   "status": "proved",
   "theorems": [
    "GosuPP.Props.C80_written"
   ],
   "note": ""
  },
  {
   "property": "C81",
   "status": "proved",
   "theorems": [
    "GosuPP.C81_hangs",
    "GosuPP.C81_negative",
    "GosuPP.C81_ordinary",
    "GosuPP.C81_returns",
    "GosuPP.C81_stuck"
   ],
   "note": ""
  },
  {
   "property": "C82",
   "status": "proved",
   "theorems": [
    "GosuPP.C82_linear",
    "GosuPP.C82_positions",
    "GosuPP.C82_tiny"
   ],
   "note": ""
  },
  {
   "property": "C83",
   "status": "proved",
   "theorems": [
    "GosuPP.Props.C83_parsed"
   ],
   "note": ""
  },
  {
   "property": "C84",
   "status": "proved",
   "theorems": [
    "GosuPP.C84_length",
    "GosuPP.C84_linear",
    "GosuPP.C84_not_extended",
    "GosuPP.Props.C84_end"
   ],
   "note": ""
  },
  {
   "property": "C85",
   "status": "proved",
   "theorems": [
    "GosuPP.Props.C85_parses",
    "GosuPP.Props.C85_written"
   ],
   "note": ""
  },
  {
   "property": "C86",
   "status": "proved",
   "theorems": [
    "GosuPP.Props.C86_congruent",
    "GosuPP.Props.C86_swapped",
    "GosuPP.Props.C86_translated"
   ],
   "note": ""
  },
  {
   "property": "C87",
   "status": "proved",
   "theorems": [
    "GosuPP.Props.C87_not_every_shift",
    "GosuPP.Props.C87_shifted",
    "GosuPP.Props.C87_whole"
   ],
   "note": ""
  },
  {
   "property": "C88",
   "status": "proved",
   "theorems": [
    "GosuPP.Props.C88_scaled",
    "GosuPP.Props.C88_whole"
   ],
   "note": ""
  },
  {
   "property": "C89",
   "status": "proved",
   "theorems": [
    "GosuPP.Props.C89_spinners",
    "GosuPP.Props.C89_spinners_peaks",
    "GosuPP.Props.C89_spinners_step",
    "GosuPP.Props.C89_still",
    "GosuPP.Props.C89_still_peaks",
    "GosuPP.Props.C89_still_step"
   ],
   "note": ""
  },
  {
   "property": "C90",
   "status": "proved",
   "theorems": [
    "GosuPP.Props.C90_aim",
    "GosuPP.Props.C90_burst_aim",
    "GosuPP.Props.C90_burst_speed",
    "GosuPP.Props.C90_limit",
    "GosuPP.Props.C90_returns",
    "GosuPP.Props.C90_speed"
   ],
   "note": ""
  },
  {
   "property": "C91",
   "status": "proved",
   "theorems": [
    "GosuPP.Props.C91_od",
    "GosuPP.Props.C91_peaks",
    "GosuPP.Props.C91_steps",
    "GosuPP.Props.C91_window"
   ],
   "note": ""
  },
  {
   "property": "C92",
   "status": "proved",
   "theorems": [
    "GosuPP.Props.C92_cs",
    "GosuPP.Props.C92_hardrock",
    "GosuPP.Props.C92_spread"
   ],
   "note": ""
  },
  {
   "property": "C93",
   "status": "proved",
   "theorems": [
    "GosuPP.Props.C93_aim",
    "GosuPP.Props.C93_bonus"
   ],
   "note": ""
  },
  {
   "property": "C94",
   "status": "proved",
   "theorems": [
    "GosuPP.Props.C94_flashlight"
   ],
   "note": ""
  },
  {
   "property": "C95",
   "status": "proved",
   "theorems": [
    "GosuPP.Props.C95_default",
    "GosuPP.Props.C95_perfect",
    "GosuPP.Props.C95_shares"
   ],
   "note": ""
  },
  {
   "property": "C96",
   "status": "proved",
   "theorems": [
    "GosuPP.Props.C96_ball",
    "GosuPP.Props.C96_bound",
    "GosuPP.Props.C96_cursor",
    "GosuPP.Props.C96_determined",
    "GosuPP.Props.C96_still"
   ],
   "note": ""
  },
  {
   "property": "C97",
   "status": "proved",
   "theorems": [
    "GosuPP.Props.C97_aim",
    "GosuPP.Props.C97_returns"
   ],
   "note": ""
  },
  {
   "property": "C98",
   "status": "proved",
   "theorems": [
    "GosuPP.Props.C98_islands",
    "GosuPP.Props.C98_speed"
   ],
   "note": ""
  },
  {
   "property": "C99",
   "status": "proved",
   "theorems": [
    "GosuPP.Props.C99_flashlight",
    "GosuPP.Props.C99_without"
   ],
   "note": ""
  },
  {
   "property": "C100",
   "status": "proved",
   "theorems": [
    "GosuPP.Props.C100_floor",
    "GosuPP.Props.C100_one",
    "GosuPP.Props.C100_ratings",
    "GosuPP.Props.C100_sections"
   ],
   "note": ""
  },
  {
   "property": "C101",
   "status": "proved",
   "theorems": [
    "GosuPP.Props.C101_circles",
    "GosuPP.Props.C101_sliderFactor"
   ],
   "note": ""
  },
  {
   "property": "C102",
   "status": "proved",
   "theorems": [
    "GosuPP.Props.C102_aim",
    "GosuPP.Props.C102_flashlight",
    "GosuPP.Props.C102_speed"
   ],
   "note": ""
  },
  {
   "property": "C103",
   "status": "proved",
   "theorems": [
    "GosuPP.Props.C103_aim",
    "GosuPP.Props.C103_relax",
    "GosuPP.Props.C103_speed",
    "GosuPP.Props.C103_three"
   ],
   "note": ""
  },
  {
   "property": "C104",
   "status": "proved",
   "theorems": [
    "GosuPP.Props.C104_cs",
    "GosuPP.Props.C104_easy",
    "GosuPP.Props.C104_enlarged",
    "GosuPP.Props.C104_hardrock"
   ],
   "note": ""
  },
  {
   "property": "C105",
   "status": "proved",
   "theorems": [
    "GosuPP.Props.C105_curve",
    "GosuPP.Props.C105_file",
    "GosuPP.Props.C105_rated",
    "GosuPP.Props.C105_visible",
    "GosuPP.Props.C105_written"
   ],
   "note": ""
  },
  {
   "property": "C106",
   "status": "proved",
   "theorems": [
    "GosuPP.Props.C106_parses",
    "GosuPP.Props.C106_rated"
   ],
   "note": ""
  },
  {
   "property": "C107",
   "status": "proved",
   "theorems": [
    "GosuPP.Props.C107_parses",
    "GosuPP.Props.C107_written"
   ],
   "note": ""
  },
  {
   "property": "C108",
   "status": "proved",
   "theorems": [
    "GosuPP.Props.C108_aim",
    "GosuPP.Props.C108_file",
    "GosuPP.Props.C108_flashlight",
    "GosuPP.Props.C108_mods",
    "GosuPP.Props.C108_speed"
   ],
   "note": ""
  },
  {
   "property": "C109",
   "status": "proved",
   "theorems": [
    "GosuPP.Props.C109_cs",
    "GosuPP.Props.C109_file",
    "GosuPP.Props.C109_low_od",
    "GosuPP.Props.C109_od",
    "GosuPP.Props.C109_points",
    "GosuPP.Props.C109_written"
   ],
   "note": ""
  },
  {
   "property": "C110",
   "status": "proved",
   "theorems": [
    "GosuPP.Props.C110_values"
   ],
   "note": ""
  },
  {
   "property": "C111",
   "status": "proved",
   "theorems": [
    "GosuPP.Props.C111_no_mods",
    "GosuPP.Props.C111_shown"
   ],
   "note": ""
  },
  {
   "property": "C112",
   "status": "proved",
   "theorems": [
    "GosuPP.Props.C112_full",
    "GosuPP.Props.C112_short"
   ],
   "note": ""
  },
  {
   "property": "C113",
   "status": "proved",
   "theorems": [
    "GosuPP.Props.C113_default",
    "GosuPP.Props.C113_velocity"
   ],
   "note": ""
  },
  {
   "property": "C114",
   "status": "proved",
   "theorems": [
    "GosuPP.Props.C114_parses",
    "GosuPP.Props.C114_written"
   ],
   "note": ""
  },
  {
   "property": "C115",
   "status": "proved",
   "theorems": [
    "GosuPP.C115_encodings",
    "GosuPP.C115_garbled",
    "GosuPP.C115_total"
   ],
   "note": ""
  },
  {
   "property": "C116",
   "status": "proved",
   "theorems": [
    "GosuPP.C116_accuracy",
    "GosuPP.C116_smooth",
    "GosuPP.C116_spline"
   ],
   "note": ""
  },
  {
   "property": "C117",
   "status": "proved",
   "theorems": [
    "GosuPP.Props.C117_parses",
    "GosuPP.Props.C117_written"
   ],
   "note": ""
  },
  {
   "property": "C118",
   "status": "proved",
   "theorems": [
    "GosuPP.C118_congruent",
    "GosuPP.C118_swapped",
    "GosuPP.C118_translated"
   ],
   "note": ""
  },
  {
   "property": "C119",
   "status": "proved",
   "theorems": [
    "GosuPP.Props.C119_corrupted",
    "GosuPP.Props.C119_flipped",
    "GosuPP.Props.C119_ratings"
   ],
   "note": ""
  },
  {
   "property": "C120",
   "status": "proved",
   "theorems": [
    "GosuPP.C120_any_order",
    "GosuPP.C120_lines",
    "GosuPP.C120_text"
   ],
   "note": ""
  },
  {
   "property": "C121",
   "status": "proved",
   "theorems": [
    "GosuPP.C121_read",
    "GosuPP.C121_same"
   ],
   "note": ""
  },
  {
   "property": "C122",
   "status": "proved",
   "theorems": [
    "GosuPP.C122_lines",
    "GosuPP.C122_text"
   ],
   "note": ""
  }
 ]
}
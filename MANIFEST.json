{
 "claims": [
  {
   "property": "C01",
   "status": "proved",
   "theorems": [
    "StepperPaths.Props.C01_or_is_union",
    "StepperPaths.Props.C01_or_slice_is_union",
    "StepperPaths.Props.C01_or_panics_iff"
   ],
   "note": ""
  },
  {
   "property": "C02",
   "status": "proved",
   "theorems": [
    "StepperPaths.Props.C02_ordered_after_any_history",
    "StepperPaths.Props.C02_unchecked_arguments"
   ],
   "note": "`C02_unchecked_arguments` shows that the low <= high precondition is needed for `and` and `range`."
  },
  {
   "property": "C03",
   "status": "proved",
   "theorems": [
    "StepperPaths.Props.C03_and_is_intersection"
   ],
   "note": ""
  },
  {
   "property": "C04",
   "status": "proved",
   "theorems": [
    "StepperPaths.Props.C04_and_range_is_intersection"
   ],
   "note": ""
  },
  {
   "property": "C05",
   "status": "proved",
   "theorems": [
    "StepperPaths.Props.C05_eq_iff_same_set",
    "StepperPaths.Props.C05_insertion_order_irrelevant",
    "StepperPaths.Props.C05_and_range_comm",
    "StepperPaths.Props.C05_and_range_assoc",
    "StepperPaths.Props.C05_empty_range_is_visible"
   ],
   "note": "`C05_empty_range_is_visible` shows why non-empty ranges are required."
  },
  {
   "property": "C06",
   "status": "proved",
   "theorems": [
    "StepperPaths.Props.C06_bounds"
   ],
   "note": ""
  },
  {
   "property": "C07",
   "status": "proved",
   "theorems": [
    "StepperPaths.Props.C07_find_root_boundary",
    "StepperPaths.Props.C07_find_root_none_iff"
   ],
   "note": ""
  },
  {
   "property": "C08",
   "status": "proved",
   "theorems": [
    "StepperPaths.Props.C08_find_roots_none_iff",
    "StepperPaths.Props.C08_find_roots_gap"
   ],
   "note": ""
  },
  {
   "property": "C09",
   "status": "proved",
   "theorems": [
    "StepperPaths.Props.C09_split_acc"
   ],
   "note": ""
  },
  {
   "property": "C10",
   "status": "proved",
   "theorems": [
    "StepperPaths.Props.C10_distance_is_trapezoid"
   ],
   "note": ""
  },
  {
   "property": "C11",
   "status": "proved",
   "theorems": [
    "StepperPaths.Props.C11_distance_reached"
   ],
   "note": "i64 is unbounded in the model; vmax <= 2^59 and |ds| <= 2^62 are assumed, as everywhere in C11-C19."
  },
  {
   "property": "C12",
   "status": "proved",
   "theorems": [
    "StepperPaths.Props.C12_sequence_realises_path"
   ],
   "note": "Holds whenever acc_seq returns, also above 65535 ticks."
  },
  {
   "property": "C13",
   "status": "proved",
   "theorems": [
    "StepperPaths.Props.C13_acceleration_limited"
   ],
   "note": ""
  },
  {
   "property": "C14",
   "status": "proved",
   "theorems": [
    "StepperPaths.Props.C14_speed_limited"
   ],
   "note": ""
  },
  {
   "property": "C15",
   "status": "proved",
   "theorems": [
    "StepperPaths.Props.C15_no_panic"
   ],
   "note": "Panics other than i64 overflow; acc_seq may panic above 65535 ticks."
  },
  {
   "property": "C16",
   "status": "proved",
   "theorems": [
    "StepperPaths.Props.C16_synchronised",
    "StepperPaths.Props.C16_returns",
    "StepperPaths.Props.C16_least_common_duration"
   ],
   "note": ""
  },
  {
   "property": "C17",
   "status": "proved",
   "theorems": [
    "StepperPaths.Props.C17_lengths_possible",
    "StepperPaths.Props.C17_least_length_used"
   ],
   "note": ""
  },
  {
   "property": "C18",
   "status": "proved",
   "theorems": [
    "StepperPaths.Props.C18_within_one_tick",
    "StepperPaths.Props.C18_one_tick_late",
    "StepperPaths.Props.C18_excess_unbounded"
   ],
   "note": "`C18_one_tick_late` and `C18_excess_unbounded` refute exact optimality."
  },
  {
   "property": "C19",
   "status": "proved",
   "theorems": [
    "StepperPaths.Props.C19_max_acceleration_curve"
   ],
   "note": ""
  },
  {
   "property": "C20",
   "status": "proved",
   "theorems": [
    "StepperPaths.Props.C20_push_appends",
    "StepperPaths.Props.C20_push_panics_iff",
    "StepperPaths.Props.C20_push_history"
   ],
   "note": ""
  },
  {
   "property": "C21",
   "status": "proved",
   "theorems": [
    "StepperPaths.Props.C21_distance_is_integral",
    "StepperPaths.Props.C21_distance_returns"
   ],
   "note": "The i32 overflow checks are modelled; `C21_distance_returns` gives a sufficient bound."
  },
  {
   "property": "C22",
   "status": "proved",
   "theorems": [
    "StepperPaths.Props.C22_iter_is_suffix",
    "StepperPaths.Props.C22_longest_segment_panics",
    "StepperPaths.Props.C22_next_after_end_panics"
   ],
   "note": "Includes the two panic corner cases of the iterator."
  },
  {
   "property": "C23",
   "status": "proved",
   "theorems": [
    "StepperPaths.Props.C23_events_reproduce_state",
    "StepperPaths.Props.C23_long_interval_wrong"
   ],
   "note": "Positions and tick counts are unbounded in the model, velocities are checked i32. The float part of approx_curve is an arbitrary function."
  },
  {
   "property": "C24",
   "status": "proved",
   "theorems": [
    "StepperPaths.Props.C24_lock_step",
    "StepperPaths.Props.C24_acc_takes_effect",
    "StepperPaths.Props.C24_weight_takes_effect"
   ],
   "note": ""
  },
  {
   "property": "C25",
   "status": "proved",
   "theorems": [
    "StepperPaths.Props.C25_parity",
    "StepperPaths.Props.C25_arrives",
    "StepperPaths.Props.C25_returns",
    "StepperPaths.Props.C25_returns_in_time"
   ],
   "note": "i64 is unbounded in the model, see C11."
  },
  {
   "property": "C26",
   "status": "proved",
   "theorems": [
    "StepperPaths.Props.C26_limits_during_goto"
   ],
   "note": ""
  },
  {
   "property": "C27",
   "status": "proved",
   "theorems": [
    "StepperPaths.Props.C27_merge_faithful"
   ],
   "note": ""
  },
  {
   "property": "C28",
   "status": "proved",
   "theorems": [
    "StepperPaths.Props.C28_goto_weight",
    "StepperPaths.Props.C28_end_of_events"
   ],
   "note": "The weight during draw_curves is a separate property."
  },
  {
   "property": "C29",
   "status": "proved",
   "theorems": [
    "StepperPaths.Props.C29_panics_iff",
    "StepperPaths.Props.C29_future_blocks"
   ],
   "note": ""
  },
  {
   "property": "C30",
   "status": "proved",
   "theorems": [
    "StepperPaths.Props.C30_speed",
    "StepperPaths.Props.C30_one_axis"
   ],
   "note": "The original expectation that both axes stay at the same tick is false, see `C30_one_axis`."
  },
  {
   "property": "C31",
   "status": "proved",
   "theorems": [
    "StepperPaths.Props.C31_speed_limit"
   ],
   "note": "The float computation is an arbitrary i16-valued function of tick and state."
  },
  {
   "property": "C32",
   "status": "proved",
   "theorems": [
    "StepperPaths.Props.C32_bound",
    "StepperPaths.Props.C32_exceeded"
   ],
   "note": "The original expectation that the limit is kept is false: `C32_exceeded`. Exact real arithmetic for the float part."
  },
  {
   "property": "C33",
   "status": "proved",
   "theorems": [
    "StepperPaths.Props.C33_reset"
   ],
   "note": ""
  },
  {
   "property": "C34",
   "status": "proved",
   "theorems": [
    "StepperPaths.Props.C34_repeated_reads"
   ],
   "note": ""
  },
  {
   "property": "C35",
   "status": "proved",
   "theorems": [
    "StepperPaths.Props.C35_delivers",
    "StepperPaths.Props.C35_accepted",
    "StepperPaths.Props.C35_returns"
   ],
   "note": "The port is an arbitrary schedule of reads and writes; times are unbounded integers (checked i64 in C118)."
  },
  {
   "property": "C36",
   "status": "proved",
   "theorems": [
    "StepperPaths.Props.C36_error",
    "StepperPaths.Props.C36_returns",
    "StepperPaths.Props.C36_panics"
   ],
   "note": "`C36_panics` is a finding."
  },
  {
   "property": "C37",
   "status": "proved",
   "theorems": [
    "StepperPaths.Props.C37_line",
    "StepperPaths.Props.C37_exact",
    "StepperPaths.Props.C37_error",
    "StepperPaths.Props.C37_hangs"
   ],
   "note": "`C37_hangs` is a finding: end of file is not detected."
  },
  {
   "property": "C38",
   "status": "proved",
   "theorems": [
    "StepperPaths.Props.C38_decodes",
    "StepperPaths.Props.C38_injective",
    "StepperPaths.Props.C38_injective_events",
    "StepperPaths.Props.C38_text"
   ],
   "note": ""
  },
  {
   "property": "C39",
   "status": "proved",
   "theorems": [
    "StepperPaths.Props.C39_composition",
    "StepperPaths.Props.C39_assoc",
    "StepperPaths.Props.C39_identity"
   ],
   "note": "Exact real arithmetic, see DESIGN.md."
  },
  {
   "property": "C40",
   "status": "proved",
   "theorems": [
    "StepperPaths.Props.C40_translate_scale",
    "StepperPaths.Props.C40_rotate",
    "StepperPaths.Props.C40_rotate_around",
    "StepperPaths.Props.C40_skew",
    "StepperPaths.Props.C40_no_translation"
   ],
   "note": "Exact real arithmetic."
  },
  {
   "property": "C41",
   "status": "proved",
   "theorems": [
    "StepperPaths.Props.C41_recompose",
    "StepperPaths.Props.C41_second_branch_wrong",
    "StepperPaths.Props.C41_second_branch_fix",
    "StepperPaths.Props.C41_tiny"
   ],
   "note": "Exact real arithmetic. `C41_second_branch_wrong` refutes the claim for the second branch; `C41_second_branch_fix` shows what would work."
  },
  {
   "property": "C42",
   "status": "proved",
   "theorems": [
    "StepperPaths.Props.C42_point",
    "StepperPaths.Props.C42_direction",
    "StepperPaths.Props.C42_direction_start",
    "StepperPaths.Props.C42_direction_end",
    "StepperPaths.Props.C42_segment_point",
    "StepperPaths.Props.C42_split",
    "StepperPaths.Props.C42_coefficients"
   ],
   "note": "In exact arithmetic. The direction is the direction of the velocity where the speed is at least 6e-9, and the fall-back values are the right ones at the ends."
  },
  {
   "property": "C43",
   "status": "proved",
   "theorems": [
    "StepperPaths.Props.C43_line",
    "StepperPaths.Props.C43_circle"
   ],
   "note": "Exact real arithmetic."
  },
  {
   "property": "C44",
   "status": "proved",
   "theorems": [
    "StepperPaths.Props.C44_start_direction"
   ],
   "note": "Exact real arithmetic."
  },
  {
   "property": "C45",
   "status": "proved",
   "theorems": [
    "StepperPaths.Props.C45_length",
    "StepperPaths.Props.C45_value",
    "StepperPaths.Props.C45_zero_length",
    "StepperPaths.Props.C45_search_possible",
    "StepperPaths.Props.C45_joined"
   ],
   "note": "Exact real arithmetic. binary_search_by is modelled by its documented contract: any allowed answer."
  },
  {
   "property": "C46",
   "status": "proved",
   "theorems": [
    "StepperPaths.Props.C46_polyval",
    "StepperPaths.Props.C46_polymul",
    "StepperPaths.Props.C46_polymul_panics",
    "StepperPaths.Props.C46_polyadd",
    "StepperPaths.Props.C46_polyder",
    "StepperPaths.Props.C46_polyint",
    "StepperPaths.Props.C46_polyoffset",
    "StepperPaths.Props.C46_polyoffset_returns",
    "StepperPaths.Props.C46_polyweight"
   ],
   "note": "In exact arithmetic, for coefficient lists of every length, with the exact conditions under which polymul, polyder and polyoffset panic (polyoffset needs at most 19 coefficients, because Pascal's triangle is kept in u16)."
  },
  {
   "property": "C47",
   "status": "proved",
   "theorems": [
    "StepperPaths.Props.C47_taylor_sequence",
    "StepperPaths.Props.C47_returns",
    "StepperPaths.Props.C47_constant_panics"
   ],
   "note": "In exact arithmetic, as iterated derivatives, for every polynomial with p(t0) > 0. Returns for every list of two or more coefficients; panics on a one-coefficient list from the third coefficient on."
  },
  {
   "property": "C48",
   "status": "proved",
   "theorems": [
    "StepperPaths.Props.C48_paths",
    "StepperPaths.Props.C48_faulty",
    "StepperPaths.Props.C48_panics",
    "StepperPaths.Props.C48_filtered",
    "StepperPaths.Props.C48_broken",
    "StepperPaths.Props.C48_foreign_attribute"
   ],
   "note": "XML events are the input of the model. Exact arithmetic; view boxes with zero sizes, which give infinities in the source, are outside. C48_broken and C48_foreign_attribute state surprises."
  },
  {
   "property": "C49",
   "status": "proved",
   "theorems": [
    "StepperPaths.Props.C49_command",
    "StepperPaths.Props.C49_path"
   ],
   "note": "In exact arithmetic, for every command but arcs."
  },
  {
   "property": "C50",
   "status": "proved",
   "theorems": [
    "StepperPaths.Props.C50_relative",
    "StepperPaths.Props.C50_capital"
   ],
   "note": "In exact arithmetic, including arcs and the first move of a path."
  },
  {
   "property": "C51",
   "status": "proved",
   "theorems": [
    "StepperPaths.Props.C51_rejected",
    "StepperPaths.Props.C51_accepted",
    "StepperPaths.Props.C51_smooth",
    "StepperPaths.Props.C51_close_args"
   ],
   "note": "Findings: the smooth curves (s, t) that the text parser accepts are always rejected, and arguments of z are ignored."
  },
  {
   "property": "C52",
   "status": "proved",
   "theorems": [
    "StepperPaths.Props.C52_number",
    "StepperPaths.Props.C52_number_only",
    "StepperPaths.Props.C52_path"
   ],
   "note": "Numbers are exact rationals; the rounding of f64::from_str is not modelled."
  },
  {
   "property": "C53",
   "status": "proved",
   "theorems": [
    "StepperPaths.Props.C53_terminates",
    "StepperPaths.Props.C53_consumes"
   ],
   "note": ""
  },
  {
   "property": "C54",
   "status": "proved",
   "theorems": [
    "StepperPaths.Props.C54_ok",
    "StepperPaths.Props.C54_error",
    "StepperPaths.Props.C54_panics",
    "StepperPaths.Props.C54_sign_panics",
    "StepperPaths.Props.C54_comma_panics"
   ],
   "note": "A finding: the claim as first stated (every malformed text is an Err) is false, the program panics (C54_panics, C54_comma_panics), even for correct paths (C54_sign_panics)."
  },
  {
   "property": "C55",
   "status": "proved",
   "theorems": [
    "StepperPaths.Props.C55_list",
    "StepperPaths.Props.C55_only",
    "StepperPaths.Props.C55_dropped"
   ],
   "note": "In exact arithmetic. C55_dropped is a finding."
  },
  {
   "property": "C56",
   "status": "proved",
   "theorems": [
    "StepperPaths.Props.C56_row_interval",
    "StepperPaths.Props.C56_smallest"
   ],
   "note": ""
  },
  {
   "property": "C57",
   "status": "proved",
   "theorems": [
    "StepperPaths.Props.C57_lines",
    "StepperPaths.Props.C57_only",
    "StepperPaths.Props.C57_all",
    "StepperPaths.Props.C57_returns",
    "StepperPaths.Props.C57_negative"
   ],
   "note": "Conditions of the theorems: |step_y| <= 2^28, scanning speed within the limit of the x axis. u32 arithmetic is checked as in a debug build. `C57_negative` is a finding."
  },
  {
   "property": "C58",
   "status": "proved",
   "theorems": [
    "StepperPaths.Props.C58_velocity",
    "StepperPaths.Props.C58_velocity_option",
    "StepperPaths.Props.C58_svg_acceleration",
    "StepperPaths.Props.C58_svg_acceleration_option",
    "StepperPaths.Props.C58_raster_acceleration",
    "StepperPaths.Props.C58_raster_wrong"
   ],
   "note": "Exact real arithmetic. `C58_raster_wrong` is a finding: the claim is false for the y acceleration of image_raster."
  },
  {
   "property": "C59",
   "status": "proved",
   "theorems": [
    "StepperPaths.Props.C59_layer",
    "StepperPaths.Props.C59_all"
   ],
   "note": ""
  },
  {
   "property": "C60",
   "status": "proved",
   "theorems": [
    "StepperPaths.Props.C60_panics_iff",
    "StepperPaths.Props.C60_linear",
    "StepperPaths.Props.C60_reverse",
    "StepperPaths.Props.C60_monotone",
    "StepperPaths.Props.C60_polynomial"
   ],
   "note": "Exact real arithmetic with the decimal constants of the source."
  },
  {
   "property": "C61",
   "status": "proved",
   "theorems": [
    "StepperPaths.Props.C61_polar",
    "StepperPaths.Props.C61_unit",
    "StepperPaths.Props.C61_angles",
    "StepperPaths.Props.C61_diff_sign",
    "StepperPaths.Props.C61_diff_sign_far"
   ],
   "note": "Exact real arithmetic."
  },
  {
   "property": "C62",
   "status": "proved",
   "theorems": [
    "StepperPaths.Props.C62_returns",
    "StepperPaths.Props.C62_reported_error",
    "StepperPaths.Props.C62_weight"
   ],
   "note": "Exact real arithmetic for the float part."
  },
  {
   "property": "C63",
   "status": "proved",
   "theorems": [
    "StepperPaths.Props.C63_goto"
   ],
   "note": "Exact real arithmetic for the coordinates."
  },
  {
   "property": "C64",
   "status": "proved",
   "theorems": [
    "StepperPaths.Props.C64_draws",
    "StepperPaths.Props.C64_draws_all",
    "StepperPaths.Props.C64_stroke_points",
    "StepperPaths.Props.C64_move_lost"
   ],
   "note": "Exact real arithmetic; the length of a Bezier curve is any function that is positive for curves with different ends. `C64_move_lost` shows that a skipped move can matter."
  },
  {
   "property": "C65",
   "status": "proved",
   "theorems": [
    "StepperPaths.Props.C65_line",
    "StepperPaths.Props.C65_arc",
    "StepperPaths.Props.C65_ellipse",
    "StepperPaths.Props.C65_bezier"
   ],
   "note": "Exact real arithmetic; the parameter of a Bezier curve for a given length is an arbitrary function."
  },
  {
   "property": "C66",
   "status": "proved",
   "theorems": [
    "StepperPaths.Props.C66_no_corner_inside",
    "StepperPaths.Props.C66_ends_at_corner"
   ],
   "note": "Exact real arithmetic."
  },
  {
   "property": "C67",
   "status": "proved",
   "theorems": [
    "StepperPaths.Props.C67_timeline"
   ],
   "note": "Exact real arithmetic for the coordinates; integers are unbounded."
  },
  {
   "property": "C68",
   "status": "proved",
   "theorems": [
    "StepperPaths.Props.C68_transform"
   ],
   "note": "Exact real arithmetic."
  },
  {
   "property": "C69",
   "status": "proved",
   "theorems": [
    "StepperPaths.Props.C69_scale",
    "StepperPaths.Props.C69_rotation_lost",
    "StepperPaths.Props.C69_wrong_end",
    "StepperPaths.Props.C69_mirror"
   ],
   "note": "Exact real arithmetic. `C69_rotation_lost` and `C69_wrong_end` are findings."
  },
  {
   "property": "C70",
   "status": "proved",
   "theorems": [
    "StepperPaths.Props.C70_returns"
   ],
   "note": "Exact real arithmetic for the coordinates. A sufficient condition."
  },
  {
   "property": "C71",
   "status": "proved",
   "theorems": [
    "StepperPaths.Props.C71_width",
    "StepperPaths.Props.C71_height",
    "StepperPaths.Props.C71_pitch"
   ],
   "note": "Exact real arithmetic."
  },
  {
   "property": "C72",
   "status": "proved",
   "theorems": [
    "StepperPaths.Props.C72_nothing_drawn"
   ],
   "note": "Exact real arithmetic for the request. A finding."
  },
  {
   "property": "C73",
   "status": "proved",
   "theorems": [
    "StepperPaths.Props.C73_speed",
    "StepperPaths.Props.C73_too_fast",
    "StepperPaths.Props.C73_limit_exceeded"
   ],
   "note": "Exact real arithmetic for the request. `C73_limit_exceeded` is a finding."
  },
  {
   "property": "C74",
   "status": "proved",
   "theorems": [
    "StepperPaths.Props.C74_returns",
    "StepperPaths.Props.C74_eval_int",
    "StepperPaths.Props.C74_search",
    "StepperPaths.Props.C74_exact",
    "StepperPaths.Props.C74_below",
    "StepperPaths.Props.C74_low_ignored"
   ],
   "note": "In exact arithmetic, with an explicit error bound, for every answer of the binary search. C74_low_ignored is a finding: build_segments is only right when low is zero, which is how the program calls it."
  },
  {
   "property": "C75",
   "status": "proved",
   "theorems": [
    "StepperPaths.Props.C75_find_param",
    "StepperPaths.Props.C75_search"
   ],
   "note": "In exact arithmetic; the bisection stops at a width of 2^-52."
  },
  {
   "property": "C76",
   "status": "proved",
   "theorems": [
    "StepperPaths.Props.C76_returns",
    "StepperPaths.Props.C76_length",
    "StepperPaths.Props.C76_value",
    "StepperPaths.Props.C76_bound"
   ],
   "note": "In exact arithmetic, for curves whose velocity is nowhere zero; a zero velocity at an expansion point makes the source divide by zero, which is not modelled."
  },
  {
   "property": "C77",
   "status": "proved",
   "theorems": [
    "StepperPaths.Props.C77_groups",
    "StepperPaths.Props.C77_move",
    "StepperPaths.Props.C77_line",
    "StepperPaths.Props.C77_horizontal",
    "StepperPaths.Props.C77_vertical",
    "StepperPaths.Props.C77_close",
    "StepperPaths.Props.C77_cubic",
    "StepperPaths.Props.C77_quadratic"
   ],
   "note": "In exact arithmetic."
  },
  {
   "property": "C78",
   "status": "proved",
   "theorems": [
    "StepperPaths.Props.C78_image",
    "StepperPaths.Props.C78_singular"
   ],
   "note": "In exact arithmetic."
  },
  {
   "property": "C79",
   "status": "proved",
   "theorems": [
    "StepperPaths.Props.C79_arc",
    "StepperPaths.Props.C79_zero",
    "StepperPaths.Props.C79_circle",
    "StepperPaths.Props.C79_turned",
    "StepperPaths.Props.C79_turned_wrong",
    "StepperPaths.Props.C79_mirror"
   ],
   "note": "In exact arithmetic. C79_turned, C79_turned_wrong and C79_mirror are findings: the claim is false for arcs with a rotation argument and for reflections."
  },
  {
   "property": "C80",
   "status": "proved",
   "theorems": [
    "StepperPaths.Props.C80_length",
    "StepperPaths.Props.C80_bare",
    "StepperPaths.Props.C80_length_only",
    "StepperPaths.Props.C80_view_box",
    "StepperPaths.Props.C80_view_box_only"
   ],
   "note": "In exact arithmetic. C80_bare is a finding."
  },
  {
   "property": "C81",
   "status": "proved",
   "theorems": [
    "StepperPaths.Props.C81_independent",
    "StepperPaths.Props.C81_separate",
    "StepperPaths.Props.C81_joined"
   ],
   "note": "C81_joined states the surprise for paths that do not start with a move."
  },
  {
   "property": "C82",
   "status": "proved",
   "theorems": [
    "StepperPaths.Props.C82_single",
    "StepperPaths.Props.C82_hangs"
   ],
   "note": "In exact arithmetic; C82_hangs, a finding, is about f64 numbers with any rounding of sums."
  },
  {
   "property": "C83",
   "status": "proved",
   "theorems": [
    "StepperPaths.Props.C83_roots",
    "StepperPaths.Props.C83_zero",
    "StepperPaths.Props.C83_quadratic",
    "StepperPaths.Props.C83_linear_end",
    "StepperPaths.Props.C83_double_missed"
   ],
   "note": "In exact arithmetic. C83_linear_end, C83_double_missed and C83_zero are findings."
  },
  {
   "property": "C84",
   "status": "proved",
   "theorems": [
    "StepperPaths.Props.C84_length",
    "StepperPaths.Props.C84_position",
    "StepperPaths.Props.C84_monotone"
   ],
   "note": "In exact arithmetic, for every split_length that satisfies the stated conditions."
  },
  {
   "property": "C85",
   "status": "proved",
   "theorems": [
    "StepperPaths.Props.C85_run",
    "StepperPaths.Props.C85_weight",
    "StepperPaths.Props.C85_main",
    "StepperPaths.Props.C85_returns"
   ],
   "note": "Exact real arithmetic for the coordinates. Command line parsing, files and opening the port are not modelled."
  },
  {
   "property": "C86",
   "status": "proved",
   "theorems": [
    "StepperPaths.Props.C86_size",
    "StepperPaths.Props.C86_pitch",
    "StepperPaths.Props.C86_burns",
    "StepperPaths.Props.C86_main",
    "StepperPaths.Props.C86_returns"
   ],
   "note": "The main program of image_raster from the options and the image to the accepted events, in millimetres. Floats are exact reals."
  },
  {
   "property": "C87",
   "status": "proved",
   "theorems": [
    "StepperPaths.Props.C87_sequences_sound",
    "StepperPaths.Props.C87_sound",
    "StepperPaths.Props.C87_synchronised",
    "StepperPaths.Props.C87_no_overflow",
    "StepperPaths.Props.C87_lengths",
    "StepperPaths.Props.C87_curve",
    "StepperPaths.Props.C87_distance",
    "StepperPaths.Props.C87_returns",
    "StepperPaths.Props.C87_overflow"
   ],
   "note": "A second model of solve.rs and integer_curve.rs in which each i64 operation is checked; shown equal to the unbounded one under the bounds."
  },
  {
   "property": "C88",
   "status": "proved",
   "theorems": [
    "StepperPaths.Props.C88_follow",
    "StepperPaths.Props.C88_drawing",
    "StepperPaths.Props.C88_bends",
    "StepperPaths.Props.C88_line",
    "StepperPaths.Props.C88_arc",
    "StepperPaths.Props.C88_joined",
    "StepperPaths.Props.C88_path"
   ],
   "note": "Exact real arithmetic for the float part. A sufficient condition; C32 shows that without one the limit is exceeded."
  },
  {
   "property": "C89",
   "status": "proved",
   "theorems": [
    "StepperPaths.Props.C89_sound",
    "StepperPaths.Props.C89_curves_sound",
    "StepperPaths.Props.C89_interval",
    "StepperPaths.Props.C89_speed",
    "StepperPaths.Props.C89_goto",
    "StepperPaths.Props.C89_draw",
    "StepperPaths.Props.C89_gentle",
    "StepperPaths.Props.C89_overflow"
   ],
   "note": "A second model of the motion commands in which each i64 operation is checked. Tick counts stay unbounded; the float part is exact."
  },
  {
   "property": "C90",
   "status": "proved",
   "theorems": [
    "StepperPaths.Props.C90_double",
    "StepperPaths.Props.C90_follow",
    "StepperPaths.Props.C90_timeline",
    "StepperPaths.Props.C90_drawing",
    "StepperPaths.Props.C90_line"
   ],
   "note": "A second model of lines, joined curves and draw_curves in which each f64 operation is followed by a rounding function; the conditions on it are shown for rounding to nearest even. No infinities or NaN. Bezier curves and arcs are arbitrary functions here."
  },
  {
   "property": "C91",
   "status": "proved",
   "theorems": [
    "StepperPaths.Props.C91_draws",
    "StepperPaths.Props.C91_draws_all",
    "StepperPaths.Props.C91_line",
    "StepperPaths.Props.C91_no_corner_inside",
    "StepperPaths.Props.C91_ends_at_corner"
   ],
   "note": "In the rounded model of C90. The directions compared at corners are assumed to have components of at most 2, which holds for lines."
  },
  {
   "property": "C92",
   "status": "proved",
   "theorems": [
    "StepperPaths.Props.C92_lines",
    "StepperPaths.Props.C92_traced",
    "StepperPaths.Props.C92_search"
   ],
   "note": "In the rounded model of C90, for paths of lines. A sufficient condition on speed, scale and line lengths, satisfied by an example with realistic values."
  },
  {
   "property": "C93",
   "status": "proved",
   "theorems": [
    "StepperPaths.Props.C93_path",
    "StepperPaths.Props.C93_all_moves",
    "StepperPaths.Props.C93_traced",
    "StepperPaths.Props.C93_arc",
    "StepperPaths.Props.C93_double_odd",
    "StepperPaths.Props.C93_ellipse"
   ],
   "note": "In the rounded model of C90. For curves that are computed up to a stated error; shown for arcs (C93_arc), and for Bezier curves in C97."
  },
  {
   "property": "C94",
   "status": "proved",
   "theorems": [
    "StepperPaths.Props.C94_shape",
    "StepperPaths.Props.C94_smooth",
    "StepperPaths.Props.C94_near",
    "StepperPaths.Props.C94_path",
    "StepperPaths.Props.C94_all_moves",
    "StepperPaths.Props.C94_traced",
    "StepperPaths.Props.C94_tables"
   ],
   "note": "In exact arithmetic. The binary searches answer by their contract (FromTable); C94_tables shows that such answers exist."
  },
  {
   "property": "C95",
   "status": "proved",
   "theorems": [
    "StepperPaths.Props.C95_document",
    "StepperPaths.Props.C95_events",
    "StepperPaths.Props.C95_program"
   ],
   "note": "From the XML events to the accepted commands, in exact arithmetic. Elliptic arcs are not included (C69). The XML reader, files and command line parsing are not modelled."
  },
  {
   "property": "C96",
   "status": "proved",
   "theorems": [
    "StepperPaths.Props.C96_lost",
    "StepperPaths.Props.C96_program",
    "StepperPaths.Props.C96_wrong"
   ],
   "note": "A defect of the code, shown for the whole program; it is why C95 excludes moves to where the machine was."
  },
  {
   "property": "C97",
   "status": "proved",
   "theorems": [
    "StepperPaths.Props.C97_near",
    "StepperPaths.Props.C97_sign",
    "StepperPaths.Props.C97_length",
    "StepperPaths.Props.C97_curves",
    "StepperPaths.Props.C97_path",
    "StepperPaths.Props.C97_all_moves",
    "StepperPaths.Props.C97_traced"
   ],
   "note": "In the rounded model of C90, extended to Bezier curves. powf, sine and cosine of the library are functions with an error of at most 2^-52; the binary searches answer by their contract, and C97_curves shows that such answers exist. The conditions on a curve are sufficient ones, satisfied by an example."
  },
  {
   "property": "C98",
   "status": "proved",
   "theorems": [
    "StepperPaths.Props.C98_exact",
    "StepperPaths.Props.C98_lib",
    "StepperPaths.Props.C98_document"
   ],
   "note": "A second model of the parsers and transforms with rounding. Paths without arcs (see C99). Numbers are rounded from their decimal value; no infinities or NaN."
  },
  {
   "property": "C99",
   "status": "proved",
   "theorems": [
    "StepperPaths.Props.C99_half_circle"
   ],
   "note": "A defect of the code, shown with IEEE rounding to nearest even for one document; about a quarter of the integer radii up to 100 with the scale of inkscape documents are concerned by our calculation, which is not proved."
  },
  {
   "property": "C100",
   "status": "proved",
   "theorems": [
    "StepperPaths.Props.C100_exact",
    "StepperPaths.Props.C100_velocity",
    "StepperPaths.Props.C100_acceleration",
    "StepperPaths.Props.C100_events",
    "StepperPaths.Props.C100_read",
    "StepperPaths.Props.C100_program"
   ],
   "note": "For documents without arcs; the mathematical library is assumed accurate to a few units in the last place. The conditions on the computed segments refer to what is parsed (see C98 for how close they are to what is written)."
  },
  {
   "property": "C101",
   "status": "proved",
   "theorems": [
    "StepperPaths.Props.C101_ellipse",
    "StepperPaths.Props.C101_ellipse_rounded",
    "StepperPaths.Props.C101_stretched",
    "StepperPaths.Props.C101_view_box"
   ],
   "note": "A limitation of the code (only circles are drawn) that also meets circles of documents whose scales differ in the last digits, e.g. the A4 page of inkscape 0.91. In exact arithmetic; C101_ellipse_rounded is the last step with rounding, and C108 the whole."
  },
  {
   "property": "C102",
   "status": "proved",
   "theorems": [
    "StepperPaths.Props.C102_lib",
    "StepperPaths.Props.C102_arc"
   ],
   "note": "One arc of a circle with even scale; near half circles are excluded (C99), and ellipses are not drawn (C101)."
  },
  {
   "property": "C103",
   "status": "proved",
   "theorems": [
    "StepperPaths.Props.C103_document"
   ],
   "note": "Documents with arcs of circles in the rounded model of C98. Every element of the document must scale both axes by the same computed factor and not rotate (otherwise see C101); chords near a diameter are excluded through h (C99)."
  },
  {
   "property": "C104",
   "status": "proved",
   "theorems": [
    "StepperPaths.Props.C104_program"
   ],
   "note": "C100 for documents that may contain arcs of circles, under the conditions of C103."
  },
  {
   "property": "C105",
   "status": "proved",
   "theorems": [
    "StepperPaths.Props.C105_exact",
    "StepperPaths.Props.C105_acceleration",
    "StepperPaths.Props.C105_program",
    "StepperPaths.Props.C105_pitch"
   ],
   "note": "Rounded model of image_raster with the products that the exact model leaves out checked; the motion itself is on unbounded integers (see C89). Sizes, spot, speed and scales below 2^-20 are excluded."
  },
  {
   "property": "C106",
   "status": "proved",
   "theorems": [
    "StepperPaths.Props.C106_animation",
    "StepperPaths.Props.C106_animation_args",
    "StepperPaths.Props.C106_curve",
    "StepperPaths.Props.C106_curve_args"
   ],
   "note": "With checked i64, u16 and i32 arithmetic. Speeds above the limit, for which the program may panic or print anything, are left out."
  },
  {
   "property": "C107",
   "status": "proved",
   "theorems": [
    "StepperPaths.Props.C107_sound",
    "StepperPaths.Props.C107_program_sound",
    "StepperPaths.Props.C107_no_overflow",
    "StepperPaths.Props.C107_same",
    "StepperPaths.Props.C107_program"
   ],
   "note": "Checked i64 and i32 arithmetic of the scan and of the moves; tick counts (u64) are unbounded. Machines with speed limits above 2^24 per tick are left out."
  },
  {
   "property": "C108",
   "status": "proved",
   "theorems": [
    "StepperPaths.Props.C108_half_axes",
    "StepperPaths.Props.C108_stretched",
    "StepperPaths.Props.C108_view_box"
   ],
   "note": "C101 in the rounded model of C98, for transforms without rotation or skew and circles and scales that are not extreme."
  },
  {
   "property": "C109",
   "status": "proved",
   "theorems": [
    "StepperPaths.Props.C109_unique",
    "StepperPaths.Props.C109_refused",
    "StepperPaths.Props.C109_svg_first",
    "StepperPaths.Props.C109_svg_numbers",
    "StepperPaths.Props.C109_svg_program",
    "StepperPaths.Props.C109_svg_files",
    "StepperPaths.Props.C109_raster_first",
    "StepperPaths.Props.C109_raster_numbers",
    "StepperPaths.Props.C109_raster_program",
    "StepperPaths.Props.C109_ticks",
    "StepperPaths.Props.C109_silent"
   ],
   "note": "The argument parser of the crate getopts is modelled after its documentation. Options that are infinite or not a number are accepted by the programs; what happens then is in C117."
  },
  {
   "property": "C110",
   "status": "proved",
   "theorems": [
    "StepperPaths.Props.C110_dark",
    "StepperPaths.Props.C110_negative",
    "StepperPaths.Props.C110_mark",
    "StepperPaths.Props.C110_program",
    "StepperPaths.Props.C110_speed"
   ],
   "note": "In the rounded model; a defect of the code as far as negative speeds are concerned. Lengths of Bezier curves and arcs are assumed not to be negative. A speed of zero is treated in C117."
  },
  {
   "property": "C111",
   "status": "proved",
   "theorems": [
    "StepperPaths.Props.C111_text",
    "StepperPaths.Props.C111_exact",
    "StepperPaths.Props.C111_split",
    "StepperPaths.Props.C111_rounded",
    "StepperPaths.Props.C111_control",
    "StepperPaths.Props.C111_display"
   ],
   "note": "Display of f64 is any function whose text is read back as the same number, as its documentation promises; such functions exist (C111_display). Reading with rounding is shown at the origin without a transform; elsewhere see C98."
  },
  {
   "property": "C112",
   "status": "proved",
   "theorems": [
    "StepperPaths.Props.C112_json",
    "StepperPaths.Props.C112_reads",
    "StepperPaths.Props.C112_missing",
    "StepperPaths.Props.C112_twice",
    "StepperPaths.Props.C112_order",
    "StepperPaths.Props.C112_extra",
    "StepperPaths.Props.C112_file",
    "StepperPaths.Props.C112_device",
    "StepperPaths.Props.C112_plain"
   ],
   "note": "The crates serde and serde_json are modelled after their documentation. The conversion of the text of a number to f64 is any partial function. The file is valid UTF-8; the texts of the messages are left out."
  },
  {
   "property": "C113",
   "status": "proved",
   "theorems": [
    "StepperPaths.Props.C113_sound",
    "StepperPaths.Props.C113_draw",
    "StepperPaths.Props.C113_same",
    "StepperPaths.Props.C113_program",
    "StepperPaths.Props.C113_ticks"
   ],
   "note": "For the paths, machines and documents of C97, C100 and C104, with speeds up to 2^24 and less than 2^31 ticks per second. i64 values in the motion commands, the sums of positions and the percent computation are checked; conversions from f64 saturate."
  },
  {
   "property": "C114",
   "status": "proved",
   "theorems": [
    "StepperPaths.Props.C114_svg",
    "StepperPaths.Props.C114_raster"
   ],
   "note": "Combines C104, C107, C109, C112 and C113. The conversion of the numbers of the configuration is any partial function, that of the options is correct rounding; XML and PNG files are events and grey values, the reading of these formats is not modelled."
  },
  {
   "property": "C115",
   "status": "proved",
   "theorems": [
    "StepperPaths.Props.C115_goto",
    "StepperPaths.Props.C115_events",
    "StepperPaths.Props.C115_limits",
    "StepperPaths.Props.C115_svg",
    "StepperPaths.Props.C115_raster"
   ],
   "note": "A defect of the code as far as the missing messages are concerned. In the rounded and checked model; options up to 2^100, thresholds with a margin of half a percent. A negative acceleration of the configuration in image_raster is the subject of C126."
  },
  {
   "property": "C116",
   "status": "proved",
   "theorems": [
    "StepperPaths.Props.C116_goto",
    "StepperPaths.Props.C116_moves",
    "StepperPaths.Props.C116_scan",
    "StepperPaths.Props.C116_draw",
    "StepperPaths.Props.C116_limits",
    "StepperPaths.Props.C116_svg",
    "StepperPaths.Props.C116_raster"
   ],
   "note": "A defect of the code. In the rounded and checked model; options up to 2^100, threshold 32770 instead of 32769. For svg_path the first stroke must start at a positive distance in steps beyond the top speed of one tick; for image_raster the hypotheses are on the computed scanning speed and lines per row."
  },
  {
   "property": "C117",
   "status": "proved",
   "theorems": [
    "StepperPaths.Props.C117_finite_svg",
    "StepperPaths.Props.C117_finite_raster",
    "StepperPaths.Props.C117_speed",
    "StepperPaths.Props.C117_moves",
    "StepperPaths.Props.C117_speed_command",
    "StepperPaths.Props.C117_zero",
    "StepperPaths.Props.C117_nan",
    "StepperPaths.Props.C117_v_inf",
    "StepperPaths.Props.C117_a_inf",
    "StepperPaths.Props.C117_fails",
    "StepperPaths.Props.C117_raster_speed",
    "StepperPaths.Props.C117_raster_nothing",
    "StepperPaths.Props.C117_raster_width",
    "StepperPaths.Props.C117_raster_height",
    "StepperPaths.Props.C117_raster_spot"
   ],
   "note": "A defect of the code as far as the missing messages are concerned. In the rounded and checked model, extended by infinities and not-a-number; finite operations are taken not to overflow, zeros are positive (a draw speed of -0 is left out), the numbers of the configuration are finite. The case of a draw speed of zero is about one stroke that starts on a point of the grid."
  },
  {
   "property": "C118",
   "status": "proved",
   "theorems": [
    "StepperPaths.Props.C118_svg_fits",
    "StepperPaths.Props.C118_raster_fits",
    "StepperPaths.Props.C118_same",
    "StepperPaths.Props.C118_fits",
    "StepperPaths.Props.C118_start",
    "StepperPaths.Props.C118_late",
    "StepperPaths.Props.C118_ticks",
    "StepperPaths.Props.C118_context",
    "StepperPaths.Props.C118_svg",
    "StepperPaths.Props.C118_raster"
   ],
   "note": "Reachability in C118_ticks is that of C23. For the programs the number of events is a hypothesis (C118_svg_fits, C118_raster_fits)."
  },
  {
   "property": "C119",
   "status": "proved",
   "theorems": [
    "StepperPaths.Props.C119_incenter",
    "StepperPaths.Props.C119_intersection",
    "StepperPaths.Props.C119_refused",
    "StepperPaths.Props.C119_order",
    "StepperPaths.Props.C119_line",
    "StepperPaths.Props.C119_ccw",
    "StepperPaths.Props.C119_cw"
   ],
   "note": "Exact arithmetic. The module is commented out in curves/mod.rs."
  },
  {
   "property": "C120",
   "status": "proved",
   "theorems": [
    "StepperPaths.Props.C120_eval",
    "StepperPaths.Props.C120_area",
    "StepperPaths.Props.C120_extend",
    "StepperPaths.Props.C120_times",
    "StepperPaths.Props.C120_top",
    "StepperPaths.Props.C120_path"
   ],
   "note": "Exact arithmetic and unbounded integers. The file is not part of the crate; its unfinished functions are left out."
  },
  {
   "property": "C121",
   "status": "proved",
   "theorems": [
    "StepperPaths.Props.C121_svg_events",
    "StepperPaths.Props.C121_raster_events",
    "StepperPaths.Props.C121_svg",
    "StepperPaths.Props.C121_raster",
    "StepperPaths.Props.C121_svg_command",
    "StepperPaths.Props.C121_raster_command"
   ],
   "note": "Partial correctness: nothing is said about runs that panic, do not end or in which the device reports an error. Numbers as in C117; the position at the end is not stated for arbitrary input (C104, C105 for suitable input)."
  },
  {
   "property": "C122",
   "status": "proved",
   "theorems": [
    "StepperPaths.Props.C122_above",
    "StepperPaths.Props.C122_below",
    "StepperPaths.Props.C122_strokes",
    "StepperPaths.Props.C122_line"
   ],
   "note": "A defect of the code. In the rounded and checked model with the numbers of C117; C122_below, C122_strokes and the second part of C122_line say what a run that ends normally has done, the examples show that there are such runs beyond the limit."
  },
  {
   "property": "C123",
   "status": "proved",
   "theorems": [
    "StepperPaths.Props.C123_move",
    "StepperPaths.Props.C123_svg_events",
    "StepperPaths.Props.C123_raster_events",
    "StepperPaths.Props.C123_svg",
    "StepperPaths.Props.C123_raster"
   ],
   "note": "In the rounded and checked model with the numbers of C117. With limits below 1 nothing is computed (C115), for image_raster with a negative limit of the acceleration in the configuration see C126. The acceleration limit while the laser is on is not claimed for svg_path: approx_curve has no such limit (C57, C58)."
  },
  {
   "property": "C124",
   "status": "proved",
   "theorems": [
    "StepperPaths.Props.C124_parity",
    "StepperPaths.Props.C124_move",
    "StepperPaths.Props.C124_svg_events",
    "StepperPaths.Props.C124_raster_events",
    "StepperPaths.Props.C124_svg",
    "StepperPaths.Props.C124_raster",
    "StepperPaths.Props.C124_svg_command",
    "StepperPaths.Props.C124_raster_command"
   ],
   "note": "As C123: partial correctness in the rounded and checked model with the numbers of C117; for image_raster the limits of the acceleration must not be negative; C126 shows that else no run ends."
  },
  {
   "property": "C125",
   "status": "proved",
   "theorems": [
    "StepperPaths.Props.C125_directions",
    "StepperPaths.Props.C125_svg_events",
    "StepperPaths.Props.C125_grid",
    "StepperPaths.Props.C125_lines_events",
    "StepperPaths.Props.C125_svg",
    "StepperPaths.Props.C125_svg_lines"
   ],
   "note": "Partial correctness in the rounded and checked model with the numbers of C117 and the rounding of f64. Arcs and Bezier curves are as the program computes them; about the table of lengths of Bezier curves nothing is required. Numbers of the configuration up to 2^390. With --v-max only C125_svg_events and C125_lines_events apply."
  },
  {
   "property": "C126",
   "status": "proved",
   "theorems": [
    "StepperPaths.Props.C126_move",
    "StepperPaths.Props.C126_scan",
    "StepperPaths.Props.C126_fails",
    "StepperPaths.Props.C126_raster_events",
    "StepperPaths.Props.C126_raster",
    "StepperPaths.Props.C126_raster_command"
   ],
   "note": "A defect of the code as far as the missing message is concerned. In the checked model with the numbers of C117; that no run ends means that each panics or does not return. svg_path takes the absolute value and is not affected."
  },
  {
   "property": "C127",
   "status": "proved",
   "theorems": [
    "StepperPaths.Props.C127_scan",
    "StepperPaths.Props.C127_raster_events",
    "StepperPaths.Props.C127_raster",
    "StepperPaths.Props.C127_raster_command",
    "StepperPaths.Props.C127_stands",
    "StepperPaths.Props.C127_zero_width"
   ],
   "note": "Partial correctness in the checked model with the numbers of C117. A defect of the code as far as the laser may be on at a standstill. Places are in half steps, in terms of the computed numbers of ticks and lines; what these are in millimetres is in C86 and C105."
  },
  {
   "property": "C128",
   "status": "proved",
   "theorems": [
    "StepperPaths.Props.C128_draw",
    "StepperPaths.Props.C128_svg_events",
    "StepperPaths.Props.C128_svg",
    "StepperPaths.Props.C128_svg_command",
    "StepperPaths.Props.C128_on",
    "StepperPaths.Props.C128_exposure",
    "StepperPaths.Props.C128_short"
   ],
   "note": "Partial correctness in the rounded and checked model with the numbers of C117: runs that panic, do not end or in which the device reports an error are left out. The error is the one that draw_curves returns; how large it is is in C62, C88, C90 and C104. The curves are as the program computes them; how near they are to the segments is in C92, C94, C97 and C102. Speeds other than finite ones do not occur in strokes (C117)."
  },
  {
   "property": "C129",
   "status": "proved",
   "theorems": [
    "StepperPaths.Props.C129_same",
    "StepperPaths.Props.C129_after",
    "StepperPaths.Props.C129_stays_on",
    "StepperPaths.Props.C129_runs_away",
    "StepperPaths.Props.C129_cut",
    "StepperPaths.Props.C129_svg",
    "StepperPaths.Props.C129_raster",
    "StepperPaths.Props.C129_unsafe"
   ],
   "note": "C129_stays_on, C129_runs_away and C129_unsafe are a defect of the code, as far as the protocol goes: what a device does by itself when no more commands arrive is not modelled. The device is that of the wire model of C35; the programs are those of C117."
  },
  {
   "property": "C130",
   "status": "proved",
   "theorems": [
    "StepperPaths.Props.C130_svg_events",
    "StepperPaths.Props.C130_svg",
    "StepperPaths.Props.C130_raster_events",
    "StepperPaths.Props.C130_raster",
    "StepperPaths.Props.C130_svg_device",
    "StepperPaths.Props.C130_raster_device"
   ],
   "note": "The values that are printed, not the texts; the printed list of segments is left out. As in C121 and C127, pixels are bytes and the intensity is not negative, which the programs check (C109). The errors that svg_path prints are only those of the last repetition: those of the others are lost."
  },
  {
   "property": "C131",
   "status": "proved",
   "theorems": [
    "StepperPaths.Props.C131_scan",
    "StepperPaths.Props.C131_raster_events",
    "StepperPaths.Props.C131_raster",
    "StepperPaths.Props.C131_raster_command",
    "StepperPaths.Props.C131_dose",
    "StepperPaths.Props.C131_count"
   ],
   "note": "Strengthens C127, under the same conditions: partial correctness in the checked model with the numbers of C117. Pixels are bytes; for the sums the intensity is not negative, which the program checks (C109)."
  },
  {
   "property": "C132",
   "status": "proved",
   "theorems": [
    "StepperPaths.Props.C132_ticks",
    "StepperPaths.Props.C132_stroke",
    "StepperPaths.Props.C132_length",
    "StepperPaths.Props.C132_svg"
   ],
   "note": "Under the conditions of C128. The lengths are those of the curves as the program computes them (C92, C94, C97, C102); that they are not negative is a condition, since the table of lengths of a Bezier curve is arbitrary here."
  },
  {
   "property": "C133",
   "status": "proved",
   "theorems": [
    "StepperPaths.Props.C133_bare",
    "StepperPaths.Props.C133_layer",
    "StepperPaths.Props.C133_same",
    "StepperPaths.Props.C133_hidden",
    "StepperPaths.Props.C133_shape",
    "StepperPaths.Props.C133_view_box",
    "StepperPaths.Props.C133_command"
   ],
   "note": "C133_hidden, C133_shape and C133_view_box are findings: an SVG viewer shows neither hidden nor defining elements, draws shapes, and moves the drawing by the origin of the view box. The documents are the events of the XML reader; the programs are those of C117."
  },
  {
   "property": "C134",
   "status": "proved",
   "theorems": [
    "StepperPaths.Props.C134_cut",
    "StepperPaths.Props.C134_prefix",
    "StepperPaths.Props.C134_bad",
    "StepperPaths.Props.C134_svg",
    "StepperPaths.Props.C134_moves",
    "StepperPaths.Props.C134_blank"
   ],
   "note": "C134_cut and C134_svg are a finding: the error is printed, but a damaged drawing is burnt. In the model the XML reader's error is an event; a reader that reports more after an error makes no difference. The programs are those of C117, and drawing is meant as in C128."
  },
  {
   "property": "C135",
   "status": "proved",
   "theorems": [
    "StepperPaths.Props.C135_layer",
    "StepperPaths.Props.C135_cut",
    "StepperPaths.Props.C135_no_layers",
    "StepperPaths.Props.C135_misspelt",
    "StepperPaths.Props.C135_nested"
   ],
   "note": "Lifts C59 and C48 to whole runs with rounded numbers (the programs of C117). C135_misspelt is a finding: a label that does not exist is not reported."
  },
  {
   "property": "C136",
   "status": "proved",
   "theorems": [
    "StepperPaths.Props.C136_move",
    "StepperPaths.Props.C136_rest"
   ],
   "note": "For the states and targets of C25 and C26: calls none of which panics, speeds within the limits. Places and speeds are in half steps. The place at the end is the target or, if parities differ, beside it by one half step (C25)."
  },
  {
   "property": "C137",
   "status": "proved",
   "theorems": [
    "StepperPaths.Props.C137_move",
    "StepperPaths.Props.C137_scan",
    "StepperPaths.Props.C137_raster_events",
    "StepperPaths.Props.C137_raster",
    "StepperPaths.Props.C137_raster_command"
   ],
   "note": "Partial correctness in the checked model with the numbers of C117: runs that panic, do not end or in which the device reports an error are left out. Places are in half steps, in terms of the computed numbers of ticks and lines; what these are in millimetres is in C86 and C105. C137_move drops the bounds on distances of C136."
  },
  {
   "property": "C138",
   "status": "proved",
   "theorems": [
    "StepperPaths.Props.C138_svg_events",
    "StepperPaths.Props.C138_rest",
    "StepperPaths.Props.C138_svg",
    "StepperPaths.Props.C138_svg_command"
   ],
   "note": "Partial correctness in the checked model with the numbers of C117. Where the strokes are, between which the moves lead, is in C128; during strokes the places are those of C128. With the intensity 0 strokes cannot be told from moves, and nothing is claimed."
  },
  {
   "property": "C139",
   "status": "proved",
   "theorems": [
    "StepperPaths.Props.C139_svg_events",
    "StepperPaths.Props.C139_motion",
    "StepperPaths.Props.C139_svg",
    "StepperPaths.Props.C139_dry"
   ],
   "note": "The programs are those of C117. With a device the commands that are sent are compared, in runs that end normally; a device may answer differently to different powers. What the power for an intensity is, is in C121."
  },
  {
   "property": "C140",
   "status": "proved",
   "theorems": [
    "StepperPaths.Props.C140_scan",
    "StepperPaths.Props.C140_raster_events",
    "StepperPaths.Props.C140_raster",
    "StepperPaths.Props.C140_scan_returns",
    "StepperPaths.Props.C140_raster_returns",
    "StepperPaths.Props.C140_dry"
   ],
   "note": "Partial correctness in the checked model with the numbers of C117: for the motion both runs are ones that end normally. That they both have commands to send or both panic before is C140_raster_returns and C140_dry, for bytes and intensities from 0 to 100, which the program checks (C109); with a device it may then also depend on the device. Which pixel has which power is C127."
  },
  {
   "property": "C141",
   "status": "proved",
   "theorems": [
    "StepperPaths.Props.C141_svg",
    "StepperPaths.Props.C141_raster",
    "StepperPaths.Props.C141_any_intensity",
    "StepperPaths.Props.C141_any_picture"
   ],
   "note": "The programs are those of C117. A device that is ready tells its time and accepts each line after any number of refusals (C35); the overflow of its clock is in C118 and left out. A panic does not say how much has been sent before it; if the run without a device panics, the panic is before the first line."
  },
  {
   "property": "C142",
   "status": "proved",
   "theorems": [
    "StepperPaths.Props.C142_svg_events",
    "StepperPaths.Props.C142_svg",
    "StepperPaths.Props.C142_motion"
   ],
   "note": "Partial correctness with the programs of C117: runs that panic, do not end or in which the device reports an error are left out. The repetitions need not be alike, since the first one begins at home; which strokes each draws is in C85 and C128. That a run with fewer repetitions ends does not follow from one with more, since its way home is another one."
  }
 ]
}
import Verif.Props.AccVector
import Verif.Props.AnyDrawing
import Verif.Props.AnyPicture
import Verif.Props.AnySpeed
import Verif.Props.Anything
import Verif.Props.Approx
import Verif.Props.Backwards
import Verif.Props.Bezier
import Verif.Props.BezierPath
import Verif.Props.BezierText
import Verif.Props.BigAcc
import Verif.Props.Checked
import Verif.Props.CheckedMotion
import Verif.Props.CheckedRaster
import Verif.Props.CheckedSvg
import Verif.Props.CommandLine
import Verif.Props.Commands
import Verif.Props.Config
import Verif.Props.ConfigText
import Verif.Props.Control
import Verif.Props.Coords
import Verif.Props.CurvePath
import Verif.Props.Curves
import Verif.Props.CutDocument
import Verif.Props.Draw
import Verif.Props.DrawSpeed
import Verif.Props.Exposure
import Verif.Props.Gauss
import Verif.Props.HalfCircle
import Verif.Props.Home
import Verif.Props.Inside
import Verif.Props.InsideDraw
import Verif.Props.InsideScan
import Verif.Props.IntegerCurve
import Verif.Props.Interrupted
import Verif.Props.Layers
import Verif.Props.Limits
import Verif.Props.LinearCurve
import Verif.Props.LostMove
import Verif.Props.MultiRange
import Verif.Props.NegAcc
import Verif.Props.OneSided
import Verif.Props.Outline
import Verif.Props.Picture
import Verif.Props.Plot
import Verif.Props.Polyline
import Verif.Props.Polynom
import Verif.Props.Power
import Verif.Props.Program
import Verif.Props.Raster
import Verif.Props.RasterProgram
import Verif.Props.Repeats
import Verif.Props.Report
import Verif.Props.Rounded
import Verif.Props.RoundedArcDoc
import Verif.Props.RoundedArcProgram
import Verif.Props.RoundedArcs
import Verif.Props.RoundedBezier
import Verif.Props.RoundedPath
import Verif.Props.RoundedProgram
import Verif.Props.RoundedRaster
import Verif.Props.RoundedStretched
import Verif.Props.RoundedSvg
import Verif.Props.Segments
import Verif.Props.Solve
import Verif.Props.Special
import Verif.Props.SqrtPoly
import Verif.Props.StepperContext
import Verif.Props.Stretched
import Verif.Props.StrokeTime
import Verif.Props.SvgArc
import Verif.Props.SvgDoc
import Verif.Props.SvgIgnored
import Verif.Props.SvgPath
import Verif.Props.SvgText
import Verif.Props.Times
import Verif.Props.Tracking
import Verif.Props.Trial
import Verif.Props.Unused

/-!
Axioms of every theorem named in `MANIFEST.json` (generated by
`tools/gen_manifest.py`; the output appears in the build log).
-/

#print axioms StepperPaths.Props.C01_or_is_union
#print axioms StepperPaths.Props.C01_or_slice_is_union
#print axioms StepperPaths.Props.C01_or_panics_iff
#print axioms StepperPaths.Props.C02_ordered_after_any_history
#print axioms StepperPaths.Props.C02_unchecked_arguments
#print axioms StepperPaths.Props.C03_and_is_intersection
#print axioms StepperPaths.Props.C04_and_range_is_intersection
#print axioms StepperPaths.Props.C05_eq_iff_same_set
#print axioms StepperPaths.Props.C05_insertion_order_irrelevant
#print axioms StepperPaths.Props.C05_and_range_comm
#print axioms StepperPaths.Props.C05_and_range_assoc
#print axioms StepperPaths.Props.C05_empty_range_is_visible
#print axioms StepperPaths.Props.C06_bounds
#print axioms StepperPaths.Props.C07_find_root_boundary
#print axioms StepperPaths.Props.C07_find_root_none_iff
#print axioms StepperPaths.Props.C08_find_roots_none_iff
#print axioms StepperPaths.Props.C08_find_roots_gap
#print axioms StepperPaths.Props.C09_split_acc
#print axioms StepperPaths.Props.C10_distance_is_trapezoid
#print axioms StepperPaths.Props.C11_distance_reached
#print axioms StepperPaths.Props.C12_sequence_realises_path
#print axioms StepperPaths.Props.C13_acceleration_limited
#print axioms StepperPaths.Props.C14_speed_limited
#print axioms StepperPaths.Props.C15_no_panic
#print axioms StepperPaths.Props.C16_synchronised
#print axioms StepperPaths.Props.C16_returns
#print axioms StepperPaths.Props.C16_least_common_duration
#print axioms StepperPaths.Props.C17_lengths_possible
#print axioms StepperPaths.Props.C17_least_length_used
#print axioms StepperPaths.Props.C18_within_one_tick
#print axioms StepperPaths.Props.C18_one_tick_late
#print axioms StepperPaths.Props.C18_excess_unbounded
#print axioms StepperPaths.Props.C19_max_acceleration_curve
#print axioms StepperPaths.Props.C20_push_appends
#print axioms StepperPaths.Props.C20_push_panics_iff
#print axioms StepperPaths.Props.C20_push_history
#print axioms StepperPaths.Props.C21_distance_is_integral
#print axioms StepperPaths.Props.C21_distance_returns
#print axioms StepperPaths.Props.C22_iter_is_suffix
#print axioms StepperPaths.Props.C22_longest_segment_panics
#print axioms StepperPaths.Props.C22_next_after_end_panics
#print axioms StepperPaths.Props.C23_events_reproduce_state
#print axioms StepperPaths.Props.C23_long_interval_wrong
#print axioms StepperPaths.Props.C24_lock_step
#print axioms StepperPaths.Props.C24_acc_takes_effect
#print axioms StepperPaths.Props.C24_weight_takes_effect
#print axioms StepperPaths.Props.C25_parity
#print axioms StepperPaths.Props.C25_arrives
#print axioms StepperPaths.Props.C25_returns
#print axioms StepperPaths.Props.C25_returns_in_time
#print axioms StepperPaths.Props.C26_limits_during_goto
#print axioms StepperPaths.Props.C27_merge_faithful
#print axioms StepperPaths.Props.C28_goto_weight
#print axioms StepperPaths.Props.C28_end_of_events
#print axioms StepperPaths.Props.C29_panics_iff
#print axioms StepperPaths.Props.C29_future_blocks
#print axioms StepperPaths.Props.C30_speed
#print axioms StepperPaths.Props.C30_one_axis
#print axioms StepperPaths.Props.C31_speed_limit
#print axioms StepperPaths.Props.C32_bound
#print axioms StepperPaths.Props.C32_exceeded
#print axioms StepperPaths.Props.C33_reset
#print axioms StepperPaths.Props.C34_repeated_reads
#print axioms StepperPaths.Props.C35_delivers
#print axioms StepperPaths.Props.C35_accepted
#print axioms StepperPaths.Props.C35_returns
#print axioms StepperPaths.Props.C36_error
#print axioms StepperPaths.Props.C36_returns
#print axioms StepperPaths.Props.C36_panics
#print axioms StepperPaths.Props.C37_line
#print axioms StepperPaths.Props.C37_exact
#print axioms StepperPaths.Props.C37_error
#print axioms StepperPaths.Props.C37_hangs
#print axioms StepperPaths.Props.C38_decodes
#print axioms StepperPaths.Props.C38_injective
#print axioms StepperPaths.Props.C38_injective_events
#print axioms StepperPaths.Props.C38_text
#print axioms StepperPaths.Props.C39_composition
#print axioms StepperPaths.Props.C39_assoc
#print axioms StepperPaths.Props.C39_identity
#print axioms StepperPaths.Props.C40_translate_scale
#print axioms StepperPaths.Props.C40_rotate
#print axioms StepperPaths.Props.C40_rotate_around
#print axioms StepperPaths.Props.C40_skew
#print axioms StepperPaths.Props.C40_no_translation
#print axioms StepperPaths.Props.C41_recompose
#print axioms StepperPaths.Props.C41_second_branch_wrong
#print axioms StepperPaths.Props.C41_second_branch_fix
#print axioms StepperPaths.Props.C41_tiny
#print axioms StepperPaths.Props.C42_point
#print axioms StepperPaths.Props.C42_direction
#print axioms StepperPaths.Props.C42_direction_start
#print axioms StepperPaths.Props.C42_direction_end
#print axioms StepperPaths.Props.C42_segment_point
#print axioms StepperPaths.Props.C42_split
#print axioms StepperPaths.Props.C42_coefficients
#print axioms StepperPaths.Props.C43_line
#print axioms StepperPaths.Props.C43_circle
#print axioms StepperPaths.Props.C44_start_direction
#print axioms StepperPaths.Props.C45_length
#print axioms StepperPaths.Props.C45_value
#print axioms StepperPaths.Props.C45_zero_length
#print axioms StepperPaths.Props.C45_search_possible
#print axioms StepperPaths.Props.C45_joined
#print axioms StepperPaths.Props.C46_polyval
#print axioms StepperPaths.Props.C46_polymul
#print axioms StepperPaths.Props.C46_polymul_panics
#print axioms StepperPaths.Props.C46_polyadd
#print axioms StepperPaths.Props.C46_polyder
#print axioms StepperPaths.Props.C46_polyint
#print axioms StepperPaths.Props.C46_polyoffset
#print axioms StepperPaths.Props.C46_polyoffset_returns
#print axioms StepperPaths.Props.C46_polyweight
#print axioms StepperPaths.Props.C47_taylor_sequence
#print axioms StepperPaths.Props.C47_returns
#print axioms StepperPaths.Props.C47_constant_panics
#print axioms StepperPaths.Props.C48_paths
#print axioms StepperPaths.Props.C48_faulty
#print axioms StepperPaths.Props.C48_panics
#print axioms StepperPaths.Props.C48_filtered
#print axioms StepperPaths.Props.C48_broken
#print axioms StepperPaths.Props.C48_foreign_attribute
#print axioms StepperPaths.Props.C49_command
#print axioms StepperPaths.Props.C49_path
#print axioms StepperPaths.Props.C50_relative
#print axioms StepperPaths.Props.C50_capital
#print axioms StepperPaths.Props.C51_rejected
#print axioms StepperPaths.Props.C51_accepted
#print axioms StepperPaths.Props.C51_smooth
#print axioms StepperPaths.Props.C51_close_args
#print axioms StepperPaths.Props.C52_number
#print axioms StepperPaths.Props.C52_number_only
#print axioms StepperPaths.Props.C52_path
#print axioms StepperPaths.Props.C53_terminates
#print axioms StepperPaths.Props.C53_consumes
#print axioms StepperPaths.Props.C54_ok
#print axioms StepperPaths.Props.C54_error
#print axioms StepperPaths.Props.C54_panics
#print axioms StepperPaths.Props.C54_sign_panics
#print axioms StepperPaths.Props.C54_comma_panics
#print axioms StepperPaths.Props.C55_list
#print axioms StepperPaths.Props.C55_only
#print axioms StepperPaths.Props.C55_dropped
#print axioms StepperPaths.Props.C56_row_interval
#print axioms StepperPaths.Props.C56_smallest
#print axioms StepperPaths.Props.C57_lines
#print axioms StepperPaths.Props.C57_only
#print axioms StepperPaths.Props.C57_all
#print axioms StepperPaths.Props.C57_returns
#print axioms StepperPaths.Props.C57_negative
#print axioms StepperPaths.Props.C58_velocity
#print axioms StepperPaths.Props.C58_velocity_option
#print axioms StepperPaths.Props.C58_svg_acceleration
#print axioms StepperPaths.Props.C58_svg_acceleration_option
#print axioms StepperPaths.Props.C58_raster_acceleration
#print axioms StepperPaths.Props.C58_raster_wrong
#print axioms StepperPaths.Props.C59_layer
#print axioms StepperPaths.Props.C59_all
#print axioms StepperPaths.Props.C60_panics_iff
#print axioms StepperPaths.Props.C60_linear
#print axioms StepperPaths.Props.C60_reverse
#print axioms StepperPaths.Props.C60_monotone
#print axioms StepperPaths.Props.C60_polynomial
#print axioms StepperPaths.Props.C61_polar
#print axioms StepperPaths.Props.C61_unit
#print axioms StepperPaths.Props.C61_angles
#print axioms StepperPaths.Props.C61_diff_sign
#print axioms StepperPaths.Props.C61_diff_sign_far
#print axioms StepperPaths.Props.C62_returns
#print axioms StepperPaths.Props.C62_reported_error
#print axioms StepperPaths.Props.C62_weight
#print axioms StepperPaths.Props.C63_goto
#print axioms StepperPaths.Props.C64_draws
#print axioms StepperPaths.Props.C64_draws_all
#print axioms StepperPaths.Props.C64_stroke_points
#print axioms StepperPaths.Props.C64_move_lost
#print axioms StepperPaths.Props.C65_line
#print axioms StepperPaths.Props.C65_arc
#print axioms StepperPaths.Props.C65_ellipse
#print axioms StepperPaths.Props.C65_bezier
#print axioms StepperPaths.Props.C66_no_corner_inside
#print axioms StepperPaths.Props.C66_ends_at_corner
#print axioms StepperPaths.Props.C67_timeline
#print axioms StepperPaths.Props.C68_transform
#print axioms StepperPaths.Props.C69_scale
#print axioms StepperPaths.Props.C69_rotation_lost
#print axioms StepperPaths.Props.C69_wrong_end
#print axioms StepperPaths.Props.C69_mirror
#print axioms StepperPaths.Props.C70_returns
#print axioms StepperPaths.Props.C71_width
#print axioms StepperPaths.Props.C71_height
#print axioms StepperPaths.Props.C71_pitch
#print axioms StepperPaths.Props.C72_nothing_drawn
#print axioms StepperPaths.Props.C73_speed
#print axioms StepperPaths.Props.C73_too_fast
#print axioms StepperPaths.Props.C73_limit_exceeded
#print axioms StepperPaths.Props.C74_returns
#print axioms StepperPaths.Props.C74_eval_int
#print axioms StepperPaths.Props.C74_search
#print axioms StepperPaths.Props.C74_exact
#print axioms StepperPaths.Props.C74_below
#print axioms StepperPaths.Props.C74_low_ignored
#print axioms StepperPaths.Props.C75_find_param
#print axioms StepperPaths.Props.C75_search
#print axioms StepperPaths.Props.C76_returns
#print axioms StepperPaths.Props.C76_length
#print axioms StepperPaths.Props.C76_value
#print axioms StepperPaths.Props.C76_bound
#print axioms StepperPaths.Props.C77_groups
#print axioms StepperPaths.Props.C77_move
#print axioms StepperPaths.Props.C77_line
#print axioms StepperPaths.Props.C77_horizontal
#print axioms StepperPaths.Props.C77_vertical
#print axioms StepperPaths.Props.C77_close
#print axioms StepperPaths.Props.C77_cubic
#print axioms StepperPaths.Props.C77_quadratic
#print axioms StepperPaths.Props.C78_image
#print axioms StepperPaths.Props.C78_singular
#print axioms StepperPaths.Props.C79_arc
#print axioms StepperPaths.Props.C79_zero
#print axioms StepperPaths.Props.C79_circle
#print axioms StepperPaths.Props.C79_turned
#print axioms StepperPaths.Props.C79_turned_wrong
#print axioms StepperPaths.Props.C79_mirror
#print axioms StepperPaths.Props.C80_length
#print axioms StepperPaths.Props.C80_bare
#print axioms StepperPaths.Props.C80_length_only
#print axioms StepperPaths.Props.C80_view_box
#print axioms StepperPaths.Props.C80_view_box_only
#print axioms StepperPaths.Props.C81_independent
#print axioms StepperPaths.Props.C81_separate
#print axioms StepperPaths.Props.C81_joined
#print axioms StepperPaths.Props.C82_single
#print axioms StepperPaths.Props.C82_hangs
#print axioms StepperPaths.Props.C83_roots
#print axioms StepperPaths.Props.C83_zero
#print axioms StepperPaths.Props.C83_quadratic
#print axioms StepperPaths.Props.C83_linear_end
#print axioms StepperPaths.Props.C83_double_missed
#print axioms StepperPaths.Props.C84_length
#print axioms StepperPaths.Props.C84_position
#print axioms StepperPaths.Props.C84_monotone
#print axioms StepperPaths.Props.C85_run
#print axioms StepperPaths.Props.C85_weight
#print axioms StepperPaths.Props.C85_main
#print axioms StepperPaths.Props.C85_returns
#print axioms StepperPaths.Props.C86_size
#print axioms StepperPaths.Props.C86_pitch
#print axioms StepperPaths.Props.C86_burns
#print axioms StepperPaths.Props.C86_main
#print axioms StepperPaths.Props.C86_returns
#print axioms StepperPaths.Props.C87_sequences_sound
#print axioms StepperPaths.Props.C87_sound
#print axioms StepperPaths.Props.C87_synchronised
#print axioms StepperPaths.Props.C87_no_overflow
#print axioms StepperPaths.Props.C87_lengths
#print axioms StepperPaths.Props.C87_curve
#print axioms StepperPaths.Props.C87_distance
#print axioms StepperPaths.Props.C87_returns
#print axioms StepperPaths.Props.C87_overflow
#print axioms StepperPaths.Props.C88_follow
#print axioms StepperPaths.Props.C88_drawing
#print axioms StepperPaths.Props.C88_bends
#print axioms StepperPaths.Props.C88_line
#print axioms StepperPaths.Props.C88_arc
#print axioms StepperPaths.Props.C88_joined
#print axioms StepperPaths.Props.C88_path
#print axioms StepperPaths.Props.C89_sound
#print axioms StepperPaths.Props.C89_curves_sound
#print axioms StepperPaths.Props.C89_interval
#print axioms StepperPaths.Props.C89_speed
#print axioms StepperPaths.Props.C89_goto
#print axioms StepperPaths.Props.C89_draw
#print axioms StepperPaths.Props.C89_gentle
#print axioms StepperPaths.Props.C89_overflow
#print axioms StepperPaths.Props.C90_double
#print axioms StepperPaths.Props.C90_follow
#print axioms StepperPaths.Props.C90_timeline
#print axioms StepperPaths.Props.C90_drawing
#print axioms StepperPaths.Props.C90_line
#print axioms StepperPaths.Props.C91_draws
#print axioms StepperPaths.Props.C91_draws_all
#print axioms StepperPaths.Props.C91_line
#print axioms StepperPaths.Props.C91_no_corner_inside
#print axioms StepperPaths.Props.C91_ends_at_corner
#print axioms StepperPaths.Props.C92_lines
#print axioms StepperPaths.Props.C92_traced
#print axioms StepperPaths.Props.C92_search
#print axioms StepperPaths.Props.C93_path
#print axioms StepperPaths.Props.C93_all_moves
#print axioms StepperPaths.Props.C93_traced
#print axioms StepperPaths.Props.C93_arc
#print axioms StepperPaths.Props.C93_double_odd
#print axioms StepperPaths.Props.C93_ellipse
#print axioms StepperPaths.Props.C94_shape
#print axioms StepperPaths.Props.C94_smooth
#print axioms StepperPaths.Props.C94_near
#print axioms StepperPaths.Props.C94_path
#print axioms StepperPaths.Props.C94_all_moves
#print axioms StepperPaths.Props.C94_traced
#print axioms StepperPaths.Props.C94_tables
#print axioms StepperPaths.Props.C95_document
#print axioms StepperPaths.Props.C95_events
#print axioms StepperPaths.Props.C95_program
#print axioms StepperPaths.Props.C96_lost
#print axioms StepperPaths.Props.C96_program
#print axioms StepperPaths.Props.C96_wrong
#print axioms StepperPaths.Props.C97_near
#print axioms StepperPaths.Props.C97_sign
#print axioms StepperPaths.Props.C97_length
#print axioms StepperPaths.Props.C97_curves
#print axioms StepperPaths.Props.C97_path
#print axioms StepperPaths.Props.C97_all_moves
#print axioms StepperPaths.Props.C97_traced
#print axioms StepperPaths.Props.C98_exact
#print axioms StepperPaths.Props.C98_lib
#print axioms StepperPaths.Props.C98_document
#print axioms StepperPaths.Props.C99_half_circle
#print axioms StepperPaths.Props.C100_exact
#print axioms StepperPaths.Props.C100_velocity
#print axioms StepperPaths.Props.C100_acceleration
#print axioms StepperPaths.Props.C100_events
#print axioms StepperPaths.Props.C100_read
#print axioms StepperPaths.Props.C100_program
#print axioms StepperPaths.Props.C101_ellipse
#print axioms StepperPaths.Props.C101_ellipse_rounded
#print axioms StepperPaths.Props.C101_stretched
#print axioms StepperPaths.Props.C101_view_box
#print axioms StepperPaths.Props.C102_lib
#print axioms StepperPaths.Props.C102_arc
#print axioms StepperPaths.Props.C103_document
#print axioms StepperPaths.Props.C104_program
#print axioms StepperPaths.Props.C105_exact
#print axioms StepperPaths.Props.C105_acceleration
#print axioms StepperPaths.Props.C105_program
#print axioms StepperPaths.Props.C105_pitch
#print axioms StepperPaths.Props.C106_animation
#print axioms StepperPaths.Props.C106_animation_args
#print axioms StepperPaths.Props.C106_curve
#print axioms StepperPaths.Props.C106_curve_args
#print axioms StepperPaths.Props.C107_sound
#print axioms StepperPaths.Props.C107_program_sound
#print axioms StepperPaths.Props.C107_no_overflow
#print axioms StepperPaths.Props.C107_same
#print axioms StepperPaths.Props.C107_program
#print axioms StepperPaths.Props.C108_half_axes
#print axioms StepperPaths.Props.C108_stretched
#print axioms StepperPaths.Props.C108_view_box
#print axioms StepperPaths.Props.C109_unique
#print axioms StepperPaths.Props.C109_refused
#print axioms StepperPaths.Props.C109_svg_first
#print axioms StepperPaths.Props.C109_svg_numbers
#print axioms StepperPaths.Props.C109_svg_program
#print axioms StepperPaths.Props.C109_svg_files
#print axioms StepperPaths.Props.C109_raster_first
#print axioms StepperPaths.Props.C109_raster_numbers
#print axioms StepperPaths.Props.C109_raster_program
#print axioms StepperPaths.Props.C109_ticks
#print axioms StepperPaths.Props.C109_silent
#print axioms StepperPaths.Props.C110_dark
#print axioms StepperPaths.Props.C110_negative
#print axioms StepperPaths.Props.C110_mark
#print axioms StepperPaths.Props.C110_program
#print axioms StepperPaths.Props.C110_speed
#print axioms StepperPaths.Props.C111_text
#print axioms StepperPaths.Props.C111_exact
#print axioms StepperPaths.Props.C111_split
#print axioms StepperPaths.Props.C111_rounded
#print axioms StepperPaths.Props.C111_control
#print axioms StepperPaths.Props.C111_display
#print axioms StepperPaths.Props.C112_json
#print axioms StepperPaths.Props.C112_reads
#print axioms StepperPaths.Props.C112_missing
#print axioms StepperPaths.Props.C112_twice
#print axioms StepperPaths.Props.C112_order
#print axioms StepperPaths.Props.C112_extra
#print axioms StepperPaths.Props.C112_file
#print axioms StepperPaths.Props.C112_device
#print axioms StepperPaths.Props.C112_plain
#print axioms StepperPaths.Props.C113_sound
#print axioms StepperPaths.Props.C113_draw
#print axioms StepperPaths.Props.C113_same
#print axioms StepperPaths.Props.C113_program
#print axioms StepperPaths.Props.C113_ticks
#print axioms StepperPaths.Props.C114_svg
#print axioms StepperPaths.Props.C114_raster
#print axioms StepperPaths.Props.C115_goto
#print axioms StepperPaths.Props.C115_events
#print axioms StepperPaths.Props.C115_limits
#print axioms StepperPaths.Props.C115_svg
#print axioms StepperPaths.Props.C115_raster
#print axioms StepperPaths.Props.C116_goto
#print axioms StepperPaths.Props.C116_moves
#print axioms StepperPaths.Props.C116_scan
#print axioms StepperPaths.Props.C116_draw
#print axioms StepperPaths.Props.C116_limits
#print axioms StepperPaths.Props.C116_svg
#print axioms StepperPaths.Props.C116_raster
#print axioms StepperPaths.Props.C117_finite_svg
#print axioms StepperPaths.Props.C117_finite_raster
#print axioms StepperPaths.Props.C117_speed
#print axioms StepperPaths.Props.C117_moves
#print axioms StepperPaths.Props.C117_speed_command
#print axioms StepperPaths.Props.C117_zero
#print axioms StepperPaths.Props.C117_nan
#print axioms StepperPaths.Props.C117_v_inf
#print axioms StepperPaths.Props.C117_a_inf
#print axioms StepperPaths.Props.C117_fails
#print axioms StepperPaths.Props.C117_raster_speed
#print axioms StepperPaths.Props.C117_raster_nothing
#print axioms StepperPaths.Props.C117_raster_width
#print axioms StepperPaths.Props.C117_raster_height
#print axioms StepperPaths.Props.C117_raster_spot
#print axioms StepperPaths.Props.C118_svg_fits
#print axioms StepperPaths.Props.C118_raster_fits
#print axioms StepperPaths.Props.C118_same
#print axioms StepperPaths.Props.C118_fits
#print axioms StepperPaths.Props.C118_start
#print axioms StepperPaths.Props.C118_late
#print axioms StepperPaths.Props.C118_ticks
#print axioms StepperPaths.Props.C118_context
#print axioms StepperPaths.Props.C118_svg
#print axioms StepperPaths.Props.C118_raster
#print axioms StepperPaths.Props.C119_incenter
#print axioms StepperPaths.Props.C119_intersection
#print axioms StepperPaths.Props.C119_refused
#print axioms StepperPaths.Props.C119_order
#print axioms StepperPaths.Props.C119_line
#print axioms StepperPaths.Props.C119_ccw
#print axioms StepperPaths.Props.C119_cw
#print axioms StepperPaths.Props.C120_eval
#print axioms StepperPaths.Props.C120_area
#print axioms StepperPaths.Props.C120_extend
#print axioms StepperPaths.Props.C120_times
#print axioms StepperPaths.Props.C120_top
#print axioms StepperPaths.Props.C120_path
#print axioms StepperPaths.Props.C121_svg_events
#print axioms StepperPaths.Props.C121_raster_events
#print axioms StepperPaths.Props.C121_svg
#print axioms StepperPaths.Props.C121_raster
#print axioms StepperPaths.Props.C121_svg_command
#print axioms StepperPaths.Props.C121_raster_command
#print axioms StepperPaths.Props.C122_above
#print axioms StepperPaths.Props.C122_below
#print axioms StepperPaths.Props.C122_strokes
#print axioms StepperPaths.Props.C122_line
#print axioms StepperPaths.Props.C123_move
#print axioms StepperPaths.Props.C123_svg_events
#print axioms StepperPaths.Props.C123_raster_events
#print axioms StepperPaths.Props.C123_svg
#print axioms StepperPaths.Props.C123_raster
#print axioms StepperPaths.Props.C124_parity
#print axioms StepperPaths.Props.C124_move
#print axioms StepperPaths.Props.C124_svg_events
#print axioms StepperPaths.Props.C124_raster_events
#print axioms StepperPaths.Props.C124_svg
#print axioms StepperPaths.Props.C124_raster
#print axioms StepperPaths.Props.C124_svg_command
#print axioms StepperPaths.Props.C124_raster_command
#print axioms StepperPaths.Props.C125_directions
#print axioms StepperPaths.Props.C125_svg_events
#print axioms StepperPaths.Props.C125_grid
#print axioms StepperPaths.Props.C125_lines_events
#print axioms StepperPaths.Props.C125_svg
#print axioms StepperPaths.Props.C125_svg_lines
#print axioms StepperPaths.Props.C126_move
#print axioms StepperPaths.Props.C126_scan
#print axioms StepperPaths.Props.C126_fails
#print axioms StepperPaths.Props.C126_raster_events
#print axioms StepperPaths.Props.C126_raster
#print axioms StepperPaths.Props.C126_raster_command
#print axioms StepperPaths.Props.C127_scan
#print axioms StepperPaths.Props.C127_raster_events
#print axioms StepperPaths.Props.C127_raster
#print axioms StepperPaths.Props.C127_raster_command
#print axioms StepperPaths.Props.C127_stands
#print axioms StepperPaths.Props.C127_zero_width
#print axioms StepperPaths.Props.C128_draw
#print axioms StepperPaths.Props.C128_svg_events
#print axioms StepperPaths.Props.C128_svg
#print axioms StepperPaths.Props.C128_svg_command
#print axioms StepperPaths.Props.C128_on
#print axioms StepperPaths.Props.C128_exposure
#print axioms StepperPaths.Props.C128_short
#print axioms StepperPaths.Props.C129_same
#print axioms StepperPaths.Props.C129_after
#print axioms StepperPaths.Props.C129_stays_on
#print axioms StepperPaths.Props.C129_runs_away
#print axioms StepperPaths.Props.C129_cut
#print axioms StepperPaths.Props.C129_svg
#print axioms StepperPaths.Props.C129_raster
#print axioms StepperPaths.Props.C129_unsafe
#print axioms StepperPaths.Props.C130_svg_events
#print axioms StepperPaths.Props.C130_svg
#print axioms StepperPaths.Props.C130_raster_events
#print axioms StepperPaths.Props.C130_raster
#print axioms StepperPaths.Props.C130_svg_device
#print axioms StepperPaths.Props.C130_raster_device
#print axioms StepperPaths.Props.C131_scan
#print axioms StepperPaths.Props.C131_raster_events
#print axioms StepperPaths.Props.C131_raster
#print axioms StepperPaths.Props.C131_raster_command
#print axioms StepperPaths.Props.C131_dose
#print axioms StepperPaths.Props.C131_count
#print axioms StepperPaths.Props.C132_ticks
#print axioms StepperPaths.Props.C132_stroke
#print axioms StepperPaths.Props.C132_length
#print axioms StepperPaths.Props.C132_svg
#print axioms StepperPaths.Props.C133_bare
#print axioms StepperPaths.Props.C133_layer
#print axioms StepperPaths.Props.C133_same
#print axioms StepperPaths.Props.C133_hidden
#print axioms StepperPaths.Props.C133_shape
#print axioms StepperPaths.Props.C133_view_box
#print axioms StepperPaths.Props.C133_command
#print axioms StepperPaths.Props.C134_cut
#print axioms StepperPaths.Props.C134_prefix
#print axioms StepperPaths.Props.C134_bad
#print axioms StepperPaths.Props.C134_svg
#print axioms StepperPaths.Props.C134_moves
#print axioms StepperPaths.Props.C134_blank
#print axioms StepperPaths.Props.C135_layer
#print axioms StepperPaths.Props.C135_cut
#print axioms StepperPaths.Props.C135_no_layers
#print axioms StepperPaths.Props.C135_misspelt
#print axioms StepperPaths.Props.C135_nested
#print axioms StepperPaths.Props.C136_move
#print axioms StepperPaths.Props.C136_rest
#print axioms StepperPaths.Props.C137_move
#print axioms StepperPaths.Props.C137_scan
#print axioms StepperPaths.Props.C137_raster_events
#print axioms StepperPaths.Props.C137_raster
#print axioms StepperPaths.Props.C137_raster_command
#print axioms StepperPaths.Props.C138_svg_events
#print axioms StepperPaths.Props.C138_rest
#print axioms StepperPaths.Props.C138_svg
#print axioms StepperPaths.Props.C138_svg_command
#print axioms StepperPaths.Props.C139_svg_events
#print axioms StepperPaths.Props.C139_motion
#print axioms StepperPaths.Props.C139_svg
#print axioms StepperPaths.Props.C139_dry
#print axioms StepperPaths.Props.C140_scan
#print axioms StepperPaths.Props.C140_raster_events
#print axioms StepperPaths.Props.C140_raster
#print axioms StepperPaths.Props.C140_scan_returns
#print axioms StepperPaths.Props.C140_raster_returns
#print axioms StepperPaths.Props.C140_dry
#print axioms StepperPaths.Props.C141_svg
#print axioms StepperPaths.Props.C141_raster
#print axioms StepperPaths.Props.C141_any_intensity
#print axioms StepperPaths.Props.C141_any_picture
#print axioms StepperPaths.Props.C142_svg_events
#print axioms StepperPaths.Props.C142_svg
#print axioms StepperPaths.Props.C142_motion

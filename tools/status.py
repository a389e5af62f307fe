STATUS = {
"C01": ("proved",""),
"C02": ("proved","`C02_unchecked_arguments` shows that the low <= high precondition is needed for `and` and `range`."),
"C03": ("proved",""),
"C04": ("proved",""),
"C05": ("proved","`C05_empty_range_is_visible` shows why non-empty ranges are required."),
"C06": ("proved",""),
"C07": ("proved",""),
"C08": ("proved",""),
}
STATUS.update({
"C20": ("proved",""),
"C21": ("proved","The i32 overflow checks are modelled; `C21_distance_returns` gives a sufficient bound."),
"C22": ("proved","Includes the two panic corner cases of the iterator."),
})
STATUS.update({
"C09": ("proved",""),
"C10": ("proved",""),
"C11": ("proved","i64 is unbounded in the model; vmax <= 2^59 and |ds| <= 2^62 are assumed, as everywhere in C11-C19."),
"C12": ("proved","Holds whenever acc_seq returns, also above 65535 ticks."),
"C13": ("proved",""),
"C14": ("proved",""),
"C15": ("proved","Panics other than i64 overflow; acc_seq may panic above 65535 ticks."),
"C16": ("proved",""),
"C17": ("proved",""),
"C18": ("proved","`C18_one_tick_late` and `C18_excess_unbounded` refute exact optimality."),
"C19": ("proved",""),
})
STATUS.update({
"C23": ("proved","Positions and tick counts are unbounded in the model, velocities are checked i32. The float part of approx_curve is an arbitrary function."),
"C24": ("proved",""),
"C25": ("proved","i64 is unbounded in the model, see C11."),
"C26": ("proved",""),
"C27": ("proved",""),
"C28": ("proved","The weight during draw_curves is a separate property."),
"C29": ("proved",""),
"C30": ("proved","The original expectation that both axes stay at the same tick is false, see `C30_one_axis`."),
"C31": ("proved","The float computation is an arbitrary i16-valued function of tick and state."),
"C33": ("proved",""),
"C34": ("proved",""),
})
STATUS.update({
"C39": ("proved","Exact real arithmetic, see DESIGN.md."),
"C40": ("proved","Exact real arithmetic."),
"C41": ("proved","Exact real arithmetic. `C41_second_branch_wrong` refutes the claim for the second branch; `C41_second_branch_fix` shows what would work."),
"C43": ("proved","Exact real arithmetic."),
"C44": ("proved","Exact real arithmetic."),
"C45": ("proved","Exact real arithmetic. binary_search_by is modelled by its documented contract: any allowed answer."),
"C61": ("proved","Exact real arithmetic."),
})
STATUS.update({
"C32": ("proved","The original expectation that the limit is kept is false: `C32_exceeded`. Exact real arithmetic for the float part."),
"C62": ("proved","Exact real arithmetic for the float part."),
"C63": ("proved","Exact real arithmetic for the coordinates."),
"C64": ("proved","Exact real arithmetic; the length of a Bezier curve is any function that is positive for curves with different ends. `C64_move_lost` shows that a skipped move can matter."),
"C65": ("proved","Exact real arithmetic; the parameter of a Bezier curve for a given length is an arbitrary function."),
"C66": ("proved","Exact real arithmetic."),
"C67": ("proved","Exact real arithmetic for the coordinates; integers are unbounded."),
"C68": ("proved","Exact real arithmetic."),
"C69": ("proved","Exact real arithmetic. `C69_rotation_lost` and `C69_wrong_end` are findings."),
"C70": ("proved","Exact real arithmetic for the coordinates. A sufficient condition."),
})
STATUS.update({
"C35": ("proved","The port is an arbitrary schedule of reads and writes; times are unbounded integers (checked i64 in C118)."),
"C36": ("proved","`C36_panics` is a finding."),
"C37": ("proved","`C37_hangs` is a finding: end of file is not detected."),
"C38": ("proved",""),
})
STATUS.update({
"C56": ("proved",""),
"C57": ("proved","Conditions of the theorems: |step_y| <= 2^28, scanning speed within the limit of the x axis. u32 arithmetic is checked as in a debug build. `C57_negative` is a finding."),
"C58": ("proved","Exact real arithmetic. `C58_raster_wrong` is a finding: the claim is false for the y acceleration of image_raster."),
"C71": ("proved","Exact real arithmetic."),
"C72": ("proved","Exact real arithmetic for the request. A finding."),
"C73": ("proved","Exact real arithmetic for the request. `C73_limit_exceeded` is a finding."),
})
STATUS.update({
"C60": ("proved","Exact real arithmetic with the decimal constants of the source."),
})
STATUS.update({
    "C46": ("proved", "In exact arithmetic, for coefficient lists of every length, with the exact conditions under which polymul, polyder and polyoffset panic (polyoffset needs at most 19 coefficients, because Pascal's triangle is kept in u16)."),
    "C47": ("proved", "In exact arithmetic, as iterated derivatives, for every polynomial with p(t0) > 0. Returns for every list of two or more coefficients; panics on a one-coefficient list from the third coefficient on."),
})
STATUS.update({
    "C42": ("proved", "In exact arithmetic. The direction is the direction of the velocity where the speed is at least 6e-9, and the fall-back values are the right ones at the ends."),
    "C74": ("proved", "In exact arithmetic, with an explicit error bound, for every answer of the binary search. C74_low_ignored is a finding: build_segments is only right when low is zero, which is how the program calls it."),
    "C75": ("proved", "In exact arithmetic; the bisection stops at a width of 2^-52."),
    "C76": ("proved", "In exact arithmetic, for curves whose velocity is nowhere zero; a zero velocity at an expansion point makes the source divide by zero, which is not modelled."),
})
STATUS.update({
    "C49": ("proved", "In exact arithmetic, for every command but arcs."),
    "C50": ("proved", "In exact arithmetic, including arcs and the first move of a path."),
    "C51": ("proved", "Findings: the smooth curves (s, t) that the text parser accepts are always rejected, and arguments of z are ignored."),
    "C77": ("proved", "In exact arithmetic."),
    "C78": ("proved", "In exact arithmetic."),
    "C79": ("proved", "In exact arithmetic. C79_turned, C79_turned_wrong and C79_mirror are findings: the claim is false for arcs with a rotation argument and for reflections."),
})
STATUS.update({
    "C52": ("proved", "Numbers are exact rationals; the rounding of f64::from_str is not modelled."),
    "C53": ("proved", ""),
    "C54": ("proved", "A finding: the claim as first stated (every malformed text is an Err) is false, the program panics (C54_panics, C54_comma_panics), even for correct paths (C54_sign_panics)."),
    "C55": ("proved", "In exact arithmetic. C55_dropped is a finding."),
    "C80": ("proved", "In exact arithmetic. C80_bare is a finding."),
})

STATUS.update({
    "C48": ("proved", "XML events are the input of the model. Exact arithmetic; view boxes with zero sizes, which give infinities in the source, are outside. C48_broken and C48_foreign_attribute state surprises."),
    "C59": ("proved", ""),
    "C81": ("proved", "C81_joined states the surprise for paths that do not start with a move."),
})
STATUS.update({
    "C82": ("proved", "In exact arithmetic; C82_hangs, a finding, is about f64 numbers with any rounding of sums."),
    "C83": ("proved", "In exact arithmetic. C83_linear_end, C83_double_missed and C83_zero are findings."),
})
STATUS.update({
    "C84": ("proved", "In exact arithmetic, for every split_length that satisfies the stated conditions."),
})

STATUS.update({
    "C85": ("proved", "Exact real arithmetic for the coordinates. Command line parsing, files and opening the port are not modelled."),
})

STATUS.update({"C86": ("proved", "The main program of image_raster from the options and the image to the accepted events, in millimetres. Floats are exact reals.")})
STATUS.update({"C87": ("proved", "A second model of solve.rs and integer_curve.rs in which each i64 operation is checked; shown equal to the unbounded one under the bounds.")})
STATUS.update({"C88": ("proved", "Exact real arithmetic for the float part. A sufficient condition; C32 shows that without one the limit is exceeded.")})
STATUS.update({"C89": ("proved", "A second model of the motion commands in which each i64 operation is checked. Tick counts stay unbounded; the float part is exact.")})
STATUS.update({"C90": ("proved", "A second model of lines, joined curves and draw_curves in which each f64 operation is followed by a rounding function; the conditions on it are shown for rounding to nearest even. No infinities or NaN. Bezier curves and arcs are arbitrary functions here.")})
STATUS.update({"C91": ("proved", "In the rounded model of C90. The directions compared at corners are assumed to have components of at most 2, which holds for lines.")})
STATUS.update({"C92": ("proved", "In the rounded model of C90, for paths of lines. A sufficient condition on speed, scale and line lengths, satisfied by an example with realistic values.")})
STATUS.update({"C93": ("proved", "In the rounded model of C90. For curves that are computed up to a stated error; shown for arcs (C93_arc), and for Bezier curves in C97.")})
STATUS.update({"C94": ("proved", "In exact arithmetic. The binary searches answer by their contract (FromTable); C94_tables shows that such answers exist.")})
STATUS.update({"C95": ("proved", "From the XML events to the accepted commands, in exact arithmetic. Elliptic arcs are not included (C69). The XML reader, files and command line parsing are not modelled.")})
STATUS.update({"C96": ("proved", "A defect of the code, shown for the whole program; it is why C95 excludes moves to where the machine was.")})
STATUS.update({"C97": ("proved", "In the rounded model of C90, extended to Bezier curves. powf, sine and cosine of the library are functions with an error of at most 2^-52; the binary searches answer by their contract, and C97_curves shows that such answers exist. The conditions on a curve are sufficient ones, satisfied by an example.")})
STATUS.update({"C98": ("proved", "A second model of the parsers and transforms with rounding. Paths without arcs (see C99). Numbers are rounded from their decimal value; no infinities or NaN.")})
STATUS.update({"C99": ("proved", "A defect of the code, shown with IEEE rounding to nearest even for one document; about a quarter of the integer radii up to 100 with the scale of inkscape documents are concerned by our calculation, which is not proved.")})
STATUS.update({"C100": ("proved", "For documents without arcs; the mathematical library is assumed accurate to a few units in the last place. The conditions on the computed segments refer to what is parsed (see C98 for how close they are to what is written).")})
STATUS.update({"C101": ("proved", "A limitation of the code (only circles are drawn) that also meets circles of documents whose scales differ in the last digits, e.g. the A4 page of inkscape 0.91. In exact arithmetic; C101_ellipse_rounded is the last step with rounding, and C108 the whole.")})
STATUS.update({"C102": ("proved", "One arc of a circle with even scale; near half circles are excluded (C99), and ellipses are not drawn (C101).")})
STATUS.update({"C103": ("proved", "Documents with arcs of circles in the rounded model of C98. Every element of the document must scale both axes by the same computed factor and not rotate (otherwise see C101); chords near a diameter are excluded through h (C99).")})
STATUS.update({"C104": ("proved", "C100 for documents that may contain arcs of circles, under the conditions of C103.")})
STATUS.update({"C105": ("proved", "Rounded model of image_raster with the products that the exact model leaves out checked; the motion itself is on unbounded integers (see C89). Sizes, spot, speed and scales below 2^-20 are excluded.")})
STATUS.update({"C106": ("proved", "With checked i64, u16 and i32 arithmetic. Speeds above the limit, for which the program may panic or print anything, are left out.")})
STATUS.update({"C107": ("proved", "Checked i64 and i32 arithmetic of the scan and of the moves; tick counts (u64) are unbounded. Machines with speed limits above 2^24 per tick are left out.")})
STATUS.update({"C108": ("proved", "C101 in the rounded model of C98, for transforms without rotation or skew and circles and scales that are not extreme.")})
STATUS.update({"C109": ("proved", "The argument parser of the crate getopts is modelled after its documentation. Options that are infinite or not a number are accepted by the programs; what happens then is in C117.")})
STATUS.update({"C110": ("proved", "In the rounded model; a defect of the code as far as negative speeds are concerned. Lengths of Bezier curves and arcs are assumed not to be negative. A speed of zero is treated in C117.")})
STATUS.update({"C111": ("proved", "Display of f64 is any function whose text is read back as the same number, as its documentation promises; such functions exist (C111_display). Reading with rounding is shown at the origin without a transform; elsewhere see C98.")})
STATUS.update({"C112": ("proved", "The crates serde and serde_json are modelled after their documentation. The conversion of the text of a number to f64 is any partial function. The file is valid UTF-8; the texts of the messages are left out.")})
STATUS.update({"C113": ("proved", "For the paths, machines and documents of C97, C100 and C104, with speeds up to 2^24 and less than 2^31 ticks per second. i64 values in the motion commands, the sums of positions and the percent computation are checked; conversions from f64 saturate.")})
STATUS.update({"C114": ("proved", "Combines C104, C107, C109, C112 and C113. The conversion of the numbers of the configuration is any partial function, that of the options is correct rounding; XML and PNG files are events and grey values, the reading of these formats is not modelled.")})
STATUS.update({"C115": ("proved", "A defect of the code as far as the missing messages are concerned. In the rounded and checked model; options up to 2^100, thresholds with a margin of half a percent. A negative acceleration of the configuration in image_raster is the subject of C126.")})
STATUS.update({"C116": ("proved", "A defect of the code. In the rounded and checked model; options up to 2^100, threshold 32770 instead of 32769. For svg_path the first stroke must start at a positive distance in steps beyond the top speed of one tick; for image_raster the hypotheses are on the computed scanning speed and lines per row.")})
STATUS.update({"C117": ("proved", "A defect of the code as far as the missing messages are concerned. In the rounded and checked model, extended by infinities and not-a-number; finite operations are taken not to overflow, zeros are positive (a draw speed of -0 is left out), the numbers of the configuration are finite. The case of a draw speed of zero is about one stroke that starts on a point of the grid.")})
STATUS.update({"C118": ("proved", "Reachability in C118_ticks is that of C23. For the programs the number of events is a hypothesis (C118_svg_fits, C118_raster_fits).")})
STATUS.update({"C119": ("proved", "Exact arithmetic. The module is commented out in curves/mod.rs.")})
STATUS.update({"C120": ("proved", "Exact arithmetic and unbounded integers. The file is not part of the crate; its unfinished functions are left out.")})
STATUS.update({"C121": ("proved", "Partial correctness: nothing is said about runs that panic, do not end or in which the device reports an error. Numbers as in C117; the position at the end is not stated for arbitrary input (C104, C105 for suitable input).")})
STATUS.update({"C122": ("proved", "A defect of the code. In the rounded and checked model with the numbers of C117; C122_below, C122_strokes and the second part of C122_line say what a run that ends normally has done, the examples show that there are such runs beyond the limit.")})
STATUS.update({"C123": ("proved", "In the rounded and checked model with the numbers of C117. With limits below 1 nothing is computed (C115), for image_raster with a negative limit of the acceleration in the configuration see C126. The acceleration limit while the laser is on is not claimed for svg_path: approx_curve has no such limit (C57, C58).")})
STATUS.update({"C124": ("proved", "As C123: partial correctness in the rounded and checked model with the numbers of C117; for image_raster the limits of the acceleration must not be negative; C126 shows that else no run ends.")})
STATUS.update({"C125": ("proved", "Partial correctness in the rounded and checked model with the numbers of C117 and the rounding of f64. Arcs and Bezier curves are as the program computes them; about the table of lengths of Bezier curves nothing is required. Numbers of the configuration up to 2^390. With --v-max only C125_svg_events and C125_lines_events apply.")})
STATUS.update({"C126": ("proved", "A defect of the code as far as the missing message is concerned. In the checked model with the numbers of C117; that no run ends means that each panics or does not return. svg_path takes the absolute value and is not affected.")})
STATUS.update({"C127": ("proved", "Partial correctness in the checked model with the numbers of C117. A defect of the code as far as the laser may be on at a standstill. Places are in half steps, in terms of the computed numbers of ticks and lines; what these are in millimetres is in C86 and C105.")})
STATUS.update({"C128": ("proved", "Partial correctness in the rounded and checked model with the numbers of C117: runs that panic, do not end or in which the device reports an error are left out. The error is the one that draw_curves returns; how large it is is in C62, C88, C90 and C104. The curves are as the program computes them; how near they are to the segments is in C92, C94, C97 and C102. Speeds other than finite ones do not occur in strokes (C117).")})
STATUS.update({"C129": ("proved", "C129_stays_on, C129_runs_away and C129_unsafe are a defect of the code, as far as the protocol goes: what a device does by itself when no more commands arrive is not modelled. The device is that of the wire model of C35; the programs are those of C117.")})
STATUS.update({"C130": ("proved", "The values that are printed, not the texts; the printed list of segments is left out. As in C121 and C127, pixels are bytes and the intensity is not negative, which the programs check (C109). The errors that svg_path prints are only those of the last repetition: those of the others are lost.")})
STATUS.update({"C131": ("proved", "Strengthens C127, under the same conditions: partial correctness in the checked model with the numbers of C117. Pixels are bytes; for the sums the intensity is not negative, which the program checks (C109).")})
STATUS.update({"C132": ("proved", "Under the conditions of C128. The lengths are those of the curves as the program computes them (C92, C94, C97, C102); that they are not negative is a condition, since the table of lengths of a Bezier curve is arbitrary here.")})
STATUS.update({"C133": ("proved", "C133_hidden, C133_shape and C133_view_box are findings: an SVG viewer shows neither hidden nor defining elements, draws shapes, and moves the drawing by the origin of the view box. The documents are the events of the XML reader; the programs are those of C117.")})
STATUS.update({"C134": ("proved", "C134_cut and C134_svg are a finding: the error is printed, but a damaged drawing is burnt. In the model the XML reader's error is an event; a reader that reports more after an error makes no difference. The programs are those of C117, and drawing is meant as in C128.")})
STATUS.update({"C135": ("proved", "Lifts C59 and C48 to whole runs with rounded numbers (the programs of C117). C135_misspelt is a finding: a label that does not exist is not reported.")})
STATUS.update({"C136": ("proved", "For the states and targets of C25 and C26: calls none of which panics, speeds within the limits. Places and speeds are in half steps. The place at the end is the target or, if parities differ, beside it by one half step (C25).")})
STATUS.update({"C137": ("proved", "Partial correctness in the checked model with the numbers of C117: runs that panic, do not end or in which the device reports an error are left out. Places are in half steps, in terms of the computed numbers of ticks and lines; what these are in millimetres is in C86 and C105. C137_move drops the bounds on distances of C136.")})
STATUS.update({"C138": ("proved", "Partial correctness in the checked model with the numbers of C117. Where the strokes are, between which the moves lead, is in C128; during strokes the places are those of C128. With the intensity 0 strokes cannot be told from moves, and nothing is claimed.")})
STATUS.update({"C139": ("proved", "The programs are those of C117. With a device the commands that are sent are compared, in runs that end normally; a device may answer differently to different powers. What the power for an intensity is, is in C121.")})
STATUS.update({"C140": ("proved", "Partial correctness in the checked model with the numbers of C117: for the motion both runs are ones that end normally. That they both have commands to send or both panic before is C140_raster_returns and C140_dry, for bytes and intensities from 0 to 100, which the program checks (C109); with a device it may then also depend on the device. Which pixel has which power is C127.")})
STATUS.update({"C141": ("proved", "The programs are those of C117. A device that is ready tells its time and accepts each line after any number of refusals (C35); the overflow of its clock is in C118 and left out. A panic does not say how much has been sent before it; if the run without a device panics, the panic is before the first line.")})
STATUS.update({"C142": ("proved", "Partial correctness with the programs of C117: runs that panic, do not end or in which the device reports an error are left out. The repetitions need not be alike, since the first one begins at home; which strokes each draws is in C85 and C128. That a run with fewer repetitions ends does not follow from one with more, since its way home is another one.")})

{"id": "C01", "title": "Adding a range is set union", "statement": "MultiRange::or(low, high) (low <= high) makes the value contain exactly the points it contained before plus every point x with low <= x < high; or_slice does the same for every pair of the slice.", "quantifier": "every MultiRange reachable by any sequence of API calls, every low <= high, every point x, over any linearly ordered element type", "why_tests_cant": "the number of existing ranges, their relative position to the new one and the number merged are unbounded", "anchors": ["src/multi_range.rs: MultiRange::or, MultiRange::or_slice"]}
{"id": "C02", "title": "MultiRange stays ordered, disjoint and gapped", "statement": "Whatever sequence of new/range/or/or_slice/and/and_range calls, with low <= high in every argument pair, built a MultiRange, its ranges are in increasing order, pairwise disjoint and never touch, and each has low <= high.", "quantifier": "every finite history of MultiRange API calls", "why_tests_cant": "an invariant over unbounded call histories", "anchors": ["src/multi_range.rs: MultiRange::{new,range,or,or_slice,and,and_range}"]}
{"id": "C03", "title": "and() is intersection with an interval", "statement": "m.and(low, high) with low <= high contains x iff m contains x and low <= x < high.", "quantifier": "every reachable MultiRange m, every low <= high and x", "why_tests_cant": "unbounded number of ranges and positions", "anchors": ["src/multi_range.rs: MultiRange::and"]}
{"id": "C04", "title": "and_range() is set intersection", "statement": "a.and_range(b) contains x iff both a and b contain x.", "quantifier": "every pair of reachable MultiRanges and every x", "why_tests_cant": "the two-cursor merge walks two unbounded lists; tests cover a handful of interleavings", "anchors": ["src/multi_range.rs: MultiRange::and_range"]}
{"id": "C05", "title": "MultiRange equality is set equality; operations are order independent", "statement": "Two MultiRanges built from non-empty ranges compare equal exactly when they contain the same points; hence or is insensitive to insertion order and and_range is commutative and associative up to ==.", "quantifier": "every pair of reachable MultiRanges with only non-empty ranges, every insertion order", "why_tests_cant": "order independence over all permutations of unbounded insert lists", "anchors": ["src/multi_range.rs: PartialEq for MultiRange, or, and_range"]}
{"id": "C06", "title": "bounds() gives the least element and the supremum", "statement": "bounds() is None iff the MultiRange holds no range; otherwise it returns (l, h) where l is the least contained point and every contained point is < h.", "quantifier": "every reachable MultiRange with non-empty ranges", "why_tests_cant": "unbounded contents", "anchors": ["src/multi_range.rs: MultiRange::bounds, is_empty"]}
{"id": "C07", "title": "find_root returns a boundary point of a*x^2+b*x >= c", "statement": "If find_root(a,b,c,min,max) with min <= max returns Some(x) then min <= x <= max, a*x^2+b*x >= c, and unless equality holds x has a neighbour inside [min,max] that violates the inequality; it returns None iff neither end is an exact root and both ends are on the same side.", "quantifier": "all integers a, b, c and min <= max", "why_tests_cant": "bisection over unbounded intervals", "anchors": ["src/solve.rs: find_root, sqpoly"]}
{"id": "C08", "title": "find_roots brackets exactly the solution gap", "statement": "For a > 0, find_roots(a,b,c) returns None exactly when a*x^2+b*x > c for every real x (negative discriminant); otherwise it terminates and returns (x1,x2) with x1 <= x2, both satisfying a*x^2+b*x >= c, such that every integer strictly between violates it and every integer outside satisfies it.", "quantifier": "all integers a > 0, b, c", "why_tests_cant": "needs convexity of the polynomial over all integers and termination of the doubling search", "anchors": ["src/solve.rs: find_roots"]}
{"id": "C09", "title": "split_acc decomposes a velocity change", "statement": "split_acc(d, m) with m > 0 returns (t, r) with t >= 0, d = sign(d)*t*m + r, r has the sign of d, |r| <= m and r = 0 only if d = 0.", "quantifier": "all integers d and m > 0", "why_tests_cant": "all integers", "anchors": ["src/integer_curve.rs: split_acc"]}
{"id": "C10", "title": "DistancePath::distance is the distance of the velocity profile it denotes", "statement": "distance() of a path with t_adjust = 0 whose ramps fit into t_total equals the distance travelled (sum of start and end speed of every tick) by the profile that clamps vflat between what max acceleration allows from v0 and towards vn.", "quantifier": "all v0, vn, vflat, amax > 0, t_total with room for both ramps", "why_tests_cant": "closed form vs. sum over an unbounded number of ticks", "anchors": ["src/integer_curve.rs: DistancePath::distance, path_distance"]}
{"id": "C11", "title": "shortest_curve reaches the requested distance", "statement": "For a >= 1, vmax >= 1, |v0|,|vn| <= vmax, the path returned by shortest_curve(ds,v0,vn,a,vmax) has |distance() - ds| <= 1, and distance() = ds exactly when ds has the parity of v0+vn.", "quantifier": "all integers ds, v0, vn, a, vmax within the documented limits", "why_tests_cant": "five unbounded integers, piecewise quadratic arithmetic with four different search branches", "anchors": ["src/integer_curve.rs: shortest_curve, adjust_curve, adjust_curve_mid"]}
{"id": "C12", "title": "The acceleration sequence realises the path", "statement": "acc_seq() of a path returned by shortest_curve, played tick by tick from v0, lasts exactly t_total ticks, ends with velocity vn and moves exactly distance(); every segment has a positive interval.", "quantifier": "all integers ds, v0, vn, a, vmax within limits such that the path fits the u16/i16 segment fields", "why_tests_cant": "unbounded durations; the adjustment step can land anywhere in the flat part", "anchors": ["src/integer_curve.rs: DistancePath::acc_seq, shortest_curve"]}
{"id": "C13", "title": "Acceleration never exceeds the limit", "statement": "Every acceleration in the sequence produced for shortest_curve / shortest_curve_sequences has absolute value at most the given a.", "quantifier": "all inputs within limits, every tick", "why_tests_cant": "must hold on every tick of every path", "anchors": ["src/integer_curve.rs: DistancePath::acc_seq, shortest_curve, shortest_curve_sequences"]}
{"id": "C14", "title": "Speed never exceeds the limit", "statement": "While the sequence is played from v0, the velocity stays within [-vmax, vmax] at every tick.", "quantifier": "all inputs within limits, every tick", "why_tests_cant": "must hold on every tick of every path; vmax only enters through the choice of the duration", "anchors": ["src/integer_curve.rs: shortest_curve, shortest_curve_length, speed_limited_curve, DistancePath::acc_seq"]}
{"id": "C15", "title": "shortest_curve and acc_seq never panic inside the limits", "statement": "For a >= 1, vmax >= 1 and |v0|,|vn| <= vmax, shortest_curve returns (no assert, unwrap, division by zero or endless loop); acc_seq of the result returns provided t_total <= 65535 and a <= 32767.", "quantifier": "all inputs within limits", "why_tests_cant": "eleven assertions, six unwraps and four loops, over all integers", "anchors": ["src/integer_curve.rs: shortest_curve, adjust_curve, adjust_curve_mid, max_acceleration_curve, DistancePath::acc_seq"]}
{"id": "C16", "title": "shortest_curve_sequences synchronises all axes", "statement": "For every non-empty list of valid limits, shortest_curve_sequences returns one sequence per limit; all have the same total duration, and each ends at its vn, moves its ds to within one step (exactly if parity allows), and respects its own a and vmax on every tick.", "quantifier": "every list of path limits, of any length, within limits, with duration <= 65535", "why_tests_cant": "unbounded number of axes and values", "anchors": ["src/integer_curve.rs: shortest_curve_sequences"]}
{"id": "C17", "title": "Every duration reported as possible is possible", "statement": "If shortest_curve_length(ds,v0,vn,a,vmax) contains T then a tick sequence of length T exists from v0 to vn that respects a and vmax and moves ds to within one step; the set contains every sufficiently large T; shortest_curve uses the least T in it.", "quantifier": "all inputs within limits, every T", "why_tests_cant": "existence over all tick sequences", "anchors": ["src/integer_curve.rs: shortest_curve_length, max_acceleration_curve, speed_limited_curve"]}
{"id": "C18", "title": "shortest_curve is within one tick of the shortest duration, unless a gap interferes", "statement": "If any tick sequence of n ticks goes from v0 to vn, respects a and vmax and moves exactly ds, and |v0+vn| <= a*n, then shortest_curve's t_total is at most n+1. The stronger claim (never longer than any such sequence) is false: from rest to rest over 2a half steps it takes a tick too many, and keeping the speed v for one tick takes about 4v/a ticks.", "quantifier": "all inputs within limits, all tick sequences", "why_tests_cant": "quantifies over all alternative motions", "anchors": ["src/integer_curve.rs: shortest_curve, max_acceleration_curve"]}
{"id": "C19", "title": "max_acceleration_curve is exactly characterised", "statement": "max_acceleration_curve(ds,v0,vn,a) contains T iff T >= the minimal time to change v0 into vn and the quadratic a^2T^2+2a(v0+vn)T >= (v0-vn)^2+a^2+2a*ds holds at T and at T+1 (so the last T before a forbidden gap is dropped).", "quantifier": "all integers ds, v0, vn, a >= 1, T", "why_tests_cant": "set equality over all integers", "anchors": ["src/integer_curve.rs: max_acceleration_curve"]}
{"id": "C20", "title": "acc_push appends ticks in canonical run-length form", "statement": "acc_push(t, a) appends exactly t ticks of acceleration a to the sequence; starting from an empty vector, any sequence of pushes leaves no empty segment and no two adjacent segments with the same acceleration; it panics exactly when a merged interval would exceed 65535.", "quantifier": "every push history", "why_tests_cant": "unbounded histories", "anchors": ["src/acc_vector.rs: AccVector::acc_push"]}
{"id": "C21", "title": "acc_distance equals tick-by-tick integration", "statement": "acc_distance(v0) returns the distance and final velocity obtained by integrating the expanded sequence one tick at a time (each tick moves start speed + end speed).", "quantifier": "every segment vector and v0", "why_tests_cant": "unbounded lengths", "anchors": ["src/acc_vector.rs: AccVector::acc_distance"]}
{"id": "C22", "title": "acc_iter(t) yields the accelerations from tick t on", "statement": "For a vector of positive intervals with total length <= 65535, acc_iter(t).collect() is the expanded sequence without its first t elements when t is smaller than the total length, and panics otherwise; the only further panic is t = 0 on a first segment of 65535 ticks. Calling next() again after the end panics.", "quantifier": "every segment vector and every t", "why_tests_cant": "unbounded vectors", "anchors": ["src/acc_vector.rs: AccVector::acc_iter, AccIter::next"]}
{"id": "C23", "title": "The event stream reproduces the tracked position and velocity", "statement": "After any sequence of add_acc_interval (interval < 2^31) / add_weight_change / step_goto_speed / step_goto / speed (where the casts to i16 and u16 fit) / approx_curve / set_weight / events / reset calls that does not panic, a controller that plays the emitted events from rest is, at time ticks(), at position() with velocity() on both axes. For intervals of 2^31 ticks or more the tracked velocity is wrong.", "quantifier": "every finite history of calls", "why_tests_cant": "history quantifier; any single mismatch in delta times or in the closed forms accumulates", "anchors": ["src/stepper_context.rs: StepperContext::{add_acc_interval,add_weight_change,step_goto_speed,step_goto,events,reset}, acc_segs_to_events"]}
{"id": "C24", "title": "Both axes stay in lock-step and event times never run backwards", "statement": "After any such history without speed() and with weight changes at the current tick only, both channels are at the same tick, and the sum of the event deltas is neither greater than ticks() nor 2^32 or more less. The commands of add_acc_interval and add_weight_change take effect exactly at the tick they were given for, and nothing earlier changes.", "quantifier": "every finite history of calls", "why_tests_cant": "history quantifier", "anchors": ["src/stepper_context.rs: StepperContext, acc_segs_to_events, events"]}
{"id": "C25", "title": "step_goto_speed arrives, from anywhere, without accumulating error", "statement": "From any reachable state with speeds within limits, step_goto_speed(x,y,vx,vy) with |vx|,|vy| within the limits ends with velocity (vx,vy) and position within one step of (x,y) on each axis, no matter what happened before; the target is met exactly if and only if it has the parity of the requested velocity. The call returns when some common duration of at most 65535 ticks is possible.", "quantifier": "every reachable state and every target", "why_tests_cant": "state and target unbounded; off-by-one must not accumulate over histories", "anchors": ["src/stepper_context.rs: StepperContext::step_goto_speed"]}
{"id": "C26", "title": "Limits hold at every tick of a goto as played by the controller", "statement": "While the events of a step_goto_speed call are played, each axis' acceleration is at most a_max in absolute value and its speed at most v_max, at every tick.", "quantifier": "every reachable state, target and tick", "why_tests_cant": "every tick of every interleaving of the two axes' segments", "anchors": ["src/stepper_context.rs: StepperContext::step_goto_speed, acc_segs_to_events"]}
{"id": "C27", "title": "Merging per-axis sequences into one event stream is faithful", "statement": "The interleaving of per-axis segment lists into one delta-timed event list gives each axis, played back, exactly its own acceleration at each tick, for any number and length of segments.", "quantifier": "every pair of segment lists and every state of the two channels", "why_tests_cant": "all interleavings", "anchors": ["src/stepper_context.rs: StepperContext::acc_segs_to_events"]}
{"id": "C28", "title": "The laser is at move weight during positioning moves and at the end", "statement": "During step_goto_speed the commanded weight is the move weight for the whole move; after events() the last commanded weight is the move weight and both accelerations are zero.", "quantifier": "every history", "why_tests_cant": "history quantifier", "anchors": ["src/stepper_context.rs: StepperContext::step_goto_speed, draw_curves, events"]}
{"id": "C29", "title": "Out-of-order weight changes are rejected", "statement": "add_weight_change(w, when) panics if and only if `when` lies before the current tick; a weight change scheduled after the current tick makes the next motion call and events() panic instead of emitting a wrong delta.", "quantifier": "every reachable state and every when", "why_tests_cant": "all states and times", "anchors": ["src/stepper_context.rs: StepperContext::add_weight_change, add_acc_interval"]}
{"id": "C30", "title": "speed() changes to the requested velocity, but breaks lock-step", "statement": "After speed(vx, vy) the velocity is (vx, vy) and a controller playing the events has, at the tick of each axis, the tracked position and velocity of that axis. ticks() panics afterwards if and only if the two velocity changes take a different number of ticks, e.g. whenever only one axis changes speed.", "quantifier": "every reachable state and requested speed", "why_tests_cant": "all states and speeds", "anchors": ["src/stepper_context.rs: StepperContext::speed"]}
{"id": "C31", "title": "Curve following never exceeds the speed limit", "statement": "If both speeds are within the limits before approx_curve, they are within limits after every tick it emits, for every curve and whatever the floating-point evaluation of the curve returns.", "quantifier": "every curve, every speed, every tick, every result of the float computation", "why_tests_cant": "quantifies over arbitrary curves and float results", "anchors": ["src/stepper_context.rs: StepperContext::approx_curve"]}
{"id": "C32", "title": "Curve following exceeds the acceleration limit, by at most an amount that grows with time", "statement": "The acceleration emitted by approx_curve at its k-th tick (from 0) is at most a_max*(1 + (k+1)/20) + 1/2 in absolute value. There are curves for which this is reached, so the acceleration limit is not kept (the accumulated position error is added after limiting).", "quantifier": "every curve and tick", "why_tests_cant": "the integral term accumulates over an unbounded number of ticks", "anchors": ["src/stepper_context.rs: StepperContext::approx_curve"]}
{"id": "C33", "title": "reset() restores the power-on state", "statement": "After reset(), any further history of calls produces the same events, positions, velocities and ticks as on a freshly created context with the same limits and weight.", "quantifier": "every history before and after", "why_tests_cant": "two unbounded histories", "anchors": ["src/stepper_context.rs: StepperContext::reset, new"]}
{"id": "C34", "title": "events() can be read repeatedly", "statement": "Calling events() repeatedly only appends zero-delay commands: playing the list read later ends in the same position, velocity and time as the list read first.", "quantifier": "every reachable state, any number of calls", "why_tests_cant": "history quantifier", "anchors": ["src/stepper_context.rs: StepperContext::events"]}
{"id": "C35", "title": "Every event is delivered exactly once, in order, at its absolute time", "statement": "Whatever replies OK / queue-full the controller gives, when play_events returns Ok the commands the controller accepted are exactly the events, in order, each stamped with controller time + 128 + the sum of the deltas up to and including it; a command is sent only after the answer to the one before has arrived. It does return Ok if every command is accepted after finitely many queue-full replies.", "quantifier": "every event list, every reply history", "why_tests_cant": "all schedules of queue-full replies and retries", "anchors": ["src/stepper_control.rs: play_events, send_cmds"]}
{"id": "C36", "title": "A controller error stops playback and sends reset", "statement": "If the controller answers anything other than OK or ERR 1, play_events writes R as its last output and returns an error with this answer; if reading fails it returns the read error. In both cases the commands accepted so far are a prefix of the expected ones. The answer to R is not read, so if there is one the next call of play_events takes it for the time, and panics if it is not a number.", "quantifier": "every event list, every reply history", "why_tests_cant": "all failure points", "anchors": ["src/stepper_control.rs: play_events, request_time"]}
{"id": "C37", "title": "Replies are reassembled independent of chunking and timeouts", "statement": "read_reply returns exactly the characters before the next newline, no matter how timeouts and empty reads are interleaved with the bytes, and leaves the following bytes unread; other I/O errors are returned. If reads give nothing for ever, as at end of file, it never returns.", "quantifier": "every interleaving of bytes, timeouts and empty reads", "why_tests_cant": "all I/O schedules", "anchors": ["src/stepper_control.rs: read_reply"]}
{"id": "C38", "title": "The wire format is unambiguous", "statement": "The command text determines the sequence of commands: a decoder recovers channel, time, acceleration and weight of every command from the concatenated bytes sent. It is one line per command, A0 or A1 or L followed by the numbers in plain decimal notation, separated by commas.", "quantifier": "every list of commands", "why_tests_cant": "injectivity over all integers and list lengths", "anchors": ["src/stepper_control.rs: send_cmds"]}
{"id": "C39", "title": "Transform product is composition", "statement": "(A * B) * p = A * (B * p), the product is associative and identity() is neutral, in exact arithmetic.", "quantifier": "all transforms and points", "why_tests_cant": "algebraic law over all reals", "anchors": ["src/coords.rs: Transform Mul, matrix_mul, identity"]}
{"id": "C40", "title": "Elementary transforms do what they say", "statement": "In exact arithmetic translate moves by the vector, scale_xy scales, rotate preserves lengths and composes additively, rotate_around fixes its pivot and equals translate*rotate*translate^-1, skew_x/skew_y shear, no_translation maps differences.", "quantifier": "all angles, points and pivots", "why_tests_cant": "all reals", "anchors": ["src/coords.rs: Transform::{translate,scale,scale_xy,rotate,rotate_around,skew_x,skew_y,no_translation}"]}
{"id": "C41", "title": "decompose() can be recomposed when the first column is not tiny", "statement": "translate * rotate * scale * skew_x * skew_y of decompose()'s result is the original transform, in exact arithmetic, whenever the first matrix column is at least 1e-6 long. If only the second column is, the rotation is taken from the translation and recomposition fails whenever m[2]*m[3] > 0; if neither is, the linear part is dropped and no entry changes by 1e-6 or more.", "quantifier": "every transform", "why_tests_cant": "all matrices; the branch for a vanishing first column is not covered by the tests", "anchors": ["src/coords.rs: Transform::decompose"]}
{"id": "C42", "title": "Bezier evaluation and splitting are correct", "statement": "Bezier::bezier_value(t) and BezierSegment::point(t) equal the Bernstein form; split(t) returns two segments that together trace the same curve; coefficients_from_control/deriv_from_coefficients give the curve's polynomial and its derivative (exact arithmetic).", "quantifier": "all control points and parameters", "why_tests_cant": "identities over all reals", "anchors": ["src/curves/bezier.rs: Bezier::bezier_value, coefficients_from_control, deriv_from_coefficients", "src/curves/bezier_curve.rs: BezierSegment::{point,split}"]}
{"id": "C43", "title": "Line and circle segments satisfy the CurveInfo contract", "statement": "value(0) is the origin, the returned direction has unit length and is the derivative of the position along the curve, for a line value(length()) is the end point, and for a circle segment every value lies on the circle and value(length()) is the point at end_angle (exact arithmetic, positive radius).", "quantifier": "all end points, radii, angles and positions", "why_tests_cant": "all reals", "anchors": ["src/curves/line.rs: Line", "src/curves/circle_segment.rs: CircleSegment", "src/curve_approx.rs: CurveInfo"]}
{"id": "C44", "title": "CircleSegment::new_start_direction hits its end point", "statement": "The segment built from an end point and a start direction starts at the origin in that direction and ends at the given end point, whenever the direction is not parallel to the chord.", "quantifier": "all end points and directions", "why_tests_cant": "all reals; orientation and angle wrap-around cases", "anchors": ["src/curves/circle_segment.rs: CircleSegment::new_start_direction"]}
{"id": "C45", "title": "ConcatCurve glues its parts end to end", "statement": "length() is the sum of the part lengths; value(pos) is the value of the part containing pos, offset by the sum of the end points of the earlier parts; positions beyond the end use the last part.", "quantifier": "every list of curves with positive length and every position", "why_tests_cant": "unbounded lists; binary search", "anchors": ["src/curves/concat_curve.rs: ConcatCurve::{add,length,value}"]}
{"id": "C46", "title": "Polynomial helpers satisfy their algebraic laws", "statement": "polyval of polymul/polyadd/polyoffset/polyweight/polyint/polyder is the product / sum / shifted argument / linear blend / antiderivative / derivative of the operands' values (exact arithmetic).", "quantifier": "all coefficient lists and arguments", "why_tests_cant": "all lengths and coefficients", "anchors": ["src/curves/sqrt_poly.rs: polyval, polymul, polyadd, polyoffset, polyweight, polyint, polyder, binomial_step"]}
{"id": "C47", "title": "taylor_sequence returns the Taylor coefficients of sqrt(polynom)", "statement": "taylor_sequence(p, t0, n)[k] is the k-th derivative of sqrt(p(t)) at t0 divided by k!, wherever p(t0) > 0 (exact arithmetic).", "quantifier": "all polynomials, expansion points and orders", "why_tests_cant": "all polynomials and unbounded order", "anchors": ["src/curves/sqrt_poly.rs: taylor_sequence, diff_sqrt_poly"]}
{"id": "C48", "title": "parse_document composes transforms along the element tree", "statement": "For every well-formed document, parse_document yields the paths of all elements that the filter keeps, in document order, each drawn with t0 times the transforms of its ancestors and itself (and the view box scale of svg elements with non-zero sizes); elements of other namespaces change nothing; elements that are not kept contribute nothing with all their contents; a faulty attribute or a path without d is an error; the transform stack never underflows, so that the only panics are those of parse_path. Two surprises are stated as they are: a document that breaks off is drawn up to there without an error, and attributes are matched whatever their namespace.", "quantifier": "every element tree of any depth, every filter, every initial transform", "why_tests_cant": "unbounded nesting and every combination of filtered, foreign and SVG elements", "anchors": ["src/svg_parser.rs: parse_document"]}
{"id": "C49", "title": "Path geometry commutes with the transform", "statement": "Parsing a path with transform T gives the same segments as parsing it with the identity and transforming the segments by T, for all commands except arcs (exact arithmetic).", "quantifier": "every path command list, context and affine transform", "why_tests_cant": "all command sequences and transforms", "anchors": ["src/svg_path_parser.rs: build_path, parse_path", "src/stepper_context.rs: CurveSegment::transform"]}
{"id": "C50", "title": "Relative and absolute path commands agree", "statement": "Each relative move/line/horizontal/vertical/cubic/quadratic command emits the same segments and final state as its absolute form with the current position added to its coordinates.", "quantifier": "every command, argument list and context", "why_tests_cant": "unbounded argument lists", "anchors": ["src/svg_path_parser.rs: build_path"]}
{"id": "C51", "title": "Malformed argument counts are rejected without side effects", "statement": "build_path returns an error exactly for an unsupported command or a wrong argument count (arc geometry aside), and in that case emits no segment and leaves the pen where it was.", "quantifier": "every command and argument list", "why_tests_cant": "all lengths", "anchors": ["src/svg_path_parser.rs: build_path"]}
{"id": "C52", "title": "Path text round-trips through the parser", "statement": "Parsing the text of a list of commands in SVG syntax (decimal numbers with or without sign, fraction and exponent; comma or white-space separators) does what these commands with these numbers do. Every number is read completely with its exact decimal value (before rounding), and nothing else is read as a number.", "quantifier": "every list of commands and numbers", "why_tests_cant": "all strings of the grammar", "anchors": ["src/svg_path_parser.rs: parser::path_command, parse_path, number"]}
{"id": "C53", "title": "parse_path always terminates", "statement": "Every successful path_command consumes at least one character, so parse_path returns (or panics) on every input string.", "quantifier": "every input string", "why_tests_cant": "all strings", "anchors": ["src/svg_path_parser.rs: parse_path, parser::path_command"]}
{"id": "C54", "title": "Malformed path text is never accepted, but panics instead of being reported", "statement": "parse_path returns Ok exactly for the texts of command sequences that build_path accepts. It returns Err only for a command that build_path rejects. Text that is not a command sequence panics, and so do two correct notations: a signed number that directly follows another number (M1 2-3 4), and (incorrect) trailing commas.", "quantifier": "every input string", "why_tests_cant": "all strings", "anchors": ["src/svg_path_parser.rs: parse_path"]}
{"id": "C55", "title": "Transform lists apply right to left; what follows an unseparated call is dropped", "statement": "parse_transform of a list t1 sep t2 sep ... tn returns the transform that applies tn first and t1 last, each with the meaning of the SVG standard, and it is an error when the text does not start with a call. Finding: text after the last separated call is silently ignored, even if it is a further call without a separator.", "quantifier": "every list of transforms and separators", "why_tests_cant": "unbounded lists", "anchors": ["src/svg_path_parser.rs: parser::transforms, parse_transform"]}
{"id": "C56", "title": "find_row_interval is the tight cover of the selected pixels", "statement": "It returns (start, len) such that exactly the interval [start, start+len) is the smallest one containing all pixels accepted by the filter, and len = 0 iff there is none.", "quantifier": "every row width, content and filter", "why_tests_cant": "all widths", "anchors": ["src/image_raster.rs: find_row_interval"]}
{"id": "C57", "title": "Each pixel is exposed at its own place with its own weight", "statement": "The events of a raster scan, played by the controller, expose every pixel that is not white for res_x ticks in each of its res_y lines with weight (255-pixel)*weight/256 while the head crosses the pixel; whenever the weight is not zero the head is over a pixel with that weight (within one half step); lines alternate in direction, the laser is off between them, the moves keep the limits, and the head ends at rest at the origin. The scan returns when the limits allow each move within 65535 ticks; with negative steps per millimeter on the x axis it panics.", "quantifier": "every image, resolution, speed, line distance, weight and limits", "why_tests_cant": "all rows; the weight change compression must not shift anything", "anchors": ["src/image_raster.rs: main (row loop)", "src/stepper_context.rs: add_acc_interval, add_weight_change"]}
{"id": "C58", "title": "Configured limits are converted per axis", "statement": "The velocity limits of both programs and the acceleration limits of svg_path are the configured ones (or those of --v-max, --a-max), converted with the axis' own steps_per_millimeter and rounded. image_raster converts the acceleration of both axes with the scale of the x axis.", "quantifier": "every configuration and option value", "why_tests_cant": "all configurations; the sample configuration has equal axes", "anchors": ["src/image_raster.rs: main", "src/svg_path.rs: main"]}
{"id": "C59", "title": "Layer filter selects exactly the requested layer", "statement": "With --layer L an element is skipped iff it is an SVG group marked as Inkscape layer whose label is not L.", "quantifier": "every element and attribute list", "why_tests_cant": "all attribute lists and orders", "anchors": ["src/svg_path.rs: main (filter closure)"]}
{"id": "C60", "title": "gauss_quad_integrate is linear and orientation-consistent", "statement": "In exact arithmetic the rule is linear in the integrand, reversing the interval negates the result, and for every n in 2..=8 a polynomial of degree <= 2n-1 is integrated up to a stated tiny relative error of the tabulated constants (1e-10 for n = 2, 3, 1e-15 for n >= 4). Only values inside the interval are used, with positive weights. Any other n panics.", "quantifier": "every interval, integrand and order", "why_tests_cant": "all polynomials", "anchors": ["src/gauss_quadrature.rs: gauss_quad_integrate"]}
{"id": "C61", "title": "Vector angles, lengths and turns", "statement": "length() and angle() are polar coordinates with the angle in (-pi, pi]; unit() has length 1 and the same angle; scalar_mul, cross_mul, diff_sign and angle_cos are the cosine and sine of the angle difference; rotate_90_cw/ccw are the rotations by -pi/2 and pi/2. The documented meaning of diff_sign (negative iff self.angle() < other.angle()) holds for angles less than pi apart and is reversed for angles more than pi apart (exact arithmetic).", "quantifier": "all non-zero vectors", "why_tests_cant": "all reals, including the branch cut of the angle", "anchors": ["src/coords.rs: Vector::{length,unit,angle,scalar_mul,cross_mul,diff_sign,angle_cos,rotate_90_cw,rotate_90_ccw}"]}
{"id": "C62", "title": "approx_curve returns, and reports the greatest deviation", "statement": "approx_curve returns for every curve when the speeds are within the limits, after round(length/v) ticks. The returned error of each axis is the greatest distance, over its ticks, between the position and the (truncated) point of the curve in steps. It does not change the weight.", "quantifier": "every curve, state and speed", "why_tests_cant": "all curves and lengths", "anchors": ["src/stepper_context.rs: StepperContext::approx_curve"]}
{"id": "C63", "title": "goto() arrives at rest", "statement": "After goto(x, y) the velocity is zero and each axis is at most one and a half steps from the given coordinate.", "quantifier": "every reachable state and every target in range", "why_tests_cant": "all states, targets and scales", "anchors": ["src/stepper_context.rs: StepperContext::goto, to_steps"]}
{"id": "C64", "title": "draw_curves draws every segment in its place", "statement": "The pieces drawn by draw_curves are exactly the drawing segments of the list, in order, each in its own shape and starting where the previous segment ended (up to 1e-6 for every closing line that is too short to be drawn). Only moves can be left out, and only when the machine was at their target. Because the machine lags behind the path, such a move may be needed: `C64_move_lost`.", "quantifier": "every list of segments and every state", "why_tests_cant": "all lists of segments", "anchors": ["src/stepper_context.rs: StepperContext::draw_curves, draw_curve, curve_segment_to_info"]}
{"id": "C65", "title": "Segments have their geometric shape", "statement": "Lines are straight and evenly traversed, arcs are arcs of a circle through the current point and evenly traversed, CurveTo is the cubic Bezier curve with control points relative to its ends; arcs with different radii are refused (exact arithmetic).", "quantifier": "all parameters", "why_tests_cant": "all reals", "anchors": ["src/stepper_context.rs: curve_segment_to_info", "src/curves/line.rs", "src/curves/circle_segment.rs", "src/curves/bezier.rs: Bezier::bezier_value"]}
{"id": "C66", "title": "Strokes are interrupted exactly at corners", "statement": "Where two curves meet within a stroke, the cosine of the angle between their directions is at least 0.99619. In a list without moves a stroke ends only where this cosine is smaller.", "quantifier": "every list of segments", "why_tests_cant": "all lists and angles", "anchors": ["src/stepper_context.rs: StepperContext::draw_curves"]}
{"id": "C67", "title": "Each stroke is drawn with the laser on, from its start, at its speed; moves with the laser off", "statement": "While the events of draw_curves are played, every stroke is preceded by a move within the acceleration and speed limits during which the weight is the move weight; it begins within 1.5 steps of its start point and within 1/2 of the wanted velocity; the weight is the curve weight during exactly the ticks of the strokes; the speed limit is kept; and after each tick the machine is as close to the curve as the returned error says, and this error is reached at some tick. At the end the weight is the move weight. Events that were there before are not affected.", "quantifier": "every list of segments, every state and every tick", "why_tests_cant": "unbounded executions", "anchors": ["src/stepper_context.rs: StepperContext::draw_curves, draw_curve, approx_curve"]}
{"id": "C68", "title": "Transforming segments transforms the drawing", "statement": "For moves, lines and Bezier curves, every point of the transformed segment drawn from the transformed position is the transformed point of the original (exact arithmetic).", "quantifier": "every transform, segment and position", "why_tests_cant": "all reals", "anchors": ["src/stepper_context.rs: CurveSegment::transform"]}
{"id": "C69", "title": "Transformed arcs are right for uniform scaling, wrong for rotations, refused for reflections", "statement": "An arc under a translation and positive uniform scaling is drawn as the transformed arc. Under a rotation the arc itself is not rotated, only its start point is, so it ends at the wrong place. A reflected arc is not drawn at all (draw_curves panics).", "quantifier": "every circular arc, scale and angle", "why_tests_cant": "all reals", "anchors": ["src/stepper_context.rs: CurveSegment::transform, curve_segment_to_info"]}
{"id": "C70", "title": "draw_curves returns for paths in reach", "statement": "draw_curves returns without a panic when the points of the path are in a region which the machine can cross within 65535 ticks, also from the end of a stroke.", "quantifier": "every such list of segments and state", "why_tests_cant": "all lists of segments", "anchors": ["src/stepper_context.rs: StepperContext::draw_curves"]}
{"id": "C71", "title": "The raster picture has the requested size", "statement": "Each pixel boundary of the scan lies within one half step per tick of the way from its place in a picture of the requested width, each line within half a half step per line; lines are at most one and a half spot diameters apart.", "quantifier": "every configuration, size, spot diameter, speed and pixel count", "why_tests_cant": "all combinations; rounding of resolution and speed interact", "anchors": ["src/image_raster.rs: main (res_x, v_x, res_y, step_y)"]}
{"id": "C72", "title": "Flat pixels are not drawn at all", "statement": "When a pixel of the requested picture is less than half a spot diameter high, the scan returns without ever turning the laser on, whatever the image.", "quantifier": "every image and request", "why_tests_cant": "a statement about all images and all ticks", "anchors": ["src/image_raster.rs: main (res_y, row loop)"]}
{"id": "C73", "title": "The scanning speed follows the request up to a factor", "statement": "The scanning speed is at most 3/2 of the requested one, up to rounding. When it exceeds the velocity limit of the x axis the program panics as soon as there is a pixel to draw; this happens for requests within the limit.", "quantifier": "every configuration, request and image", "why_tests_cant": "all requests; the violation needs a particular quotient of width and speed", "anchors": ["src/image_raster.rs: main (res_x, v_x)", "src/stepper_context.rs: step_goto_speed"]}
{"id": "C74", "title": "The arc length table is the integral of the speed", "statement": "For p > 0 on [0, high], eval_int(build_segments(p, 0, high, n), t) differs from the integral of sqrt(p) from 0 to t by at most t * M * step^7 / 7!, where step = high/(n+1) and M bounds the seventh derivative of sqrt(p) on [0, high]; it is exact when sqrt(p) is a polynomial of degree at most six; the starts of the segments are strictly increasing; build_segments returns for every polynomial with two or more coefficients. A table with low != 0 is wrong, because the first expansion ignores low.", "quantifier": "all polynomials, intervals, numbers of segments, parameters and answers of the binary search", "why_tests_cant": "an error bound over all polynomials and parameters", "anchors": ["src/curves/sqrt_poly.rs: build_segments, eval_int"]}
{"id": "C75", "title": "find_param inverts the arc length", "statement": "For every length l between 0 and the total length, find_param(l) returns a parameter t and there is t' in [t, t + 2^-52] at which the arc length is l up to the error of C74. When that error is smaller than the speed, the values in the table are strictly increasing and find_param panics exactly for l outside of [0, total].", "quantifier": "all tables and lengths", "why_tests_cant": "unbounded bisection, all polynomials", "anchors": ["src/curves/sqrt_poly.rs: find_param"]}
{"id": "C76", "title": "A Bezier curve is walked by its arc length", "statement": "Bezier::new returns for all control points. For a curve whose velocity is nowhere zero, length() is the arc length up to M*1e-7/7! and value(pos) is the point and direction at a parameter at which (up to 2^-52) the arc length is pos up to the same error, where M bounds the seventh derivative of the speed.", "quantifier": "all control points and positions", "why_tests_cant": "an error bound over all curves", "anchors": ["src/curves/bezier.rs: Bezier::new, CurveInfo for Bezier"]}
{"id": "C77", "title": "Path commands draw the lines and curves of the SVG standard", "statement": "A command with several argument groups is the sequence of its groups (lines after a move). One move/line/horizontal/vertical/close/cubic/quadratic group emits one segment whose points are the transform of the line or Bezier curve defined by the standard from the current point, and leaves the context at its end.", "quantifier": "every argument list, transform and context", "why_tests_cant": "all reals, unbounded groups", "anchors": ["src/svg_path_parser.rs: build_path"]}
{"id": "C78", "title": "transform_ellipse computes the image ellipse", "statement": "For every ellipse with non-zero half axes and every invertible matrix the result describes exactly the image of the ellipse and has positive half axes; a singular matrix panics.", "quantifier": "every ellipse, rotation and 2x2 matrix", "why_tests_cant": "all reals; the tests try a handful of matrices", "anchors": ["src/svg_path_parser.rs: transform_ellipse, mul2x2, invert2x2, transpose2x2"]}
{"id": "C79", "title": "Arc commands join their end points, except with rotation or reflection", "statement": "An arc without rotation emits an arc of the transformed ellipse which joins the current point to the end point with the requested direction and size, or is an error when the ellipse is too small or the arc has no length. Circular arcs under a similarity end exactly at the transformed end point. Findings: with a rotation argument a circular arc ends at the wrong point, and under a reflection its direction is not reversed.", "quantifier": "every arc, flag and transform", "why_tests_cant": "all reals", "anchors": ["src/svg_path_parser.rs: build_path, get_arc_args, transform_ellipse"]}
{"id": "C80", "title": "Lengths and view boxes", "statement": "parse_length returns the number times the unit in millimeters for mm, cm, in, px (taken as 1 mm), pt and pc, and the bare number otherwise; findings: unknown units, percentages and trailing text are ignored. parse_view_box returns the four numbers. Both fail on text that does not start with a number.", "quantifier": "every text", "why_tests_cant": "all strings", "anchors": ["src/svg_path_parser.rs: parse_length, parse_view_box, parser::physical_length, parser::length_unit, parser::view_box_args"]}
{"id": "C81", "title": "Paths are independent when they start with a move", "statement": "parse_document uses one path context for all paths. A path that starts with m or M gives the same result and the same segments whatever was drawn before, so a document of such paths is the concatenation of the drawings of its paths. A path that starts with a relative line is drawn from the end of the path before it (in the coordinates of that path, but with its own transform).", "quantifier": "every path text, transform and state left by earlier paths", "why_tests_cant": "all texts and all earlier contexts", "anchors": ["src/svg_path_parser.rs: PathContext, build_path, parse_path", "src/svg_parser.rs: parse_document"]}
{"id": "C82", "title": "A single root is found by bisection, in a part of the numbers", "statement": "In exact arithmetic find_single_root returns None exactly when the values at the ends of the interval are both positive or both negative, otherwise a number of the interval within 10*EPSILON of a real root in it. With f64 it does not return when the interval starts at or above 16, because there neighbouring numbers are further apart than 10*EPSILON.", "quantifier": "every polynomial and interval; every rounding of sums", "why_tests_cant": "all reals, an unbounded loop; the tests use small intervals", "anchors": ["src/curves/polynom.rs: find_single_root, value, close_to_zero"]}
{"id": "C83", "title": "real_roots returns roots, but not always all of them", "statement": "For every polynomial with at most 128 coefficients, not all zero, real_roots returns at most as many roots as the degree, in order, more than 10*EPSILON apart, each in the range and within 10*EPSILON of a real root; at least one when the signs at the ends of the range differ. All roots of a polynomial of degree two are found. Findings: a root of a polynomial of degree one at an end of the range is missed, double roots from degree three on can be missed, and the zero polynomial has the single root 0 even if this is out of range.", "quantifier": "every polynomial with at most 128 coefficients and every range", "why_tests_cant": "all reals, recursion over the degree", "anchors": ["src/curves/polynom.rs: real_roots, find_roots, deriv"]}
{"id": "C84", "title": "A curve with estimated lengths is walked by its length", "statement": "For every split_length whose estimates are right up to delta per unit of the parameter, whose pieces shrink by a factor and which returns the lengths of short pieces, LinearCurve::new returns and length() is the length of the curve up to delta times the range. position(s) returns after any earlier calls, which do not influence its result, a parameter in the range at which the length is s up to 0.00001 and three times that error; it grows with s and is the start or the end for positions outside of the curve.", "quantifier": "every curve, estimate, range and sequence of calls", "why_tests_cant": "the tree grows while it is used; all curves and all sequences of calls", "anchors": ["src/curves/linear_curve.rs: LinearCurve::new, length, position, node_length, node_pos"]}
{"id": "C85", "title": "svg_path draws the picture as often as asked, comes home, and tells the controller exactly that", "statement": "For every picture that begins with a move and stays in reach, main of svg_path computes events which, played by the controller, draw the picture n times, each pass as draw_curves promises, then return with the laser off and within the limits, and leave the machine at rest exactly at the origin with the laser off. The weight for p percent is the share of 254 rounded down. When the program ends normally the controller has accepted exactly these events, in order; it ends with a message and without a word to the controller exactly when the repeats or the intensity are out of range; it ends normally when the controller accepts every event after any number of queue-full replies.", "quantifier": "every picture, configuration, number of repeats, intensity and behaviour of the controller", "why_tests_cant": "the state after a pass is the start of the next one; all pictures and all numbers of passes", "anchors": ["src/svg_path.rs: main"]}
{"id": "C86", "title": "image_raster burns the image in the requested size", "statement": "When image_raster ends normally, the controller has accepted exactly the computed events, in order, 128 ticks after the time it reported. With these events the laser is on only while the head is inside a pixel of the picture, on one of its lines, with the power for the grey value of this pixel; each pixel that is not white is crossed from one edge to the other in each of its lines with this power; and in the end the head rests exactly at the origin with the laser off. Here pixels and lines are the equal parts of the width and height in millimetres. The tolerance is one half step for each tick of a line in x, half a half step for each line in y, and one more half step each. A width or height that is given is kept, and the proportions of the image are kept unless both are given; without both the width is 20 mm. The lines are about as far apart as the spot is wide (0.2 mm unless given) and the head crosses the picture with about the drawing speed (20 mm/s unless given), each from half to one and a half times. An intensity outside 0 to 100 ends the program with a message before anything is sent.", "quantifier": "for all configurations with positive limits, options, images, and controllers", "why_tests_cant": "The images, sizes and controllers are unbounded, and no test covers the program; the result combines the rounding of four parameters with the motion of all lines.", "anchors": ["src/image_raster.rs:116-357"]}
{"id": "C87", "title": "The curve arithmetic stays inside i64", "statement": "For limits with acceleration 1 to 2^15, speeds up to 2^27 and distances up to 2^40, shortest_curve_sequences and shortest_curve_length compute without an overflow of i64 what they would compute with unbounded integers, and so does shortest_curve for curves of at most 2^18 ticks. Whatever the arguments are, a run that does not overflow returns the result of unbounded integers, so the sequences realise their limits. The sizes matter: reversing from the largest i32 speed panics in shortest_curve although a curve exists.", "quantifier": "for all limits; the first part for all limits of the given size", "why_tests_cant": "The products of squares of speeds and durations overflow only for rare combinations of large arguments; a test cannot try them all, and in a release build an overflow passes silently.", "anchors": ["src/solve.rs:11-93", "src/integer_curve.rs:139-244", "src/integer_curve.rs:270-347", "src/integer_curve.rs:352-608"]}
{"id": "C88", "title": "Slow curves are followed within a few steps and within the acceleration limit", "statement": "Call a curve gentle of size S when from tick to tick its wanted speed changes by at most S/4 half steps per tick and its wanted position moves with that speed up to S/2 steps. On a gentle curve approx_curve stays within 3.82 S steps of the wanted position and never accelerates by more than 3.01 S, however long the curve is. So draw_curves of gentle strokes reports an error of at most 3.82 S + 1 and keeps the acceleration limit at every tick when it is at least 3.01 S. Paths whose parts bend slowly are gentle: lines do not bend, arcs bend by the inverse of their radius, and joints that are not taken for corners turn by less than 0.0873; for such a path in reach, S is given by the speed and the bending alone.", "quantifier": "for all curves, paths, speeds and machine limits with the stated margins", "why_tests_cant": "The control loop feeds back its own errors; that they do not build up is a statement about all lengths of curves and all histories of the rounding.", "anchors": ["src/stepper_context.rs:400-464", "src/stepper_context.rs:467-541"]}
{"id": "C89", "title": "The machine position stays inside i64", "statement": "A motion command that returns has computed the events and the state that unbounded integers would give, whatever the arguments are. No i64 operation overflows in add_acc_interval for positions up to 2^62 and intervals up to 2^23 ticks, in speed for positions up to 2^61, in step_goto_speed for positions up to 2^61 and limits as in C87, and in draw_curves for a path in reach (C70) and speeds up to 2^24 when the error it reports is at most 2^60; paths of slow curves (C88) report less. Longer intervals do overflow: accelerating from rest by 1 for at least 3037000500 ticks panics in a debug build.", "quantifier": "for all states, arguments and paths; the second part for those of the given size", "why_tests_cant": "The position accumulates over the whole job, and the products in it overflow only far from the origin or for long intervals; tests run short jobs near zero.", "anchors": ["src/stepper_context.rs:189-209", "src/stepper_context.rs:310-398", "src/stepper_context.rs:400-565", "src/acc_vector.rs:106-119"]}
{"id": "C90", "title": "Rounding does not spoil the drawing", "statement": "Let every f64 operation of draw_curves, of lines and of joined curves be rounded, as to the nearest f64 value. Then each stroke is still preceded by a move to its start with the laser off, the laser is on during exactly the ticks of the strokes, the speed limits are kept at every tick, and the returned error is the largest distance after a tick between the position and the computed point. Where the computed points and speeds change slowly, as in C88, they are followed within 3.83 S steps and the acceleration limit is kept, for up to 2^31 ticks. In particular a line of up to 2^30 ticks and within 2^31 steps is drawn: the call returns, and after k of n ticks the machine is within 3.84 S steps of the point that divides the exact line from its old position to the end in the proportion k to n - k.", "quantifier": "for all rounding functions with relative error 2^-53, paths, curves, speeds and machine limits with the stated margins", "why_tests_cant": "Rounding errors depend on every bit of the arguments and feed back through the control loop; a test tries a few paths of short duration and cannot exclude a build-up.", "anchors": ["src/stepper_context.rs:287-307", "src/stepper_context.rs:400-464", "src/stepper_context.rs:467-565", "src/coords.rs:10-29", "src/coords.rs:114-153"]}
{"id": "C91", "title": "Rounding does not change which strokes are drawn", "statement": "Let every f64 operation of draw_curves, of lines and of joined curves be rounded. Then draw_curves still draws exactly the given segments in the given order, each from the end of the one before; only closing lines of at most 0.000001000001 are left out, and all those below 0.000000999999 are. Moves are left out only when the machine is at their rounded target. Each stroke starts where its first segment does, up to 0.000001000001 for each closing line that is left out. Strokes have no corner inside and, without moves, end only at corners, where a corner is a cosine below 0.99619 up to 10^-12. The computed length, direction and points of a line differ from the exact ones by a few units in the last place.", "quantifier": "for all rounding functions with relative error 2^-53, segment lists, speeds, contexts and answers for Bezier curves and arcs", "why_tests_cant": "Comparisons of rounded values go wrong only for particular bit patterns next to the limits, which tests do not hit.", "anchors": ["src/stepper_context.rs:101-128", "src/stepper_context.rs:492-565", "src/coords.rs:10-29"]}
{"id": "C92", "title": "With rounding, a path of lines is burnt where it should be", "statement": "Let every f64 operation be rounded and let a path consist of lines, moves and closing lines, each line lasting a few ticks or a closing line too short to be drawn. If machine limits and speed leave a stated margin, draw_curves returns and reports an error of at most 3.83 S + 1 steps, for a margin S of at least one step per tick squared. The laser is on only within 3.86 S steps of a line that was asked for, and comes as close, up to 1.3 ticks of movement, to every point of every such line. It is off during moves and in the end, each stroke lasts as long as the speed says up to half a tick, and no tick exceeds the limits of speed and acceleration.", "quantifier": "for all rounding functions with relative error 2^-53, paths of lines, speeds, scales, contexts and machine limits with the stated margins", "why_tests_cant": "Which ticks a rounded path takes depends on the accumulated rounding of all its lines; tests compare a few paths on one machine.", "anchors": ["src/stepper_context.rs:101-128", "src/stepper_context.rs:492-565", "src/coords.rs:10-29", "src/stepper_context.rs:400-464", "src/integer_curve.rs:534-589"]}
{"id": "C93", "title": "With rounding, a path of lines, arcs and other smooth curves is burnt where it should be", "statement": "Let every f64 operation be rounded and let a path consist of lines, moves, closing lines and curves, each lasting a few ticks. Let the curves have a bounded curvature and be computed up to a small error in length, point and direction. If machine limits and speed leave a stated margin, draw_curves returns, the laser is on only within 3.86 S steps (and the rounding) of a line or curve that was asked for, and it comes as close, up to 1.3 ticks of movement, to every point of every line and curve. The limits of speed and acceleration are kept at every tick. No move is left out unless it leads to within about 3.87 S steps of the start or of where an earlier line or curve ended. Circle arcs are computed that well if sine and cosine of the library are off by at most 2^-52 and neither radius nor angles are extreme.", "quantifier": "for all rounding functions with relative error 2^-53, paths, curves, speeds, scales, contexts and machine limits with the stated margins", "why_tests_cant": "Whether a curve is followed depends on its curvature, the speed and the accumulated rounding at each of its ticks; tests compare a few curves by eye.", "anchors": ["src/stepper_context.rs:101-128", "src/stepper_context.rs:492-565", "src/stepper_context.rs:400-464", "src/curves/circle_segment.rs:14-92", "src/curves/concat_curve.rs:32-90"]}
{"id": "C94", "title": "A path of lines, arcs and Bezier curves is burnt where it should be", "statement": "Let a path consist of moves, lines, closing lines, circle arcs and cubic Bezier curves, each lasting a few ticks, and let no Bezier curve stop or nearly stop. In exact arithmetic, the table of Taylor polynomials that Bezier::new builds finds, for any length, the point of the Bernstein polynomial at that arc length, up to M/(10^7 7!) + U/2^52, where U bounds the speed and M its seventh derivative; and the direction up to the curvature times that. Hence, if machine limits and speed leave a stated margin for the curvature, draw_curves returns, keeps the limits of speed and acceleration at every tick, has the laser on only within 3.86 S steps (and the stated error) of a line, arc or Bezier curve of the path, and comes as close, up to 1.3 ticks of movement, to every point of these. No move is left out unless it leads to within about 3.87 S steps of the start or of where an earlier line or curve ended.", "quantifier": "for all paths, control points, radii, angles, speeds, scales, contexts and machine limits with the stated margins", "why_tests_cant": "The length of a Bezier curve has no closed form; tests can only compare a few curves with numerical integration, and not at every tick.", "anchors": ["src/stepper_context.rs:101-128", "src/stepper_context.rs:492-565", "src/stepper_context.rs:400-464", "src/curves/bezier.rs:1-75", "src/curves/sqrt_poly.rs: build_segments, find_param", "src/curves/circle_segment.rs:14-92", "src/curves/concat_curve.rs:32-90"]}
{"id": "C95", "title": "The program svg_path burns the document", "statement": "Let a document contain path elements whose texts begin with a move and consist of moves, lines, quadratic and cubic Bezier curves, closing lines and arcs of circles, absolute or relative, and let groups with transforms, which with arcs only turn, move and scale alike, surround them. If the limits of the machine leave a stated margin for the curvature at the drawing speed, and no move but the first leads to where the machine is or to where an earlier line or curve ended, svg_path computes events which, played by the controller, burn the transformed curves that the SVG standard defines, as often as the repeat option says: in each pass the laser is off or has the power of the intensity option, it is on only near a point of the picture, and close to every point of the picture, except for curves of about a step, there is a tick where it is on; near is 3.86 S steps and a stated error, close is that and 1.3 ticks of movement. The limits of speed and acceleration are kept at every tick. After the last pass the laser stays off and the machine returns to the origin and rests there. When the program ends normally the controller has accepted exactly these events, and it does end normally if the controller reports its time and accepts each event, after any number of queue-full replies.", "quantifier": "for all documents, layers, transforms, configurations, options and controllers with the stated margins; in exact arithmetic", "why_tests_cant": "This joins the parser, the transforms, the curves, the motion control and the protocol; a test of the whole program needs a machine and checks one document.", "anchors": ["src/svg_path.rs:106-292", "src/svg_parser.rs:18-152", "src/svg_path_parser.rs", "src/stepper_context.rs:492-565", "src/stepper_context.rs:400-464", "src/stepper_control.rs"]}
{"id": "C96", "title": "A move to where the machine still is gets lost", "statement": "The machine moves only when lines are drawn, later than they are read. Let a path begin with a move and one line, curve or arc, followed by a move to the place (in whole steps) where the machine was before draw_curves. Then that move has no effect: draw_curves does the same as for the path without it, and what follows is drawn from the end of the first line. Hence svg_path, for a document of this kind with a move to the origin, sends the same commands as for the document without the move. For `M10,0L30,0M0,0L0,40`, which means one line on each axis, the laser is on at (15 mm, 20 mm).", "quantifier": "for all contexts, curves, speeds, following segments, configurations, options and controllers", "why_tests_cant": "The tests of draw_curves draw one connected path; the error depends on where the machine was before the path.", "anchors": ["src/stepper_context.rs:512-522", "src/stepper_context.rs:492-565", "src/svg_path.rs:259-292"]}
{"id": "C97", "title": "With rounded arithmetic, paths with Bezier curves are drawn as they should be", "statement": "Let every f64 operation be followed by a rounding with a relative error of 2^-53. For a Bezier curve whose speed, control points and derivatives are within stated bounds, Bezier::new builds its table, length() differs from the arc length by at most a stated small error (about 4 nanometres for a curve of 40 mm), and value(s) is for each s within such an error of the point and the direction at the arc length s, and stays at the ends beyond these; eval_int is as close to the length up to any parameter. Hence draw_curves returns for a path of lines, circle arcs and such Bezier curves that keeps the conditions of C93; while the laser is on the machine is close to a point of the path, and each point of the path is burnt.", "quantifier": "for all rounding functions with that error, library functions with an error of one unit in the last place, curves, paths, speeds and machines within the stated conditions", "why_tests_cant": "The tests of bezier.rs and sqrt_poly.rs compare a few values with a tolerance; they bound no error for other curves.", "anchors": ["src/curves/bezier.rs:12-92", "src/curves/sqrt_poly.rs:1-330", "src/stepper_context.rs:100-135", "src/stepper_context.rs:492-565"]}
{"id": "C98", "title": "With rounded arithmetic, documents are read as they are written", "statement": "Let every f64 operation be followed by a rounding with a relative error of 2^-53, and let sine, cosine and tangent of the library be off by a few units in the last place. For a document whose path elements consist of moves, lines, quadratic and cubic Bezier curves and closing lines, absolute or relative, within groups with any transforms, widths, heights and view boxes that are not extreme, parse_document returns as many lines and curves as the document has, in the same order, and each is at every parameter within a bound of the transformed curve of the SVG standard; the bound is 6 (12 t + n + 10) 2^-52 times a bound of the coordinates, for t transforms around a path of n numbers (below 1e-10 mm for the example). Without rounding the model is the exact one for every document.", "quantifier": "for all rounding functions with that error, library functions, documents, transforms, layers and paths without arcs within the stated conditions", "why_tests_cant": "Relative coordinates and nested transforms accumulate rounding errors over the whole path; the tests of the parser use small integers, which are exact.", "anchors": ["src/svg_parser.rs:18-152", "src/svg_path_parser.rs", "src/coords.rs:190-345"]}
{"id": "C99", "title": "A half circle may be refused because of rounding", "statement": "Arcs are specified by their end points and radii, and a half circle has a radius of exactly half the distance of its end points. The radii of the transformed ellipse are computed by inverting squares, and if they come out below half of the distance the arc is refused. For a document with the path `M0,0A31,31,0,0,1,62,0`, without any transforms, the exact reading gives the half circle, but with f64 arithmetic the radius becomes 31 - 2^-48, and parse_document fails with \"Ellipse too small for given endpoints of arc\". The SVG standard requires to scale up radii that are too small.", "quantifier": "for all library functions that are exact at zero; a counterexample to the reading of all valid arcs", "why_tests_cant": "The tests use a few radii, such as 50 or 100, for which the rounded radius is not too small; it depends on the last bit for each radius.", "anchors": ["src/svg_path_parser.rs:417-468", "src/svg_path_parser.rs:700-770"]}
{"id": "C100", "title": "The program svg_path burns the document, with rounded arithmetic from beginning to end", "statement": "Let every f64 operation be followed by a rounding with a relative error of 2^-53. The limits of speed and acceleration that svg_path computes from its configuration and its options are within one step (half a step for values from the configuration), plus 1/1000, of the exact values. For a document with lines and Bezier curves that is not extreme, and limits that suffice, there is a sequence of events such that a controller that plays it burns, as often as requested, every point of every line and curve, and nothing else, within a few steps; moves between strokes are made with the laser off; velocity and acceleration never exceed the limits; at the end the laser is off and the machine at rest at the origin. When the program ends normally the controller has accepted exactly these events in order, and it does end normally if the controller reports its time and accepts every event, after any number of queue-full replies. Without rounding the model is the exact one.", "quantifier": "for all rounding functions with that error, library functions, configurations, options, documents and controllers within the stated conditions", "why_tests_cant": "Rounding happens in every part, from the numbers of the document to the position of each tick, and the errors of tens of thousands of ticks could add up; tests can at most compare a few outputs.", "anchors": ["src/svg_path.rs:106-292", "src/stepper_context.rs:492-640", "src/svg_path_parser.rs", "src/svg_parser.rs:18-152", "src/coords.rs"]}
{"id": "C101", "title": "Circles in documents that are not scaled evenly make svg_path panic", "statement": "A path that contains, anywhere, an arc with half axes that differ by more than 2^-52 cannot be drawn: draw_curves panics. Therefore, whatever the configuration, the options and the device are, svg_path panics, before anything is sent, for every document that contains an arc of a circle of radius r in a place where the transforms and view boxes together scale two directions with factors whose difference is more than 2^-52 / r. In particular this holds for every document whose width and height are not exactly in the ratio of those of its view box, such as the A4 page of inkscape 0.91, width 210mm, height 297mm, view box 0 0 744.09448819 1052.3622047.", "quantifier": "for all documents, paths, transforms, radii, configurations, options and devices", "why_tests_cant": "Tests use documents with even scales; the difference of the scales is in the eleventh digit here, and whether a panic follows depends on exact properties of products of transforms.", "anchors": ["src/stepper_context.rs:116-126", "src/stepper_context.rs:508-562", "src/svg_path_parser.rs:417-468", "src/svg_parser.rs:60-110", "src/svg_path.rs:258-292"]}
{"id": "C102", "title": "The computed arcs of circles are close to the true ones", "statement": "Let every f64 operation be followed by a rounding with a relative error of 2^-53, let sin and cos be exact at zero and atan2 accurate to 2^-50. For a circle with a radius r that is scaled evenly by s, both between 2^-20 and 2^20, and a chord that is at least r s / 2^10 long and not longer than sqrt(1 - 1/h^2) times the diameter (h at most 2^10), the path builder gives an arc with two equal radii within 2^-46 of r s, no point of which is farther than h 2^-26 r s from the arc of the scaled circle over that chord that is as large as it is said to be and goes in the given direction.", "quantifier": "for all rounding functions with that error, library functions, radii, scales, chords and flags within the stated conditions", "why_tests_cant": "The radius is computed by inverting squares, and the angles through a quotient of differences that cancel when the chord is close to a diameter; near the comparisons with a half turn a small error could choose another arc. Tests compare single arcs.", "anchors": ["src/svg_path_parser.rs:417-468", "src/svg_path_parser.rs:700-803"]}
{"id": "C103", "title": "Documents with arcs of circles are read closely with rounded arithmetic", "statement": "Let every f64 operation be followed by a rounding with a relative error of 2^-53, with sine, cosine, tangent, powers and atan2 of the library accurate to a few units. For a document whose paths mean some lines, curves and arcs of circles, whose elements scale both axes by the same computed factor, and whose arcs are neither very short nor have chords close to a diameter, parse_document gives exactly as many segments to draw as there are lines, curves and arcs, in the same order, and none of them is at any point farther from the meant one than a bound that follows from the sizes of the numbers, the nesting and the sizes of the arcs. The errors of arcs, whose end is where the next segment starts, add up.", "quantifier": "for all rounding functions with that error, library functions, documents and layer filters within the stated conditions", "why_tests_cant": "An arc is only stored by its radius and angles, so an error in one arc moves every later segment; tests compare single arcs or paths.", "anchors": ["src/svg_path_parser.rs:417-468", "src/svg_path_parser.rs:700-803", "src/svg_path_parser.rs:820-1010", "src/svg_parser.rs:18-152"]}
{"id": "C104", "title": "The program svg_path burns documents with arcs of circles, with rounded arithmetic from beginning to end", "statement": "Everything that C100 says, for documents that may also contain arcs of circles, as in C103: there is a sequence of events such that a controller that plays it burns every point of every line, curve and arc and nothing else, within a few steps, respects the limits of velocity and acceleration, and ends at rest at the origin with the laser off; when the program ends normally exactly these events were accepted, and it does end normally if the controller answers.", "quantifier": "for all rounding functions with that error, library functions, configurations, options, documents and controllers within the stated conditions", "why_tests_cant": "Errors of reading the document, of computing the arcs, of following them tick by tick, and of the closed position control would have to be observed together.", "anchors": ["src/svg_path.rs:106-292", "src/stepper_context.rs:492-640", "src/svg_path_parser.rs", "src/svg_parser.rs:18-152", "src/coords.rs"]}
{"id": "C105", "title": "The program image_raster burns the picture with rounded arithmetic and checked products", "statement": "Let every f64 operation be followed by a rounding with a relative error of 2^-53, and let the u32 and i64 products of main panic on overflow. For a picture, options and a configuration such that the speed limit is at least one and a half times the drawing speed and the picture is small enough for the machine, image_raster computes a sequence of events such that a controller that plays it burns every pixel that is not white and nothing else, in the requested size and with the power for its grey value, and ends at rest at the origin with the laser off; the tolerances are one half step for each tick of a line, and half a one for each line. The number of lines per row is the height of a row divided by the spot, up to a half. When the program ends normally the controller has accepted exactly these events, and it does end normally if the controller answers.", "quantifier": "for all rounding functions with that error, configurations, options, pictures and controllers within the stated conditions", "why_tests_cant": "The sizes, speeds and numbers of ticks come from chains of rounded divisions whose results are rounded to integers and multiplied again; a test sees a few of them, on one platform, and not what is burnt.", "anchors": ["src/image_raster.rs:120-156", "src/image_raster.rs:237-357", "src/stepper_context.rs:189-209", "src/stepper_context.rs:310-398"]}
{"id": "C106", "title": "paths and animate_curve print curves that keep the limits and move the distance", "statement": "For speeds within the limit, an acceleration of at most 32767 and limits with which every speed can be changed within 65535 ticks, animate_curve prints an Asymptote program with an array of 140 paths and an array of the distances -70 to 69. Each path starts at time zero with the first velocity, ends with the second one, is nowhere steeper than the acceleration and nowhere beyond the speed limit; twice the area under it is the distance (or differs by one, exactly if the parities do not match), and its duration is at most one tick longer than that of any other such curve. paths prints the data of such a curve for speeds up to 10 and distances up to 655350, with the distance it moves. Both panic if an argument is missing or is not a decimal i64. No addition overflows.", "quantifier": "for all arguments within the stated conditions", "why_tests_cant": "The output is meant to be looked at; overflows of the u16 time or the i32 velocity, or curves of a wrong area, show for few arguments only.", "anchors": ["src/animate_curve.rs:53-86", "src/main.rs:26-38", "src/integer_curve.rs:245-259", "src/integer_curve.rs:557-560"]}
{"id": "C107", "title": "image_raster overflows nowhere", "statement": "With every i64, i32 and u32 operation checked as in a debug build, image_raster does what C105 says for the same pictures, options and configurations, if the speed limits are at most 2^24: no product, position, distance or weight overflows. Whenever the checked program does not panic, it does exactly the same as the one with unbounded integers, for all inputs.", "quantifier": "for all pictures, options, configurations and devices within the stated conditions; the second part for all inputs", "why_tests_cant": "The positions grow with the size of the picture and the resolution; the intervals between two changes of the weight are squared in add_acc_interval, so only large pictures with few grey values come near the limit.", "anchors": ["src/image_raster.rs:275-347", "src/stepper_context.rs:189-209", "src/stepper_context.rs:310-353"]}
{"id": "C108", "title": "Circles in documents that are not scaled evenly make svg_path panic, with rounded arithmetic", "statement": "Let every f64 operation be followed by a rounding with a relative error of 2^-53, with sine, cosine and atan2 of the library accurate to a few units. For a circle, turned or not, and different scales of the axes transform_ellipse does not panic, and returns the half axes of the image, in one order or the other, within 232 units in the last place. Therefore, whatever the configuration, the options and the device are, svg_path panics, before anything is sent, for every document with an arc of a circle in a place where the transforms and view boxes scale the axes by factors that differ by more than about 1000 units in the last place for each factor of the transform; in particular if width and height are not in the ratio of the view box, such as for the A4 page of inkscape 0.91.", "quantifier": "for all rounding functions with that error, library functions, documents, radii and rotations, scales, configurations, options and devices within the stated conditions", "why_tests_cant": "The computed half axes come from an inverted product of matrices and from the sine and cosine of a computed angle, which is about 0 or a right one; that their difference exceeds 2^-52 depends on the errors of some fifty operations. Tests use documents with even scales.", "anchors": ["src/stepper_context.rs:116-126", "src/stepper_context.rs:508-562", "src/svg_path_parser.rs:377-468", "src/svg_path_parser.rs:700-803", "src/svg_parser.rs:60-110", "src/svg_path.rs:258-292"]}
{"id": "C109", "title": "Command lines are read as documented, and nothing is sent unless all of them is in order", "statement": "An argument list of svg_path or image_raster is accepted if and only if it consists of options (long or short, with the value attached or in the next argument, short flags bundled), file names and perhaps '--' with more file names, and no option is given twice; it can be read in one way only; otherwise the program panics before it opens anything. Help, a missing file name, a missing or unreadable configuration and numbers that are wrong or out of range end the program with a message, in this order; a device has not been opened then. If all is in order svg_path opens configuration, device and picture in this order, image_raster configuration, picture and device, and the programs of C85, C86 and C95 run with the numbers that are written on the command line; without --device nothing is sent. With 2^31 or more ticks per second in the configuration both programs panic before the numbers are read.", "quantifier": "for all argument lists, files and devices", "why_tests_cant": "The combinations of spellings, orders and defects of options are unbounded; that no path through the checks reaches the device is a statement about all of them.", "anchors": ["src/svg_path.rs:31-204", "src/svg_path.rs:287-292", "src/image_raster.rs:63-267", "src/image_raster.rs:352-356"]}
{"id": "C110", "title": "Strokes shorter than half a tick, and drawings with a negative speed, leave no mark", "statement": "draw_curves turns the laser on for at least one tick if and only if one of its strokes, divided by the distance per tick, rounds to at least one. In particular svg_path accepts a negative --draw-speed; the machine then goes to the start of each stroke, but whatever the picture is, the laser is off during every tick of the events that the controller accepts.", "quantifier": "for all paths, documents, options and states", "why_tests_cant": "Whether the laser is on is a statement about every tick of every drawing; a test with a negative speed has not been thought of.", "anchors": ["src/stepper_context.rs:400-411", "src/stepper_context.rs:471-565", "src/svg_path.rs:144-153", "src/svg_path.rs:268-292"]}
{"id": "C111", "title": "The text of a Bezier segment is read as this segment", "statement": "BezierSegment::to_svg_path returns one path command c with six numbers, both control points and the end relative to the start. parse_path reads it, from any point and under any transform, as one curve that is the transformed segment point by point; the texts of the two parts of split(t) are read as two curves that trace the same segment. With f64 arithmetic the end and the first control point come back unchanged and the second one up to two roundings.", "quantifier": "for all segments, parameters, transforms and states of the parser, and all ways to write numbers that can be read back", "why_tests_cant": "The only test prints the text; nothing reads it.", "anchors": ["src/curves/bezier_curve.rs:34-57", "src/svg_path_parser.rs:589-630"]}
{"id": "C112", "title": "A configuration file is accepted exactly if it says a configuration", "statement": "read_config accepts a file exactly if it is one JSON value, with white space around it, that is an object with the members ticksPerSecond, stepperX, stepperY and laser, each once, or an array with these four values; the steppers and the laser are objects or arrays of the same kind, with numbers that f64 can hold, or plain digits below 2^32. The configuration is the one that the file says. The order of the members, other members, white space and the way in which strings are written do not matter; a missing field, and a field that occurs twice, is an error. The programs open a device only if their file is accepted.", "quantifier": "for all texts, all JSON values and all conversions of numbers; for all command lines and contents of files", "why_tests_cant": "No test reads a configuration.", "anchors": ["src/stepper_config_parser.rs:41-54", "src/stepper_config.rs:3-26"]}
{"id": "C113", "title": "svg_path overflows nowhere", "statement": "If every i64, i32 and u32 computation of svg_path is checked, as in a debug build, then a run that does not panic does exactly what it does with unbounded integers. For the paths and documents of C97, C100 and C104, on machines with speed limits up to 2^24 and with less than 2^31 ticks per second, no check fails: draw_curves returns the same motion and errors, the program sends the same events, burns the picture as in C104 and ends normally. With 2^31 or more ticks per second it panics, whatever the other input is.", "quantifier": "for all inputs (agreement); for all paths, documents, configurations and devices within the limits (no overflow)", "why_tests_cant": "Overflow depends on positions, speeds and rounding errors; tests use few, small values.", "anchors": ["src/svg_path.rs:106-292", "src/stepper_context.rs:150-330", "src/stepper_context.rs:440-640", "src/integer_curve.rs", "src/solve.rs"]}
{"id": "C114", "title": "From the command line and the configuration file to what is burnt", "statement": "For a command line as documented, a configuration file as documented, and a picture that the machine can follow, there is a list of events that burns the picture (as in C104 or C105) and such that svg_path or image_raster, in f64 and checked integer arithmetic, opens the configuration, the picture and the device that are named on the command line, sends exactly these events to the device and no others, and ends normally if the device tells its time and accepts the lines. Without --device it ends normally as well, and opens no device.", "quantifier": "for all command lines, configuration files, documents, pictures and devices within the limits", "why_tests_cant": "The parts are tested separately at best; that the numbers of the files and of the command line reach the machine correctly is a statement about the whole program.", "anchors": ["src/svg_path.rs:31-292", "src/image_raster.rs:63-357", "src/stepper_config_parser.rs:41-54"]}
{"id": "C115", "title": "Limits that are too small make every run fail before anything is sent", "statement": "If the acceleration limit of an axis is zero, or its speed limit is zero or negative, step_goto panics from every state, so both programs compute no events for any picture, since both end with a move to the origin. This is so if --v-max is less than two steps per tick on some axis (19 mm/s with 80 steps per millimeter and 800 ticks per second), if the speed of the configuration is less than one step per tick, or if the acceleration is less than the corresponding value per tick squared. The options are accepted without a message; the program never ends normally.", "quantifier": "for all states, pictures, files, devices and command lines as documented, all configurations and options below these limits", "why_tests_cant": "Tests use limits of ordinary machines; the threshold follows from truncation and from a division by twice the speed limit.", "anchors": ["src/svg_path.rs:106-141", "src/image_raster.rs:120-160", "src/stepper_context.rs:310-357", "src/integer_curve.rs:337-347"]}
{"id": "C116", "title": "An acceleration limit that does not fit 16 bits makes every real move fail", "statement": "If the acceleration limit of an axis is above 32768, every move from rest that succeeds takes exactly one tick: step_goto panics for every distance of two or more steps. With such a limit image_raster fails for every picture with a mark if the scanning speed is at least four steps per tick, and svg_path fails for every picture that starts farther from the origin than one tick takes the machine at top speed. The limit comes from --a-max, or from the configuration, when it is at least 65540 steps per square tick: with the shipped configuration (500 mm/s^2) already --a-max=600 has this effect. The option is accepted without a message, nothing is sent.", "quantifier": "for all states, targets, speeds, pictures, files, devices and command lines as documented, all configurations and options above the limit", "why_tests_cant": "Tests use small accelerations; the conversion to i16 is of the limit itself, also for ramps of no length, so it fails for moves that never need this acceleration.", "anchors": ["src/integer_curve.rs:144-244", "src/integer_curve.rs:433-522", "src/svg_path.rs:124-141", "src/image_raster.rs:139-156", "src/stepper_context.rs:310-357"]}
{"id": "C117", "title": "What both programs do with infinite numbers, with not-a-number and with a draw speed of zero", "statement": "The numeric options accept inf and nan without a message. svg_path: with a draw speed that is infinite or not a number the program fails as soon as a line, an arc or a curve has to be drawn, and sends nothing; documents with only moves are not affected. With a draw speed of zero the machine goes to the start of the stroke and stands there, with the laser on, for 2^31-1 ticks. A speed or acceleration limit that is not a number is the limit zero, so that nothing is computed (C115); an infinite limit is the largest 32-bit limit, whatever its sign for the acceleration. image_raster: an infinite or not-a-number draw speed means one tick for each pixel; a spot size that is infinite or not a number, or a height that is not a number, means that nothing is scanned; an infinite width or height or a spot of size zero make it fail. For finite numbers, and a draw speed other than zero, the program is that of C114.", "quantifier": "for all documents, pictures, configurations, command lines as documented and other options", "why_tests_cant": "No test gives special values; the effects follow from the conversion of special values to integers.", "anchors": ["src/svg_path.rs:106-292", "src/image_raster.rs:63-357", "src/coords.rs", "src/stepper_context.rs:150-330"]}
{"id": "C118", "title": "Times overflow only if the clock of the device is near its end", "statement": "If the i64 times of play_events are checked, as in a debug build, then a run that does not panic does exactly what it does with unbounded times. No check fails if the time that the device tells, plus 128, plus the sum of the ticks of all events fits in an i64. If the device tells a time greater than i64::MAX - 128, play_events panics before the first event is sent; if the sum does not fit, not all events are sent. In every reachable state of StepperContext the tick counters are at most 2^32-1 for each event, so with fewer than 2^32 events the u64 counters do not overflow, and with fewer than 2^30 events and a clock up to 2^62 nothing overflows. The same for both programs.", "quantifier": "for all devices, lists of events, reachable states, and all input of the two programs", "why_tests_cant": "Tests have no device; the overflow needs a clock near the end or billions of events.", "anchors": ["src/stepper_control.rs:36-119", "src/stepper_context.rs:189-249", "src/stepper_context.rs:580-597"]}
{"id": "C119", "title": "The unused geometry of arcs: circles, incentres and intersections", "statement": "incenter_point of a triangle with an area has the same signed distance, twice the area divided by the circumference, from all three sides. A point given by intersection is the only one on both lines. intersection gives None exactly if the cross product of the directions is at most f64::EPSILON; so lines that turn to the right are refused as if they were parallel, and no pair of lines is accepted in both orders. fit_circle gives Line exactly if both points are on a line with the origin; else the circle is the only one through the origin and both points, Ccw if the second point is to the left of the first and Cw if it is to the right.", "quantifier": "for all points and lines, in exact arithmetic", "why_tests_cant": "The tests of the file are not compiled, since the module is commented out; none has lines that turn to the right.", "anchors": ["src/curves/bezier_as_arcs.rs:3-51"]}
{"id": "C120", "title": "The unused planner reaches its end exactly", "statement": "eval_acc_seq and eval_acc_seq2 give the same for every list. eval_acc_time adds twice the area below the speed to the place. For a > 0, vmax > 0 and s >= 0 the times of extend_dist cover the distance s and return to the speed of the start; the constant part is never negative, and the time of acceleration is negative exactly if the speed at the start is above vmax. For amax > 0, vmax > 0 and speeds within vmax at both ends, build_optimal_path leads from (s0, v0) to (sn, vn) exactly, with times that are not negative, acceleration amax and speeds within vmax throughout.", "quantifier": "for all lists, distances, speeds and limits, in exact arithmetic", "why_tests_cant": "The test extend accepts negative times, and build_optimal_path has no test; the file does not compile.", "anchors": ["src/main_old.rs:26-97", "src/main_old.rs:167-208"]}
{"id": "C121", "title": "Whatever the programs are given, what they send ends with the laser off and the machine at rest", "statement": "svg_path and image_raster with any arguments, any configuration, any document or picture and any numbers, including infinities and not-a-number: if the program ends normally after it has used a device, then the device has accepted, each once and in order, events with these effects. From the last event on the laser is off, both accelerations and both speeds are zero, and the machine stays where it is. From the first tick on, whatever the power was before, the power is never negative and never more than 254; in svg_path it is always 0 or the power of --intensity, in image_raster at most the power of --intensity.", "quantifier": "for all arguments, files, devices, numbers and roundings", "why_tests_cant": "Tests run no program; the claim is about every input that is not refused, also those that are not sensible.", "anchors": ["src/svg_path.rs:28-295", "src/image_raster.rs:63-360", "src/stepper_context.rs:189-249", "src/stepper_context.rs:310-357", "src/stepper_context.rs:400-597", "src/stepper_control.rs:65-119"]}
{"id": "C122", "title": "The speed limit is only checked in one direction", "statement": "step_goto_speed panics if the speed at the end of the move is above the limit of an axis, but not if it is below the negative limit; if such a move returns, the events make the machine that fast. In every normal run of svg_path each stroke of the first pass starts with a speed that is not above the limit of any axis, and the machine reaches this speed, however far it is below the negative limit. So with a draw speed above the speed limit a line to the right or up stops the program, while for a line to the left or down the program may end normally and then has driven the machine beyond its limit.", "quantifier": "for all states, targets and speeds, all paths, limits, draw speeds, step scales and roundings", "why_tests_cant": "No test has a speed beyond the limit; the assertion looks like a check of the limit.", "anchors": ["src/stepper_context.rs:310-316", "src/stepper_context.rs:471-490", "src/svg_path.rs:206-288"]}
{"id": "C123", "title": "Which limits hold whatever the input is", "statement": "A move of step_goto_speed that returns, for limits of at least 1 and from speeds not above the limits, to any place and with any speeds at its end, takes at least one tick, ends with these speeds at most one half step away from the place, never exceeds the acceleration limit, never exceeds the speed limit to the right or up, and to the left or down is not faster than the limit, the speed at the start or the speed at the end, whichever is fastest. So whatever svg_path is given and whatever the limits are, the events of a run that ends normally never exceed the speed limit to the right or up, nor, if the power is not zero, the acceleration limit while the laser is off. The events of a run of image_raster that ends normally never exceed any limit, if the configuration has no negative limit of the acceleration.", "quantifier": "for all states, targets and speeds, all documents, pictures, options, configurations and roundings", "why_tests_cant": "Tests check limits only for single curves with sensible input; the claim is about every run that ends normally.", "anchors": ["src/stepper_context.rs:310-357", "src/integer_curve.rs:144-244", "src/integer_curve.rs:433-522", "src/stepper_context.rs:446-450", "src/svg_path.rs:106-292", "src/image_raster.rs:63-357"]}
{"id": "C124", "title": "Whatever the programs are given, the machine ends exactly where it has started", "statement": "Played from rest, place in half steps and speed are at every tick both even or both odd, whatever the events. So a move of step_goto_speed that returns, from speeds not above the limits, ends exactly at its target if target and speed at the end are both even or both odd, and else exactly one half step beside it. svg_path with any arguments, configuration, document and numbers: if the program ends normally after it has used a device, the device has accepted, each once and in order, events from whose end on the machine is exactly where it was before them. The same for image_raster, if the configuration has no negative limit of the acceleration.", "quantifier": "for all events, states, targets, arguments, files, devices, numbers and roundings", "why_tests_cant": "Tests allow small errors of single moves and run no program.", "anchors": ["src/stepper_context.rs:310-357", "src/integer_curve.rs:433-522", "src/svg_path.rs:280-295", "src/image_raster.rs:340-357"]}
{"id": "C125", "title": "With a draw speed below the limits the speed limits are kept in both directions, whatever is drawn", "statement": "All start directions of curves that svg_path computes have coordinates of at most 5/4 in absolute value; those of lines between points on the grid of 2^-452 (every f64 of at least 2^-400 is on it) at most 1 + 2^-40. So for svg_path with any document, without --v-max: if the draw speed is at most 3/4 of the max_velocity of both axes, and the program ends normally after it has used a device, the device has accepted, each once and in order, events that never move an axis faster than its limit, in either direction. For documents whose paths are lines between points on the grid 99999/100000 is enough. (Without such a condition the limit may be exceeded to the left, C122.)", "quantifier": "for all documents, layers, configurations with numbers up to 2^390, options with a finite draw speed, devices", "why_tests_cant": "Tests run no program, and none of them looks at the speed between the ends of a move.", "anchors": ["src/stepper_context.rs:296-366", "src/stepper_context.rs:471-490", "src/svg_path.rs:106-153", "src/svg_path.rs:268-278", "src/coords.rs:10-33"]}
{"id": "C126", "title": "With a negative limit of the acceleration image_raster burns nothing, so its limits hold for every configuration", "statement": "A move of step_goto_speed with a negative limit of the acceleration of an axis that returns either makes this axis faster in the positive direction, or does nothing at all (it may then return without having reached its target). No run of image_raster ends normally if a limit of the acceleration that it has computed is negative, whatever the picture and the other options. So for image_raster with any arguments, configuration, picture and numbers: if the program ends normally after it has used a device, the device has accepted, each once and in order, events that keep all limits at all times, and from whose end on the machine is exactly where it was before them.", "quantifier": "for all states, targets and speeds, all arguments, files, pictures, configurations, devices and roundings", "why_tests_cant": "A wrong sign in a configuration is not tested, and the panics or endless loops come from different places depending on the picture.", "anchors": ["src/image_raster.rs:142-156", "src/image_raster.rs:63-357", "src/stepper_context.rs:310-357", "src/integer_curve.rs:144-244", "src/integer_curve.rs:433-522"]}
{"id": "C127", "title": "Whatever image_raster is given, it burns the picture and nothing else, at the scanning speed, which may be zero", "statement": "image_raster with any arguments, configuration, picture and numbers: if the program ends normally after it has used a device, the device has accepted, each once and in order, events with these effects. Whenever the laser is on, it has the power of some pixel, and the head crosses one of the res_x parts of this pixel in one of its res_y lines, with one half step of tolerance; then the x axis moves exactly with the computed scanning speed, in one of the two directions, and the y axis does not move. For each pixel that is not white and each of its lines there are res_x successive ticks in which it is so crossed. If the computed speed is zero, which is the case for --width 0 with a height, then all this happens at the left edge while the machine stands still with the laser on.", "quantifier": "for all arguments, files, pictures, configurations, devices and roundings", "why_tests_cant": "Tests run no program; that the laser is on only over the picture and in motion is a claim about every tick of every run.", "anchors": ["src/image_raster.rs:275-345", "src/image_raster.rs:30-61", "src/stepper_context.rs:310-357"]}
{"id": "C128", "title": "Whatever svg_path is given, it burns the path and nothing else", "statement": "svg_path with any arguments, configuration, document and numbers: if the program ends normally after it has used a device, the device has accepted, each once and in order, events with these effects. For each repetition, starting where the machine is, the segments of the path that the document contains are played in their order; left out are only moves to where the machine is in the meantime, and closing lines shorter than 0.000001. They are grouped into strokes. Before each stroke there is a move with the laser off, to the start of the stroke, with one half step of tolerance; it ends with the speed and direction of the stroke. Then the laser is on, with the power asked for, for exactly the length of the stroke divided by the speed, rounded; after each of these ticks the machine is at the computed point of the stroke up to the error that draw_curves returns. After the last stroke the laser is off. In particular a stroke that is shorter than nearly half the way of one tick is not burnt.", "quantifier": "for all arguments, files, documents, configurations, devices and roundings", "why_tests_cant": "Tests run no program; that the laser is on for the path and only for it is a claim about every tick of every run.", "anchors": ["src/svg_path.rs:206-292", "src/stepper_context.rs:400-565"]}
{"id": "C129", "title": "A run that is cut off does what the complete run does up to that point, but the laser may stay on and the speed grow without end", "statement": "If the serial line fails while the answer to a command is awaited, after the device has accepted the first k commands, play_events returns the read error, the command after these is the last thing that was sent, and no reset follows (as it does after an unexpected reply, C36); svg_path and image_raster panic. Up to the time of the first event that was not accepted, a device that has accepted k events has the same laser power, accelerations, speeds and positions as in the complete run, so what holds for complete runs holds until then. After the last accepted event the laser keeps its power and each axis its acceleration. So for every run that ends at rest (that is for every run of both programs, C121), and every time at which the laser is on, there are a k and a device such that the run is cut off after k commands and the laser stays on for good; and for every time at which an axis accelerates there are a k and a device such that the speed of this axis exceeds every bound.", "quantifier": "for all events, numbers of accepted commands, devices, documents, pictures, configurations, options and roundings", "why_tests_cant": "Tests have no serial line that fails.", "anchors": ["src/stepper_control.rs:15-119", "src/svg_path.rs:287-292", "src/image_raster.rs:352-357"]}
{"id": "C130", "title": "What the programs print about what they have computed is true of what they send", "statement": "svg_path with any document, options, numbers and rounding: when it has events to send, it has printed an end time of s seconds such that the events last at least s and less than s + 1 seconds, after which the machine is at rest with the laser off; a position that the machine has when the last stroke has ended, after which the laser stays off; and errors such that every stroke of the last repetition is followed up to these errors (zero if there is no repetition). image_raster: the end time likewise; the number of pixels; and a width and a height that are, divided by the steps for each millimetre, those of an area at the origin outside of which nothing is burnt, up to one half step, and that the picture fills: each pixel that is not white is crossed in each of its res_y lines from one edge to the other with its power, where the edges and lines divide the area evenly, with one half step of tolerance.", "quantifier": "for all documents, pictures, configurations, options, repetitions, devices and roundings", "why_tests_cant": "Tests run no program; the printed size is computed from other formulas than the motion.", "anchors": ["src/svg_path.rs:267-292", "src/image_raster.rs:235", "src/image_raster.rs:277-295", "src/image_raster.rs:347-357", "src/stepper_context.rs:567-578"]}
{"id": "C131", "title": "image_raster burns no pixel twice in a line, and so each power lasts as long as the picture asks for", "statement": "image_raster with any arguments, configuration, picture and numbers: if the program ends normally after it has used a device, the device has accepted, each once and in order, events for which there is a timetable: each line of each pixel that is not white has a time from which on, for res_x ticks, the head crosses the pixel in this line with the power of the pixel, with one half step of tolerance; no two of these intervals have a tick in common; and at all other times the laser is off. So for each power other than zero the number of ticks in which the laser has this power is res_x times res_y times the number of pixels with this power, and the sum of the powers over all ticks is res_x times res_y times the sum over the pixels.", "quantifier": "for all arguments, files, pictures, configurations, devices and roundings", "why_tests_cant": "Tests run no program; the total exposure is a sum over all ticks of a run.", "anchors": ["src/image_raster.rs:275-345", "src/image_raster.rs:30-61", "src/stepper_context.rs:310-357"]}
{"id": "C132", "title": "svg_path has the laser on for the length of what it draws divided by the speed", "statement": "svg_path with any arguments, configuration, document and numbers: if the program ends normally after it has used a device, the device has accepted, each once and in order, events for which there are, for each repetition, strokes that are drawn as in C128, and the number of ticks in which the laser is on is the sum of the numbers of ticks of all these strokes; the sum of the powers over all ticks is this number times the power that was asked for. The number of ticks of a stroke is its length divided by the speed, rounded. So, if the speed is positive and no stroke takes more than 2^30 ticks, the number of ticks times the way of a tick differs from the total length by at most 0.51 times the way of a tick for each stroke, and a relative 2^-53.", "quantifier": "for all arguments, files, documents, configurations, devices, repetitions and roundings", "why_tests_cant": "Tests run no program; the total exposure is a sum over all ticks of a run.", "anchors": ["src/svg_path.rs:206-292", "src/stepper_context.rs:400-565"]}
{"id": "C133", "title": "svg_path burns what is hidden and what is only defined, and no shapes", "statement": "svg_path with any configuration, numbers, device and document. Without --layer the whole run is the same if all elements of other name spaces, all text and comments are taken out of the document, all elements but path and svg are renamed to g, and all attributes are dropped but those called transform, d, viewBox, width and height. So a path in defs, clipPath, mask, pattern, marker or symbol, or one that is not displayed or not visible, is burnt like any other. With --layer the same holds, except that elements of other name spaces stay, groups differ from other elements, and attributes of Inkscape stay. An element other than path and svg with nothing in it, such as rect, circle, line, polygon or image, makes no difference wherever it is, provided that its transform and viewBox attributes can be read. The first two numbers of a viewBox make no difference.", "quantifier": "for all documents (well formed or not), configurations, options, devices and roundings", "why_tests_cant": "Tests parse two small documents with paths in groups; that nothing else is looked at is a statement about all documents.", "anchors": ["src/svg_parser.rs:18-152", "src/svg_path.rs:220-261"]}
{"id": "C134", "title": "A document that is cut off is burnt as far as it goes; any other error is found before anything is sent", "statement": "svg_path with any configuration, numbers, layer, device and document. If the XML reader reports an error, the run is the same as if the document ended there. If a whole document can be read, so can any beginning of it, and the segments it gives are the first segments of the whole; so with a document that is cut off, if the program ends normally, it has drawn exactly a beginning of the path and has reported no failure. If a beginning of a document cannot be read for another reason (a path without d, a bad transform, an svg without a size), no document that begins like this makes the program end normally or send anything. Moves burn nothing, and from a document without path elements the program sends events with which the laser is off at all times.", "quantifier": "for all documents, places where they are cut, configurations, options, devices and roundings", "why_tests_cant": "Tests read complete documents only; the claim is about all places to cut and all programs of events.", "anchors": ["src/svg_parser.rs:30-34", "src/svg_parser.rs:139-152", "src/svg_path.rs:258-292", "src/stepper_context.rs:492-565"]}
{"id": "C135", "title": "With --layer svg_path does what it does without on the document without the other layers", "statement": "svg_path with --layer and any configuration, numbers, device and document (a tree of elements): the whole run is the same as that without --layer on the document from which all layers (g elements of SVG with Inkscape's groupmode layer) without an Inkscape label equal to the argument are taken out with all that is in them, layers with the label included. Without such layers the option makes no difference. If all paths are in such layers, for example because the label is misspelt, and the program ends normally, the laser has been off all the time.", "quantifier": "for all documents, labels, configurations, options, devices and roundings", "why_tests_cant": "Tests use no filter at all.", "anchors": ["src/svg_path.rs:220-261", "src/svg_parser.rs:30-152"]}
{"id": "C136", "title": "A move does not overshoot by more than the way to turn, and not at all from rest to rest", "statement": "step_goto_speed from any reachable state to any target within the limits, for each axis and each tick of the move: the place is between the place at the start and the place at the end of the move, or outside of this interval by at most v^2/a + |v|, where v is the speed at the start or at the end, whichever gives more, and a the limit of the acceleration. If the machine is at rest and is to be at rest at the target, no axis changes its direction during the move, and no axis ever leaves the interval between its start and its end.", "quantifier": "for all histories of calls, limits, targets, speeds, axes and ticks", "why_tests_cant": "Tests look at the end of a move only; what is claimed is about every tick of every move.", "anchors": ["src/stepper_context.rs:310-357", "src/integer_curve.rs:144-243", "src/integer_curve.rs:374-600"]}
{"id": "C137", "title": "image_raster's head stays at the picture, apart from the room to turn beside it", "statement": "Whatever picture, options and configuration image_raster is given, in a run that ends normally the head is at every tick between the first and the last line, with a half step to spare, and between the left and the right edge of the picture or beside it by at most a half step and v + v^2/a, where v is the scanning speed and a the limit of the acceleration. So for moves that return, whatever their distance: each axis stays between start and target but for the larger of |v| + v^2/a for the speeds at both ends, and a half step.", "quantifier": "for all pictures, options, configurations, roundings, devices, command lines, and all ticks", "why_tests_cant": "Whether the head hits the frame of the machine is seen on the machine only; a test sees one picture.", "anchors": ["src/image_raster.rs:275-345", "src/stepper_context.rs:310-357", "src/integer_curve.rs:144-243"]}
{"id": "C138", "title": "Between its strokes svg_path moves without detours", "statement": "Whatever document, options and configuration svg_path is given, in a run that ends normally the laser has the power of the strokes at a tick, or the tick belongs to a move with the laser off, during all of which each axis is between its places at both ends of the move, or outside of this interval by at most |v| + v^2/a, where v is its speed at one of the ends, whichever gives more, and a the limit of its acceleration. An axis that is at rest at both ends does not leave the interval at all.", "quantifier": "for all documents, options, configurations, roundings, devices, command lines, axes and ticks", "why_tests_cant": "What the head does between strokes leaves no mark, and on the machine it is seen only if it hits something.", "anchors": ["src/stepper_context.rs:310-357", "src/stepper_context.rs:471-490", "src/svg_path.rs:262-292"]}
{"id": "C139", "title": "The intensity changes only the power of svg_path's strokes", "statement": "For one document, configuration and set of other options there is one list of commands, such that the commands that svg_path sends for any intensity are this list with the powers multiplied by that of the intensity. So with two intensities the places, speeds and accelerations are the same at each tick, and the laser is off in both runs or has its power in both; and a run without a device ends for all allowed intensities or for none. A trial with a low intensity, or with 0, shows exactly the motion of the real one.", "quantifier": "for all documents, options, configurations, roundings, devices, command lines, pairs of intensities, axes and ticks", "why_tests_cant": "A test compares the runs for a few intensities; that no decision anywhere depends on the power is a statement about all of them.", "anchors": ["src/stepper_context.rs:211-219", "src/stepper_context.rs:466-490", "src/svg_path.rs:170-184", "src/svg_path.rs:262-292"]}
{"id": "C140", "title": "The way of image_raster's head depends only on the outline of the picture", "statement": "Let two pictures have the same size and in each row the same first and last pixel that is not white. Run with the same configuration and options, except for the intensity, image_raster moves in both runs, if they end normally, in the same way: acceleration, speed and place of both axes are the same at each tick. And at each tick the laser is off in both runs, or has in each the power of the same pixel in its picture and at its intensity. In particular a trial with a low intensity, or with 0, shows exactly the motion of the real one. Where shades are bytes and intensities from 0 to 100, both pictures are scanned or neither is.", "quantifier": "for all pairs of pictures with the same outline, pairs of intensities, options, configurations, roundings, devices, axes and ticks", "why_tests_cant": "The commands themselves differ, since the program divides the lines wherever the power changes. A test compares a few pairs of pictures.", "anchors": ["src/image_raster.rs:296-345", "src/stepper_context.rs:189-219"]}
{"id": "C141", "title": "A run without a device tells whether the same run with one will work", "statement": "For every document or picture, set of options and configuration: if the program panics without a device, it panics with every device. If it ends normally without a device, there is one list of commands; a run with a device that ends normally sends exactly this list, and with a device that tells its time and accepts each line, perhaps after refusals, the run does end normally. For svg_path one such trial suffices for all intensities from 0 to 100, for image_raster even for all pictures with the same outline (C140).", "quantifier": "for all documents, pictures, options, configurations, roundings and devices", "why_tests_cant": "It is about all inputs and all behaviours of the device at once.", "anchors": ["src/svg_path.rs:262-292", "src/image_raster.rs:346-357", "src/stepper_control.rs:65-119"]}
{"id": "C142", "title": "More repetitions do not change what svg_path does in the first ones", "statement": "For every document, set of options and configuration there is a list of commands for the first, the second, ... repetition, such that every run that ends normally, with any --repeat, sends the lists of its repetitions one after the other and then the way home. From the end of the last repetition on the laser is off. Of two runs the one with more repetitions therefore has, until the other one goes home, the same power at each tick and the same acceleration, speed and place of both axes.", "quantifier": "for all documents, options, pairs of numbers of repetitions, configurations, roundings, devices, axes and ticks", "why_tests_cant": "Where a repetition begins depends on the one before. A test compares a few pairs of runs.", "anchors": ["src/svg_path.rs:262-288", "src/stepper_context.rs:492-565"]}

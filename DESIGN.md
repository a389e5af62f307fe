# Verification of stepper_paths — design

The source under study is `/repo` (Rust, `fluffware/stepper_paths`).  This
directory holds a Lean 4 model of that code (`lean/Verif/Model`), small
independent specifications (`lean/Verif/Spec`), lemma files (`lean/Verif/Proof`)
and one file of property theorems per area (`lean/Verif/Props`).  The list of
properties is `properties.jsonl`; which theorem settles which property is in
`MANIFEST.json`.

## Trusted base

* Lean 4.33.0's kernel and Mathlib (as installed, unmodified).
* Axioms: only `propext`, `Classical.choice`, `Quot.sound`.  No axiom is added,
  no `sorry`, `native_decide` or `bv_decide` is used.  `Verif/Audit.lean` prints
  the axioms of every theorem named in `MANIFEST.json` during the build.
* That the Lean definitions say what the Rust text says.  Every model definition
  cites the file and lines it mirrors.  No mechanical extraction was possible
  (no Rust tool chain, no network); the arithmetic core was additionally
  cross-checked against a hand port executed on several million inputs.

## Modelling conventions

* `i64`/`i32` arithmetic is modelled by unbounded `Int`; Rust `/` and `%` are
  `Int.tdiv`/`Int.tmod`; `Integer::div_mod_floor` is `Int.fdiv`/`Int.fmod`.
  `Model/Checked.lean` is a second model of `solve.rs` and `integer_curve.rs` in
  which every `i64` operation is checked; C87 shows that it agrees with the
  unbounded one under explicit bounds.  `Model/CheckedMotion.lean` does the same
  for the motion commands of `stepper_context.rs` (C89), `Model/CheckedRaster.lean` for
  `image_raster.rs` (C107), `Model/CheckedSvg.lean` for `svg_path.rs` and the drawing
  of paths (C113), `Model/CheckedControl.lean` for the times of `stepper_control.rs` (C118).  Where the program works with `i32`,
  `u32`, `u16` or `i16` values whose range matters (velocities, accelerations,
  intervals, pixel coordinates, Pascal's triangle) the check is in the model itself.
* Panics (`assert!`, `unwrap` on `None`, failed `try_from`, unsigned underflow,
  division by zero, index out of range) are explicit: functions that may panic
  return `Option` (`none` = panic).  Debug-build semantics: overflow panics.
* Loops are structural or well-founded recursion.  Loops that may not terminate
  use `partial_fixpoint` in `Option`, where divergence is `none`, so a theorem
  "returns `some`" includes termination.
* `f64` code is modelled in two ways.  Where a claim is independent of rounding
  the float results are arbitrary parameters (an oracle); otherwise formulas are
  interpreted in an exact field (ℚ, ℝ or any field) and the property says
  "in exact arithmetic".  NaN and infinities are not modelled, except in
  `Model/Special.lean` (C117): options that are infinite, not a number or zero.  There finite operations do not overflow
  and zeros are positive; the numbers of the configuration are finite.  IEEE rounding is
  modelled in `Model/Rounded.lean` only, a second model of the drawing of paths in which
  every operation is followed by a rounding function (C90–C93, C97–C100, C102–C105).
  Circle arcs are in `Model/RoundedArc.lean`; sine and cosine of the library are functions with an error of at most `2^-52`.
  Bezier curves with their tables are in `Model/RoundedBezier.lean`; `powf` is a function with a relative error of at most `2^-52`.
  Parsers and transforms are in `Model/RoundedSvg.lean`; numbers are rounded from their exact decimal value, and sine, cosine, tangent and `atan2` are parameters
  (for arcs `atan2` has an error of at most `2^-50`, and sine and cosine are exact at zero).
  The numbers of `image_raster` are in `Model/RoundedRaster.lean`.
* The stepper controller (firmware) is not in the repository.  Its behaviour is
  specified by `Spec/Controller.lean` according to the event format documented in
  `stepper_context.rs`: one tick of acceleration `a` changes `v` to `v+a` and
  moves `v + (v+a)` half-steps.
* Numbers in SVG text are exact rationals; `Model/RoundedSvg.lean` rounds them as
  `f64::from_str` does.  The combinators of `nom` are functions on character lists with the
  three outcomes result / error / failure; XML is given as the event list that
  the `xml-rs` reader hands to `parse_document`.
* Results that the standard library leaves open (the index returned by
  `binary_search_by` among equal keys) are arbitrary, subject to its documentation.
* The serial port is an arbitrary schedule of read and write results.  A run of
  `play_events` is a function of the schedule; a schedule that never ends in a
  complete reply is a program that never returns.
* Library functions of the f64 code (`sqrt`, `atan2`, `cos`, …) are those of
  Mathlib.  Division by zero, which gives infinities or NaN in the source, is
  excluded by a hypothesis or shown in the model as a separate outcome.
* The models of the two main programs (`Model/Program.lean`, `Model/SvgProgram.lean`) start from parsed
  options, a decoded image or XML event list and a parsed configuration.
* The record `Pen` of the drawing model carries ghost fields (what was drawn with
  which weight); no program value depends on them.
* `Model/CommandLine.lean` adds the command lines: the argument parser of the crate `getopts` 0.2 (after its
  documentation), `f64::from_str` and `i32::from_str` on option values, the order of the checks and what is opened when.
* `Model/ConfigText.lean` adds the text of the configuration file: `serde_json` on the derived `Deserialize` of the
  three structures, after the documentation of the crates.  The conversion of the text of a number to `f64` is a
  parameter.
* Not modelled: the XML tokenizer, the serial port driver, PNG decoding, messages on the standard error, and test programs.
* `main_old.rs`, `permutate.rs` and `bezier_as_arcs.rs` are not part of the crate.  `Model/Unused.lean` models the
  geometry of `bezier_as_arcs.rs` (C119) and the finished part of the planner of `main_old.rs` (C120) in exact arithmetic;
  `build_path`, `build_curve`, `build_distance_path` and `build_optimal_int_path` are unfinished and left out.
* The standard output of `main.rs` and `animate_curve.rs` (`Model/Plot.lean`) is the text of a run
  without a panic; writing to it always succeeds.

## Plan per property

| id | modelled code | method |
|----|---------------|--------|
| C01–C06 | `multi_range.rs`, all functions, over any linear order | lists of pairs; membership lemma by induction over the list, `Chain`-style invariant; equality by canonical form |
| C07–C08 | `solve.rs` | well-founded bisection; convexity via `nlinarith`; the doubling loop as `partial_fixpoint`, shown to return |
| C09–C15, C17, C19 | `integer_curve.rs` | velocity profile `clamp(vf, lo_i, hi_i)`; discrete sums; monotonicity of the profile distance in `vf`; the four binary searches; the adjusted segment |
| C16 | `shortest_curve_sequences` | C11–C17 per axis plus C04 for the common duration |
| C18 | same | false: concrete witness refutes it; partial: near-optimality with explicit slack |
| C20–C22 | `acc_vector.rs` | induction over the run-length list |
| C23–C34 | `stepper_context.rs` without curve evaluation | state machine with an invariant linking event list replay to the tracked state; histories by induction |
| C30, C32 | same | expected to be false: refuted by witness; partial versions under extra hypotheses |
| C31 | `approx_curve` with oracle floats | invariant of the tick loop |
| C35–C38 | `stepper_control.rs` with a serial port as reply/byte schedule | induction over schedules |
| C39–C41 | `coords.rs` over a field / ℝ | `ring`; C41 has a defective branch: refuted there, proved for the main branch |
| C42–C47 | `curves/*.rs` over ℝ | `ring`, derivative lemmas, list induction |
| C48 | `parse_document` over element trees | induction over trees (flattened to SAX events) |
| C49–C51 | `build_path` | case analysis and induction over argument lists |
| C52–C55 | nom parser of `svg_path_parser.rs` as functions on character lists | parser lemmas by induction; C54, C55 expected false in corner cases: refuted by witness plus partial |
| C56–C58 | `image_raster.rs` row scan, row loop, scaling | list induction; C58 expected false for the raster binary |
| C59 | layer filter closure of `svg_path.rs` | list induction |
| C60 | `gauss_quadrature.rs` with its decimal constants as rationals | linearity by `ring`, moments by `norm_num` |

The table above is the plan written before the proofs; the next section is kept
current with what was achieved.

## Status

Every property in `properties.jsonl` has status "proved" in `MANIFEST.json`.
Where the property expected at first turned out to be false, the property was
restated as what holds, and the counterexample is a theorem next to it.  The
notes in `MANIFEST.json` name these findings.

Properties whose statement changed during the work:

| id | first expectation | now |
|----|-------------------|-----|
| C18 | shortest duration | within one tick, unless a forbidden gap interferes; `C18_one_tick_late`, `C18_excess_unbounded` |
| C23, C24, C30 | every operation keeps both axes at the same tick | all but `speed`; `C30_one_axis` |
| C32 | curve following keeps the acceleration limit | exceeded, with the exact amount; `C32_exceeded` |
| C36, C37 | playback stops at an error, replies are reassembled | plus `C36_panics` and `C37_hangs` |
| C41 | `decompose` can be recomposed | not in the second branch |
| C48 | transforms compose along the tree | plus `C48_broken`, `C48_foreign_attribute` |
| C52, C54, C55 | malformed text is an error | never accepted, but panics; text after an unseparated transform is dropped |
| C57, C58, C60 | see the plan | `C57_negative`, `C58_raster_wrong`; the weights for n = 3 do not add up to 2 |

Properties added while the model grew:

| id | modelled code | file of theorems |
|----|---------------|------------------|
| C61 | vectors of `coords.rs` | `Props/Coords.lean` |
| C62–C70 | `approx_curve`, `goto`, `draw_curves`, `CurveSegment` | `Props/Draw.lean` and neighbours |
| C71–C73 | scaling of `image_raster.rs` | `Props/Raster.lean` and neighbours |
| C74–C76 | arc length tables and `Bezier` | `Props/SqrtPoly.lean`, `Props/BezierLength.lean` |
| C77–C81 | the remaining path commands, ellipses, lengths, shared path state | `Props/Svg*.lean` |
| C82–C84 | `polynom.rs`, `linear_curve.rs` | `Props/Polynom.lean`, `Props/LinearCurve.lean` |
| C85, C86 | the main programs | `Props/Program.lean` and neighbours |
| C87 | checked `i64` arithmetic | `Props/Checked.lean` |
| C88 | tracking error of gentle curves, an invariant region of the control loop | `Props/Tracking.lean` |
| C89 | checked `i64` positions in the motion commands | `Props/CheckedMotion.lean` |
| C90 | rounded `f64` arithmetic in `draw_curves` and lines | `Props/Rounded.lean` |
| C91 | which strokes are drawn, with rounding | `Props/RoundedPath.lean` |
| C92 | paths of lines are burnt where they should be, with rounding | `Props/Polyline.lean` |
| C93 | paths of lines and curves are burnt where they should be, with rounding | `Props/CurvePath.lean` |
| C94 | paths of lines, arcs and Bezier curves are burnt where they should be, in exact arithmetic | `Props/BezierPath.lean` |
| C95 | the program svg_path from the document to what is burnt | `Props/Picture.lean` |
| C96 | a move to where the machine still is gets lost | `Props/LostMove.lean` |
| C97 | Bezier curves and paths with them, with rounding | `Props/RoundedBezier.lean` |
| C98 | Reading of documents, with rounding | `Props/RoundedSvg.lean` |
| C99 | A half circle that is refused because of rounding | `Props/HalfCircle.lean` |
| C100 | The program svg_path with rounding, from the document to what is burnt | `Props/RoundedProgram.lean` |
| C101 | Circles that are not scaled evenly: the program panics | `Props/Stretched.lean` |
| C102 | Computed arcs of circles are close to the true ones | `Props/RoundedArcs.lean` |
| C103 | Documents with arcs of circles, read with rounding | `Props/RoundedArcDoc.lean` |
| C104 | The whole program with rounding, for documents with arcs | `Props/RoundedArcProgram.lean` |
| C105 | `image_raster` with rounding and checked products, from options to what is burnt | `Props/RoundedRaster.lean` |
| C106 | the programs `paths` and `animate_curve`, from the arguments to the printed text | `Props/Plot.lean` |
| C107 | checked `i64` and `i32` arithmetic in `image_raster` | `Props/CheckedRaster.lean` |
| C108 | Circles that are not scaled evenly, with rounding | `Props/RoundedStretched.lean` |
| C109 | Command lines: spelling, order of the checks, what is opened when | `Props/CommandLine.lean` |
| C110 | Strokes that get no tick: too short, or with a negative speed | `Props/Backwards.lean` |
| C111 | `BezierSegment::to_svg_path` read by `parse_path` | `Model/BezierText.lean`, `Props/BezierText.lean` |
| C112 | `read_config` on the text of the file | `Model/ConfigText.lean`, `Spec/ConfigText.lean`, `Props/ConfigText.lean` |
| C113 | checked `i64`, `i32` and `u32` arithmetic in `svg_path` | `Model/CheckedSvg.lean`, `Props/CheckedSvg.lean` |
| C114 | both programs from command line and configuration file to what is burnt | `Model/Commands.lean`, `Props/Commands.lean` |
| C115 | speed or acceleration limits below the resolution: both programs panic before anything is sent | `Proof/Limits.lean`, `Proof/LimitsSvg.lean`, `Props/Limits.lean` |
| C116 | acceleration limits above 32768: every move of more than one tick panics | `Proof/BigAcc.lean`, `Proof/BigAccSvg.lean`, `Props/BigAcc.lean` |
| C117 | options that are infinite, not a number or zero | `Model/Special.lean`, `Proof/Special*.lean`, `Props/Special.lean` |
| C118 | `i64` times and `u64` tick counters do not overflow | `Model/CheckedControl.lean`, `Proof/Times.lean`, `Props/Times.lean` |
| C119 | circles, incentres and intersections of `bezier_as_arcs.rs` | `Model/Unused.lean`, `Props/Unused.lean` |
| C120 | the planner of `main_old.rs` | `Model/Unused.lean`, `Props/Unused.lean` |
| C121 | every normal run ends with the laser off and at rest, whatever the input | `Proof/Keeps.lean`, `Props/Anything.lean` |
| C122 | the speed limit is only checked to the right and up | `Proof/Fast.lean` (evaluation of the example), `Props/OneSided.lean` |
| C123 | which limits hold whatever the input is | `Proof/OneSide.lean` (curves with speeds below the negative limit), `Proof/Draws.lean`, `Proof/AnySpeed.lean`, `Props/AnySpeed.lean` |
| C124 | the machine ends exactly where it has started, whatever the input | `Props/Home.lean` |
| C125 | with a draw speed below the limits the speed limits are kept in both directions, whatever is drawn | `Props/DrawSpeed.lean` |
| C126 | with a negative limit of the acceleration `image_raster` burns nothing; limits and end of its runs hold for every configuration | `Props/NegAcc.lean` |
| C127 | whatever `image_raster` is given, it burns the picture and nothing else, at the scanning speed; this may be zero (a finding) | `Props/AnyPicture.lean` |
| C128 | whatever `svg_path` is given, it burns the segments of the path in order, and nothing else | `Spec/AnyStroke.lean`, `Props/AnyDrawing.lean` |
| C129 | a run that is cut off does what the complete run does up to that point; the laser may stay on (finding) | `Props/Interrupted.lean` |
| C130 | the end time, position, errors and sizes that the programs print are true of what they send | `Model/Report.lean`, `Props/Report.lean` |
| C131 | `image_raster` burns no pixel twice in a line: there is a timetable of disjoint intervals, and the time that the laser has each power, and the sum of the powers, are those of the picture | `Props/Exposure.lean` |
| C132 | `svg_path` has the laser on for the length of its strokes divided by the speed, up to about half a tick for each stroke | `Props/StrokeTime.lean` |
| C133 | `svg_path` looks at no element but `path` and `svg` and at no attribute but five: hidden and defining elements are burnt, shapes are not, the origin of the view box is ignored | `Props/SvgIgnored.lean` |
| C134 | A document that is cut off is burnt as far as it goes; any other error in a document stops `svg_path` before anything is sent; moves alone and documents without paths burn nothing | `Props/CutDocument.lean` |
| C135 | A run with `--layer` is the run without it on the document without the other layers; a misspelt label burns nothing | `Props/Layers.lean` |
| C136 | A move leaves the interval between its ends by at most the way to turn, and never from rest to rest | `Props/Inside.lean` |
| C137 | `image_raster` stays between first and last line, and beside the picture by at most the room to turn | `Props/InsideScan.lean` |
| C138 | Between strokes `svg_path` moves without detours, but for the room to turn | `Props/InsideDraw.lean` |
| C139 | The intensity changes only the power of `svg_path`'s strokes | `Props/Power.lean` |
| C140 | The way of `image_raster`'s head depends only on the outline of the picture | `Props/Outline.lean` |
| C141 | A run without a device tells whether the same run with one will work | `Props/Trial.lean` |
| C142 | More repetitions do not change what `svg_path` does in the first ones | `Props/Repeats.lean` |

`Verif/Witness` holds executable searches for counterexamples.  They compare
model and specification on many small inputs.  They are tests, used to see which
wrong programs are noticed; no claim rests on them.  `seeded/LOG.jsonl` records
each wrong program that was tried and the theorems that failed.

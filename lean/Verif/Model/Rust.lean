/-!
Rust integer conventions used by all models.  `none` means that the program
panics (debug build: arithmetic overflow panics as well).
-/

namespace StepperPaths

/-- `i64::MAX` -/
def i64Max : Int := 9223372036854775807
/-- `i64::MIN` -/
def i64Min : Int := -9223372036854775808

/-- `u16::try_from(x).unwrap()`, and checked `u16` arithmetic. -/
def toU16 (x : Int) : Option Nat := if 0 ≤ x ∧ x < 65536 then some x.toNat else none

/-- `i16::try_from(x).unwrap()`. -/
def toI16 (x : Int) : Option Int := if -32768 ≤ x ∧ x < 32768 then some x else none

/-- Checked `i32` arithmetic result. -/
def toI32 (x : Int) : Option Int :=
  if -2147483648 ≤ x ∧ x < 2147483648 then some x else none

/-- Rust's `/` on signed integers: truncating, panics on zero. -/
def cdiv (a b : Int) : Option Int := if b = 0 then none else some (Int.tdiv a b)

/-- Rust's `%` on signed integers: sign of the dividend, panics on zero. -/
def crem (a b : Int) : Option Int := if b = 0 then none else some (Int.tmod a b)

/-- `assert!(p)` -/
def cassert (p : Prop) [Decidable p] : Option Unit := if p then some () else none

end StepperPaths

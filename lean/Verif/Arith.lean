/-!
# The arithmetic interface

The crate computes with Rust's `f64`.  The whole model is written once over an abstract type `F` with one
operation per `f64` primitive the crate uses.  The class has **no laws**: a theorem stated for every
`[Arith F]` holds for the hardware's doubles whatever their rounding is.  Concrete interpretations:
`Verif/RealArith.lean` (exact reals) and `Verif/F64/*` (IEEE-754 binary64).
-/

namespace Sat

/-- What the text of a number denotes before it is rounded to a float: the value that
`str::parse::<f64>` (Rust standard library, called at /repo/src/io.rs:349,378,389,399) hands to its rounding step.
`num neg m e` is `(-1)^neg * m * 10^e`. -/
inductive Dec where
  | nan
  | inf (neg : Bool)
  | num (neg : Bool) (mant : Nat) (exp : Int)
deriving Repr, DecidableEq

/-- The `f64` primitives used by the crate (`/repo/src/**`).  No laws are assumed. -/
class Arith (F : Type) extends Add F, Sub F, Mul F, Div F, Neg F where
  /-- Rust `x % y` on `f64` (C `fmod`). -/
  rem : F → F → F
  /-- `f64::abs` -/
  abs : F → F
  /-- `f64::sqrt` -/
  sqrt : F → F
  /-- `f64::floor` -/
  floor : F → F
  /-- `f64::sin` -/
  sin : F → F
  /-- `f64::cos` -/
  cos : F → F
  /-- `f64::asin` -/
  asin : F → F
  /-- `y.atan2(x)` is `atan2 y x` -/
  atan2 : F → F → F
  /-- `x.powf(y)` is `powf x y` -/
  powf : F → F → F
  /-- `x < y` (false if either is NaN) -/
  flt : F → F → Bool
  /-- `x <= y` -/
  fle : F → F → Bool
  /-- `x == y` -/
  feq : F → F → Bool
  /-- decimal literals: `sci m true k` is `m * 10^(-k)`, `sci m false k` is `m * 10^k` -/
  sci : Nat → Bool → Nat → F
  /-- `std::f64::consts::PI` -/
  pi : F
  /-- `std::f64::consts::FRAC_PI_2` -/
  fracPi2 : F
  /-- integer `as f64` -/
  ofInt : Int → F
  /-- `f64 as u64` (saturating, NaN to 0) -/
  toU64 : F → Nat
  /-- rounding step of `str::parse::<f64>` -/
  ofDec : Dec → F

attribute [instance 50] Arith.toAdd Arith.toSub Arith.toMul Arith.toDiv Arith.toNeg

/-- Decimal literals such as `1.5e-12` denote `Arith.sci 15 true 13`. -/
instance (priority := 50) Arith.toOfScientific {F : Type} [Arith F] : OfScientific F := ⟨Arith.sci⟩

/-- `a <. b` is Rust `a < b` -/
infix:50 " <. " => Arith.flt
/-- `a ≤. b` is Rust `a <= b` -/
infix:50 " ≤. " => Arith.fle
/-- `a ==. b` is Rust `a == b` on floats -/
infix:50 " ==. " => Arith.feq
/-- `a >. b` is Rust `a > b` -/
notation:50 a:51 " >. " b:51 => Arith.flt b a
/-- `a ≥. b` is Rust `a >= b` -/
notation:50 a:51 " ≥. " b:51 => Arith.fle b a

/-- `x.powi(2)`: LLVM / compiler-rt expand it to `x * x`. -/
def powi2 {F : Type} [Arith F] (x : F) : F := x * x
/-- `x.powi(4)`: compiler-rt's `__powidf2` squares twice. -/
def powi4 {F : Type} [Arith F] (x : F) : F := (x * x) * (x * x)

/-- A Rust `while cond(s) { s = body(s) }` loop as a least fixed point: `none` means that the loop never exits. -/
def whileLoop {σ : Type} (cond : σ → Bool) (body : σ → σ) (s : σ) : Option σ :=
  if cond s then whileLoop cond body (body s) else some s
partial_fixpoint

end Sat

import Verif.F64.Basic
/-!
# Tests of the model of the doubles against the machine's own

Not a proof: pseudo-random doubles (all bit patterns, neighbouring magnitudes, short decimals, subnormals) are pushed through
the model's operations and through the hardware's, and the results are compared bit for bit (NaN payloads apart).
-/

namespace Sat.F64Tests
open Sat

def ofF (x : Float) : F64 :=
  let b := x.toBits.toNat
  let s := b / 2^63 == 1
  let e := b / 2^52 % 2048
  let m := b % 2^52
  if e == 2047 then (if m == 0 then .inf s else .nan)
  else if e == 0 then F64.ofQ s m 1
  else F64.ofQ s ((m + 2^52) * 2^(e-1)) 1
def same (a b : F64) : Bool := decide (a = b)
def lcg (s : UInt64) : UInt64 := s * 6364136223846793005 + 1442695040888963407
def mix (s : UInt64) : UInt64 := let z := s ^^^ (s >>> 31); let z := z * 0x9E3779B97F4A7C15; z ^^^ (z >>> 29)
-- random floats: near exponents half the time
def gen (s : UInt64) : Float :=
  let r := mix s
  if r % 4 == 0 then Float.ofBits (mix (s+77))
  else if r % 4 == 1 then Float.ofBits ((mix (s+77) &&& (0x800FFFFFFFFFFFFF : UInt64)) ||| ((1018 + (mix (s+5) % 12)) <<< 52))
  else if r % 4 == 2 then Float.ofScientific ((mix (s+3)).toNat % 100000) true ((mix (s+9)).toNat % 8)
  else Float.ofBits (mix (s+77) &&& (0x801FFFFFFFFFFFFF : UInt64))
def show' (x:F64) : String := match x with | .nan => "nan" | .inf a => s!"inf {a}" | .fin a n _ => s!"{a} {n}"
def run : IO Nat := do
  let mut s : UInt64 := 12345
  let mut bad := 0
  for _ in [0:400] do
    s := lcg s; let x := gen s
    s := lcg s; let y := gen s
    let X := ofF x; let Y := ofF y
    let chk (n : String) (a : F64) (b : Float) : IO Nat := do
      if same a (ofF b) then return 0 else IO.println s!"{n} {x} {y} got {show' a} want {b}"; return 1
    bad := bad + (← chk "add" (F64.add X Y) (x+y))
    bad := bad + (← chk "sub" (F64.sub X Y) (x-y))
    bad := bad + (← chk "mul" (F64.mul X Y) (x*y))
    bad := bad + (← chk "div" (F64.div X Y) (x/y))
    bad := bad + (← chk "sqrt" (F64.sqrt X) x.sqrt)
    bad := bad + (← chk "sqrtabs" (F64.sqrt X.abs) x.abs.sqrt)
    bad := bad + (← chk "floor" (F64.floor X) x.floor)
    if F64.flt X Y != (x < y) || F64.fle X Y != (x ≤ y) || F64.feq X Y != (x == y) then IO.println s!"cmp {x} {y}"; bad := bad+1
    if F64.toU64 X != x.toUInt64.toNat then IO.println s!"u64 {x}"; bad := bad+1
    let m := (mix s).toNat; let k := (mix (s+1)).toNat % 340
    bad := bad + (← chk "sci" (F64.sci m true k) (Float.ofScientific m true k))
    bad := bad + (← chk "sci" (F64.sci m false (k % 300)) (Float.ofScientific m false (k % 300)))
  return bad

#eval show IO Unit from do
  let n ← run
  unless n = 0 do throw (IO.userError s!"{n} disagreements")

end Sat.F64Tests

import Verif.Model.Satrec
/-! # The string primitives of the Rust standard library used by `/repo/src/io.rs` -/

namespace Sat

/-- How a call ends: with a value (`Ok`), with an error value (`Err`), by a panic, or not at all. -/
inductive Res (ε α : Type) where
  | ok (a : α)
  | err (e : ε)
  | panic
  | diverge
deriving Repr

namespace Res
/-- The `?` operator of `/repo/src/io.rs`. -/
protected def bind {ε α β : Type} : Res ε α → (α → Res ε β) → Res ε β
  | .ok a, f => f a
  | .err e, _ => .err e
  | .panic, _ => .panic
  | .diverge, _ => .diverge

instance {ε : Type} : Monad (Res ε) where
  pure := .ok
  bind := Res.bind

variable {ε α β : Type}
@[simp] theorem ok_bind (a : α) (f : α → Res ε β) : (Res.ok a >>= f) = f a := rfl
@[simp] theorem err_bind (e : ε) (f : α → Res ε β) : (Res.err e >>= f) = .err e := rfl
@[simp] theorem panic_bind (f : α → Res ε β) : (Res.panic >>= f) = .panic := rfl
@[simp] theorem diverge_bind (f : α → Res ε β) : (Res.diverge >>= f) = .diverge := rfl
@[simp] theorem pure_eq (a : α) : (pure a : Res ε α) = .ok a := rfl
end Res

/-- `str::len`: the length in UTF-8 bytes. -/
def byteLen (s : Str) : Nat := (s.map Char.utf8Size).sum

/-- Cut a string at a byte offset; `none` if the offset is past the end or inside a character. -/
def splitBytes : Nat → Str → Option (Str × Str)
  | 0, s => some ([], s)
  | _ + 1, [] => none
  | n + 1, c :: cs =>
    if c.utf8Size ≤ n + 1 then
      match splitBytes (n + 1 - c.utf8Size) cs with
      | none => none
      | some (a, b) => some (c :: a, b)
    else none

/-- `&s[lo..hi]`; panics when an end is out of range or not on a character boundary. -/
def slice {ε : Type} (s : Str) (lo hi : Nat) : Res ε Str :=
  match splitBytes lo s with
  | none => .panic
  | some (_, r) =>
    match splitBytes (hi - lo) r with
    | none => .panic
    | some (m, _) => .ok m

/-- `&s[lo..]` -/
def sliceFrom {ε : Type} (s : Str) (lo : Nat) : Res ε Str :=
  match splitBytes lo s with
  | none => .panic
  | some (_, r) => .ok r

/-- `s.bytes().collect::<Vec<u8>>()[0]`; panics on the empty string. -/
def firstByte {ε : Type} (s : Str) : Res ε UInt8 :=
  match s with
  | [] => .panic
  | c :: _ =>
    match String.utf8EncodeChar c with
    | [] => .panic
    | b :: _ => .ok b

/-- `'x' as u8` for an ASCII character -/
def asByte (c : Char) : UInt8 := c.val.toUInt8

/-- `char::is_whitespace` (Unicode property `White_Space`) -/
def isWhite (c : Char) : Bool :=
  let n := c.toNat
  (9 ≤ n && n ≤ 13) || n == 0x20 || n == 0x85 || n == 0xA0 || n == 0x1680 || (0x2000 ≤ n && n ≤ 0x200A)
    || n == 0x2028 || n == 0x2029 || n == 0x202F || n == 0x205F || n == 0x3000

/-- `str::trim_start` -/
def trimStart (s : Str) : Str := s.dropWhile isWhite

/-- `str::trim_end` -/
def trimEnd (s : Str) : Str := (s.reverse.dropWhile isWhite).reverse

/-- `str::trim` -/
def trim (s : Str) : Str := trimEnd (trimStart s)

/-- `s.split("\n")`: always at least one piece. -/
def splitLines : Str → List Str
  | [] => [[]]
  | c :: cs =>
    if c = '\n' then [] :: splitLines cs
    else
      match splitLines cs with
      | [] => [[c]]
      | l :: ls => (c :: l) :: ls

/-- ASCII decimal digit -/
def isDig (c : Char) : Bool := '0' ≤ c && c ≤ '9'

/-- value of an ASCII digit -/
def digVal (c : Char) : Nat := c.toNat - 48

/-- value of a digit string, most significant digit first -/
def digitsVal (ds : Str) : Nat := ds.foldl (fun acc c => 10 * acc + digVal c) 0

/-- `str::parse::<i64>` (`none` for every error). -/
def parseI64 (s : Str) : Option Int :=
  let (neg, ds) : Bool × Str := match s with
    | '-' :: r => (true, r)
    | '+' :: r => (false, r)
    | _ => (false, s)
  if ds ≠ [] ∧ ds.all isDig then
    let v : Int := if neg then -(digitsVal ds : Int) else (digitsVal ds : Int)
    if -(2 ^ 63) ≤ v ∧ v < 2 ^ 63 then some v else none
  else none

/-- ASCII lower case -/
def lowerAscii (c : Char) : Char := if 'A' ≤ c ∧ c ≤ 'Z' then Char.ofNat (c.toNat + 32) else c

/-- The exponent suffix of a decimal number: nothing, or `e`/`E`, an optional sign and at least one digit. -/
def parseExp (s : Str) : Option Int :=
  match s with
  | [] => some 0
  | c :: r =>
    if c = 'e' ∨ c = 'E' then
      let (neg, ds) : Bool × Str := match r with
        | '-' :: r => (true, r)
        | '+' :: r => (false, r)
        | _ => (false, r)
      if ds ≠ [] ∧ ds.all isDig then some (if neg then -(digitsVal ds : Int) else (digitsVal ds : Int)) else none
    else none

/-- An unsigned decimal number `(mantissa, exponent)`: digits, optionally `.` and digits (at least one digit in all),
and an optional exponent. -/
def parseNumber (s : Str) : Option (Nat × Int) :=
  let ints := s.takeWhile isDig
  let r := s.dropWhile isDig
  let (frac, r) : Str × Str := match r with
    | '.' :: r => (r.takeWhile isDig, r.dropWhile isDig)
    | _ => ([], r)
  if ints = [] ∧ frac = [] then none
  else
    match parseExp r with
    | none => none
    | some e => some (digitsVal (ints ++ frac), e - frac.length)

/-- `str::parse::<f64>` up to rounding (`none` for every error): the grammar documented for `f64::from_str`. -/
def parseF64 (s : Str) : Option Dec :=
  let (neg, r) : Bool × Str := match s with
    | '-' :: r => (true, r)
    | '+' :: r => (false, r)
    | _ => (false, s)
  match parseNumber r with
  | some (m, e) => some (.num neg m e)
  | none =>
    let w := r.map lowerAscii
    if w = "nan".toList then some .nan
    else if w = "inf".toList ∨ w = "infinity".toList then some (.inf neg)
    else none

/-- decimal digits of a natural number, no leading zeros -/
def showNat (n : Nat) : Str :=
  if n < 10 then [Char.ofNat (48 + n)] else showNat (n / 10) ++ [Char.ofNat (48 + n % 10)]
termination_by n

/-- `format!("{}", i)` for `i: i64` -/
def showInt (i : Int) : Str := if i < 0 then '-' :: showNat i.natAbs else showNat i.natAbs

end Sat

import Verif.Arith
/-!
# IEEE-754 binary64

The doubles with round-half-even, as an executable definition.  A finite double is `± n · 2^(-1074)` with a natural number
`n`; `2^(-1074)` is the smallest positive double.  `+ - * / sqrt %` and the conversions are exact in the sense of IEEE-754
(one correct rounding); the five functions whose rounding IEEE-754 and Rust leave open (`sin cos asin atan2 powf`) are
parameters without laws (`Libm`).  NaN payloads are not modelled.
-/

namespace Sat

/-- At most 53 significant bits. -/
def Sig (n : Nat) : Prop := 2 ^ (n.log2 - 52) ∣ n

instance (n : Nat) : Decidable (Sig n) := by unfold Sig; infer_instance

/-- The number of units in 1: `2^1074`. -/
def unitN : Nat := 2 ^ 1074

/-- The first magnitude that is too large: `2^1024` in units of `2^(-1074)`. -/
def topN : Nat := 2 ^ 2098

theorem unitN_pos : 0 < unitN := Nat.pow_pos (by decide)
theorem topN_pos : 0 < topN := Nat.pow_pos (by decide)
theorem unitN_eq : unitN = 2 ^ 1074 := rfl
theorem topN_eq : topN = 2 ^ 2098 := rfl

-- keeps the elaborator from evaluating these numbers; the kernel does not mind
attribute [irreducible] unitN topN

/-- The magnitudes of finite doubles in units of `2^(-1074)`. -/
def Rep (n : Nat) : Prop := n < topN ∧ Sig n

instance (n : Nat) : Decidable (Rep n) := by unfold Rep; infer_instance

/-- IEEE-754 binary64 values. -/
inductive F64 where
  | nan
  | inf (neg : Bool)
  | fin (neg : Bool) (n : Nat) (h : Rep n)
deriving DecidableEq

namespace F64

/-- The exponent of the last place kept when `t = ⌊r⌋` (in units of `2^(-1074)`). -/
def expo (t : Nat) : Nat := t.log2 - 52

/-- `p / q` rounded half-even to a multiple of `2^e`, divided by `2^e` -/
def roundQuot (p q e : Nat) : Nat :=
  let d := q * 2 ^ e
  let m := p / d
  let r := p % d
  if 2 * r < d then m else if d < 2 * r then m + 1 else if m % 2 = 0 then m else m + 1

/-- `p / q` rounded half-even to 53 significant bits (and at least to an integer) -/
def roundN (p q : Nat) : Nat := roundQuot p q (expo (p / q)) * 2 ^ expo (p / q)

theorem log2_mul_pow (k e : Nat) (hk : 0 < k) : (k * 2 ^ e).log2 = k.log2 + e := by
  have hp : 0 < 2 ^ e := Nat.pow_pos (by decide)
  have h1 : 2 ^ k.log2 ≤ k := Nat.log2_self_le (by omega)
  have h2 : k < 2 ^ (k.log2 + 1) := Nat.lt_log2_self
  rw [Nat.log2_eq_iff (by exact Nat.ne_of_gt (Nat.mul_pos hk hp))]
  constructor
  · rw [Nat.pow_add]; exact Nat.mul_le_mul_right _ h1
  · rw [show k.log2 + e + 1 = (k.log2 + 1) + e by omega, Nat.pow_add]
    exact Nat.mul_lt_mul_of_pos_right h2 hp

/-- a multiple of `2^e` with at most 53 bits in front is a significand -/
theorem sig_mul_pow (k e : Nat) (hk : k ≤ 2 ^ 53) : Sig (k * 2 ^ e) := by
  unfold Sig
  by_cases h0 : k = 0
  · subst h0; simp
  · rw [log2_mul_pow k e (by omega)]
    by_cases h1 : k = 2 ^ 53
    · subst h1
      rw [Nat.log2_two_pow, show 53 + e - 52 = 1 + e by omega, Nat.pow_add]
      exact Nat.mul_dvd_mul (Nat.pow_dvd_pow 2 (by decide)) (Nat.dvd_refl _)
    · have : k.log2 < 53 := (Nat.log2_lt h0).mpr (by omega)
      exact Nat.dvd_trans (Nat.pow_dvd_pow 2 (by omega : k.log2 + e - 52 ≤ e)) (Nat.dvd_mul_left _ _)

theorem div_expo_lt (t : Nat) : t / 2 ^ expo t < 2 ^ 53 := by
  rw [Nat.div_lt_iff_lt_mul (Nat.pow_pos (by decide)), ← Nat.pow_add]
  have h : t < 2 ^ (t.log2 + 1) := Nat.lt_log2_self
  refine Nat.lt_of_lt_of_le h (Nat.pow_le_pow_right (by decide) ?_)
  unfold expo; omega

theorem roundQuot_cases (p q e : Nat) : roundQuot p q e = p / (q * 2 ^ e) ∨ roundQuot p q e = p / (q * 2 ^ e) + 1 := by
  unfold roundQuot
  dsimp only
  split
  · exact Or.inl rfl
  · split
    · exact Or.inr rfl
    · split
      · exact Or.inl rfl
      · exact Or.inr rfl

theorem sig_roundN (p q : Nat) : Sig (roundN p q) := by
  unfold roundN
  have h1 : p / (q * 2 ^ expo (p / q)) < 2 ^ 53 := by
    rw [← Nat.div_div_eq_div_mul]; exact div_expo_lt _
  apply sig_mul_pow
  rcases roundQuot_cases p q (expo (p / q)) with h | h <;> rw [h] <;> omega

/-- integer square root, bit by bit -/
def isqrtAux (m : Nat) : Nat → Nat → Nat
  | 0, r => r
  | k + 1, r => if (r + 2 ^ k) * (r + 2 ^ k) ≤ m then isqrtAux m k (r + 2 ^ k) else isqrtAux m k r

/-- `⌊√m⌋` -/
def isqrt (m : Nat) : Nat := isqrtAux m (m.log2 / 2 + 1) 0

/-- `√m` rounded half-even to a multiple of `2^e`, divided by `2^e` -/
def roundRoot (m e : Nat) : Nat :=
  let s := isqrt m / 2 ^ e
  let h := (2 * s + 1) * (2 * s + 1) * (2 ^ e * 2 ^ e)
  if 4 * m < h then s else if h < 4 * m then s + 1 else if s % 2 = 0 then s else s + 1

/-- `√m` rounded half-even to 53 significant bits -/
def roundSqrt (m : Nat) : Nat := roundRoot m (expo (isqrt m)) * 2 ^ expo (isqrt m)

theorem roundRoot_cases (m e : Nat) : roundRoot m e = isqrt m / 2 ^ e ∨ roundRoot m e = isqrt m / 2 ^ e + 1 := by
  unfold roundRoot
  dsimp only
  split
  · exact Or.inl rfl
  · split
    · exact Or.inr rfl
    · split
      · exact Or.inl rfl
      · exact Or.inr rfl

theorem sig_roundSqrt (m : Nat) : Sig (roundSqrt m) := by
  unfold roundSqrt
  have h1 : isqrt m / 2 ^ expo (isqrt m) < 2 ^ 53 := div_expo_lt _
  apply sig_mul_pow
  rcases roundRoot_cases m (expo (isqrt m)) with h | h <;> rw [h] <;> omega

/-- The double of magnitude `n`, infinite if that is too large. -/
def mk (neg : Bool) (n : Nat) (h : Sig n) : F64 := if hlt : n < topN then .fin neg n ⟨hlt, h⟩ else .inf neg

/-- `± p / q` (in units of `2^(-1074)`) rounded -/
def ofQ (neg : Bool) (p q : Nat) : F64 := mk neg (roundN p q) (sig_roundN p q)

theorem rep_zero : Rep 0 := ⟨topN_pos, Nat.dvd_zero _⟩

/-- the double zero with the given sign -/
def zero (neg : Bool) : F64 := .fin neg 0 rep_zero

/-- signed magnitude -/
def sgn (neg : Bool) (n : Nat) : Int := if neg then -(n : Int) else n

/-- IEEE addition -/
def add : F64 → F64 → F64
  | .nan, _ => .nan
  | _, .nan => .nan
  | .inf a, .inf b => if a = b then .inf a else .nan
  | .inf a, .fin .. => .inf a
  | .fin .., .inf b => .inf b
  | .fin a m _, .fin b n _ =>
    let z := sgn a m + sgn b n
    if z = 0 then zero (a && b) else ofQ (decide (z < 0)) z.natAbs 1

/-- sign change -/
def neg : F64 → F64
  | .nan => .nan
  | .inf a => .inf !a
  | .fin a n h => .fin (!a) n h

/-- IEEE subtraction -/
def sub (x y : F64) : F64 := add x (neg y)

/-- IEEE multiplication -/
def mul : F64 → F64 → F64
  | .nan, _ => .nan
  | _, .nan => .nan
  | .inf a, .inf b => .inf (a ^^ b)
  | .inf a, .fin b n _ => if n = 0 then .nan else .inf (a ^^ b)
  | .fin a n _, .inf b => if n = 0 then .nan else .inf (a ^^ b)
  | .fin a m _, .fin b n _ => ofQ (a ^^ b) (m * n) (unitN)

/-- IEEE division -/
def div : F64 → F64 → F64
  | .nan, _ => .nan
  | _, .nan => .nan
  | .inf _, .inf _ => .nan
  | .inf a, .fin b _ _ => .inf (a ^^ b)
  | .fin a _ _, .inf b => zero (a ^^ b)
  | .fin a m _, .fin b n _ =>
    if n = 0 then (if m = 0 then .nan else .inf (a ^^ b)) else ofQ (a ^^ b) (m * unitN) n

/-- C `fmod`, which is exact -/
def rem : F64 → F64 → F64
  | .nan, _ => .nan
  | _, .nan => .nan
  | .inf _, _ => .nan
  | .fin a m h, .inf _ => .fin a m h
  | .fin a m _, .fin _ n _ => if n = 0 then .nan else ofQ a (m % n) 1

/-- absolute value -/
def abs : F64 → F64
  | .nan => .nan
  | .inf _ => .inf false
  | .fin _ n h => .fin false n h

/-- IEEE square root; `√-0 = -0` -/
def sqrt : F64 → F64
  | .nan => .nan
  | .inf a => if a then .nan else .inf false
  | .fin a n _ => if n = 0 then zero a else if a then .nan else mk false (roundSqrt (n * unitN)) (sig_roundSqrt _)

/-- rounding down to an integer, which is exact -/
def floor : F64 → F64
  | .nan => .nan
  | .inf a => .inf a
  | .fin a n _ => if a then ofQ true ((n + (unitN - 1)) / unitN * unitN) 1 else ofQ false (n / unitN * unitN) 1

/-- `<` -/
def flt : F64 → F64 → Bool
  | .nan, _ => false
  | _, .nan => false
  | .inf a, .inf b => a && !b
  | .inf a, .fin .. => a
  | .fin .., .inf b => !b
  | .fin a m _, .fin b n _ => decide (sgn a m < sgn b n)

/-- `<=` -/
def fle : F64 → F64 → Bool
  | .nan, _ => false
  | _, .nan => false
  | .inf a, .inf b => a || !b
  | .inf a, .fin .. => a
  | .fin .., .inf b => !b
  | .fin a m _, .fin b n _ => decide (sgn a m ≤ sgn b n)

/-- `==` -/
def feq : F64 → F64 → Bool
  | .nan, _ => false
  | _, .nan => false
  | .inf a, .inf b => a == b
  | .inf _, .fin .. => false
  | .fin .., .inf _ => false
  | .fin a m _, .fin b n _ => decide (sgn a m = sgn b n)

/-- integer `as f64` -/
def ofInt (i : Int) : F64 := ofQ (decide (i < 0)) (i.natAbs * unitN) 1

/-- `f64 as u64`: truncation, saturating, NaN to 0 -/
def toU64 : F64 → Nat
  | .nan => 0
  | .inf a => if a then 0 else 2 ^ 64 - 1
  | .fin a n _ => if a then 0 else min (n / unitN) (2 ^ 64 - 1)

/-- correctly rounded decimal `± m · 10^e` -/
def ofDecimal (neg : Bool) (m : Nat) (e : Int) : F64 :=
  if e < 0 then ofQ neg (m * unitN) (10 ^ e.natAbs) else ofQ neg (m * 10 ^ e.natAbs * unitN) 1

/-- rounding step of `str::parse::<f64>` -/
def ofDec : Dec → F64
  | .nan => .nan
  | .inf a => .inf a
  | .num a m e => ofDecimal a m e

/-- decimal literals -/
def sci (m : Nat) (s : Bool) (k : Nat) : F64 := ofDecimal false m (if s then -(k : Int) else k)

/-- `std::f64::consts::PI` = 0x400921FB54442D18 = 884279719003555 / 2^48 -/
def pi : F64 := ofQ false (884279719003555 * unitN) (2 ^ 48)

/-- `std::f64::consts::FRAC_PI_2` -/
def fracPi2 : F64 := ofQ false (884279719003555 * unitN) (2 ^ 49)

end F64

/-- The functions of the platform's mathematical library, without any law.  Rust does not specify their rounding. -/
class Libm where
  sin : F64 → F64
  cos : F64 → F64
  asin : F64 → F64
  atan2 : F64 → F64 → F64
  powf : F64 → F64 → F64

instance instArithF64 [Libm] : Arith F64 where
  add := F64.add
  sub := F64.sub
  mul := F64.mul
  div := F64.div
  neg := F64.neg
  rem := F64.rem
  abs := F64.abs
  sqrt := F64.sqrt
  floor := F64.floor
  sin := Libm.sin
  cos := Libm.cos
  asin := Libm.asin
  atan2 := Libm.atan2
  powf := Libm.powf
  flt := F64.flt
  fle := F64.fle
  feq := F64.feq
  sci := F64.sci
  pi := F64.pi
  fracPi2 := F64.fracPi2
  ofInt := F64.ofInt
  toU64 := F64.toU64
  ofDec := F64.ofDec

end Sat

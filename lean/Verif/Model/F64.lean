import Verif.Rust

/-!
# IEEE 754 binary64 as used by the crate

Values are exact rationals plus NaN and the two infinities. Every arithmetic operation computes the
exact rational result and rounds it once, to nearest with ties to even, with gradual underflow and
overflow to infinity (Rust `f64` semantics). Simplifications: the sign of zero is not kept (no code
in the crate observes it: zero is compared, converted to integers, added, multiplied, and never
used as a divisor), and a `fin` value is any rational, of which the binary64 values are some.
-/

namespace Pg

/-- A binary64 value. -/
inductive F64 where
  | nan
  | inf (neg : Bool)
  | fin (q : Rat)
  deriving DecidableEq, Repr

namespace F64

/-- `2^e`. -/
def pow2 : Int → Rat
  | .ofNat n => ((2 ^ n : Nat) : Rat)
  | .negSucc n => mkRat 1 (2 ^ (n + 1))

/-- Absolute value of a rational. -/
def absQ (q : Rat) : Rat := if q < 0 then -q else q

/-- `⌊log₂ |q|⌋` for `q ≠ 0`. -/
def ilog (q : Rat) : Int :=
  let l : Int := (Nat.log2 q.num.natAbs : Int) - (Nat.log2 q.den : Int)
  if pow2 l ≤ absQ q then l else l - 1

/-- Nearest integer, ties to even. -/
def roundEven (x : Rat) : Int :=
  let f := x.floor
  let d := x - f
  if d < 1 / 2 then f else if 1 / 2 < d then f + 1 else if f % 2 = 0 then f else f + 1

/-- Exponent of the unit in the last place for a value of the size of `q`. -/
def ulpExp (q : Rat) : Int := max (ilog q - 52) (-1074)

/-- Round a rational to binary64: 53 significant bits, smallest exponent -1074, overflow to
infinity at `2^1024`. -/
def rnd (q : Rat) : F64 :=
  if q = 0 then .fin 0
  else
    let e := ulpExp q
    let r := (roundEven (q / pow2 e) : Rat) * pow2 e
    if pow2 1024 ≤ absQ r then .inf (q < 0) else .fin r

/-- `as f64` on an integer. -/
def ofInt (n : Int) : F64 := rnd n

/-- `+`. -/
def add : F64 → F64 → F64
  | .nan, _ => .nan
  | _, .nan => .nan
  | .inf a, .inf b => if a = b then .inf a else .nan
  | .inf a, .fin _ => .inf a
  | .fin _, .inf b => .inf b
  | .fin x, .fin y => rnd (x + y)

/-- Unary `-`. -/
def neg : F64 → F64
  | .nan => .nan
  | .inf a => .inf (!a)
  | .fin x => .fin (-x)

/-- `-`. -/
def sub (a b : F64) : F64 := add a (neg b)

/-- `*`. -/
def mul : F64 → F64 → F64
  | .nan, _ => .nan
  | _, .nan => .nan
  | .inf a, .inf b => .inf (a != b)
  | .inf a, .fin y => if y = 0 then .nan else .inf (a != decide (y < 0))
  | .fin x, .inf b => if x = 0 then .nan else .inf (b != decide (x < 0))
  | .fin x, .fin y => rnd (x * y)

/-- `/`. Division of a nonzero value by zero gives the infinity of the sign of the dividend; the
crate never divides by zero. -/
def div : F64 → F64 → F64
  | .nan, _ => .nan
  | _, .nan => .nan
  | .inf _, .inf _ => .nan
  | .inf a, .fin y => .inf (a != decide (y < 0))
  | .fin _, .inf _ => .fin 0
  | .fin x, .fin y =>
    if y = 0 then (if x = 0 then .nan else .inf (x < 0)) else rnd (x / y)

/-- `f64::abs`. -/
def abs : F64 → F64
  | .nan => .nan
  | .inf _ => .inf false
  | .fin x => .fin (absQ x)

/-- `<`; false if either side is NaN. -/
def lt : F64 → F64 → Bool
  | .nan, _ => false
  | _, .nan => false
  | .inf a, .inf b => a && !b
  | .inf a, .fin _ => a
  | .fin _, .inf b => !b
  | .fin x, .fin y => decide (x < y)

/-- `>=`; false if either side is NaN. -/
def ge : F64 → F64 → Bool
  | .nan, _ => false
  | _, .nan => false
  | .inf a, .inf b => !a || b
  | .inf a, .fin _ => !a
  | .fin _, .inf b => b
  | .fin x, .fin y => decide (y ≤ x)

/-- `is_nan`. -/
def isNan : F64 → Bool
  | .nan => true
  | _ => false

/-- `is_infinite`. -/
def isInf : F64 → Bool
  | .inf _ => true
  | _ => false

/-- Nearest integer, ties away from zero. -/
def roundAway (x : Rat) : Int :=
  if 0 ≤ x then (x + 1 / 2).floor else -(-x + 1 / 2).floor

/-- `f64::round`. For a binary64 argument the result is always exact. -/
def round : F64 → F64
  | .fin x => .fin (roundAway x)
  | v => v

/-- The integer part of a rational. -/
def truncQ (x : Rat) : Int := if 0 ≤ x then x.floor else -(-x).floor

/-- Clamp to `[lo, hi]`. -/
def clamp (lo hi x : Int) : Int := if x < lo then lo else if hi < x then hi else x

/-- `as i64`: truncates toward zero, saturates, NaN becomes 0. -/
def toI64 : F64 → Int
  | .nan => 0
  | .inf true => -9223372036854775808
  | .inf false => 9223372036854775807
  | .fin x => clamp (-9223372036854775808) 9223372036854775807 (truncQ x)

/-- `as i32`: truncates toward zero, saturates, NaN becomes 0. -/
def toI32 : F64 → Int
  | .nan => 0
  | .inf true => -2147483648
  | .inf false => 2147483647
  | .fin x => clamp (-2147483648) 2147483647 (truncQ x)

end F64

end Pg

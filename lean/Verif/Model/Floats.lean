/-
Decimals of floating point numbers: `xlseries/utils/float_handlers.py`. Unlike the rest of the model this file has
the rounding of binary64 numbers.
-/
import Verif.Model.Basic

set_option autoImplicit false

namespace Xls

/-- `2 ** e` as an exact number. -/
def pow2 (e : Int) : Rat := if e < 0 then 1 / (2 ^ (-e).toNat : Nat) else (2 ^ e.toNat : Nat)

/-- `10 ** e` as an exact number. -/
def pow10 (e : Int) : Rat := if e < 0 then 1 / (10 ^ (-e).toNat : Nat) else (10 ^ e.toNat : Nat)

/-- The nearest whole number, the even one of two. -/
def roundEven (q : Rat) : Int :=
  let f := q.floor
  if q - f < 1 / 2 then f else if 1 / 2 < q - f then f + 1 else if f % 2 = 0 then f else f + 1

/-- The exponent of the last of the 53 binary digits of a positive number. -/
def lastBit (q : Rat) : Int :=
  let e := (q.num.natAbs.log2 : Int) - q.den.log2 - 52
  if q / pow2 e < (2 ^ 52 : Nat) then e - 1 else e

/-- The binary64 number nearest to an exact one. Simplification: infinity and the numbers below `2 ** -1022` are not
modelled, exponents have no bounds. -/
def toDouble (q : Rat) : Rat :=
  if q = 0 then 0
  else if q < 0 then -(roundEven (-q / pow2 (lastBit (-q))) * pow2 (lastBit (-q)))
  else roundEven (q / pow2 (lastBit q)) * pow2 (lastBit q)

/-- `int(x)`, `math.trunc(x)`: the digits after the point are left out. -/
def wholePart (q : Rat) : Int := if q < 0 then -(-q).floor else q.floor

/-- `truncate`, `float_handlers.py:38-40`. `10.0 ** digits` is the nearest binary64 number. -/
def truncateTo (number : Rat) (digits : Int) : Rat :=
  let stepper := toDouble (pow10 digits)
  toDouble (toDouble (wholePart (toDouble (stepper * number))) / stepper)

/-- A multiple of `10 ** k` that is read as the binary64 number `x`, the one below `x` or the one above. -/
def hasMultiple (x : Rat) (k : Int) : Bool :=
  let m := (x / pow10 k).floor
  toDouble (m * pow10 k) = x || toDouble ((m + 1) * pow10 k) = x

/-- Looks for the exponent among `k`, `k - 1` and so on. -/
def lastPlace (x : Rat) : Nat → Int → Int
  | 0, k => k
  | fuel + 1, k => if hasMultiple x k then k else lastPlace x fuel (k - 1)

/-- `decimal.Decimal(str(x)).normalize().as_tuple().exponent`, `float_handlers.py:55`: `str` gives the decimal number
with the fewest digits that is read as `x`, so its last digit that is not 0 is at the highest place possible. -/
def shownExponent (x : Rat) : Int := if x = 0 then 0 else lastPlace x 400 (intStr (wholePart x)).length

/-- `infer_decimals`, `float_handlers.py:45-55`; the sign counts as a digit of the whole part. -/
def inferDecimals (value : Rat) : Int :=
  shownExponent (truncateTo value (17 - (intStr (wholePart value)).length))

/-- `significant_figures`, `float_handlers.py:18-33`; `none` is NaN. Simplification: the values are finite. -/
def significantFigures (serie : List (Option Rat)) : Int :=
  (serie.filterMap id).foldl (fun figures value => max figures (-inferDecimals value)) 0

end Xls

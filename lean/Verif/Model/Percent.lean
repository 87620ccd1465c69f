import Verif.Model.Decimal
/-!
# Model of the percentages of libs/stats/src/Stats.cpp (20-22, 78-91, 224-226)

`double` is the 64 bit format of IEEE 754 with rounding to nearest, a value is given as a fraction whose denominator is a
power of two.  The exponents stay far from the limits of the format, so neither overflow nor denormal numbers are modelled.
The conversion to text is `vsnprintf` with `%.*f`, which rounds the exact value (libstdc++ with glibc).
-/
namespace KT

/-- The nearest number to `a / b`; of two that are equally near the even one. -/
def rneDiv (a b : Nat) : Nat :=
  let q := a / b
  let r := a % b
  if 2 * r < b then q else if b < 2 * r then q + 1 else if q % 2 = 0 then q else q + 1

/-- How often `num` has to be doubled until the quotient has 53 bits. -/
def scaleUp : (fuel : Nat) → (num den : Nat) → Nat
  | 0, _, _ => 0
  | f + 1, num, den => if num < 2 ^ 52 * den then scaleUp f (2 * num) den + 1 else 0

/-- How often `den` has to be doubled until the quotient has 53 bits. -/
def scaleDown : (fuel : Nat) → (num den : Nat) → Nat
  | 0, _, _ => 0
  | f + 1, num, den => if 2 ^ 53 * den ≤ num then scaleDown f num (2 * den) + 1 else 0

/-- The `double` for a result of an operation with the exact value `num / den`: the quotient is rounded to 53 bits. -/
def dblRound (num den : Nat) : Nat × Nat :=
  if num = 0 then (0, 1)
  else
    let k := scaleUp 256 num den
    let j := scaleDown 256 num den
    (rneDiv (num * 2 ^ k) (den * 2 ^ j) * 2 ^ j, 2 ^ k)

/-- `asPercent` (Stats.cpp:20-22): conversion, multiplication, conversion and division, each with rounding.  It is only
called with a total that isn't 0. -/
def asPercent (amount total : Nat) : Nat × Nat :=
  let a := dblRound amount 1
  let p := dblRound (a.1 * 100) a.2
  let t := dblRound total 1
  dblRound (p.1 * t.2) (p.2 * t.1)

/-- `std::fixed << std::setprecision(precision) << value`, without a point for precision 0. -/
def fixedText (precision : Nat) (v : Nat × Nat) : Str :=
  let n := rneDiv (v.1 * 10 ^ precision) v.2
  let f := toDec (n % 10 ^ precision)
  toDec (n / 10 ^ precision) ++
    if precision = 0 then [] else u8!"." ++ List.replicate (precision - f.length) 0x30 ++ f

/-- The text written for a percentage (Stats.cpp:79, 86-88 and 224-226). -/
def percentText (precision amount total : Nat) : Str := fixedText precision (asPercent amount total)

end KT

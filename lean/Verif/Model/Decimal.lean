import Verif.Model.Basic
/-!
# Decimal text
-/
namespace KT

/-- `std::to_string` of a `size_t`: decimal digits, for at most `fuel` of them. -/
def decDigits : Nat → Nat → Str
  | 0, _ => []
  | fuel + 1, n =>
    if n < 10 then [UInt8.ofNat (0x30 + n)]
    else decDigits fuel (n / 10) ++ [UInt8.ofNat (0x30 + n % 10)]

/-- A number below `2^64` has at most 20 digits; the fuel is never used up (see `toDec_value`). -/
def toDec (n : Nat) : Str := decDigits (n + 1) n

end KT

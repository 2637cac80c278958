import Verif.Model.Float
/-
The float64 that `strconv.ParseFloat(token, 64)` returns (converter.go:350).

The standard library is not in /repo. Its documentation says: "If s is syntactically well-formed,
ParseFloat returns the nearest floating-point number to the given number, rounded using IEEE754
unbiased rounding." The reading of the string follows strconv/atof.go (see `Model/Float.lean`); the
rounding is done here on the exact fraction instead of by the algorithms of the library
(atof64exact, Eisel-Lemire, decimal shifts).
-/

namespace DDL.Go

/-- A float64. A finite one is a sign and a multiple of the smallest positive float64, 2^-1074. -/
inductive F64 where
  | finite (neg : Bool) (units : Nat)
  | inf (neg : Bool)
  | nan
  deriving DecidableEq, Repr

/-- The integer nearest to `a / b`; of two equally near ones the even one. -/
def roundEven (a b : Nat) : Nat :=
  if 2 * (a % b) < b then a / b
  else if b < 2 * (a % b) then a / b + 1
  else if a / b % 2 = 0 then a / b
  else a / b + 1

/-- The binary places that a number with this integral part (in units of 2^-1074) loses: 53 remain. -/
def lost (n : Nat) : Nat := n.log2 - 52

/-- The multiple of 2^-1074 for the number `p / q`. -/
def toUnits (p q : Nat) : Nat :=
  let a := p * 2 ^ 1074
  let k := lost (a / q)
  roundEven a (q * 2 ^ k) * 2 ^ k

/-- What `readFloat` (strconv/atof.go) reads after sign and base prefix, as numerator and denominator. -/
def fraction (hex : Bool) (t : Str) : Nat × Nat :=
  let m := readMant hex false 0 0 false t
  let base := if hex then 2 else 10
  let scale := if hex then 4 * m.frac else m.frac
  match m.rest with
  | [] => (m.mantissa, base ^ scale)
  | _ :: r =>
    match readExp r with
    | none => (m.mantissa, base ^ scale)
    | some (neg, e) => if neg then (m.mantissa, base ^ (scale + e)) else (m.mantissa * base ^ e, base ^ scale)

/-- `n, _ := strconv.ParseFloat(token, 64)` (converter.go:350), for tokens that `IsNumericToken` accepts. -/
def parseFloat (t : Str) : F64 :=
  if special t then
    if equalIgnoreCase t (S "nan") then .nan else .inf (splitSign t).1
  else
    let f := match hexPrefix (splitSign t).2 with
      | some r => fraction true r
      | none => fraction false (splitSign t).2
    .finite (splitSign t).1 (toUnits f.1 f.2)

/-- The interface value of `Constraint.Default` (types.go:30). -/
inductive Value where
  | nil
  | float (x : F64)
  | str (s : Str)
  | bool (b : Bool)
  deriving DecidableEq, Repr

/-- The value returned by `convertLiteralValue` (converter.go:347-366) for the `DefaultVal` of the model, in which
a number is its token. -/
def goValue : DefaultVal → Value
  | .nil => .nil
  | .num t => .float (parseFloat t)
  | .str s => .str s
  | .bool b => .bool b

end DDL.Go

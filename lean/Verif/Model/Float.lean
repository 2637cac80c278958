import Verif.Model.Basic
/-
`strconv.ParseFloat(s, 64)` of the Go 1.22 standard library: which strings it accepts.

`common.IsNumericToken` (utils.go:54-57) is "no error from ParseFloat". The theorems hold for every
number test `isNum` (most of them with the assumption `NumOK isNum`); this file gives the test
that the Go library performs, so that nothing has to be assumed about it. The standard library is
not in /repo: the definitions follow strconv/atof.go and strconv/atoi.go as published with Go 1.22.
Simplification: the mantissa is kept exactly (the Go code keeps 19 digits and falls back to exact
decimal arithmetic), the value itself is not rounded here (the results carry the token; see Model/Value.lean).
-/

namespace DDL.Go

/-- `commonPrefixLenIgnoreCase` (strconv/atof.go) equal to the whole of both strings. -/
def equalIgnoreCase : Str → Str → Bool
  | [], [] => true
  | c :: cs, p :: ps => lowC c == p && equalIgnoreCase cs ps
  | _, _ => false

/-- `special` (strconv/atof.go) consuming the whole string: an optionally signed "inf" or
"infinity", or "nan", in any case. -/
def special (t : Str) : Bool :=
  let inf (r : Str) : Bool := equalIgnoreCase r (S "inf") || equalIgnoreCase r (S "infinity")
  match t with
  | [] => false
  | c :: r =>
    if c == '+' || c == '-' then inf r
    else inf t || equalIgnoreCase t (S "nan")

/-- Value of a digit in the given base (the digit cases of the loop in `readFloat`). -/
def digit (hex : Bool) (c : Char) : Option Nat :=
  if isDig c then some (c.toNat - '0'.toNat)
  else if hex && decide ('a'.toNat ≤ (lowC c).toNat) && decide ((lowC c).toNat ≤ 'f'.toNat) then
    some ((lowC c).toNat - 'a'.toNat + 10)
  else none

/-- What the digit loop of `readFloat` has read: the mantissa, the number of digits after the dot,
`sawdigits`, and the rest of the string. -/
structure Mant where
  mantissa : Nat
  frac : Nat
  sawdigits : Bool
  rest : Str
  deriving DecidableEq, Repr

/-- The digit loop of `readFloat` (strconv/atof.go). -/
def readMant (hex : Bool) : Bool → Nat → Nat → Bool → Str → Mant
  | _, m, f, sd, [] => ⟨m, f, sd, []⟩
  | sawdot, m, f, sd, c :: cs =>
    if c == '_' then readMant hex sawdot m f sd cs
    else if c == '.' then
      if sawdot then ⟨m, f, sd, c :: cs⟩ else readMant hex true m f sd cs
    else
      match digit hex c with
      | some v =>
        readMant hex sawdot (m * (if hex then 16 else 10) + v) (if sawdot then f + 1 else f) true cs
      | none => ⟨m, f, sd, c :: cs⟩

/-- The exponent digits of `readFloat`: once the exponent has reached 10000 further digits are
skipped; `none` when something else follows. -/
def expDigits : Nat → Str → Option Nat
  | e, [] => some e
  | e, c :: cs =>
    if c == '_' then expDigits e cs
    else if isDig c then expDigits (if e < 10000 then e * 10 + (c.toNat - '0'.toNat) else e) cs
    else none

/-- The exponent part of `readFloat`, after the exponent character: sign and value. -/
def readExp (t : Str) : Option (Bool × Nat) :=
  let (neg, r) := splitSign t
  match r with
  | [] => none
  | c :: _ => if isDig c then (expDigits 0 r).map fun e => (neg, e) else none

/-- `underscoreOK` (strconv/atoi.go) after the sign and the base prefix; `saw` is the class of the
last character: '0' for a digit or the base prefix, '_' , '^' at the start, '!' otherwise. -/
def underscoreLoop (hex : Bool) : Char → Str → Bool
  | saw, [] => saw != '_'
  | saw, c :: cs =>
    if (digit hex c).isSome then underscoreLoop hex '0' cs
    else if c == '_' then
      if saw != '0' then false else underscoreLoop hex '_' cs
    else if saw == '_' then false
    else underscoreLoop hex '!' cs

/-- `underscoreOK` (strconv/atoi.go) after the sign. -/
def underscoreBase : Str → Bool
  | '0' :: x :: r =>
    if lowC x == 'b' || lowC x == 'o' || lowC x == 'x' then underscoreLoop (lowC x == 'x') '0' r
    else underscoreLoop false '^' ('0' :: x :: r)
  | r => underscoreLoop false '^' r

/-- `underscoreOK` (strconv/atoi.go). -/
def underscoreOK (t : Str) : Bool := underscoreBase (splitSign t).2

/-- From this value on a number is out of the range of float64: half a unit above the largest
finite number (ties are rounded to even, here upwards). -/
def tooLarge : Nat := 2 ^ 1024 - 2 ^ 970

/-- A range error: `mantissa * base ^ (exponent - scale)` is `tooLarge`. -/
def overflows (base mantissa scale : Nat) (neg : Bool) (e : Nat) : Bool :=
  if mantissa = 0 then false
  else if neg then decide (tooLarge * base ^ (scale + e) ≤ mantissa)
  else decide (tooLarge * base ^ scale ≤ mantissa * base ^ e)

/-- `readFloat` (strconv/atof.go) after sign and base prefix, consuming the whole string, with the
range check of `atof64`; `true` when there is no error. -/
def readNumber (hex : Bool) (t : Str) : Bool :=
  let m := readMant hex false 0 0 false t
  if !m.sawdigits then false
  else
    match m.rest with
    | [] => !hex && !overflows 10 m.mantissa m.frac false 0
    | c :: r =>
      if lowC c == (if hex then 'p' else 'e') then
        match readExp r with
        | none => false
        | some (neg, e) =>
          !(if hex then overflows 2 m.mantissa (4 * m.frac) neg e
            else overflows 10 m.mantissa m.frac neg e)
      else false

/-- The base prefix: `i+2 < len(s) && s[i] == '0' && lower(s[i+1]) == 'x'` in `readFloat`. -/
def hexPrefix : Str → Option Str
  | '0' :: x :: c :: r => if lowC x == 'x' then some (c :: r) else none
  | _ => none

/-- `_, err := strconv.ParseFloat(t, 64); err == nil` (common/utils.go:54-57 `IsNumericToken`). -/
def isNumeric (t : Str) : Bool :=
  special t ||
    ((match hexPrefix (splitSign t).2 with
      | some r => readNumber true r
      | none => readNumber false (splitSign t).2) &&
      (!t.contains '_' || underscoreOK t))

end DDL.Go

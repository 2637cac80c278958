import Verif.Spec.Number
/-
Specification: the value of a number, and the nearest float64. Written without reference to the model.
-/

namespace DDL.Spec.Num

/-- `p / q` is `m * base ^ ±e`. -/
def Power (base m : Nat) (sign : Str) (e p q : Nat) : Prop :=
  if sign = ['-'] then p = m ∧ q = base ^ e else p = m * base ^ e ∧ q = 1

/-- An exponent with the digits `es`. -/
def ExpDigits (letters : List Char) (t sign : Str) (es : List Nat) : Prop :=
  ∃ c ds, c ∈ letters ∧ Sign sign ∧ t = c :: (sign ++ ds) ∧ Run dec ds es

/-- The decimal number `r` has the value `p / q`. -/
def DecimalValue (r : Str) (p q : Nat) : Prop :=
  ∃ m vs x, r = m ++ x ∧ Run dec m vs ∧
    ((x = [] ∧ p = value 10 vs ∧ q = 1) ∨
      ∃ sign es, ExpDigits ['e', 'E'] x sign es ∧ Power 10 (value 10 vs) sign (value 10 es) p q)

/-- The hexadecimal number `r` has the value `p / q`. -/
def HexadecimalValue (r : Str) (p q : Nat) : Prop :=
  ∃ z u m vs x sign es, z ∈ ['x', 'X'] ∧ (u = [] ∨ u = ['_']) ∧ r = '0' :: z :: (u ++ m ++ x) ∧
    Run hex m vs ∧ ExpDigits ['p', 'P'] x sign es ∧ Power 2 (value 16 vs) sign (value 10 es) p q

/-- The number `t` has the value `p / q`, or `- p / q` if `neg`. -/
def Denotes (t : Str) (neg : Bool) (p q : Nat) : Prop :=
  ∃ sign r, Sign sign ∧ t = sign ++ r ∧ (neg = true ↔ sign = ['-']) ∧ (DecimalValue r p q ∨ HexadecimalValue r p q)

/-- `x * 2^-1074` is a float64: a number of 53 binary digits times a power of two. -/
def IsDouble (x : Nat) : Prop := ∃ m k, m < 2 ^ 53 ∧ k ≤ 2045 ∧ x = m * 2 ^ k

/-- The last of the 53 digits is 0. -/
def EvenDouble (x : Nat) : Prop :=
  ∃ m k, m < 2 ^ 53 ∧ k ≤ 2045 ∧ x = m * 2 ^ k ∧ m % 2 = 0 ∧ (k = 0 ∨ 2 ^ 52 ≤ m)

/-- Distance. -/
def dist (x y : Nat) : Nat := (x - y) + (y - x)

/-- `x * 2^-1074` is the float64 nearest to `p / q`; if there are two, the even one. -/
structure Nearest (p q x : Nat) : Prop where
  double : IsDouble x
  near : ∀ y, IsDouble y → dist (x * q) (p * 2 ^ 1074) ≤ dist (y * q) (p * 2 ^ 1074)
  even : ∀ y, IsDouble y → y ≠ x → dist (x * q) (p * 2 ^ 1074) = dist (y * q) (p * 2 ^ 1074) → EvenDouble x

end DDL.Spec.Num

import Verif.Spec.Output
/-
Specification: the numbers of a DDL script, following the documentation of Go's floating-point
literals. A token has no decimal point (C43), so there is none here.
-/

namespace DDL.Spec.Num

/-- Value of a decimal digit. -/
def dec (c : Char) : Option Nat := "0123456789".toList.findIdx? (· == c)

/-- Value of a hexadecimal digit. -/
def hex (c : Char) : Option Nat :=
  "0123456789abcdef".toList.findIdx? (fun x => x == c || x.toUpper == c)

/-- Digits, with at most one underscore between two digits. -/
inductive Run (D : Char → Option Nat) : Str → List Nat → Prop
  | one {c v} : D c = some v → Run D [c] [v]
  | next {c v r vs} : D c = some v → Run D r vs → Run D (c :: r) (v :: vs)
  | under {c v r vs} : D c = some v → Run D r vs → Run D (c :: '_' :: r) (v :: vs)

/-- The number with these digits. -/
def value (base : Nat) : List Nat → Nat := List.foldl (fun n v => n * base + v) 0

/-- The exponent that counts: digits after the exponent has reached 10000 are not looked at. -/
def Exponent (vs : List Nat) (e : Nat) : Prop :=
  (e = value 10 vs ∧ e < 10000) ∨ ∃ p s, vs = p ++ s ∧ e = value 10 p ∧ 10000 ≤ e ∧ e < 100000

/-- An optional sign. -/
def Sign (s : Str) : Prop := s = [] ∨ s = ['+'] ∨ s = ['-']

/-- The first number that is rounded to infinity. -/
def limit : Nat := 2 ^ 1024 - 2 ^ 970

/-- The number `m * base ^ ±e` is below the limit. -/
def InRange (base m : Nat) (sign : Str) (e : Nat) : Prop :=
  if sign = ['-'] then m < limit * base ^ e else m * base ^ e < limit

instance (base m : Nat) (sign : Str) (e : Nat) : Decidable (InRange base m sign e) := by
  unfold InRange; infer_instance

/-- An exponent: letter, sign, digits. -/
def Exp (letters : List Char) (t sign : Str) (e : Nat) : Prop :=
  ∃ c ds es, c ∈ letters ∧ Sign sign ∧ t = c :: sign ++ ds ∧ Run dec ds es ∧ Exponent es e

/-- `12`, `1_000e-3` -/
def Decimal (t : Str) : Prop :=
  ∃ m vs x, t = m ++ x ∧ Run dec m vs ∧
    ((x = [] ∧ value 10 vs < limit) ∨
      ∃ sign e, Exp ['e', 'E'] x sign e ∧ InRange 10 (value 10 vs) sign e)

/-- `0x1F_FFp3`: the exponent is that of 2, and must be there. -/
def Hexadecimal (t : Str) : Prop :=
  ∃ z u m vs x sign e, z ∈ ['x', 'X'] ∧ (u = [] ∨ u = ['_']) ∧ t = '0' :: z :: u ++ m ++ x ∧
    Run hex m vs ∧ Exp ['p', 'P'] x sign e ∧ InRange 2 (value 16 vs) sign e

/-- A number without a decimal point. -/
def Number (t : Str) : Prop :=
  NotFinite t ∨ ∃ sign r, Sign sign ∧ t = sign ++ r ∧ (Decimal r ∨ Hexadecimal r)

end DDL.Spec.Num

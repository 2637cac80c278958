import Verif.Model.Float
/-
Tests of the model of `strconv.ParseFloat` against the table of Go's own test (atof_test.go).
-/

namespace DDL.Tests
open DDL

def accepted : List String :=
  ["1", "+1", "1e23", "1E23", "100000000000000016777215", "100000000000000016777216", "-1", "-0", "1e-20", "625e-3",
   "0", "0e0", "-0e0", "+0e0", "0e-1", "0.", ".0", "0.0e+99", "1e-400",
   "1.7976931348623157e308", "-1.7976931348623157e308", "1.7976931348623158e308", "1e-324", "5e-324", "4.9e-324",
   "2.2250738585072011e-308", "0x1p0", "0x1P+0", "0X1.8p1", "0x.8p0", "0x1.fffffffffffffp1023", "nan", "NaN", "inf", "-Inf",
   "+INFINITY", "1_23.50_0_0e+1_2", "0x_1_2.3_4_5p+1_2", "-0x_1_2.3_4_5p+1_2", "5.", ".5", "1.e5", "00012"]

def refused : List String :=
  ["", "1x", "1.1.", "1e", "1e-", ".e-1", "1p2", "0x1", "0x.p0", "0x1.e1", "1e309", "1e310", "1e400", "1.797693134862315808e308",
   "-1.797693134862315808e308", "0x1p1024", "0x1.fffffffffffff8p1023", "+nan", "infin", "infinit", "1__23.5e+12", "123_.5e+12", "123._5e+12", "_123.5e+12",
   "123.5e_+12", "123.5e+12_", "<EOF>", "'5'", "\"5\"", "-", "+", ".", "e", "--1", "+-1", "1,5", "abc", "DEFAULT", "0x", "0x_p0", "0b1", "1 "]

example : accepted.all (fun s => Go.isNumeric s.toList) = true := by decide +kernel
example : refused.all (fun s => !Go.isNumeric s.toList) = true := by decide +kernel

end DDL.Tests

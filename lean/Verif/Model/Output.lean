import Verif.Model.Parse
import Verif.Model.Float
/-
What a caller does with the returned values: the message of an error, and writing the tables as JSON.
-/

namespace DDL.Out

/-- common/errors.go:17-19 `ValidateError.Error`: the format is
`ValidateError: Syntax error: near '%s' at line %d.`; `Line` is never negative here. -/
def message (e : VErr) : Str :=
  S "ValidateError: Syntax error: near '" ++ e.near ++ S "' at line " ++ Nat.toDigits 10 e.line ++ S "."

/-- The float64 of `Constraint.Default` (converter.go:349-352) as far as `encoding/json` asks about it:
`floatEncoder` returns an UnsupportedValueError for the infinities and NaN (`ParseFloat` makes these
exactly of the tokens `special` accepts) and a number otherwise. -/
def floatFails (tok : Str) : Bool := Go.special tok

/-- The interface value `Constraint.Default` (types/types.go:30): nil, bool and string are always
written. -/
def defaultFails : DefaultVal → Bool
  | .num t => floatFails t
  | _ => false

/-- `json.Marshal` of `[]Table` returns an error: all fields (types/types.go:4-72) are structs, slices,
strings, ints and bools, which are always written, but for `Default`. -/
def marshalFails (ts : List Table) : Bool :=
  ts.any fun t => t.columns.any fun c => defaultFails c.constraint.default

end DDL.Out

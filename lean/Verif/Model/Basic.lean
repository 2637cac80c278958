/-
Basic types of the model: strings, dialects, result types, small helpers.
Models internal/common/{constants,utils,errors}.go and internal/types/types.go.
-/

namespace DDL

/-- A Go string after `[]rune(..)` (lexer.go:72). Go strings are UTF-8 byte sequences; the lexer
works on runes and re-encodes them, so a list of characters is the same information. Invalid
UTF-8 is replaced by U+FFFD by Go before the modelled code sees it (Model/Bytes.lean, C48). -/
abbrev Str := List Char

/-- Keyword literal as a `Str`. -/
abbrev S (s : String) : Str := s.toList

/-- common/constants.go:12 `EOF`. -/
def EOF : Str := S "<EOF>"

/-- The token `"\n"` which the lexer emits for every line break (lexer.go:295). -/
def nl : Str := ['\n']

/-- common/constants.go:4-10. `Rdbms` is a Go string type, so a caller can pass other values:
`other` stands for every value that is none of the three constants. -/
inductive Rdbms where
  | sqlite | postgres | mysql | other
  deriving DecidableEq, Repr

/-- common/errors.go:8-11 `ValidateError`. Go `int` modelled as `Nat`: lines only count up
from 1. -/
structure VErr where
  line : Nat
  near : Str
  deriving DecidableEq, Repr

/-- Outcome of a stateful function: normal return, `ValidateError` return (with the state at
that point), run-time panic (index or slice out of range), fuel exhausted. -/
inductive Res (σ α : Type) where
  | ok (a : α) (s : σ)
  | fail (e : VErr) (s : σ)
  | panic
  | timeout
  deriving DecidableEq, Repr

/-! ### Characters and strings -/

/-- `strings.ToUpper` on one rune, for ASCII. In the validators and in `matchToken` it is applied to keyword
literals and to tokens that already matched a keyword or the ASCII identifier pattern. -/
def upC (c : Char) : Char :=
  if 'a'.toNat ≤ c.toNat ∧ c.toNat ≤ 'z'.toNat then Char.ofNat (c.toNat - 32) else c

/-- `strings.ToLower` on one rune (ASCII part), see `upC`. -/
def lowC (c : Char) : Char :=
  if 'A'.toNat ≤ c.toNat ∧ c.toNat ≤ 'Z'.toNat then Char.ofNat (c.toNat + 32) else c

/-- `strings.ToUpper`. -/
def toUpper (s : Str) : Str := s.map upC
/-- `strings.ToLower`. -/
def toLower (s : Str) : Str := s.map lowC

/-- What `strings.ToUpper` and `strings.ToLower` do to a rune (`unicode.ToUpper`, `unicode.ToLower`; converter.go:219,
226, 356-362 apply the former to arbitrary tokens). On ASCII they are `upC` and `lowC`; nothing is said about other runes. -/
class CaseMap where
  up : Char → Char
  low : Char → Char
  up_ascii : ∀ c : Char, c.toNat < 128 → up c = upC c
  low_ascii : ∀ c : Char, c.toNat < 128 → low c = lowC c

/-- The one that leaves all other runes alone. It is the one meant where no other is named. -/
@[reducible] instance asciiCase : CaseMap := ⟨upC, lowC, fun _ _ => rfl, fun _ _ => rfl⟩

/-- `strings.ToUpper` on any string: it maps the runes one by one. -/
def upStr [CaseMap] (s : Str) : Str := s.map CaseMap.up
/-- `strings.ToLower` on any string. -/
def lowStr [CaseMap] (s : Str) : Str := s.map CaseMap.low

theorem upStr_ascii (s : Str) : upStr s = toUpper s := rfl

/-- common/utils.go:25-32 `Contains`. -/
def contains (slice : List Str) (key : Str) : Bool := slice.any (fun s => s == key)

/-- The keyword test inside `matchToken` (validator.go:99-105 and converter.go:82-88): the token
equals the all-lower-case or the all-upper-case form of one of the keywords. -/
def isKw (keywords : List String) (tok : Str) : Bool :=
  contains (keywords.map (fun k => toLower (S k)) ++ keywords.map (fun k => toUpper (S k))) tok

/-- ASCII letter or underscore: `[a-zA-Z_]`. -/
def isAlpha_ (c : Char) : Bool :=
  ('a'.toNat ≤ c.toNat && c.toNat ≤ 'z'.toNat) || ('A'.toNat ≤ c.toNat && c.toNat ≤ 'Z'.toNat)
    || c == '_'

/-- ASCII digit `[0-9]`. -/
def isDig (c : Char) : Bool := '0'.toNat ≤ c.toNat && c.toNat ≤ '9'.toNat

/-- The regular expression `^[a-zA-Z_][a-zA-Z0-9_]*$` (validator_sqlite.go:54,
validator_postgresql.go:53, validator_mysql.go:54). -/
def matchIdent : Str → Bool
  | [] => false
  | c :: cs => isAlpha_ c && cs.all (fun x => isAlpha_ x || isDig x)

/-! ### strconv -/

/-- Value of a string of decimal digits. -/
def digitsVal (s : Str) : Nat := s.foldl (fun acc c => acc * 10 + (c.toNat - '0'.toNat)) 0

/-- Split an optional sign. `true` means negative. -/
def splitSign : Str → Bool × Str
  | '-' :: r => (true, r)
  | '+' :: r => (false, r)
  | r => (false, r)

/-- `strconv.Atoi` on a 64-bit platform: value and "err == nil". A syntax error gives 0, a range
error gives the nearest representable value. -/
def atoi (s : Str) : Int × Bool :=
  let (neg, ds) := splitSign s
  if ds.isEmpty || !ds.all isDig then (0, false)
  else
    let v := digitsVal ds
    if neg then
      if v ≤ 2 ^ 63 then (-(v : Int), true) else (-(2 ^ 63 : Int), false)
    else
      if v < 2 ^ 63 then ((v : Int), true) else ((2 ^ 63 - 1 : Int), false)

/-- common/utils.go:46-52 `IsPositiveIntegerToken`. -/
def isPositiveIntegerToken (tok : Str) : Bool :=
  let (n, ok) := atoi tok
  ok && decide (0 < n)

/-! ### Result types: internal/types/types.go -/

/-- `Constraint.Default interface{}` (types.go:30): nil, a float64, a string or a bool. The float
is represented by the token it was parsed from (`strconv.ParseFloat(token, 64)`);
its value is `goValue` (Model/Value.lean). -/
inductive DefaultVal where
  | nil
  | num (tok : Str)
  | str (s : Str)
  | bool (b : Bool)
  deriving DecidableEq, Repr

/-- types.go:36-39. `ColumnNames` is nil (`none`) when no list was given. -/
structure Reference where
  tableName : Str := []
  columnNames : Option (List Str) := none
  deriving DecidableEq, Repr

/-- types.go:18-22. -/
structure DataType where
  name : Str := []
  digitN : Int := 0
  digitM : Int := 0
  deriving DecidableEq, Repr

/-- types.go:24-34. -/
structure Constraint where
  name : Str := []
  isPrimaryKey : Bool := false
  isUnique : Bool := false
  isNotNull : Bool := false
  isAutoincrement : Bool := false
  default : DefaultVal := .nil
  check : Str := []
  collate : Str := []
  references : Reference := {}
  deriving DecidableEq, Repr

/-- types.go:12-16. -/
structure Column where
  name : Str := []
  dataType : DataType := {}
  constraint : Constraint := {}
  deriving DecidableEq, Repr

/-- types.go:48-51. -/
structure PrimaryKey where
  name : Str
  columnNames : List Str
  deriving DecidableEq, Repr

/-- types.go:53-56. -/
structure Unique where
  name : Str
  columnNames : List Str
  deriving DecidableEq, Repr

/-- types.go:58-61. -/
structure Check where
  name : Str
  expr : Str
  deriving DecidableEq, Repr

/-- types.go:63-67. -/
structure ForeignKey where
  name : Str
  columnNames : List Str
  references : Reference
  deriving DecidableEq, Repr

/-- types.go:41-46. -/
structure TableConstraint where
  primaryKey : List PrimaryKey := []
  unique : List Unique := []
  check : List Check := []
  foreignKey : List ForeignKey := []
  deriving DecidableEq, Repr

/-- types.go:4-10. -/
structure Table where
  schema : Str := []
  name : Str := []
  ifNotExists : Bool := false
  columns : List Column := []
  constraints : TableConstraint := {}
  deriving DecidableEq, Repr

/-! ### External numeric parser -/

/-- `common.IsNumericToken` (utils.go:54-57) is `strconv.ParseFloat(token, 64)` succeeding. It is a
parameter of the model; this is everything the theorems assume about it: a string it accepts
is non-empty and starts with a digit, a sign, a dot or a letter of `inf`/`nan`. -/
def NumOK (isNum : Str → Bool) : Prop :=
  ∀ t, isNum t = true → ∃ c r, t = c :: r ∧
    (isDig c = true ∨ c ∈ ['+', '-', '.', 'i', 'I', 'n', 'N'])

/-- A concrete instance used in examples and tests: optional sign, digits, optional fraction.
(A strict subset of what Go accepts: no exponents, hex floats, inf or nan.) -/
def simpleNum (t : Str) : Bool :=
  let (_, r) := splitSign t
  let ip := r.takeWhile isDig
  let r2 := r.dropWhile isDig
  match r2 with
  | [] => !ip.isEmpty
  | '.' :: f => (!ip.isEmpty || !f.isEmpty) && f.all isDig
  | _ => false

end DDL

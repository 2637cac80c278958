import Verif.Model.Basic
import Verif.Model.Words
/-
Model of internal/validator/validator.go and of the helper methods that the three dialect
validators share.

The validator methods are written in a small free monad `Prog`. Its operations are the methods
of the Go struct `validator` that the dialect code calls; the interpreter `run` gives them
their meaning on the struct's fields.
-/

namespace DDL

/-- A validator method as the sequence of primitive operations it performs. -/
inductive Prog (α : Type) where
  /-- return -/
  | ret (a : α)
  /-- `v.token()` (validator.go:56-61) -/
  | token (k : Str → Prog α)
  /-- `v.isOutOfRange()` (validator.go:69-71) -/
  | oob (k : Bool → Prog α)
  /-- `v.token()[0:1]`: panics if the token is the empty string -/
  | head (k : Char → Prog α)
  /-- `v.next()` (`keep = false`) or `v.set(v.next())` (`keep = true`) -/
  | adv (keep : Bool) (k : Prog α)
  /-- `v.set(t)` (validator.go:64-66) -/
  | emit (t : Str) (k : Prog α)
  /-- `return v.syntaxError()` (validator.go:94-96); every caller returns the error at once, so
  nothing runs after it. Callers that catch an error and return `v.syntaxError()` again
  (validator_sqlite.go:531-533, validator_mysql.go:616-618, 846-848) return the same error,
  because the state has not moved in between. -/
  | fail
  /-- fuel exhausted -/
  | timeout

namespace Prog

def bind : Prog α → (α → Prog β) → Prog β
  | ret a, f => f a
  | token k, f => token (fun t => (k t).bind f)
  | oob k, f => oob (fun b => (k b).bind f)
  | head k, f => head (fun c => (k c).bind f)
  | adv b k, f => adv b (k.bind f)
  | emit t k, f => emit t (k.bind f)
  | fail, _ => fail
  | timeout, _ => timeout

instance : Monad Prog where
  pure := Prog.ret
  bind := Prog.bind

end Prog

/-- validator.go:35-41 `validator`: `rest` is `tokens[i:]` (`size` and `i` are implicit). -/
structure VS where
  rest : List Str
  line : Nat
  result : List Str
  deriving DecidableEq, Repr

namespace VS

/-- validator.go:56-61 `token`. -/
def token (s : VS) : Str := s.rest.headD EOF

/-- The loop of `next` (validator.go:79-89) after the first increment: skip newline tokens and
count them. -/
def skipNl : List Str → Nat → List Str × Nat
  | [], l => ([], l)
  | t :: r, l => if t = nl then skipNl r (l + 1) else (t :: r, l)

/-- validator.go:74-91 `next`: the new state. The returned string is `s.token`
(common.EOF when out of range). -/
def next (s : VS) : VS :=
  match s.rest with
  | [] => s
  | _ :: r => { s with rest := (skipNl r s.line).1, line := (skipNl r s.line).2 }

/-- validator.go:64-66 `set`. -/
def set (s : VS) (t : Str) : VS := { s with result := s.result ++ [t] }

/-- validator.go:44-53 `init`. -/
def init (tokens : List Str) : VS :=
  let s : VS := { rest := tokens, line := 1, result := [] }
  if s.token = nl then s.next else s

end VS

/-- Meaning of a validator method on the validator state. -/
def run : Prog α → VS → Res VS α
  | .ret a, s => .ok a s
  | .token k, s => run (k s.token) s
  | .oob k, s => run (k s.rest.isEmpty) s
  | .head k, s =>
    match s.token with
    | [] => .panic
    | c :: _ => run (k c) s
  | .adv true k, s => run k (s.next.set s.token)
  | .adv false k, s => run k s.next
  | .emit t k, s => run k (s.set t)
  | .fail, s => .fail ⟨s.line, s.token⟩ s
  | .timeout, _ => .timeout

namespace V

/-- `v.token()`. -/
def token : Prog Str := .token .ret
/-- `v.isOutOfRange()`. -/
def isOutOfRange : Prog Bool := .oob .ret
/-- `v.token()[0:1]`. -/
def head : Prog Char := .head .ret
/-- `if set { v.set(v.next()) } else { v.next() }`. -/
def next (set : Bool) : Prog Unit := .adv set (.ret ())
/-- `v.set(t)`. -/
def set (t : Str) : Prog Unit := .emit t (.ret ())
/-- `return v.syntaxError()`. -/
def syntaxError : Prog α := .fail

/-- Go `if`: evaluate the condition, then run one branch. -/
@[macro_inline] def ifM (c : Prog Bool) (t e : Prog α) : Prog α := c.bind (fun b => cond b t e)

/-- validator.go:99-105 `matchToken`. -/
def matchToken (keywords : List String) : Prog Bool := .token (fun t => .ret (isKw keywords t))

/-- validator.go:108-118 `matchTokenNext`. -/
def matchTokenNext (set : Bool) (keywords : List String) : Prog Bool :=
  ifM (matchToken keywords) (.adv set (.ret true)) (.ret false)

/-- `v.matchTokenNext(set, keywords...)` used as a statement. -/
def skipToken (set : Bool) (keywords : List String) : Prog Unit :=
  (matchTokenNext set keywords).bind (fun _ => .ret ())

/-- validator.go:121-134 `validateToken`. -/
def validateToken (set : Bool) (keywords : List String) : Prog Unit :=
  ifM isOutOfRange syntaxError
    (ifM (matchToken keywords) (next set) syntaxError)

/-- validator.go:151-167 `validateBracketsAux`, with `validateBrackets` (137-148) inlined at its
recursive call so that one fuel argument suffices (`Proof/Brackets.lean` has the code's form). -/
def validateBracketsAux (set : Bool) : Nat → Prog Unit
  | 0 => .timeout
  | n + 1 =>
    ifM (matchToken [")"]) (.ret ())
      (ifM (matchToken ["("])
        (do validateToken set ["("]
            validateBracketsAux set n
            validateToken set [")"]
            validateBracketsAux set n)
        (do next set
            validateBracketsAux set n))

/-- validator.go:137-148 `validateBrackets`. -/
def validateBrackets (n : Nat) (set : Bool) : Prog Unit := do
  validateToken set ["("]
  validateBracketsAux set n
  validateToken set [")"]

/-! ### Helpers with the same text in the three dialect validators

The dialect is an argument here. `other` is checked by the SQLite validator
(validator.go:26-33). -/

/-- validator_sqlite.go:39-41, validator_postgresql.go:39-41, validator_mysql.go:39-42
`isStringValue`, on the first character of the token. -/
def isStringValue (d : Rdbms) (c : Char) : Bool :=
  match d with
  | .mysql => c == '"' || c == '\''
  | _ => c == '\''

/-- validator_sqlite.go:44-47, validator_postgresql.go:44-46, validator_mysql.go:45-47
`isIdentifier`, on the first character of the token. -/
def isIdentifier (d : Rdbms) (c : Char) : Bool :=
  match d with
  | .postgres => c == '"'
  | .mysql => c == '`'
  | _ => c == '"' || c == '`'

/-- The reserved words of the dialect's validator. -/
def reserved (d : Rdbms) : List String :=
  match d with
  | .postgres => reservedPostgres
  | .mysql => reservedMysql
  | _ => reservedSqlite

/-- The second half of `isValidName`: pattern and reserved words. -/
def plainName (d : Rdbms) (t : Str) : Bool :=
  matchIdent t && !contains ((reserved d).map S) (toUpper t)

/-- validator_sqlite.go:50-58, validator_postgresql.go:49-57, validator_mysql.go:50-58
`isValidName(v.token())`. -/
def isValidName (d : Rdbms) : Prog Bool :=
  .head fun c =>
    cond (isIdentifier d c) (.ret true) (.token fun t => .ret (plainName d t))

/-- validator_sqlite.go:61-71, validator_postgresql.go:60-70, validator_mysql.go:61-71
`validateName`; also `validateColumnName` (87-89, 91-93, 88-90), which only calls it. -/
def validateName (d : Rdbms) (set : Bool) : Prog Unit :=
  ifM (isValidName d) (next set) syntaxError

/-- validator_sqlite.go:74-84, validator_postgresql.go:73-88, validator_mysql.go:74-85
`validateTableName` (PostgreSQL spells `matchTokenNext` out). -/
def validateTableName (d : Rdbms) (set : Bool) : Prog Unit := do
  validateName d set
  ifM (matchTokenNext set ["."]) (validateName d set) (.ret ())

/-- validator_sqlite.go:92-100, validator_postgresql.go:101-109, validator_mysql.go:940-948
`validateCommaSeparatedColumnNames`. -/
def validateCommaSeparatedColumnNames (d : Rdbms) (set : Bool) : Nat → Prog Unit
  | 0 => .timeout
  | n + 1 => do
    validateName d set
    ifM (matchTokenNext set [","]) (validateCommaSeparatedColumnNames d set n) (.ret ())

/-- validator_sqlite.go:103-105, validator_postgresql.go:96-98, validator_mysql.go:159-161
`validateExpr`. -/
def validateExpr (n : Nat) (set : Bool) : Prog Unit := validateBrackets n set

/-- validator_sqlite.go:177-187, validator_postgresql.go:185-195, validator_mysql.go:294-304
`validateIfNotExists`. -/
def validateIfNotExists : Prog Unit :=
  ifM (matchTokenNext true ["IF"])
    (do validateToken true ["NOT"]
        validateToken true ["EXISTS"])
    (.ret ())

/-- validator_sqlite.go:151-174, validator_postgresql.go:159-182, validator_mysql.go:268-291: the
loop of `validateCreateOther` and the final `;`. -/
def createOtherLoop : Nat → Bool → Prog Unit
  | 0, _ => .timeout
  | n + 1, begin_ =>
    ifM isOutOfRange syntaxError <|
    Prog.bind (matchToken ["BEGIN"]) fun b =>
    let begin_ := begin_ || b
    cond begin_
      (Prog.bind (matchToken ["END"]) fun e => do
        next false
        createOtherLoop n (!e))
      (ifM (matchToken [";"])
        (validateToken false [";"])
        (do next false
            createOtherLoop n false))

/-- validator_sqlite.go:147-174, validator_postgresql.go:150-182, validator_mysql.go:261-291
`validateCreateOther`, with the dialect's list of object kinds. -/
def validateCreateOther (kinds : List String) (n : Nat) : Prog Unit := do
  validateToken false kinds
  createOtherLoop n false

/-- The keyword literals of validator_sqlite.go:382, validator_postgresql.go:501,
validator_mysql.go:181. -/
def literalKeywords : List String :=
  ["NULL", "TRUE", "FALSE", "CURRENT_TIME", "CURRENT_DATE", "CURRENT_TIMESTAMP"]

/-- validator_sqlite.go:373-387, validator_postgresql.go:492-506, validator_mysql.go:164-186
`validateLiteralValue` (`set` is true in SQLite and PostgreSQL). `isNum` is
`common.IsNumericToken`. -/
def validateLiteralValue (isNum : Str → Bool) (d : Rdbms) (set : Bool) : Prog Unit :=
  .token fun t =>
    cond (isNum t) (next set)
      (.head fun c =>
        cond (isStringValue d c) (next set) (validateToken set literalKeywords))

/-- validator_postgresql.go:336-342, validator_mysql.go:145-156 `validatePositiveInteger`. -/
def validatePositiveInteger (set : Bool) : Prog Unit :=
  .token fun t => cond (isPositiveIntegerToken t) (next set) syntaxError

/-- validator_postgresql.go:300-315, validator_mysql.go:107-123 `validateTypeDigitN`,
`validateTypeDigitP`. -/
def validateTypeDigitN (set : Bool) : Prog Unit :=
  ifM (matchTokenNext set ["("])
    (do validatePositiveInteger set
        validateToken set [")"])
    (.ret ())

/-- validator_postgresql.go:318-333, validator_mysql.go:127-142 `validateTypeDigitPS`. -/
def validateTypeDigitPS (set : Bool) : Prog Unit :=
  ifM (matchTokenNext set ["("])
    (do validatePositiveInteger set
        ifM (matchTokenNext set [","]) (validatePositiveInteger set) (.ret ())
        validateToken set [")"])
    (.ret ())

/-- validator_postgresql.go:531-560, validator_mysql.go:623-652 `validateConstraintReferencesAux`
(the same text; SQLite's has one more clause, see `Sqlite`). -/
def validateConstraintReferencesAux : Nat → Prog Unit
  | 0 => .timeout
  | n + 1 =>
    ifM (matchTokenNext false ["ON"])
      (do validateToken false ["DELETE", "UPDATE"]
          ifM (matchTokenNext false ["SET"])
            (validateToken false ["NULL", "DEFAULT"])
            (ifM (matchTokenNext false ["CASCADE", "RESTRICT"]) (.ret ())
              (ifM (matchTokenNext false ["NO"])
                (validateToken false ["ACTION"])
                syntaxError))
          validateConstraintReferencesAux n)
      (ifM (matchTokenNext false ["MATCH"])
        (do validateToken false ["SIMPLE", "PARTIAL", "FULL"]
            validateConstraintReferencesAux n)
        (.ret ()))

/-- The head of `validateColumnConstraintsAux` (validator_sqlite.go:252-264,
validator_postgresql.go:363-383, validator_mysql.go:421-452): `isKind` is `isColumnConstraint`,
`key` the word under which the constraint is remembered in `ls`, `one` is
`validateColumnConstraint`. The three copies differ only in these. -/
def columnConstraintsAux (isKind : List String) (key : Str → Str) (one : Nat → Prog Unit) :
    Nat → List Str → Prog Unit
  | 0, _ => .timeout
  | n + 1, ls =>
    ifM (matchToken isKind)
      (.token fun t =>
        cond (contains ls (key t)) syntaxError
          (do one (n + 1)
              columnConstraintsAux isKind key one n (ls ++ [key t])))
      (.ret ())

end V
end DDL

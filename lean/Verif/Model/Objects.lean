import Verif.Model.Parse
/-
The three parser objects as the Go code has them: structs with the whole input, its size and an
integer position, set up anew by `init` at each call of the exported method. Model.Lexer,
Model.Validator and Model.Converter keep only the unread rest of the input; this file is the
model one step closer to the code, with index arithmetic, index panics and the state an object
is left in. Go `int` is `Int` here (no overflow: positions are bounded by the input length and
lines by the number of newlines).

Slices are lists: the code never writes to a slice it did not make itself (`result` is a fresh
slice after every `init`), so sharing of backing arrays cannot be observed.
-/

namespace DDL.Obj

/-- A method: the object in, outcome (with the object afterwards) out. -/
def OM (σ α : Type) := σ → Res σ α

namespace OM
def pure (a : α) : OM σ α := fun s => .ok a s
def bind (f : OM σ α) (g : α → OM σ β) : OM σ β := fun s =>
  match f s with
  | .ok a s' => g a s'
  | .fail e s' => .fail e s'
  | .panic => .panic
  | .timeout => .timeout
instance : Monad (OM σ) where
  pure := OM.pure
  bind := OM.bind
end OM

/-- Go `if` on the result of a method call. -/
@[macro_inline] def ifM (c : OM σ Bool) (t e : OM σ α) : OM σ α := c.bind (fun b => cond b t e)

/-- Fuel exhausted. -/
def timeout : OM σ α := fun _ => .timeout

/-- Go `slice[i]`: run-time panic outside the bounds. -/
def index (l : List α) (i : Int) : Option α := if i < 0 then none else l[i.toNat]?

/-! ### lexer -/

/-- lexer.go:47-54 `lexer`. -/
structure Lexer where
  rdbms : Rdbms
  ddlr : List Char
  size : Int
  i : Int
  line : Nat
  result : List Str
  deriving DecidableEq, Repr

namespace Lexer

/-- lexer.go:57-59 `NewLexer`: the other fields have their zero values. -/
def new (d : Rdbms) : Lexer := ⟨d, [], 0, 0, 0, []⟩

/-- lexer.go:71-77 `init`. -/
def init (ddl : List Char) (l : Lexer) : Lexer :=
  { l with ddlr := ddl, size := ddl.length, i := 0, line := 1, result := [] }

/-- lexer.go:105-107 `isOutOfRange`. -/
def outOfRange (l : Lexer) : Bool := decide (l.i > l.size - 1)

/-- lexer.go:105-107 `isOutOfRange`. -/
def isOutOfRange : OM Lexer Bool := fun l => .ok l.outOfRange l

/-- lexer.go:90-95 `char`. -/
def char : OM Lexer Str := fun l =>
  if l.outOfRange then .ok EOF l
  else match index l.ddlr l.i with
    | none => .panic
    | some c => .ok [c] l

/-- lexer.go:80-87 `next`, as a statement (the returned string is never used). -/
def next : OM Lexer Unit := fun l =>
  if l.outOfRange then .ok () l
  else match index l.ddlr l.i with
    | none => .panic
    | some _ => .ok () { l with i := l.i + 1 }

/-- lexer.go:98-102 `appendToken`. -/
def appendToken (token : Str) : OM Lexer Unit := fun l =>
  if token ≠ [] then .ok () { l with result := l.result ++ [token] } else .ok () l

/-- `l.line += 1`. -/
def incLine : OM Lexer Unit := fun l => .ok () { l with line := l.line + 1 }

/-- `l.i -= 1` (lexer.go:216). -/
def back : OM Lexer Unit := fun l => .ok () { l with i := l.i - 1 }

/-- lexer.go:110-112 `lexError`. -/
def lexError : OM Lexer α := char.bind fun c => fun l => .fail ⟨l.line, c⟩ l

/-- `l.rdbms`. -/
def rdbmsOf : OM Lexer Rdbms := fun l => .ok l.rdbms l

/-- `l.char() == s`. -/
def charIs (s : String) : OM Lexer Bool := char.bind fun c => OM.pure (decide (c = S s))

/-- lexer.go:328-335: the loop of `skipComment`. -/
def skipCommentLoop : Nat → OM Lexer Unit
  | 0 => timeout
  | n + 1 =>
    ifM isOutOfRange (OM.pure ())
      (ifM (charIs "\n")
        (incLine.bind fun _ => appendToken (S "\n"))
        (next.bind fun _ => skipCommentLoop n))

/-- lexer.go:326-338 `skipComment`. -/
def skipComment (n : Nat) : OM Lexer Unit :=
  next.bind fun _ => (skipCommentLoop n).bind fun _ => next

/-- lexer.go:341-364 `skipMultiLineComment`, from the loop test on. -/
def skipMultiLoop : Nat → OM Lexer Unit
  | 0 => timeout
  | n + 1 =>
    ifM isOutOfRange lexError
      (char.bind fun c =>
        if c = S "\n" then
          incLine.bind fun _ => (appendToken (S "\n")).bind fun _ =>
          next.bind fun _ => skipMultiLoop n
        else if c = S "*" then
          next.bind fun _ =>
          ifM (charIs "/") next
            (next.bind fun _ => skipMultiLoop n)
        else if c = S "/" then
          next.bind fun _ =>
          ifM (charIs "*")
            (next.bind fun _ => skipMultiLoop n)       -- return l.skipMultiLineComment()
            (next.bind fun _ => skipMultiLoop n)
        else next.bind fun _ => skipMultiLoop n)

/-- lexer.go:341-364 `skipMultiLineComment`. -/
def skipMultiLineComment (n : Nat) : OM Lexer Unit := next.bind fun _ => skipMultiLoop n

mutual
/-- lexer.go:371-396: the loop of `lexStringDoubleQuote`. A nested call is the callee's
`l.next()` and its loop. -/
def doubleLoop : Nat → Str → OM Lexer Str
  | 0, _ => timeout
  | n + 1, str =>
    ifM isOutOfRange lexError
      (char.bind fun c =>
        if c = S "\n" then
          incLine.bind fun _ => (appendToken (S "\n")).bind fun _ =>
          next.bind fun _ => doubleLoop n str
        else if c = S "\"" then next.bind fun _ => OM.pure (str ++ c)
        else if c = S "'" then
          next.bind fun _ => (singleLoop n (S "'")).bind fun s =>
          next.bind fun _ => doubleLoop n (str ++ s)
        else if c = S "`" then
          next.bind fun _ => (backLoop n (S "`")).bind fun s =>
          next.bind fun _ => doubleLoop n (str ++ s)
        else next.bind fun _ => doubleLoop n (str ++ c))

/-- lexer.go:404-429: the loop of `lexStringSingleQuote`. -/
def singleLoop : Nat → Str → OM Lexer Str
  | 0, _ => timeout
  | n + 1, str =>
    ifM isOutOfRange lexError
      (char.bind fun c =>
        if c = S "\n" then
          incLine.bind fun _ => (appendToken (S "\n")).bind fun _ =>
          next.bind fun _ => singleLoop n str
        else if c = S "'" then next.bind fun _ => OM.pure (str ++ c)
        else if c = S "\"" then
          next.bind fun _ => (doubleLoop n (S "\"")).bind fun s =>
          next.bind fun _ => singleLoop n (str ++ s)
        else if c = S "`" then
          next.bind fun _ => (backLoop n (S "`")).bind fun s =>
          next.bind fun _ => singleLoop n (str ++ s)
        else next.bind fun _ => singleLoop n (str ++ c))

/-- lexer.go:437-462: the loop of `lexStringBackQuote`. -/
def backLoop : Nat → Str → OM Lexer Str
  | 0, _ => timeout
  | n + 1, str =>
    ifM isOutOfRange lexError
      (char.bind fun c =>
        if c = S "\n" then
          incLine.bind fun _ => (appendToken (S "\n")).bind fun _ =>
          next.bind fun _ => backLoop n str
        else if c = S "`" then next.bind fun _ => OM.pure (str ++ c)
        else if c = S "\"" then
          next.bind fun _ => (doubleLoop n (S "\"")).bind fun s =>
          next.bind fun _ => backLoop n (str ++ s)
        else if c = S "'" then
          next.bind fun _ => (singleLoop n (S "'")).bind fun s =>
          next.bind fun _ => backLoop n (str ++ s)
        else next.bind fun _ => backLoop n (str ++ c))
end

/-- lexer.go:367-397 `lexStringDoubleQuote`. -/
def lexStringDoubleQuote (n : Nat) : OM Lexer Str := next.bind fun _ => doubleLoop n (S "\"")
/-- lexer.go:400-430 `lexStringSingleQuote`. -/
def lexStringSingleQuote (n : Nat) : OM Lexer Str := next.bind fun _ => singleLoop n (S "'")
/-- lexer.go:433-463 `lexStringBackQuote`. -/
def lexStringBackQuote (n : Nat) : OM Lexer Str := next.bind fun _ => backLoop n (S "`")

/-- lexer.go:176-190 `lexHyphen`; the value is the new `*token`. -/
def lexHyphen (n : Nat) (token : Str) : OM Lexer Str :=
  char.bind fun c =>
  if c = S "-" then
    next.bind fun _ =>
    ifM (charIs "-")
      ((appendToken token).bind fun _ => (skipComment n).bind fun _ => OM.pure [])
      (OM.pure (token ++ c))
  else OM.pure token

/-- lexer.go:193-208 `lexSlash`. -/
def lexSlash (n : Nat) (token : Str) : OM Lexer Str :=
  char.bind fun c =>
  if c = S "/" then
    next.bind fun _ =>
    ifM (charIs "*")
      ((appendToken token).bind fun _ => (skipMultiLineComment n).bind fun _ => OM.pure [])
      (OM.pure (token ++ c))
  else OM.pure token

/-- lexer.go:211-223 `lexAsterisk`. -/
def lexAsterisk (token : Str) : OM Lexer Str :=
  char.bind fun c =>
  if c = S "*" then
    next.bind fun _ =>
    ifM (charIs "/")
      (back.bind fun _ => lexError)
      (OM.pure (token ++ c))
  else OM.pure token

/-- lexer.go:226-238 `lexDoubleQuote`. -/
def lexDoubleQuote (n : Nat) (token : Str) : OM Lexer Str :=
  char.bind fun c =>
  if c = S "\"" then
    (appendToken token).bind fun _ => (lexStringDoubleQuote n).bind fun str =>
    (appendToken str).bind fun _ => OM.pure []
  else OM.pure token

/-- lexer.go:241-253 `lexSingleQuote`. -/
def lexSingleQuote (n : Nat) (token : Str) : OM Lexer Str :=
  char.bind fun c =>
  if c = S "'" then
    (appendToken token).bind fun _ => (lexStringSingleQuote n).bind fun str =>
    (appendToken str).bind fun _ => OM.pure []
  else OM.pure token

/-- lexer.go:256-271 `lexBackQuote`. -/
def lexBackQuote (n : Nat) (token : Str) : OM Lexer Str :=
  rdbmsOf.bind fun d =>
  if d = .postgres then lexError
  else
    char.bind fun c =>
    if c = S "`" then
      (appendToken token).bind fun _ => (lexStringBackQuote n).bind fun str =>
      (appendToken str).bind fun _ => OM.pure []
    else OM.pure token

/-- lexer.go:274-287 `lexSharp`. -/
def lexSharp (n : Nat) (token : Str) : OM Lexer Str :=
  char.bind fun c =>
  if c = S "#" then
    rdbmsOf.bind fun d =>
    if d = .mysql then
      (appendToken token).bind fun _ => (skipComment n).bind fun _ => OM.pure []
    else next.bind fun _ => OM.pure (token ++ c)
  else OM.pure token

/-- lexer.go:290-300 `lexEOL`. -/
def lexEOL (token : Str) : OM Lexer Str :=
  char.bind fun c =>
  if c = S "\n" then
    incLine.bind fun _ => (appendToken token).bind fun _ => (appendToken c).bind fun _ =>
    next.bind fun _ => OM.pure []
  else next.bind fun _ => OM.pure token

/-- lexer.go:303-311 `lexSpace`. -/
def lexSpace (token : Str) : OM Lexer Str :=
  char.bind fun c =>
  if c = S " " ∨ c = S "\t" then
    (appendToken token).bind fun _ => next.bind fun _ => OM.pure []
  else next.bind fun _ => OM.pure token

/-- lexer.go:314-323 `lexSymbol`. -/
def lexSymbol (token : Str) : OM Lexer Str :=
  char.bind fun c =>
  if c = S "(" ∨ c = S ")" ∨ c = S "," ∨ c = S "." ∨ c = S ";" then
    (appendToken token).bind fun _ => (appendToken c).bind fun _ =>
    next.bind fun _ => OM.pure []
  else next.bind fun _ => OM.pure token

/-- lexer.go:120-132: the first `if` chain of the loop body. -/
def first (n : Nat) (token : Str) : OM Lexer Str :=
  char.bind fun c =>
  if c = S "-" then lexHyphen n token
  else if c = S "/" then lexSlash n token
  else if c = S "*" then lexAsterisk token
  else OM.pure token

/-- lexer.go:138-169: the second `if` chain of the loop body. -/
def second (n : Nat) (token : Str) : OM Lexer Str :=
  char.bind fun c =>
  if c = S "\"" then lexDoubleQuote n token
  else if c = S "'" then lexSingleQuote n token
  else if c = S "`" then lexBackQuote n token
  else if c = S "#" then lexSharp n token
  else if c = S " " ∨ c = S "\t" then lexSpace token
  else if c = S "\n" then lexEOL token
  else if c = S "(" ∨ c = S ")" ∨ c = S "," ∨ c = S "." ∨ c = S ";" then lexSymbol token
  else if c = [Char.ofNat 0x3000] then lexError
  else next.bind fun _ => OM.pure (token ++ c)

/-- `l.size > l.i` (lexer.go:117). -/
def inRange : OM Lexer Bool := fun l => .ok (decide (l.size > l.i)) l

/-- lexer.go:115-173 `lex`. -/
def lex : Nat → Str → OM Lexer Unit
  | 0, _ => timeout
  | n + 1, token =>
    ifM inRange
      ((first n token).bind fun token =>
        ifM isOutOfRange (appendToken token)
          ((second n token).bind fun token => lex n token))
      (appendToken token)

/-- lexer.go:62-68 `Lex`: the answer, and the object afterwards. -/
def Lex (n : Nat) (ddl : List Char) (l : Lexer) : Res Lexer (List Str) :=
  match lex n [] (init ddl l) with
  | .ok _ l' => .ok l'.result l'
  | .fail e l' => .fail e l'
  | .panic => .panic
  | .timeout => .timeout

end Lexer

/-! ### validator -/

/-- validator.go:35-41 `validator`. -/
structure Validator where
  tokens : List Str
  size : Int
  i : Int
  line : Nat
  result : List Str
  deriving DecidableEq, Repr

namespace Validator

/-- validator.go:26-33 `NewValidator`: all fields have their zero values. -/
def new : Validator := ⟨[], 0, 0, 0, []⟩

/-- validator.go:69-71 `isOutOfRange`. -/
def outOfRange (v : Validator) : Bool := decide (v.i > v.size - 1)

/-- validator.go:56-61 `token`: `none` is a run-time panic. -/
def token (v : Validator) : Option Str := if v.outOfRange then some EOF else index v.tokens v.i

/-- validator.go:79-89: the loop of `next`. `none` is a run-time panic or too little fuel. -/
def nextLoop : Nat → Validator → Option Validator
  | 0, _ => none
  | n + 1, v =>
    let v := { v with i := v.i + 1 }
    if v.outOfRange then some v
    else
      match v.token with
      | none => none
      | some t => if t = S "\n" then nextLoop n { v with line := v.line + 1 } else some v

/-- validator.go:74-91 `next`: the object afterwards and the returned string. Every round of
the loop moves `i` towards `size`, so the number of tokens is fuel enough. -/
def next (v : Validator) : Option (Str × Validator) :=
  if v.outOfRange then some (EOF, v)
  else
    match v.token, nextLoop v.tokens.length v with
    | some t, some v' => some (t, v')
    | _, _ => none

/-- validator.go:64-66 `set`. -/
def set (v : Validator) (t : Str) : Validator := { v with result := v.result ++ [t] }

/-- validator.go:44-53 `init`. -/
def init (tokens : List Str) (v : Validator) : Option Validator :=
  let v := { v with tokens := tokens, size := tokens.length, i := 0, line := 1, result := [] }
  match v.token with
  | none => none
  | some t => if t = S "\n" then (next v).map (·.2) else some v

/-- Meaning of a validator method on the object. -/
def run : Prog α → Validator → Res Validator α
  | .ret a, v => .ok a v
  | .token k, v =>
    match v.token with
    | none => .panic
    | some t => run (k t) v
  | .oob k, v => run (k v.outOfRange) v
  | .head k, v =>
    match v.token with
    | none => .panic
    | some [] => .panic
    | some (c :: _) => run (k c) v
  | .adv true k, v =>
    match v.next with
    | none => .panic
    | some (t, v') => run k (v'.set t)
  | .adv false k, v =>
    match v.next with
    | none => .panic
    | some (_, v') => run k v'
  | .emit t k, v => run k (v.set t)
  | .fail, v =>
    match v.token with
    | none => .panic
    | some t => .fail ⟨v.line, t⟩ v
  | .timeout, _ => .timeout

/-- `Validate` (validator_sqlite.go:19-25, validator_postgresql.go:19-25,
validator_mysql.go:19-25): the answer, and the object afterwards. -/
def Validate (isNum : Str → Bool) (d : Rdbms) (n : Nat) (tokens : List Str) (v : Validator) :
    Res Validator (List Str) :=
  match v.init tokens with
  | none => .panic
  | some v =>
    match run (validateProg isNum d n) v with
    | .ok _ v' => .ok v'.result v'
    | .fail e v' => .fail e v'
    | .panic => .panic
    | .timeout => .timeout

end Validator

/-! ### converter -/

/-- converter.go:27-33 `converter`. -/
structure Converter where
  rdbms : Rdbms
  tokens : List Str
  size : Int
  i : Int
  result : List Table
  deriving DecidableEq, Repr

namespace Converter

/-- converter.go:36-38 `NewConverter`. -/
def new (d : Rdbms) : Converter := ⟨d, [], 0, 0, []⟩

/-- converter.go:48-53 `init`. -/
def init (tokens : List Str) (c : Converter) : Converter :=
  { c with tokens := tokens, size := tokens.length, i := 0, result := [] }

/-- converter.go:64-66 `isOutOfRange`. -/
def outOfRange (c : Converter) : Bool := decide (c.i > c.size - 1)

/-- converter.go:64-66 `isOutOfRange`. -/
def isOutOfRange : OM Converter Bool := fun c => .ok c.outOfRange c

/-- converter.go:56-61 `token`. -/
def token : OM Converter Str := fun c =>
  if c.outOfRange then .ok EOF c
  else match index c.tokens c.i with
    | none => .panic
    | some t => .ok t c

/-- `c.i += 1` (converter.go:74). -/
def inc : OM Converter Unit := fun c => .ok () { c with i := c.i + 1 }

/-- converter.go:69-79 `next`, with fuel. -/
def nextN : Nat → OM Converter Str
  | 0 => timeout
  | n + 1 =>
    ifM isOutOfRange (OM.pure EOF)
      (token.bind fun t => inc.bind fun _ =>
        if t = S "," then
          token.bind fun t' => if t' = S "," then nextN n else OM.pure t
        else OM.pure t)

/-- converter.go:69-79 `next`. The recursion moves `i` towards `size`, so the number of tokens
is fuel enough. -/
def next : OM Converter Str := fun c => nextN (c.tokens.length + 1) c

/-- `c.next()` as a statement. -/
def skip : OM Converter Unit := next.bind fun _ => OM.pure ()

/-- converter.go:82-88 `matchToken`. -/
def matchToken (keywords : List String) : OM Converter Bool :=
  token.bind fun t => OM.pure (isKw keywords t)

/-- `c.rdbms`. -/
def rdbmsOf : OM Converter Rdbms := fun c => .ok c.rdbms c

/-- `token[0:1]`: panics on the empty string. -/
def headChar (t : Str) : OM Converter Char := fun c =>
  match t with
  | [] => .panic
  | x :: _ => .ok x c

/-- `token[1 : len(token)-1]`: panics if the token is shorter than 2. -/
def inner (t : Str) : OM Converter Str := fun c =>
  if t.length < 2 then .panic else .ok (t.drop 1).dropLast c

/-- converter.go:91-102 `isIdentifier`. -/
def isIdentifier (t : Str) : OM Converter Bool :=
  (headChar t).bind fun x => rdbmsOf.bind fun d =>
  OM.pure (match d with
    | .sqlite => x == '"' || x == '`'
    | .mysql => x == '`'
    | .postgres => x == '"'
    | .other => false)

/-- converter.go:105-116 `isStringValue`. -/
def isStringValue (t : Str) : OM Converter Bool :=
  (headChar t).bind fun x => rdbmsOf.bind fun d =>
  OM.pure (match d with
    | .sqlite => x == '\''
    | .mysql => x == '"' || x == '\''
    | .postgres => x == '\''
    | .other => false)

/-- converter.go:175-182 `convertName`. -/
def convertName : OM Converter Str :=
  next.bind fun token => ifM (isIdentifier token) (inner token) (OM.pure token)

/-- converter.go:159-172 `convertTableName`. -/
def convertTableName : OM Converter (Str × Str) :=
  convertName.bind fun schemaName =>
  ifM (matchToken ["."])
    (skip.bind fun _ => convertName.bind fun tableName => OM.pure (schemaName, tableName))
    (OM.pure ([], schemaName))

/-- converter.go:237-250 `convertTypeDigit`. -/
def convertTypeDigit : OM Converter (Int × Int) :=
  ifM (matchToken ["("])
    (skip.bind fun _ =>
     next.bind fun tn =>
     (ifM (matchToken [","])
       (skip.bind fun _ => next.bind fun tm => OM.pure (atoi tm).1)
       (OM.pure 0)).bind fun m =>
     skip.bind fun _ =>
     OM.pure ((atoi tn).1, m))
    (OM.pure (0, 0))

/-- converter.go:217-234 `convertDateType`. -/
def convertDateType [CaseMap] : OM Converter DataType :=
  next.bind fun t =>
  (ifM (matchToken ["VARYING"])
    ((if upStr t = S "BIT" then OM.pure (S "VARBIT")
      else if upStr t = S "CHARACTER" then OM.pure (S "VARCHAR")
      else token.bind fun v => OM.pure (upStr t ++ S " " ++ upStr v)).bind fun name =>
     skip.bind fun _ => OM.pure name)
    (OM.pure (upStr t))).bind fun name =>
  convertTypeDigit.bind fun nm =>
  OM.pure { name := name, digitN := nm.1, digitM := nm.2 }

/-- converter.go:331-344 `convertExprAux`, with `convertExpr` inlined at its recursive call. -/
def convertExprAux : Nat → OM Converter Str
  | 0 => timeout
  | n + 1 =>
    ifM (matchToken [")"]) (OM.pure [])
      (ifM (matchToken ["("])
        (next.bind fun a =>
         (convertExprAux n).bind fun b =>
         next.bind fun c =>
         (convertExprAux n).bind fun e => OM.pure ((a ++ b ++ c) ++ e))
        (next.bind fun a =>
         (convertExprAux n).bind fun b => OM.pure (a ++ b)))

/-- converter.go:331-333 `convertExpr`. -/
def convertExpr (n : Nat) : OM Converter Str :=
  next.bind fun a =>
  (convertExprAux n).bind fun b =>
  next.bind fun c => OM.pure (a ++ b ++ c)

/-- converter.go:347-366 `convertLiteralValue`. -/
def convertLiteralValue [CaseMap] (isNum : Str → Bool) : OM Converter DefaultVal :=
  next.bind fun token =>
  if isNum token then OM.pure (.num token)
  else
    ifM (isStringValue token)
      ((inner token).bind fun s => OM.pure (.str s))
      (if upStr token = S "NULL" then OM.pure .nil
       else if upStr token = S "TRUE" then OM.pure (.bool true)
       else if upStr token = S "FALSE" then OM.pure (.bool false)
       else OM.pure (.str token))

/-- converter.go:322-328 `convertDefaultValue`. -/
def convertDefaultValue [CaseMap] (isNum : Str → Bool) (n : Nat) : OM Converter DefaultVal :=
  ifM (matchToken ["("])
    ((convertExpr n).bind fun s => OM.pure (.str s))
    (convertLiteralValue isNum)

/-- converter.go:427-436: the loop of `convertCommaSeparatedColumnNames`. -/
def columnNamesLoop : Nat → List Str → OM Converter (List Str)
  | 0, _ => timeout
  | n + 1, ls =>
    ifM (matchToken [")"]) (OM.pure ls)
      (ifM (matchToken [","])
        (skip.bind fun _ => columnNamesLoop n ls)
        (token.bind fun t => skip.bind fun _ => columnNamesLoop n (ls ++ [t])))

/-- converter.go:424-439 `convertCommaSeparatedColumnNames`. -/
def convertCommaSeparatedColumnNames (n : Nat) : OM Converter (List Str) :=
  skip.bind fun _ =>
  (columnNamesLoop n []).bind fun ls =>
  skip.bind fun _ => OM.pure ls

/-- converter.go:369-377 `convertReference`. -/
def convertReference (n : Nat) : OM Converter Reference :=
  skip.bind fun _ =>
  convertName.bind fun t =>
  ifM (matchToken ["("])
    ((convertCommaSeparatedColumnNames n).bind fun cs =>
      OM.pure { tableName := t, columnNames := some cs })
    (OM.pure { tableName := t, columnNames := none })

/-- converter.go:266-319 `convertConstraintAux`; the value is `*constraint` afterwards. -/
def convertConstraintAux [CaseMap] (isNum : Str → Bool) : Nat → Constraint → OM Converter Constraint
  | 0, _ => timeout
  | n + 1, con =>
    ifM (matchToken [",", ")"]) (OM.pure con) <|
    ifM (matchToken ["PRIMARY"])
      (skip.bind fun _ => skip.bind fun _ =>
        convertConstraintAux isNum n { con with isPrimaryKey := true }) <|
    ifM (matchToken ["AUTOINCREMENT", "AUTO_INCREMENT"])
      (skip.bind fun _ =>
        convertConstraintAux isNum n { con with isAutoincrement := true }) <|
    ifM (matchToken ["NOT"])
      (skip.bind fun _ => skip.bind fun _ =>
        convertConstraintAux isNum n { con with isNotNull := true }) <|
    ifM (matchToken ["UNIQUE"])
      (skip.bind fun _ =>
        convertConstraintAux isNum n { con with isUnique := true }) <|
    ifM (matchToken ["DEFAULT"])
      (skip.bind fun _ => (convertDefaultValue isNum n).bind fun v =>
        convertConstraintAux isNum n { con with default := v }) <|
    ifM (matchToken ["CHECK"])
      (skip.bind fun _ => (convertExpr n).bind fun e =>
        convertConstraintAux isNum n { con with check := e }) <|
    ifM (matchToken ["COLLATE"])
      (skip.bind fun _ => convertName.bind fun e =>
        convertConstraintAux isNum n { con with collate := e }) <|
    ifM (matchToken ["REFERENCES"])
      ((convertReference n).bind fun r =>
        convertConstraintAux isNum n { con with references := r })
    (OM.pure con)

/-- converter.go:253-263 `convertConstraint`. -/
def convertConstraint [CaseMap] (isNum : Str → Bool) (n : Nat) : OM Converter Constraint :=
  (ifM (matchToken ["CONSTRAINT"])
    (skip.bind fun _ =>
      ifM (matchToken ["PRIMARY", "UNIQUE", "NOT", "AUTOINCREMENT", "AUTO_INCREMENT", "DEFAULT",
        "CHECK", "REFERENCES", "COLLATE"]) (OM.pure []) convertName)
    (OM.pure [])).bind fun name =>
  convertConstraintAux isNum n { name := name }

/-- converter.go:207-214 `convertColumnDefinition`. -/
def convertColumnDefinition [CaseMap] (isNum : Str → Bool) (n : Nat) : OM Converter Column :=
  convertName.bind fun name =>
  convertDateType.bind fun dt =>
  (convertConstraint isNum n).bind fun con =>
  OM.pure { name := name, dataType := dt, constraint := con }

/-- converter.go:380-421 `convertTableConstraint`; the value is `*tableConstraint` afterwards. -/
def convertTableConstraint (n : Nat) (tc : TableConstraint) : OM Converter TableConstraint :=
  (ifM (matchToken ["CONSTRAINT"])
    (skip.bind fun _ =>
      ifM (matchToken ["PRIMARY", "UNIQUE", "CHECK", "FOREIGN"]) (OM.pure []) convertName)
    (OM.pure [])).bind fun name =>
  ifM (matchToken ["PRIMARY"])
    (skip.bind fun _ => skip.bind fun _ =>
      (convertCommaSeparatedColumnNames n).bind fun cs =>
      OM.pure { tc with primaryKey := tc.primaryKey ++ [⟨name, cs⟩] }) <|
  ifM (matchToken ["UNIQUE"])
    (skip.bind fun _ =>
      (convertCommaSeparatedColumnNames n).bind fun cs =>
      OM.pure { tc with unique := tc.unique ++ [⟨name, cs⟩] }) <|
  ifM (matchToken ["CHECK"])
    (skip.bind fun _ =>
      (convertExpr n).bind fun e =>
      OM.pure { tc with check := tc.check ++ [⟨name, e⟩] }) <|
  ifM (matchToken ["FOREIGN"])
    (skip.bind fun _ => skip.bind fun _ =>
      (convertCommaSeparatedColumnNames n).bind fun cs =>
      (convertReference n).bind fun r =>
      OM.pure { tc with foreignKey := tc.foreignKey ++ [⟨name, cs, r⟩] })
  (OM.pure tc)

/-- converter.go:189-201: the loop of `convertTableDefinition`. -/
def tableDefinitionLoop [CaseMap] (isNum : Str → Bool) :
    Nat → List Column → TableConstraint → OM Converter (List Column × TableConstraint)
  | 0, _, _ => timeout
  | n + 1, cols, tc =>
    ifM (matchToken [")"]) (OM.pure (cols, tc))
      ((ifM (matchToken ["CONSTRAINT", "PRIMARY", "UNIQUE", "CHECK", "FOREIGN"])
          ((convertTableConstraint (n + 1) tc).bind fun tc' => OM.pure (cols, tc'))
          ((convertColumnDefinition isNum (n + 1)).bind fun c =>
            OM.pure (cols ++ [c], tc))).bind fun ct =>
        ifM (matchToken [")"]) (OM.pure ct)
          (skip.bind fun _ => tableDefinitionLoop isNum n ct.1 ct.2))

/-- converter.go:185-204 `convertTableDefinition`. -/
def convertTableDefinition [CaseMap] (isNum : Str → Bool) (n : Nat) :
    OM Converter (List Column × TableConstraint) :=
  skip.bind fun _ =>
  (tableDefinitionLoop isNum n [] {}).bind fun r =>
  skip.bind fun _ => OM.pure r

/-- `c.size > c.i` (converter.go:150). -/
def inRange : OM Converter Bool := fun c => .ok (decide (c.size > c.i)) c

/-- converter.go:130-156 `convertTable`. -/
def convertTable [CaseMap] (isNum : Str → Bool) (n : Nat) : OM Converter Table :=
  skip.bind fun _ =>
  skip.bind fun _ =>
  (ifM (matchToken ["IF"])
    (skip.bind fun _ => skip.bind fun _ => skip.bind fun _ => OM.pure true)
    (OM.pure false)).bind fun ine =>
  convertTableName.bind fun names =>
  (convertTableDefinition isNum n).bind fun defs =>
  (ifM inRange (ifM (matchToken [";"]) skip (OM.pure ())) (OM.pure ())).bind fun _ =>
  OM.pure { schema := names.1, name := names.2, ifNotExists := ine,
            columns := defs.1, constraints := defs.2 }

/-- `c.result = append(c.result, table)`. -/
def append (t : Table) : OM Converter Unit := fun c => .ok () { c with result := c.result ++ [t] }

/-- converter.go:119-127 `convert`. -/
def convert [CaseMap] (isNum : Str → Bool) : Nat → OM Converter Unit
  | 0 => timeout
  | n + 1 =>
    ifM isOutOfRange (OM.pure ())
      ((convertTable isNum (n + 1)).bind fun t => (append t).bind fun _ => convert isNum n)

/-- converter.go:41-45 `Convert`: the answer, and the object afterwards. -/
def Convert [CaseMap] (isNum : Str → Bool) (n : Nat) (tokens : List Str) (c : Converter) :
    Res Converter (List Table) :=
  match convert isNum n (init tokens c) with
  | .ok _ c' => .ok c'.result c'
  | .fail e c' => .fail e c'
  | .panic => .panic
  | .timeout => .timeout

end Converter

/-! ### ddlparse.go -/

/-- ddlparse.go:36-52 `Parse` with the three objects it makes. -/
def parseN [CaseMap] (isNum : Str → Bool) (n : Nat) (ddl : List Char) (d : Rdbms) :
    Outcome (List Table × Option VErr) :=
  match (Lexer.new d).Lex n ddl with
  | .fail e _ => .ok ([], some e)
  | .panic => .panic
  | .timeout => .timeout
  | .ok tokens _ =>
    match Validator.new.Validate isNum d n tokens with
    | .fail e _ => .ok ([], some e)
    | .panic => .panic
    | .timeout => .timeout
    | .ok validatedTokens _ =>
      match (Converter.new d).Convert isNum n validatedTokens with
      | .fail e _ => .ok ([], some e)
      | .panic => .panic
      | .timeout => .timeout
      | .ok tables _ => .ok (tables, none)

end DDL.Obj

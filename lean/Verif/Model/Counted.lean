import Verif.Model.Work
import Verif.Model.Parse
/-
How much `Parse` does. The functions of `Model/Lexer` and `Model/Converter` once more, with the same text, in
monads that count the operations (written by tools/gen_counted.py). `Proof/Counted` proves that they compute the
same results.
-/

namespace DDL

/-- A converter method that counts. -/
def CT (α : Type) := List Str → CRes α × Nat

namespace CT
def pure (a : α) : CT α := fun s => (.ok a s, 0)
def bind (f : CT α) (g : α → CT β) : CT β := fun s =>
  match f s with
  | (.ok a s', k) => ((g a s').1, k + (g a s').2)
  | (.panic, k) => (.panic, k)
  | (.timeout, k) => (.timeout, k)
instance : Monad CT where
  pure := CT.pure
  bind := CT.bind
end CT

namespace CW

/-- Fuel exhausted. -/
def timeout : CT α := fun _ => (.timeout, 0)

/-- converter.go:56-61 `token`. -/
def token : CT Str := fun s => (.ok (C.tok s) s, 1)

/-- converter.go:64-66 `isOutOfRange`. -/
def isOutOfRange : CT Bool := fun s => (.ok s.isEmpty s, 1)

/-- converter.go:69-79 `next`: one operation, and one for each token that is passed. -/
def next : CT Str := fun s => (.ok (C.tok s) (C.nextRest s), 1 + (s.length - (C.nextRest s).length))

/-- converter.go:82-88 `matchToken`. -/
def matchToken (keywords : List String) : CT Bool := fun s => (.ok (isKw keywords (C.tok s)) s, 1)

/-- Go `if` on a `matchToken` test. -/
@[macro_inline] def ifM (c : CT Bool) (t e : CT α) : CT α := c.bind (fun b => cond b t e)

/-- `c.next()` as a statement. -/
def skip : CT Unit := fun s => (.ok () (C.nextRest s), 1 + (s.length - (C.nextRest s).length))

/-- `token[0:1]`. -/
def headChar (t : Str) : CT Char := fun s =>
  match t with
  | [] => (.panic, 1)
  | c :: _ => (.ok c s, 1)

/-- `token[1 : len(token)-1]`. -/
def inner (t : Str) : CT Str := fun s =>
  if t.length < 2 then (.panic, 1) else (.ok (t.drop 1).dropLast s, 1)

/-- converter.go:175-182 `convertName`. -/
def convertName (d : Rdbms) : CT Str :=
  next.bind fun token =>
  (headChar token).bind fun c =>
  cond (C.isIdentifier d c) (inner token) (CT.pure token)

/-- converter.go:159-172 `convertTableName`: schema and table name. -/
def convertTableName (d : Rdbms) : CT (Str × Str) :=
  (convertName d).bind fun schemaName =>
  ifM (matchToken ["."])
    (skip.bind fun _ => (convertName d).bind fun tableName => CT.pure (schemaName, tableName))
    (CT.pure ([], schemaName))

/-- converter.go:237-250 `convertTypeDigit`. -/
def convertTypeDigit : CT (Int × Int) :=
  ifM (matchToken ["("])
    (skip.bind fun _ =>
     next.bind fun tn =>
     (ifM (matchToken [","])
       (skip.bind fun _ => next.bind fun tm => CT.pure (atoi tm).1)
       (CT.pure 0)).bind fun m =>
     skip.bind fun _ =>
     CT.pure ((atoi tn).1, m))
    (CT.pure (0, 0))

/-- converter.go:217-234 `convertDateType`. -/
def convertDateType [CaseMap] : CT DataType :=
  next.bind fun t =>
  (ifM (matchToken ["VARYING"])
    (next.bind fun v => CT.pure (C.varyingName (upStr t) v))
    (CT.pure (upStr t))).bind fun name =>
  convertTypeDigit.bind fun nm =>
  CT.pure { name := name, digitN := nm.1, digitM := nm.2 }

/-- converter.go:331-344 `convertExprAux`, with `convertExpr` inlined at its recursive call. Go
evaluates the operands of `+` from left to right. -/
def convertExprAux : Nat → CT Str
  | 0 => timeout
  | n + 1 =>
    ifM (matchToken [")"]) (CT.pure [])
      (ifM (matchToken ["("])
        (next.bind fun a =>
         (convertExprAux n).bind fun b =>
         next.bind fun c =>
         (convertExprAux n).bind fun e => CT.pure ((a ++ b ++ c) ++ e))
        (next.bind fun a =>
         (convertExprAux n).bind fun b => CT.pure (a ++ b)))

/-- converter.go:331-333 `convertExpr`. -/
def convertExpr (n : Nat) : CT Str :=
  next.bind fun a =>
  (convertExprAux n).bind fun b =>
  next.bind fun c => CT.pure (a ++ b ++ c)

/-- converter.go:347-366 `convertLiteralValue`. `isNum` is `common.IsNumericToken`. -/
def convertLiteralValue [CaseMap] (isNum : Str → Bool) (d : Rdbms) : CT DefaultVal :=
  next.bind fun token =>
  cond (isNum token) (CT.pure (.num token))
    ((headChar token).bind fun c =>
      cond (C.isStringValue d c)
        ((inner token).bind fun s => CT.pure (.str s))
        (CT.pure <|
          if upStr token = S "NULL" then .nil
          else if upStr token = S "TRUE" then .bool true
          else if upStr token = S "FALSE" then .bool false
          else .str token))

/-- converter.go:322-328 `convertDefaultValue`. -/
def convertDefaultValue [CaseMap] (isNum : Str → Bool) (d : Rdbms) (n : Nat) : CT DefaultVal :=
  ifM (matchToken ["("])
    ((convertExpr n).bind fun s => CT.pure (.str s))
    (convertLiteralValue isNum d)

/-- converter.go:427-436: the loop of `convertCommaSeparatedColumnNames`. -/
def columnNamesLoop : Nat → List Str → CT (List Str)
  | 0, _ => timeout
  | n + 1, ls =>
    ifM (matchToken [")"]) (CT.pure ls)
      (ifM (matchToken [","])
        (skip.bind fun _ => columnNamesLoop n ls)
        (token.bind fun t => skip.bind fun _ => columnNamesLoop n (ls ++ [t])))

/-- converter.go:424-439 `convertCommaSeparatedColumnNames`. -/
def convertCommaSeparatedColumnNames (n : Nat) : CT (List Str) :=
  skip.bind fun _ =>
  (columnNamesLoop n []).bind fun ls =>
  skip.bind fun _ => CT.pure ls

/-- converter.go:369-377 `convertReference`. -/
def convertReference (d : Rdbms) (n : Nat) : CT Reference :=
  skip.bind fun _ =>
  (convertName d).bind fun t =>
  ifM (matchToken ["("])
    ((convertCommaSeparatedColumnNames n).bind fun cs =>
      CT.pure { tableName := t, columnNames := some cs })
    (CT.pure { tableName := t, columnNames := none })

/-- converter.go:266-319 `convertConstraintAux`. -/
def convertConstraintAux [CaseMap] (isNum : Str → Bool) (d : Rdbms) : Nat → Constraint → CT Constraint
  | 0, _ => timeout
  | n + 1, con =>
    ifM (matchToken [",", ")"]) (CT.pure con) <|
    ifM (matchToken ["PRIMARY"])
      (skip.bind fun _ => skip.bind fun _ =>
        convertConstraintAux isNum d n { con with isPrimaryKey := true }) <|
    ifM (matchToken ["AUTOINCREMENT", "AUTO_INCREMENT"])
      (skip.bind fun _ =>
        convertConstraintAux isNum d n { con with isAutoincrement := true }) <|
    ifM (matchToken ["NOT"])
      (skip.bind fun _ => skip.bind fun _ =>
        convertConstraintAux isNum d n { con with isNotNull := true }) <|
    ifM (matchToken ["UNIQUE"])
      (skip.bind fun _ =>
        convertConstraintAux isNum d n { con with isUnique := true }) <|
    ifM (matchToken ["DEFAULT"])
      (skip.bind fun _ => (convertDefaultValue isNum d n).bind fun v =>
        convertConstraintAux isNum d n { con with default := v }) <|
    ifM (matchToken ["CHECK"])
      (skip.bind fun _ => (convertExpr n).bind fun e =>
        convertConstraintAux isNum d n { con with check := e }) <|
    ifM (matchToken ["COLLATE"])
      (skip.bind fun _ => (convertName d).bind fun e =>
        convertConstraintAux isNum d n { con with collate := e }) <|
    ifM (matchToken ["REFERENCES"])
      ((convertReference d n).bind fun r =>
        convertConstraintAux isNum d n { con with references := r })
    (CT.pure con)

/-- converter.go:253-263 `convertConstraint`. -/
def convertConstraint [CaseMap] (isNum : Str → Bool) (d : Rdbms) (n : Nat) : CT Constraint :=
  (ifM (matchToken ["CONSTRAINT"])
    (skip.bind fun _ =>
      ifM (matchToken C.notConstraintName) (CT.pure []) (convertName d))
    (CT.pure [])).bind fun name =>
  convertConstraintAux isNum d n { name := name }

/-- converter.go:207-214 `convertColumnDefinition`. -/
def convertColumnDefinition [CaseMap] (isNum : Str → Bool) (d : Rdbms) (n : Nat) : CT Column :=
  (convertName d).bind fun name =>
  convertDateType.bind fun dt =>
  (convertConstraint isNum d n).bind fun con =>
  CT.pure { name := name, dataType := dt, constraint := con }

/-- converter.go:380-421 `convertTableConstraint`. -/
def convertTableConstraint (d : Rdbms) (n : Nat) (tc : TableConstraint) : CT TableConstraint :=
  (ifM (matchToken ["CONSTRAINT"])
    (skip.bind fun _ =>
      ifM (matchToken ["PRIMARY", "UNIQUE", "CHECK", "FOREIGN"]) (CT.pure []) (convertName d))
    (CT.pure [])).bind fun name =>
  ifM (matchToken ["PRIMARY"])
    (skip.bind fun _ => skip.bind fun _ =>
      (convertCommaSeparatedColumnNames n).bind fun cs =>
      CT.pure { tc with primaryKey := tc.primaryKey ++ [⟨name, cs⟩] }) <|
  ifM (matchToken ["UNIQUE"])
    (skip.bind fun _ =>
      (convertCommaSeparatedColumnNames n).bind fun cs =>
      CT.pure { tc with unique := tc.unique ++ [⟨name, cs⟩] }) <|
  ifM (matchToken ["CHECK"])
    (skip.bind fun _ =>
      (convertExpr n).bind fun e =>
      CT.pure { tc with check := tc.check ++ [⟨name, e⟩] }) <|
  ifM (matchToken ["FOREIGN"])
    (skip.bind fun _ => skip.bind fun _ =>
      (convertCommaSeparatedColumnNames n).bind fun cs =>
      (convertReference d n).bind fun r =>
      CT.pure { tc with foreignKey := tc.foreignKey ++ [⟨name, cs, r⟩] })
  (CT.pure tc)

/-- converter.go:189-201: the loop of `convertTableDefinition`. -/
def tableDefinitionLoop [CaseMap] (isNum : Str → Bool) (d : Rdbms) :
    Nat → List Column → TableConstraint → CT (List Column × TableConstraint)
  | 0, _, _ => timeout
  | n + 1, cols, tc =>
    ifM (matchToken [")"]) (CT.pure (cols, tc))
      ((ifM (matchToken ["CONSTRAINT", "PRIMARY", "UNIQUE", "CHECK", "FOREIGN"])
          ((convertTableConstraint d (n + 1) tc).bind fun tc' => CT.pure (cols, tc'))
          ((convertColumnDefinition isNum d (n + 1)).bind fun c =>
            CT.pure (cols ++ [c], tc))).bind fun ct =>
        ifM (matchToken [")"]) (CT.pure ct)
          (skip.bind fun _ => tableDefinitionLoop isNum d n ct.1 ct.2))

/-- converter.go:185-204 `convertTableDefinition`. -/
def convertTableDefinition [CaseMap] (isNum : Str → Bool) (d : Rdbms) (n : Nat) :
    CT (List Column × TableConstraint) :=
  skip.bind fun _ =>
  (tableDefinitionLoop isNum d n [] {}).bind fun r =>
  skip.bind fun _ => CT.pure r

/-- converter.go:130-156 `convertTable`. The test `c.size > c.i` (line 150) adds nothing to the
test for ";". -/
def convertTable [CaseMap] (isNum : Str → Bool) (d : Rdbms) (n : Nat) : CT Table :=
  skip.bind fun _ =>
  skip.bind fun _ =>
  (ifM (matchToken ["IF"])
    (skip.bind fun _ => skip.bind fun _ => skip.bind fun _ => CT.pure true)
    (CT.pure false)).bind fun ine =>
  (convertTableName d).bind fun names =>
  (convertTableDefinition isNum d n).bind fun defs =>
  (ifM (matchToken [";"]) skip (CT.pure ())).bind fun _ =>
  CT.pure { schema := names.1, name := names.2, ifNotExists := ine,
            columns := defs.1, constraints := defs.2 }

/-- converter.go:119-127 `convert`; `acc` is `c.result`. -/
def convert [CaseMap] (isNum : Str → Bool) (d : Rdbms) : Nat → List Table → CT (List Table)
  | 0, _ => timeout
  | n + 1, acc =>
    ifM isOutOfRange (CT.pure acc)
      ((convertTable isNum d (n + 1)).bind fun t => convert isNum d n (acc ++ [t]))

end CW

/-- A lexer method that counts. -/
def LT (α : Type) := LS → Res LS α × Nat

namespace LT
def pure (a : α) : LT α := fun s => (.ok a s, 0)
def bind (f : LT α) (g : α → LT β) : LT β := fun s =>
  match f s with
  | (.ok a s', k) => ((g a s').1, k + (g a s').2)
  | (.fail e s', k) => (.fail e s', k)
  | (.panic, k) => (.panic, k)
  | (.timeout, k) => (.timeout, k)
instance : Monad LT where
  pure := LT.pure
  bind := LT.bind
end LT

namespace LexW

/-- lexer.go:80-87 `next`. -/
def next : LT Unit := fun s => (Lex.next s, 1)

/-- lexer.go:90-95 `char`. -/
def char : LT (Option Char) := fun s => (Lex.char s, 1)

/-- lexer.go:98-102 `appendToken`. -/
def appendToken (tok : Str) : LT Unit := fun s => (Lex.appendToken tok s, 1)

/-- lexer.go:105-107 `isOutOfRange`. -/
def isOutOfRange : LT Bool := fun s => (Lex.isOutOfRange s, 1)

/-- `l.line += 1`. -/
def incLine : LT Unit := fun s => (Lex.incLine s, 1)

/-- lexer.go:110-112 `lexError`. -/
def lexError : LT α := fun s => (Lex.lexError s, 1)

/-- Fuel exhausted. -/
def timeout : LT α := fun _ => (.timeout, 0)

/-- lexer.go:326-338 `skipComment`: the loop, with fuel. -/
def skipCommentLoop : Nat → LT Unit
  | 0 => timeout
  | n + 1 => do
    if (← isOutOfRange) then LexW.next
    else if (← char) = some '\n' then do
      incLine
      appendToken nl
      LexW.next            -- break; l.next()
    else do
      LexW.next
      skipCommentLoop n

/-- lexer.go:326-338 `skipComment`. -/
def skipComment (n : Nat) : LT Unit := do
  LexW.next
  skipCommentLoop n

/-- lexer.go:341-364 `skipMultiLineComment`: the loop. The tail call
`return l.skipMultiLineComment()` (line 358) is `next` followed by the same loop. -/
def skipMultiLoop : Nat → LT Unit
  | 0 => timeout
  | n + 1 => do
    if (← isOutOfRange) then lexError
    else
      let c ← char
      if c = some '\n' then do
        incLine
        appendToken nl
        LexW.next
        skipMultiLoop n
      else if c = some '*' then do
        LexW.next
        if (← char) = some '/' then LexW.next
        else do
          LexW.next
          skipMultiLoop n
      else if c = some '/' then do
        LexW.next
        if (← char) = some '*' then do
          LexW.next          -- first statement of the recursive skipMultiLineComment
          skipMultiLoop n
        else do
          LexW.next
          skipMultiLoop n
      else do
        LexW.next
        skipMultiLoop n

/-- lexer.go:341-364 `skipMultiLineComment`. -/
def skipMultiLineComment (n : Nat) : LT Unit := do
  LexW.next
  skipMultiLoop n

/-- lexer.go:371-396, 404-429, 437-462: the loops of `lexStringDoubleQuote`,
`lexStringSingleQuote` and `lexStringBackQuote`, which are the same text up to the quote `q`
that closes the string; each of the two other quotes starts a nested string (a recursive
call of the corresponding function: `next`, then its loop). -/
def lexStringLoop : Nat → Char → Str → LT Str
  | 0, _, _ => timeout
  | n + 1, q, str => do
    if (← isOutOfRange) then lexError
    else
      match (← char) with
      | none => lexError      -- unreachable: not out of range
      | some c =>
        if c = '\n' then do
          incLine
          appendToken nl
          LexW.next
          lexStringLoop n q str
        else if c = q then do
          LexW.next
          return str ++ [c]
        else if Lex.isQuote c then do
          LexW.next                                  -- the nested function's l.next()
          let s ← lexStringLoop n c [c]
          LexW.next
          lexStringLoop n q (str ++ s)
        else do
          LexW.next
          lexStringLoop n q (str ++ [c])

/-- lexer.go:367-369, 400-402, 433-435: entry of the three string functions. -/
def lexString (n : Nat) (q : Char) : LT Str := do
  LexW.next
  lexStringLoop n q [q]

/-- lexer.go:176-190 `lexHyphen`; returns the new value of `*token`. -/
def lexHyphen (n : Nat) (token : Str) : LT Str := do
  LexW.next
  if (← char) = some '-' then do
    appendToken token
    skipComment n
    return []
  else
    return token ++ ['-']

/-- lexer.go:193-208 `lexSlash`. -/
def lexSlash (n : Nat) (token : Str) : LT Str := do
  LexW.next
  if (← char) = some '*' then do
    appendToken token
    skipMultiLineComment n
    return []
  else
    return token ++ ['/']

/-- lexer.go:211-223 `lexAsterisk`. `l.i -= 1` before the error restores the state at entry. -/
def lexAsterisk (token : Str) : LT Str := fun s =>
  (do LexW.next
      if (← char) = some '/' then (fun _ => lexError s)
      else return token ++ ['*'] : LT Str) s

/-- lexer.go:226-253 `lexDoubleQuote`, `lexSingleQuote`. -/
def lexQuote (n : Nat) (q : Char) (token : Str) : LT Str := do
  appendToken token
  let str ← lexString n q
  appendToken str
  return []

/-- lexer.go:256-271 `lexBackQuote`. -/
def lexBackQuote (d : Rdbms) (n : Nat) (token : Str) : LT Str :=
  if d = .postgres then lexError else lexQuote n '`' token

/-- lexer.go:274-287 `lexSharp`. -/
def lexSharp (d : Rdbms) (n : Nat) (token : Str) : LT Str :=
  if d = .mysql then do
    appendToken token
    skipComment n
    return []
  else do
    LexW.next
    return token ++ ['#']

/-- lexer.go:290-300 `lexEOL`. -/
def lexEOL (token : Str) : LT Str := do
  incLine
  appendToken token
  appendToken nl
  LexW.next
  return []

/-- lexer.go:303-311 `lexSpace`. -/
def lexSpace (token : Str) : LT Str := do
  appendToken token
  LexW.next
  return []

/-- lexer.go:314-323 `lexSymbol`. -/
def lexSymbol (c : Char) (token : Str) : LT Str := do
  appendToken token
  appendToken [c]
  LexW.next
  return []

/-- lexer.go:118-132: first part of the loop body. -/
def phase1 (n : Nat) (token : Str) : LT Str := do
  let c ← char
  if c = some '-' then lexHyphen n token
  else if c = some '/' then lexSlash n token
  else if c = some '*' then lexAsterisk token
  else return token

/-- lexer.go:138-169: second part of the loop body, on the current character `c`. `'　'` is
U+3000, the ideographic space. -/
def phase2 (d : Rdbms) (n : Nat) (c : Char) (token : Str) : LT Str :=
  if c = '"' then lexQuote n '"' token
  else if c = '\'' then lexQuote n '\'' token
  else if c = '`' then lexBackQuote d n token
  else if c = '#' then lexSharp d n token
  else if c = ' ' ∨ c = '\t' then lexSpace token
  else if c = '\n' then lexEOL token
  else if Lex.isSymbol c then lexSymbol c token
  else if c = Char.ofNat 0x3000 then lexError
  else do
    LexW.next
    return token ++ [c]

/-- lexer.go:115-173 `lex`: the main loop. -/
def lexLoop (d : Rdbms) : Nat → Str → LT Unit
  | 0, _ => timeout
  | n + 1, token => do
    if (← isOutOfRange) then appendToken token
    else
      let token ← phase1 n token
      match (← char) with
      | none => appendToken token          -- out of range: break
      | some c => do
        let token ← phase2 d n c token
        lexLoop d n token

end LexW

/-- The operations of `Parse` (ddlparse.go:36-52) with fuel `n`: of the lexer, of the syntax check (with the newlines
passed by `init`, validator.go:44-53) if the lexer returns tokens, of the converter if the check does. -/
def parseWork [CaseMap] (isNum : Str → Bool) (n : Nat) (ddl : List Char) (d : Rdbms) : Nat :=
  (LexW.lexLoop d n [] (Lex.init ddl)).2 +
  match Lex.lexN d n ddl with
  | .ok toks =>
    (toks.length - (VS.init toks).rest.length) + work (validateProg isNum d n) (VS.init toks) +
    match validateN isNum d n toks with
    | .ok out => (CW.convert isNum d n [] out).2
    | _ => 0
  | _ => 0

/-- The operations of `ParseForce` (ddlparse.go:66-76) with fuel `n`: of the calls of `Parse` it makes. -/
def parseForceWork [CaseMap] (isNum : Str → Bool) (n : Nat) (ddl : List Char) : List Rdbms → Nat
  | [] => 0
  | d :: ds =>
    parseWork isNum n ddl d +
    match parseN isNum n ddl d with
    | .ok (_, some _) => parseForceWork isNum n ddl ds
    | _ => 0

end DDL

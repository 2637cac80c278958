import Verif.Model.Basic
/-
Model of internal/lexer/lexer.go.
-/

namespace DDL

/-- lexer.go:47-54 `lexer`. `rest` is `ddlr[i:]` (so `l.size` and `l.i` are implicit:
`isOutOfRange` is `rest = []`); `rdbms` is passed as an argument. -/
structure LS where
  rest : List Char
  line : Nat
  result : List Str
  deriving DecidableEq, Repr

/-- A lexer method: state in, outcome out. -/
def LM (α : Type) := LS → Res LS α

namespace LM
def pure (a : α) : LM α := fun s => .ok a s
def bind (f : LM α) (g : α → LM β) : LM β := fun s =>
  match f s with
  | .ok a s' => g a s'
  | .fail e s' => .fail e s'
  | .panic => .panic
  | .timeout => .timeout
instance : Monad LM where
  pure := LM.pure
  bind := LM.bind
end LM

namespace Lex

/-- lexer.go:71-77 `init`. -/
def init (ddl : List Char) : LS := { rest := ddl, line := 1, result := [] }

/-- lexer.go:80-87 `next` (the returned string is never used by the code). -/
def next : LM Unit := fun s => .ok () { s with rest := s.rest.tail }

/-- lexer.go:90-95 `char`: `none` is the out-of-range answer `"<EOF>"`. All comparisons in the
lexer are with one-character strings, so `"<EOF>"` never compares equal. -/
def char : LM (Option Char) := fun s => .ok s.rest.head? s

/-- The string `char()` returns, for error messages. -/
def charStr (s : LS) : Str :=
  match s.rest with
  | [] => EOF
  | c :: _ => [c]

/-- lexer.go:98-102 `appendToken`. -/
def appendToken (tok : Str) : LM Unit := fun s =>
  if tok ≠ [] then .ok () { s with result := s.result ++ [tok] } else .ok () s

/-- lexer.go:105-107 `isOutOfRange`. -/
def isOutOfRange : LM Bool := fun s => .ok s.rest.isEmpty s

/-- `l.line += 1`. -/
def incLine : LM Unit := fun s => .ok () { s with line := s.line + 1 }

/-- lexer.go:110-112 `lexError`. -/
def lexError : LM α := fun s => .fail ⟨s.line, charStr s⟩ s

/-- Fuel exhausted. -/
def timeout : LM α := fun _ => .timeout

/-- lexer.go:326-338 `skipComment`: the loop, with fuel. -/
def skipCommentLoop : Nat → LM Unit
  | 0 => timeout
  | n + 1 => do
    if (← isOutOfRange) then Lex.next
    else if (← char) = some '\n' then do
      incLine
      appendToken nl
      Lex.next            -- break; l.next()
    else do
      Lex.next
      skipCommentLoop n

/-- lexer.go:326-338 `skipComment`. -/
def skipComment (n : Nat) : LM Unit := do
  Lex.next
  skipCommentLoop n

/-- lexer.go:341-364 `skipMultiLineComment`: the loop. The tail call
`return l.skipMultiLineComment()` (line 358) is `next` followed by the same loop. -/
def skipMultiLoop : Nat → LM Unit
  | 0 => timeout
  | n + 1 => do
    if (← isOutOfRange) then lexError
    else
      let c ← char
      if c = some '\n' then do
        incLine
        appendToken nl
        Lex.next
        skipMultiLoop n
      else if c = some '*' then do
        Lex.next
        if (← char) = some '/' then Lex.next
        else do
          Lex.next
          skipMultiLoop n
      else if c = some '/' then do
        Lex.next
        if (← char) = some '*' then do
          Lex.next          -- first statement of the recursive skipMultiLineComment
          skipMultiLoop n
        else do
          Lex.next
          skipMultiLoop n
      else do
        Lex.next
        skipMultiLoop n

/-- lexer.go:341-364 `skipMultiLineComment`. -/
def skipMultiLineComment (n : Nat) : LM Unit := do
  Lex.next
  skipMultiLoop n

/-- The three quote characters. -/
def isQuote (c : Char) : Bool := c == '"' || c == '\'' || c == '`'

/-- lexer.go:371-396, 404-429, 437-462: the loops of `lexStringDoubleQuote`,
`lexStringSingleQuote` and `lexStringBackQuote`, which are the same text up to the quote `q`
that closes the string; each of the two other quotes starts a nested string (a recursive
call of the corresponding function: `next`, then its loop). -/
def lexStringLoop : Nat → Char → Str → LM Str
  | 0, _, _ => timeout
  | n + 1, q, str => do
    if (← isOutOfRange) then lexError
    else
      match (← char) with
      | none => lexError      -- unreachable: not out of range
      | some c =>
        if c = '\n' then do
          incLine
          appendToken nl
          Lex.next
          lexStringLoop n q str
        else if c = q then do
          Lex.next
          return str ++ [c]
        else if isQuote c then do
          Lex.next                                  -- the nested function's l.next()
          let s ← lexStringLoop n c [c]
          Lex.next
          lexStringLoop n q (str ++ s)
        else do
          Lex.next
          lexStringLoop n q (str ++ [c])

/-- lexer.go:367-369, 400-402, 433-435: entry of the three string functions. -/
def lexString (n : Nat) (q : Char) : LM Str := do
  Lex.next
  lexStringLoop n q [q]

/-- lexer.go:176-190 `lexHyphen`; returns the new value of `*token`. -/
def lexHyphen (n : Nat) (token : Str) : LM Str := do
  Lex.next
  if (← char) = some '-' then do
    appendToken token
    skipComment n
    return []
  else
    return token ++ ['-']

/-- lexer.go:193-208 `lexSlash`. -/
def lexSlash (n : Nat) (token : Str) : LM Str := do
  Lex.next
  if (← char) = some '*' then do
    appendToken token
    skipMultiLineComment n
    return []
  else
    return token ++ ['/']

/-- lexer.go:211-223 `lexAsterisk`. `l.i -= 1` before the error restores the state at entry. -/
def lexAsterisk (token : Str) : LM Str := fun s =>
  (do Lex.next
      if (← char) = some '/' then (fun _ => lexError s)
      else return token ++ ['*'] : LM Str) s

/-- lexer.go:226-253 `lexDoubleQuote`, `lexSingleQuote`. -/
def lexQuote (n : Nat) (q : Char) (token : Str) : LM Str := do
  appendToken token
  let str ← lexString n q
  appendToken str
  return []

/-- lexer.go:256-271 `lexBackQuote`. -/
def lexBackQuote (d : Rdbms) (n : Nat) (token : Str) : LM Str :=
  if d = .postgres then lexError else lexQuote n '`' token

/-- lexer.go:274-287 `lexSharp`. -/
def lexSharp (d : Rdbms) (n : Nat) (token : Str) : LM Str :=
  if d = .mysql then do
    appendToken token
    skipComment n
    return []
  else do
    Lex.next
    return token ++ ['#']

/-- lexer.go:290-300 `lexEOL`. -/
def lexEOL (token : Str) : LM Str := do
  incLine
  appendToken token
  appendToken nl
  Lex.next
  return []

/-- lexer.go:303-311 `lexSpace`. -/
def lexSpace (token : Str) : LM Str := do
  appendToken token
  Lex.next
  return []

/-- The punctuation of lexer.go:160. -/
def isSymbol (c : Char) : Bool := c == '(' || c == ')' || c == ',' || c == '.' || c == ';'

/-- lexer.go:314-323 `lexSymbol`. -/
def lexSymbol (c : Char) (token : Str) : LM Str := do
  appendToken token
  appendToken [c]
  Lex.next
  return []

/-- lexer.go:118-132: first part of the loop body. -/
def phase1 (n : Nat) (token : Str) : LM Str := do
  let c ← char
  if c = some '-' then lexHyphen n token
  else if c = some '/' then lexSlash n token
  else if c = some '*' then lexAsterisk token
  else return token

/-- lexer.go:138-169: second part of the loop body, on the current character `c`. `'　'` is
U+3000, the ideographic space. -/
def phase2 (d : Rdbms) (n : Nat) (c : Char) (token : Str) : LM Str :=
  if c = '"' then lexQuote n '"' token
  else if c = '\'' then lexQuote n '\'' token
  else if c = '`' then lexBackQuote d n token
  else if c = '#' then lexSharp d n token
  else if c = ' ' ∨ c = '\t' then lexSpace token
  else if c = '\n' then lexEOL token
  else if isSymbol c then lexSymbol c token
  else if c = Char.ofNat 0x3000 then lexError
  else do
    Lex.next
    return token ++ [c]

/-- lexer.go:115-173 `lex`: the main loop. -/
def lexLoop (d : Rdbms) : Nat → Str → LM Unit
  | 0, _ => timeout
  | n + 1, token => do
    if (← isOutOfRange) then appendToken token
    else
      let token ← phase1 n token
      match (← char) with
      | none => appendToken token          -- out of range: break
      | some c => do
        let token ← phase2 d n c token
        lexLoop d n token

/-- Result of `Lex`: lexer.go:62-68. -/
inductive Out where
  | ok (tokens : List Str)
  | err (e : VErr)
  | panic
  | timeout
  deriving DecidableEq, Repr

/-- lexer.go:62-68 `Lex` with fuel `n`. -/
def lexN (d : Rdbms) (n : Nat) (ddl : List Char) : Out :=
  match lexLoop d n [] (init ddl) with
  | .ok _ s => .ok s.result
  | .fail e _ => .err e
  | .panic => .panic
  | .timeout => .timeout

end Lex
end DDL

"""Write lean/Verif/Model/Counted.lean: the functions of Model/Lexer and Model/Converter again, each primitive counted."""
import re
conv=open('lean/Verif/Model/Converter.lean').read()
i=conv.index('/-- converter.go:175-182 `convertName`. -/'); j=conv.index('end C\nend DDL')
body=conv[i:j]
# helpers without effects are those of the model
def drop(body,name):
    m=re.search(r'/--(?:(?!-/).)*-/\ndef '+name+r'\b.*?\n\n',body,re.S)
    assert m,name
    # shortest comment before the def
    s=body.rindex('/--',0,m.end()-len(body[m.start():m.end()].split('def '+name,1)[1]))
    return body[:s]+body[m.end():]
for n in ('varyingName','notConstraintName'): body=drop(body,n)
body=body.replace(' [CaseMap]','')
body=re.sub(r'\bCM\b','CT',body)
for n in ('isIdentifier','isStringValue','varyingName','notConstraintName'): body=re.sub(r'(?<![\w.])'+n+r'\b','C.'+n,body)
lex=open('lean/Verif/Model/Lexer.lean').read()
i=lex.index('/-- lexer.go:326-338 `skipComment`: the loop, with fuel. -/'); j=lex.index('/-- Result of `Lex`: lexer.go:62-68. -/')
lb=lex[i:j]
for n in ('isQuote','isSymbol'): lb=drop(lb,n)
lb=re.sub(r'\bLM\b','LT',lb)
for n in ('isQuote','isSymbol'): lb=re.sub(r'(?<![\w.])'+n+r'\b','Lex.'+n,lb)
lb=re.sub(r'\bLex\.next\b','LexW.next',lb)
lb=lb.replace("(fun _ => lexError s)","(fun _ => lexError s)")
out='''import Verif.Model.Work
import Verif.Model.Parse
/-
How much `Parse` does. The functions of `Model/Lexer` and `Model/Converter` once more, with the same text, in
monads that count the operations (written by tools/gen_counted.py). `Proof/Counted` proves that they compute the
same results.
-/

namespace DDL

/-- A converter method that counts. -/
def CT (α : Type) := List Str → CRes α × Nat

namespace CT
def pure (a : α) : CT α := fun s => (.ok a s, 0)
def bind (f : CT α) (g : α → CT β) : CT β := fun s =>
  match f s with
  | (.ok a s', k) => ((g a s').1, k + (g a s').2)
  | (.panic, k) => (.panic, k)
  | (.timeout, k) => (.timeout, k)
instance : Monad CT where
  pure := CT.pure
  bind := CT.bind
end CT

namespace CW

/-- Fuel exhausted. -/
def timeout : CT α := fun _ => (.timeout, 0)

/-- converter.go:56-61 `token`. -/
def token : CT Str := fun s => (.ok (C.tok s) s, 1)

/-- converter.go:64-66 `isOutOfRange`. -/
def isOutOfRange : CT Bool := fun s => (.ok s.isEmpty s, 1)

/-- converter.go:69-79 `next`: one operation, and one for each token that is passed. -/
def next : CT Str := fun s => (.ok (C.tok s) (C.nextRest s), 1 + (s.length - (C.nextRest s).length))

/-- converter.go:82-88 `matchToken`. -/
def matchToken (keywords : List String) : CT Bool := fun s => (.ok (isKw keywords (C.tok s)) s, 1)

/-- Go `if` on a `matchToken` test. -/
@[macro_inline] def ifM (c : CT Bool) (t e : CT α) : CT α := c.bind (fun b => cond b t e)

/-- `c.next()` as a statement. -/
def skip : CT Unit := fun s => (.ok () (C.nextRest s), 1 + (s.length - (C.nextRest s).length))

/-- `token[0:1]`. -/
def headChar (t : Str) : CT Char := fun s =>
  match t with
  | [] => (.panic, 1)
  | c :: _ => (.ok c s, 1)

/-- `token[1 : len(token)-1]`. -/
def inner (t : Str) : CT Str := fun s =>
  if t.length < 2 then (.panic, 1) else (.ok (t.drop 1).dropLast s, 1)

'''+body+'''end CW

/-- A lexer method that counts. -/
def LT (α : Type) := LS → Res LS α × Nat

namespace LT
def pure (a : α) : LT α := fun s => (.ok a s, 0)
def bind (f : LT α) (g : α → LT β) : LT β := fun s =>
  match f s with
  | (.ok a s', k) => ((g a s').1, k + (g a s').2)
  | (.fail e s', k) => (.fail e s', k)
  | (.panic, k) => (.panic, k)
  | (.timeout, k) => (.timeout, k)
instance : Monad LT where
  pure := LT.pure
  bind := LT.bind
end LT

namespace LexW

/-- lexer.go:80-87 `next`. -/
def next : LT Unit := fun s => (Lex.next s, 1)

/-- lexer.go:90-95 `char`. -/
def char : LT (Option Char) := fun s => (Lex.char s, 1)

/-- lexer.go:98-102 `appendToken`. -/
def appendToken (tok : Str) : LT Unit := fun s => (Lex.appendToken tok s, 1)

/-- lexer.go:105-107 `isOutOfRange`. -/
def isOutOfRange : LT Bool := fun s => (Lex.isOutOfRange s, 1)

/-- `l.line += 1`. -/
def incLine : LT Unit := fun s => (Lex.incLine s, 1)

/-- lexer.go:110-112 `lexError`. -/
def lexError : LT α := fun s => (Lex.lexError s, 1)

/-- Fuel exhausted. -/
def timeout : LT α := fun _ => (.timeout, 0)

'''+lb+'''end LexW

/-- The operations of `Parse` (ddlparse.go:36-52) with fuel `n`: of the lexer, of the syntax check (with the newlines
passed by `init`, validator.go:44-53) if the lexer returns tokens, of the converter if the check does. -/
def parseWork (isNum : Str → Bool) (n : Nat) (ddl : List Char) (d : Rdbms) : Nat :=
  (LexW.lexLoop d n [] (Lex.init ddl)).2 +
  match Lex.lexN d n ddl with
  | .ok toks =>
    (toks.length - (VS.init toks).rest.length) + work (validateProg isNum d n) (VS.init toks) +
    match validateN isNum d n toks with
    | .ok out => (CW.convert isNum d n [] out).2
    | _ => 0
  | _ => 0

/-- The operations of `ParseForce` (ddlparse.go:66-76) with fuel `n`: of the calls of `Parse` it makes. -/
def parseForceWork (isNum : Str → Bool) (n : Nat) (ddl : List Char) : List Rdbms → Nat
  | [] => 0
  | d :: ds =>
    parseWork isNum n ddl d +
    match parseN isNum n ddl d with
    | .ok (_, some _) => parseForceWork isNum n ddl ds
    | _ => 0

end DDL
'''
open('lean/Verif/Model/Counted.lean','w').write(out)

import Verif.Model.Basic
import Verif.Spec.Words
/-
Specification, part 1: a small notation for grammars over token lists.

Nothing here refers to the model of the code, except for the type `Str` and the dialect names.
-/

namespace DDL.Spec

/-- A grammar phrase with a meaning: `L ts v rest` says that reading an `L` at the front of the
token list `ts` gives the meaning `v` and leaves `rest`. -/
def Lang (β : Type) := List Str → β → List Str → Prop

namespace Lang

/-- The empty phrase. -/
def pure (v : β) : Lang β := fun ts w rest => w = v ∧ rest = ts

/-- One phrase after the other. -/
def bind (L : Lang α) (f : α → Lang β) : Lang β :=
  fun ts w rest => ∃ v mid, L ts v mid ∧ f v mid w rest

instance : Monad Lang where
  pure := Lang.pure
  bind := Lang.bind

/-- Alternatives. -/
def alt (L M : Lang β) : Lang β := fun ts v rest => L ts v rest ∨ M ts v rest

instance : OrElse (Lang β) where
  orElse L M := alt L (M ())

/-- The phrase `L` whose meaning satisfies `P`. -/
def such (L : Lang β) (P : β → Prop) : Lang β := fun ts v rest => L ts v rest ∧ P v

end Lang

/-- Keyword: all upper case or all lower case spelling of one of `ks`. -/
def Kw (ks : List String) (t : Str) : Prop :=
  ∃ k ∈ ks, t = k.toList.map Char.toUpper ∨ t = k.toList.map Char.toLower

/-- One token satisfying `P`; its meaning is the token. -/
def tok (P : Str → Prop) : Lang Str := fun ts v rest => ts = v :: rest ∧ P v

/-- One keyword out of `ks`. -/
def kw (ks : List String) : Lang Unit := do
  let _ ← tok (Kw ks)
  return ()

/-- Lookahead: the next token is one of `ks`. -/
def at_ (ks : List String) : Lang Unit :=
  fun ts _ rest => rest = ts ∧ ∃ t r, ts = t :: r ∧ Kw ks t

/-- Lookahead: there is no next token or it is not one of `ks`. -/
def notAt (ks : List String) : Lang Unit :=
  fun ts _ rest => rest = ts ∧ ∀ t r, ts = t :: r → ¬ Kw ks t

/-- Optional phrase introduced by a keyword of `ks`, with longest match: it may be left out only
if no keyword of `ks` comes next. Covers `[KS L]` of the documentation. -/
def optKw (ks : List String) (L : Lang β) : Lang (Option β) :=
  (do kw ks; let v ← L; return some v) <|> (do notAt ks; return none)

/-- Optional keyword, with longest match. -/
def optWord (ks : List String) : Lang Bool :=
  (do kw ks; return true) <|> (do notAt ks; return false)

/-- Zero or more `L`, each introduced by a keyword of `ks`, as many as possible. -/
inductive Many (ks : List String) (L : Lang β) : Lang (List β)
  | nil (h : notAt ks ts () ts) : Many ks L ts [] ts
  | cons (hk : at_ ks ts () ts) (h : L ts v mid) (hs : Many ks L mid vs rest) :
      Many ks L ts (v :: vs) rest

/-- `L, L, ..., L`, one or more. -/
inductive Sep (L : Lang β) : Lang (List β)
  | one (h : L ts v rest) (hn : notAt [","] rest () rest) : Sep L ts [v] rest
  | cons (h : L ts v mid) (hc : kw [","] mid () mid') (hs : Sep L mid' vs rest) :
      Sep L ts (v :: vs) rest

/-- Inside of a pair of parentheses: any tokens, parentheses balanced. -/
inductive Bal : List Str → Prop
  | nil : Bal []
  | plain (t : Str) (ts : List Str) (h1 : t ≠ ['(']) (h2 : t ≠ [')']) (h : Bal ts) :
      Bal (t :: ts)
  | paren (ts us : List Str) (h : Bal ts) (h' : Bal us) :
      Bal (['('] :: ts ++ [')'] :: us)

/-- `( ... )`: a balanced parenthesised token sequence; its meaning is the tokens including
the outer parentheses. -/
def parens : Lang (List Str) :=
  fun ts v rest => ∃ e, Bal e ∧ v = ['('] :: e ++ [[')']] ∧ ts = v ++ rest

/-- An opening parenthesis of `ts` is never closed. -/
def Unclosed (ts : List Str) : Prop :=
  ∃ a b, ts = a ++ ['('] :: b ∧ ∀ e r, Bal e → b ≠ e ++ [')'] :: r

/-! ### Terminals -/

/-- `[A-Za-z_][A-Za-z0-9_]*` -/
def Ident (t : Str) : Prop :=
  ∃ c r, t = c :: r ∧ (c.isAlpha ∨ c = '_') ∧ ∀ x ∈ r, x.isAlphanum ∨ x = '_'

/-- Quote characters of identifiers. -/
def nameQuotes : Rdbms → List Char
  | .postgres => ['"']
  | .mysql => ['`']
  | _ => ['"', '`']

/-- Quote characters of string values. -/
def stringQuotes : Rdbms → List Char
  | .mysql => ['"', '\'']
  | _ => ['\'']

/-- Reserved words. -/
def reservedWords : Rdbms → List String
  | .postgres => reservedPostgres
  | .mysql => reservedMysql
  | _ => reservedSqlite

/-- Token that starts with one of the characters `qs`. -/
def StartsWith (qs : List Char) (t : Str) : Prop := ∃ c r, t = c :: r ∧ c ∈ qs

/-- Unquoted name: an identifier that is not reserved, in whatever letter case. -/
def PlainName (d : Rdbms) (t : Str) : Prop :=
  Ident t ∧ ∀ w ∈ reservedWords d, t.map Char.toUpper ≠ w.toList

/-- Name: quoted identifier or unquoted name. -/
def Name (d : Rdbms) (t : Str) : Prop := StartsWith (nameQuotes d) t ∨ PlainName d t

/-- A name; its meaning is the token. -/
def name (d : Rdbms) : Lang Str := tok (Name d)

/-- Value of a string of decimal digits. -/
def decimal (ds : Str) : Nat := ds.foldl (fun a c => 10 * a + (c.toNat - '0'.toNat)) 0

/-- Positive integer that fits 64 bits, with an optional plus sign: `ds` are its digits. -/
def PosInt (t : Str) (v : Nat) : Prop :=
  ∃ ds, (t = ds ∨ t = '+' :: ds) ∧ ds ≠ [] ∧ (∀ c ∈ ds, c.isDigit) ∧ v = decimal ds ∧
    0 < v ∧ v < 2 ^ 63

/-- A positive integer and its value. -/
def posInt : Lang Nat := fun ts v rest => ∃ t, ts = t :: rest ∧ PosInt t v

/-- Keywords that are values. -/
def literalWords : List String :=
  ["NULL", "TRUE", "FALSE", "CURRENT_TIME", "CURRENT_DATE", "CURRENT_TIMESTAMP"]

/-- Literal value: number, string or one of the keywords. -/
def Literal (isNum : Str → Bool) (d : Rdbms) (t : Str) : Prop :=
  isNum t = true ∨ StartsWith (stringQuotes d) t ∨ Kw literalWords t

/-- A literal; its meaning is the token. -/
def literal (isNum : Str → Bool) (d : Rdbms) : Lang Str := tok (Literal isNum d)

/-- A string; its meaning is the token. -/
def string (d : Rdbms) : Lang Str := tok (StartsWith (stringQuotes d))

end DDL.Spec

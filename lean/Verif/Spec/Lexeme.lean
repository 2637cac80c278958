import Verif.Model.Basic
/-
Specification of the lexical structure of a script, independent of the lexer: a script is a
sequence of lexemes; each has a source text and the tokens it stands for.
-/

namespace DDL.Spec
open DDL

/-- Quote characters. -/
def quotes : List Char := ['"', '\'', '`']

/-- Punctuation characters: tokens of their own. -/
def puncts : List Char := ['(', ')', ',', '.', ';']

/-- Characters that cannot be part of a word. U+3000 is the ideographic space. -/
def nonWord (d : Rdbms) : List Char :=
  [' ', '\t', '\n', Char.ofNat 0x3000] ++ quotes ++ puncts ++ (if d = .mysql then ['#'] else [])

/-- The two-character marks of comments. -/
def marks : List (Char × Char) := [('-', '-'), ('/', '*'), ('*', '/')]

/-- No comment mark inside. -/
def NoMark : List Char → Prop
  | a :: b :: r => (a, b) ∉ marks ∧ NoMark (b :: r)
  | _ => True

/-- A word: not empty, no blank, newline, quote, punctuation, and no comment mark inside. -/
def IsWord (d : Rdbms) (w : Str) : Prop := w ≠ [] ∧ (∀ c ∈ w, c ∉ nonWord d) ∧ NoMark w

/-- A piece of the body of a block comment: a character other than `*` and `/`; a `*` and the
character after it, which is not `/`; a `/` and the character after it. -/
inductive Part where
  | ch (c : Char)
  | star (c : Char)
  | slash (c : Char)
  deriving DecidableEq, Repr

def Part.src : Part → List Char
  | .ch c => [c]
  | .star c => ['*', c]
  | .slash c => ['/', c]

def Part.Ok : Part → Prop
  | .ch c => c ≠ '*' ∧ c ≠ '/'
  | .star c => c ≠ '/'
  | .slash _ => True

/-- Newlines in a block comment count, except right after a `*` or a `/`. -/
def Part.toks : Part → List Str
  | .ch c => if c = '\n' then [nl] else []
  | _ => []

/-- A newline that does not count. -/
def Part.hides : Part → Bool
  | .ch _ => false
  | .star c => c == '\n'
  | .slash c => c == '\n'

/-- Lexemes. -/
inductive Lexeme where
  | space
  | tab
  | newline
  | punct (c : Char)
  | word (w : Str)
  | quoted (q : Char) (body : List Char)
  | line (body : List Char)
  | sharp (body : List Char)
  | block (body : List Part)
  deriving DecidableEq, Repr

namespace Lexeme

/-- Source text. -/
def src : Lexeme → List Char
  | space => [' ']
  | tab => ['\t']
  | newline => ['\n']
  | punct c => [c]
  | word w => w
  | quoted q body => q :: body ++ [q]
  | line body => '-' :: '-' :: body ++ ['\n']
  | sharp body => '#' :: body ++ ['\n']
  | block body => '/' :: '*' :: body.flatMap Part.src ++ ['*', '/']

/-- Tokens. A newline inside quotes is a newline token before the quoted token, and is not part of
its content. -/
def toks : Lexeme → List Str
  | space => []
  | tab => []
  | newline => [nl]
  | punct c => [[c]]
  | word w => [w]
  | quoted q body => List.replicate (body.count '\n') nl ++ [q :: body.filter (· ≠ '\n') ++ [q]]
  | line _ => [nl]
  | sharp _ => [nl]
  | block body => body.flatMap Part.toks

/-- Well-formed in a dialect. -/
def Ok (d : Rdbms) : Lexeme → Prop
  | space => True
  | tab => True
  | newline => True
  | punct c => c ∈ puncts
  | word w => IsWord d w
  | quoted q body => q ∈ quotes ∧ (d = .postgres → q ≠ '`') ∧ ∀ c ∈ body, c ∉ quotes
  | line body => '\n' ∉ body
  | sharp body => d = .mysql ∧ '\n' ∉ body
  | block body => ∀ p ∈ body, p.Ok

/-- A `--` or `/* */` comment. -/
def isComment : Lexeme → Bool
  | line _ => true
  | block _ => true
  | _ => false

/-- Blank, tab or newline. -/
def isLayout : Lexeme → Bool
  | space => true
  | tab => true
  | newline => true
  | _ => false

/-- A comment of any kind. -/
def isAnyComment : Lexeme → Bool
  | line _ => true
  | sharp _ => true
  | block _ => true
  | _ => false

/-- A block comment with a newline right after a `*` or a `/`. -/
def hides : Lexeme → Bool
  | block body => body.any Part.hides
  | _ => false

/-- What may follow what: two words must be separated, a comment must not follow a comment
directly, nor a word that ends in `-`, `/` or `*`. -/
def May : Lexeme → Lexeme → Prop
  | word _, word _ => False
  | word w, b => b.isComment = true → ∀ c, w.getLast? = some c → c ∉ ['-', '/', '*']
  | a, b => ¬(a.isComment = true ∧ b.isComment = true)

end Lexeme

/-- Every neighbour may follow. -/
def Adjacent : List Lexeme → Prop
  | a :: b :: r => a.May b ∧ Adjacent (b :: r)
  | _ => True

/-- A well-formed sequence of lexemes. -/
def WellFormed (d : Rdbms) (ls : List Lexeme) : Prop := (∀ l ∈ ls, l.Ok d) ∧ Adjacent ls

/-- Source text of a sequence of lexemes. -/
def srcOf (ls : List Lexeme) : List Char := ls.flatMap Lexeme.src

/-- Tokens of a sequence of lexemes. -/
def toksOf (ls : List Lexeme) : List Str := ls.flatMap Lexeme.toks

/-- What every token looks like: a newline, a punctuation character, quoted text between two equal
quotes without newline, or a word. -/
def TokenShape (d : Rdbms) (t : Str) : Prop :=
  t = nl ∨ (∃ c ∈ puncts, t = [c]) ∨
  (∃ q ∈ quotes, ∃ body, '\n' ∉ body ∧ t = q :: body ++ [q]) ∨
  (t ≠ [] ∧ ∀ c ∈ t, c ∉ nonWord d)

end DDL.Spec

import Verif.Spec.Lexeme
/-
Specification: the complete lexical grammar, as rules. Unlike `Lexeme`, which describes texts that are
written with some care, it says for every text which tokens it is made of, or near what it is rejected.
-/

namespace DDL.Spec
open DDL

/-- The characters with which comment marks begin. -/
def markStarts : List Char := ['-', '/', '*']

/-- No word goes on here: the end of the text, or a character that no word has. -/
def Ends (d : Rdbms) (s : List Char) : Prop := s = [] ∨ ∃ c r, s = c :: r ∧ c ∈ nonWord d

/-- A comment mark. -/
def AtMark (s : List Char) : Prop := ∃ a b r, s = a :: b :: r ∧ (a, b) ∈ marks

/-- `IsLongWord d blind w s`: in the text `w ++ s`, the characters `w` are as much of a word as there is.
With `blind` the first character cannot begin a comment mark. A `-`, `/` or `*` that does not begin a mark
takes the next character with it, so that this one does not begin a mark either. -/
inductive IsLongWord (d : Rdbms) : Bool → Str → List Char → Prop
  | ends {b s} (h : Ends d s) : IsLongWord d b [] s
  | mark {s} (h : AtMark s) : IsLongWord d false [] s
  | blind {c w s} (h : c ∉ nonWord d) (hw : IsLongWord d false w s) : IsLongWord d true (c :: w) s
  | char {c w s} (h : c ∉ nonWord d) (hm : c ∉ markStarts) (hw : IsLongWord d false w s) :
      IsLongWord d false (c :: w) s
  | pair {a c w s} (ha : a ∈ markStarts) (h : c ∉ nonWord d) (hm : (a, c) ∉ marks)
      (hw : IsLongWord d false w s) : IsLongWord d false (a :: c :: w) s
  | last {a s} (ha : a ∈ markStarts) (h : Ends d s) : IsLongWord d false [a] s

/-- `Closed q s n t`: `s` is what follows an opening quote `q`, up to and including the quote that closes it;
`t` is its contribution to the token and `n` the number of its newlines. A quote of another kind begins text in
quotes of its own kind, and the character after that is lost. -/
inductive Closed : Char → List Char → Nat → Str → Prop
  | close {q} : Closed q [q] 0 [q]
  | newline {q s n t} (h : Closed q s n t) : Closed q ('\n' :: s) (n + 1) t
  | char {q c s n t} (hc : c ≠ '\n') (hq : c ∉ quotes) (h : Closed q s n t) : Closed q (c :: s) n (c :: t)
  | inner {q q' x i n t s n' t'} (hq : q' ∈ quotes) (hne : q' ≠ q) (hi : Closed q' i n t)
      (h : Closed q s n' t') : Closed q (q' :: (i ++ x :: s)) (n + n') (q' :: (t ++ t'))

/-- `Open q s n`: `s` is what follows an opening quote `q` that is not closed in it; `n` newlines. -/
inductive Open : Char → List Char → Nat → Prop
  | eof {q} : Open q [] 0
  | newline {q s n} (h : Open q s n) : Open q ('\n' :: s) (n + 1)
  | char {q c s n} (hc : c ≠ '\n') (hq : c ∉ quotes) (h : Open q s n) : Open q (c :: s) n
  | inner {q q' x i n t s n'} (hq : q' ∈ quotes) (hne : q' ≠ q) (hi : Closed q' i n t) (h : Open q s n') :
      Open q (q' :: (i ++ x :: s)) (n + n')
  | eofInner {q q' i n t} (hq : q' ∈ quotes) (hne : q' ≠ q) (hi : Closed q' i n t) : Open q (q' :: i) n
  | openInner {q q' s n} (hq : q' ∈ quotes) (hne : q' ≠ q) (h : Open q' s n) : Open q (q' :: s) n

/-- `Lexed d blind s toks out`: the text `s` has the tokens `toks`, and then either ends (`out = none`) or is
rejected (`out = some near`; the line is the one reached with the newlines of `toks`). With `blind`, which holds
right after a comment, the first character does not begin a comment mark. -/
inductive Lexed (d : Rdbms) : Bool → List Char → List Str → Option Str → Prop
  | nil {b} : Lexed d b [] [] none
  | blank {b c s ts o} (hc : c = ' ' ∨ c = '\t') (h : Lexed d false s ts o) : Lexed d b (c :: s) ts o
  | newline {b s ts o} (h : Lexed d false s ts o) : Lexed d b ('\n' :: s) (nl :: ts) o
  | punct {b c s ts o} (hc : c ∈ puncts) (h : Lexed d false s ts o) : Lexed d b (c :: s) ([c] :: ts) o
  | word {b w s ts o} (hw : w ≠ []) (h : IsLongWord d b w s) (hs : Lexed d false s ts o) :
      Lexed d b (w ++ s) (w :: ts) o
  | quoted {b q i n t s ts o} (hq : q ∈ quotes) (hd : d = .postgres → q ≠ '`') (hi : Closed q i n t)
      (h : Lexed d false s ts o) : Lexed d b (q :: (i ++ s)) (List.replicate n nl ++ (q :: t) :: ts) o
  | line {i s ts o} (hi : '\n' ∉ i) (h : Lexed d true s ts o) :
      Lexed d false ('-' :: '-' :: (i ++ '\n' :: s)) (nl :: ts) o
  | lastLine {i} (hi : '\n' ∉ i) : Lexed d false ('-' :: '-' :: i) [] none
  | sharp {b i s ts o} (hd : d = .mysql) (hi : '\n' ∉ i) (h : Lexed d false s ts o) :
      Lexed d b ('#' :: (i ++ '\n' :: s)) (nl :: ts) o
  | lastSharp {b i} (hd : d = .mysql) (hi : '\n' ∉ i) : Lexed d b ('#' :: i) [] none
  | block {ps : List Part} {s ts o} (hp : ∀ p ∈ ps, p.Ok) (h : Lexed d true s ts o) :
      Lexed d false ('/' :: '*' :: (ps.flatMap Part.src ++ '*' :: '/' :: s)) (ps.flatMap Part.toks ++ ts) o
  | backQuote {b s} (hd : d = .postgres) : Lexed d b ('`' :: s) [] (some (S "`"))
  | wideSpace {b s} : Lexed d b (Char.ofNat 0x3000 :: s) [] (some [Char.ofNat 0x3000])
  | starSlash {s} : Lexed d false ('*' :: '/' :: s) [] (some (S "*"))
  | openQuote {b q s n} (hq : q ∈ quotes) (hd : d = .postgres → q ≠ '`') (h : Open q s n) :
      Lexed d b (q :: s) (List.replicate n nl) (some EOF)
  | openBlock {ps : List Part} {t} (hp : ∀ p ∈ ps, p.Ok) (ht : t ∈ [[], ['*'], ['/']]) :
      Lexed d false ('/' :: '*' :: (ps.flatMap Part.src ++ t)) (ps.flatMap Part.toks) (some EOF)

end DDL.Spec

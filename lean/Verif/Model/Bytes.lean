import Verif.Model.Parse
/-
Go strings are sequences of bytes. `Parse` gets bytes, the lexer turns them into characters
(lexer.go:72 `[]rune(ddl)`) and makes strings of them again (`string(l.ddlr[l.i])`, lexer.go:81-107);
the validators and the converter work on the bytes of the tokens.

A byte is written here as the character with the same number, so that a Go string is a `Str` of
characters below 256. The definitions of `Validate` and `Convert` are used as they are: on such
strings `token[0:1]` and `token[1:len(token)-1]` are slices of bytes, comparisons compare bytes.
The two conversions are those of the Go 1.22 runtime (runtime/utf8.go `decoderune`, `encoderune`;
not in /repo), with shifts and masks written as arithmetic.
-/

namespace DDL.Go

/-- The character that stands for a byte. -/
def byteChar (b : UInt8) : Char := Char.ofNat b.toNat

/-- A continuation byte: `locb <= b && b <= hicb`. -/
def isCont (b : UInt8) : Bool := decide (0x80 ≤ b.toNat) && decide (b.toNat ≤ 0xBF)

/-- `runeError`: U+FFFD. -/
def runeError : Char := Char.ofNat 0xFFFD

/-- `decoderune(s, k)` for the bytes `a :: r` from position `k` on: the character, and the bytes after it.
After an error one byte is skipped. A byte below 0x80 is taken as it is (`range` does not call `decoderune` for it). -/
def decodeRune (a : UInt8) (r : List UInt8) : Char × List UInt8 :=
  if a.toNat < 0x80 then (byteChar a, r)
  else if 0xC0 ≤ a.toNat ∧ a.toNat < 0xE0 then
    match r with
    | b :: r1 =>
      let v := (a.toNat % 32) * 64 + b.toNat % 64
      if isCont b ∧ 0x7F < v then (Char.ofNat v, r1) else (runeError, r)
    | [] => (runeError, r)
  else if 0xE0 ≤ a.toNat ∧ a.toNat < 0xF0 then
    match r with
    | b :: c :: r2 =>
      let v := (a.toNat % 16) * 4096 + (b.toNat % 64) * 64 + c.toNat % 64
      if isCont b ∧ isCont c ∧ 0x7FF < v ∧ ¬ (0xD800 ≤ v ∧ v ≤ 0xDFFF) then (Char.ofNat v, r2) else (runeError, r)
    | _ => (runeError, r)
  else if 0xF0 ≤ a.toNat ∧ a.toNat < 0xF8 then
    match r with
    | b :: c :: e :: r3 =>
      let v := (a.toNat % 8) * 262144 + (b.toNat % 64) * 4096 + (c.toNat % 64) * 64 + e.toNat % 64
      if isCont b ∧ isCont c ∧ isCont e ∧ 0xFFFF < v ∧ v ≤ 0x10FFFF then (Char.ofNat v, r3) else (runeError, r)
    | _ => (runeError, r)
  else (runeError, r)

/-- The loop of `[]rune(s)`; every round uses up at least one byte, so that the number of bytes is enough fuel. -/
def runesN : Nat → List UInt8 → List Char
  | _, [] => []
  | 0, _ => []
  | n + 1, a :: r => (decodeRune a r).1 :: runesN n (decodeRune a r).2

/-- `[]rune(s)` -/
def runes (s : List UInt8) : List Char := runesN s.length s

/-- `string(r)` for a rune: `encoderune`. -/
def encodeRune (c : Char) : List UInt8 :=
  let v := c.toNat
  if v ≤ 0x7F then [UInt8.ofNat v]
  else if v ≤ 0x7FF then [UInt8.ofNat (0xC0 + v / 64), UInt8.ofNat (0x80 + v % 64)]
  else if v ≤ 0xFFFF then [UInt8.ofNat (0xE0 + v / 4096), UInt8.ofNat (0x80 + v / 64 % 64), UInt8.ofNat (0x80 + v % 64)]
  else [UInt8.ofNat (0xF0 + v / 262144), UInt8.ofNat (0x80 + v / 4096 % 64), UInt8.ofNat (0x80 + v / 64 % 64),
    UInt8.ofNat (0x80 + v % 64)]

/-- The Go string of a token of the lexer (the tokens are concatenations of `string(rune)`). -/
def goString (t : Str) : Str := (t.flatMap encodeRune).map byteChar

end DDL.Go

namespace DDL

/-- ddlparse.go:36-52 `Parse`, on bytes. -/
def parseBytesN (isNum : Str → Bool) (n : Nat) (ddl : List UInt8) (d : Rdbms) : Outcome (List Table × Option VErr) :=
  match Lex.lexN d n (Go.runes ddl) with
  | .err e => .ok ([], some ⟨e.line, Go.goString e.near⟩)
  | .panic => .panic
  | .timeout => .timeout
  | .ok tokens =>
    match validateN isNum d n (tokens.map Go.goString) with
    | .err e => .ok ([], some e)
    | .panic => .panic
    | .timeout => .timeout
    | .ok validatedTokens =>
      match convertN isNum d n validatedTokens with
      | .err e => .ok ([], some e)
      | .panic => .panic
      | .timeout => .timeout
      | .ok tables => .ok (tables, none)

/-- ddlparse.go:66-76 `ParseForce`, on bytes. -/
def parseForceBytesLoop (isNum : Str → Bool) (n : Nat) (ddl : List UInt8) :
    List Rdbms → Outcome (List Table × Option VErr)
  | [] => .ok ([], none)
  | d :: ds =>
    match parseBytesN isNum n ddl d with
    | .ok (tables, none) => .ok (tables, none)
    | .ok (_, some _) => parseForceBytesLoop isNum n ddl ds
    | .err e => .err e
    | .panic => .panic
    | .timeout => .timeout

/-- ddlparse.go:66-76 `ParseForce`, on bytes. -/
def parseForceBytesN (isNum : Str → Bool) (n : Nat) (ddl : List UInt8) : Outcome (List Table × Option VErr) :=
  parseForceBytesLoop isNum n ddl [.sqlite, .postgres, .mysql]

/-- `Parse` returns `r` for the bytes `ddl`. -/
def ReturnsBytes (isNum : Str → Bool) (ddl : List UInt8) (d : Rdbms) (r : List Table × Option VErr) : Prop :=
  ∃ n, parseBytesN isNum n ddl d = .ok r

/-- `Parse` does not return for the bytes `ddl`. -/
def HangsBytes (isNum : Str → Bool) (ddl : List UInt8) (d : Rdbms) : Prop :=
  ∀ n, parseBytesN isNum n ddl d = .timeout

/-- `ParseForce` returns `r` for the bytes `ddl`. -/
def ForceReturnsBytes (isNum : Str → Bool) (ddl : List UInt8) (r : List Table × Option VErr) : Prop :=
  ∃ n, parseForceBytesN isNum n ddl = .ok r

end DDL

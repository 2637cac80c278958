import Verif.Model.Memory
/-
Calls of Parse that run at the same time, in one memory. A call is a tree of the operations it performs on the memory: make an
array, read a cell, write a cell. Between two operations of one call those of others may come, in any order.

The functions have the same text as in Model/Memory.lean; `append` is done cell by cell. Simplifications, besides those
of Model/Memory.lean: operations happen one after the other (no two goroutines ever use the same array, see C65, so that a program
cannot tell); the converter and the syntax check read all their tokens first, where the code reads each when it gets there; the tables
of words, which are only read, are not in memory.
-/

namespace DDL.Conc
open Mem

/-- What a goroutine does to the memory until it is done. -/
inductive Go (α : Type) where
  | done (a : α)
  | new (k : Nat → Go α)
  | read (a i : Nat) (k : Cell → Go α)
  | write (a i : Nat) (c : Cell) (k : Go α)

/-- One after the other. -/
def Go.bind : Go α → (α → Go β) → Go β
  | .done a, f => f a
  | .new k, f => .new fun a => (k a).bind f
  | .read a i k, f => .read a i fun c => (k c).bind f
  | .write a i c k, f => .write a i c (k.bind f)

/-- How much room a new array gets that is made for so many cells. -/
abbrev Room := Nat → Nat → Nat

/-- A converter method. -/
def GM (α : Type) := List Str → Go (CRes α)

namespace GM
def pure (a : α) : GM α := fun s => .done (.ok a s)
def bind (f : GM α) (g : α → GM β) : GM β := fun s =>
  (f s).bind fun r =>
    match r with
    | .ok a s' => g a s'
    | .panic => .done .panic
    | .timeout => .done .timeout
/-- A method that does nothing to the memory. -/
def lift (p : CM α) : GM α := fun s => .done (p s)
end GM

/-- Fuel exhausted. -/
def timeout : GM α := fun _ => .done .timeout

/-- Go `if` on a `matchToken` test. -/
def ifM (c : CM Bool) (t e : GM α) : GM α := (GM.lift c).bind fun b => cond b t e

/-- `c.next()` as a statement. -/
def skip : GM Unit := GM.lift C.skip

/-- Copy cells `i`, `i + 1`, …, `i + n - 1` of one array to another. -/
def copyG (src dst : Nat) : Nat → Nat → Go Unit
  | _, 0 => .done ()
  | i, n + 1 => .read src i fun c => .write dst i c (copyG src dst (i + 1) n)

/-- `append(s, c)`: in place if the capacity allows; otherwise into a new array. -/
def appendG (g : Room) (s : Option Sl) (c : Cell) : Go (Option Sl) :=
  match s with
  | none => .new fun a => .write a 0 c (.done (some ⟨a, 1, max 1 (g a 1)⟩))
  | some s =>
    if s.len < s.cap then .write s.arr s.len c (.done (some { s with len := s.len + 1 }))
    else .new fun a => (copyG s.arr a 0 s.len).bind fun _ =>
      .write a s.len c (.done (some ⟨a, s.len + 1, max (s.len + 1) (g a (s.len + 1))⟩))

/-- `append(s, c)`. -/
def append (g : Room) (s : Option Sl) (c : Cell) : GM (Option Sl) := fun r =>
  (appendG g s c).bind fun s => .done (.ok s r)

/-- The literal `[]T{}`. -/
def emptyG : Go (Option Sl) := .new fun a => .done (some ⟨a, 0, 0⟩)

/-- The literal `[]T{}`. -/
def empty : GM (Option Sl) := fun r => emptyG.bind fun s => .done (.ok s r)

/-- converter.go:427-436: the loop of `convertCommaSeparatedColumnNames`. -/
def columnNamesLoop (g : Room) : Nat → Option Sl → GM (Option Sl)
  | 0, _ => timeout
  | n + 1, ls =>
    ifM (C.matchToken [")"]) (GM.pure ls)
      (ifM (C.matchToken [","])
        (skip.bind fun _ => columnNamesLoop g n ls)
        ((GM.lift C.token).bind fun t => (append g ls (.str t)).bind fun ls => skip.bind fun _ =>
          columnNamesLoop g n ls))

/-- converter.go:424-439 `convertCommaSeparatedColumnNames`. -/
def convertCommaSeparatedColumnNames (g : Room) (n : Nat) : GM (Option Sl) :=
  skip.bind fun _ =>
  empty.bind fun ls =>
  (columnNamesLoop g n ls).bind fun ls =>
  skip.bind fun _ => GM.pure ls

/-- converter.go:369-377 `convertReference`. -/
def convertReference (g : Room) (d : Rdbms) (n : Nat) : GM MReference :=
  skip.bind fun _ =>
  (GM.lift (C.convertName d)).bind fun t =>
  ifM (C.matchToken ["("])
    ((convertCommaSeparatedColumnNames g n).bind fun cs =>
      GM.pure { tableName := t, columnNames := cs })
    (GM.pure { tableName := t, columnNames := none })

/-- converter.go:266-319 `convertConstraintAux`. -/
def convertConstraintAux [CaseMap] (g : Room) (isNum : Str → Bool) (d : Rdbms) : Nat → MConstraint → GM MConstraint
  | 0, _ => timeout
  | n + 1, con =>
    ifM (C.matchToken [",", ")"]) (GM.pure con) <|
    ifM (C.matchToken ["PRIMARY"])
      (skip.bind fun _ => skip.bind fun _ =>
        convertConstraintAux g isNum d n { con with isPrimaryKey := true }) <|
    ifM (C.matchToken ["AUTOINCREMENT", "AUTO_INCREMENT"])
      (skip.bind fun _ =>
        convertConstraintAux g isNum d n { con with isAutoincrement := true }) <|
    ifM (C.matchToken ["NOT"])
      (skip.bind fun _ => skip.bind fun _ =>
        convertConstraintAux g isNum d n { con with isNotNull := true }) <|
    ifM (C.matchToken ["UNIQUE"])
      (skip.bind fun _ =>
        convertConstraintAux g isNum d n { con with isUnique := true }) <|
    ifM (C.matchToken ["DEFAULT"])
      (skip.bind fun _ => (GM.lift (C.convertDefaultValue isNum d n)).bind fun v =>
        convertConstraintAux g isNum d n { con with default := v }) <|
    ifM (C.matchToken ["CHECK"])
      (skip.bind fun _ => (GM.lift (C.convertExpr n)).bind fun e =>
        convertConstraintAux g isNum d n { con with check := e }) <|
    ifM (C.matchToken ["COLLATE"])
      (skip.bind fun _ => (GM.lift (C.convertName d)).bind fun e =>
        convertConstraintAux g isNum d n { con with collate := e }) <|
    ifM (C.matchToken ["REFERENCES"])
      ((convertReference g d n).bind fun r =>
        convertConstraintAux g isNum d n { con with references := r })
    (GM.pure con)

/-- converter.go:253-263 `convertConstraint`. -/
def convertConstraint [CaseMap] (g : Room) (isNum : Str → Bool) (d : Rdbms) (n : Nat) : GM MConstraint :=
  (ifM (C.matchToken ["CONSTRAINT"])
    (skip.bind fun _ =>
      ifM (C.matchToken C.notConstraintName) (GM.pure []) (GM.lift (C.convertName d)))
    (GM.pure [])).bind fun name =>
  convertConstraintAux g isNum d n { name := name }

/-- converter.go:207-214 `convertColumnDefinition`. -/
def convertColumnDefinition [CaseMap] (g : Room) (isNum : Str → Bool) (d : Rdbms) (n : Nat) : GM MColumn :=
  (GM.lift (C.convertName d)).bind fun name =>
  (GM.lift C.convertDateType).bind fun dt =>
  (convertConstraint g isNum d n).bind fun con =>
  GM.pure { name := name, dataType := dt, constraint := con }

/-- converter.go:380-421 `convertTableConstraint`. -/
def convertTableConstraint (g : Room) (d : Rdbms) (n : Nat) (tc : MTableConstraint) : GM MTableConstraint :=
  (ifM (C.matchToken ["CONSTRAINT"])
    (skip.bind fun _ =>
      ifM (C.matchToken ["PRIMARY", "UNIQUE", "CHECK", "FOREIGN"]) (GM.pure []) (GM.lift (C.convertName d)))
    (GM.pure [])).bind fun name =>
  ifM (C.matchToken ["PRIMARY"])
    (skip.bind fun _ => skip.bind fun _ =>
      (convertCommaSeparatedColumnNames g n).bind fun cs =>
      (append g tc.primaryKey (.primaryKey ⟨name, cs⟩)).bind fun l =>
      GM.pure { tc with primaryKey := l }) <|
  ifM (C.matchToken ["UNIQUE"])
    (skip.bind fun _ =>
      (convertCommaSeparatedColumnNames g n).bind fun cs =>
      (append g tc.unique (.unique ⟨name, cs⟩)).bind fun l =>
      GM.pure { tc with unique := l }) <|
  ifM (C.matchToken ["CHECK"])
    (skip.bind fun _ =>
      (GM.lift (C.convertExpr n)).bind fun e =>
      (append g tc.check (.check ⟨name, e⟩)).bind fun l =>
      GM.pure { tc with check := l }) <|
  ifM (C.matchToken ["FOREIGN"])
    (skip.bind fun _ => skip.bind fun _ =>
      (convertCommaSeparatedColumnNames g n).bind fun cs =>
      (convertReference g d n).bind fun r =>
      (append g tc.foreignKey (.foreignKey ⟨name, cs, r⟩)).bind fun l =>
      GM.pure { tc with foreignKey := l })
  (GM.pure tc)

/-- converter.go:189-201: the loop of `convertTableDefinition`. -/
def tableDefinitionLoop [CaseMap] (g : Room) (isNum : Str → Bool) (d : Rdbms) :
    Nat → Option Sl → MTableConstraint → GM (Option Sl × MTableConstraint)
  | 0, _, _ => timeout
  | n + 1, cols, tc =>
    ifM (C.matchToken [")"]) (GM.pure (cols, tc))
      ((ifM (C.matchToken ["CONSTRAINT", "PRIMARY", "UNIQUE", "CHECK", "FOREIGN"])
          ((convertTableConstraint g d (n + 1) tc).bind fun tc' => GM.pure (cols, tc'))
          ((convertColumnDefinition g isNum d (n + 1)).bind fun c =>
            (append g cols (.column c)).bind fun cols => GM.pure (cols, tc))).bind fun ct =>
        ifM (C.matchToken [")"]) (GM.pure ct)
          (skip.bind fun _ => tableDefinitionLoop g isNum d n ct.1 ct.2))

/-- converter.go:185-204 `convertTableDefinition`. -/
def convertTableDefinition [CaseMap] (g : Room) (isNum : Str → Bool) (d : Rdbms) (n : Nat) :
    GM (Option Sl × MTableConstraint) :=
  skip.bind fun _ =>
  (tableDefinitionLoop g isNum d n none {}).bind fun r =>
  skip.bind fun _ => GM.pure r

/-- converter.go:130-156 `convertTable`. -/
def convertTable [CaseMap] (g : Room) (isNum : Str → Bool) (d : Rdbms) (n : Nat) : GM MTable :=
  skip.bind fun _ =>
  skip.bind fun _ =>
  (ifM (C.matchToken ["IF"])
    (skip.bind fun _ => skip.bind fun _ => skip.bind fun _ => GM.pure true)
    (GM.pure false)).bind fun ine =>
  (GM.lift (C.convertTableName d)).bind fun names =>
  (convertTableDefinition g isNum d n).bind fun defs =>
  (ifM (C.matchToken [";"]) skip (GM.pure ())).bind fun _ =>
  GM.pure { schema := names.1, name := names.2, ifNotExists := ine,
            columns := defs.1, constraints := defs.2 }

/-- converter.go:119-127 `convert`; `acc` is `c.result`. -/
def convert [CaseMap] (g : Room) (isNum : Str → Bool) (d : Rdbms) : Nat → Option Sl → GM (Option Sl)
  | 0, _ => timeout
  | n + 1, acc =>
    ifM C.isOutOfRange (GM.pure acc)
      ((convertTable g isNum d (n + 1)).bind fun t =>
        (append g acc (.table t)).bind fun acc => convert g isNum d n acc)

/-- converter.go:41-53 `Convert`, `init`: the result starts as `[]types.Table{}`. -/
def convertG [CaseMap] (g : Room) (isNum : Str → Bool) (d : Rdbms) (n : Nat) (tokens : List Str) :
    Go (CRes (Option Sl)) :=
  (empty.bind (convert g isNum d n)) tokens

/-- Append one token after the other. -/
def tokensLoop (g : Room) : List Str → Option Sl → Go (Option Sl)
  | [], s => .done s
  | t :: ts, s => (appendG g s (.str t)).bind fun s => tokensLoop g ts s

/-- `appendToken` (lexer.go:98-102) and `set` (validator.go:64-66), token by token, on a result that starts as
`[]string{}` (lexer.go:76, validator.go:49). -/
def tokensG (g : Room) (tokens : List Str) : Go (Option Sl) := emptyG.bind fun s => tokensLoop g tokens s

/-- The string in a cell. -/
def strOf : Cell → Str
  | .str t => t
  | _ => []

/-- Read cells `i`, …, `i + n - 1` of an array. -/
def readLoop (a : Nat) : Nat → Nat → Go (List Str)
  | _, 0 => .done []
  | i, n + 1 => .read a i fun c => (readLoop a (i + 1) n).bind fun ts => .done (strOf c :: ts)

/-- The tokens that a slice holds. -/
def readG (s : Option Sl) : Go (List Str) :=
  match s with
  | none => .done []
  | some s => readLoop s.arr 0 s.len

/-- ddlparse.go:36-52 `Parse`: the slice returned and the error. -/
def parseG [CaseMap] (g : Room) (isNum : Str → Bool) (n : Nat) (ddl : List Char) (d : Rdbms) :
    Go (Outcome (Option Sl × Option VErr)) :=
  match Lex.lexN d n ddl with
  | .err e => emptyG.bind fun s => .done (.ok (s, some e))
  | .panic => .done .panic
  | .timeout => .done .timeout
  | .ok tokens =>
    (tokensG g tokens).bind fun t => (readG t).bind fun tokens =>
    match validateN isNum d n tokens with
    | .err e => emptyG.bind fun s => .done (.ok (s, some e))
    | .panic => .done .panic
    | .timeout => .done .timeout
    | .ok validatedTokens =>
      (tokensG g validatedTokens).bind fun v => (readG v).bind fun tokens =>
      (convertG g isNum d n tokens).bind fun r =>
        match r with
        | .ok s _ => .done (.ok (s, none))
        | .panic => .done .panic
        | .timeout => .done .timeout

/-- ddlparse.go:66-76 `ParseForce`, see `parseForceLoop`. -/
def parseForceLoopG [CaseMap] (g : Room) (isNum : Str → Bool) (n : Nat) (ddl : List Char) :
    List Rdbms → Go (Outcome (Option Sl × Option VErr))
  | [] => emptyG.bind fun s => .done (.ok (s, none))
  | d :: ds =>
    (parseG g isNum n ddl d).bind fun r =>
    match r with
    | .ok (s, none) => .done (.ok (s, none))
    | .ok (_, some _) => parseForceLoopG g isNum n ddl ds
    | .err e => .done (.err e)
    | .panic => .done .panic
    | .timeout => .done .timeout

/-- ddlparse.go:66-76 `ParseForce`. -/
def parseForceG [CaseMap] (g : Room) (isNum : Str → Bool) (n : Nat) (ddl : List Char) :
    Go (Outcome (Option Sl × Option VErr)) :=
  parseForceLoopG g isNum n ddl [.sqlite, .postgres, .mysql]

/-- ddlparse.go:36-76: a call of an exported function (`ParsePostgreSQL`, `ParseMySQL` and `ParseSQLite` are `Parse` with a
constant). -/
inductive Call where
  | parse (ddl : List Char) (d : Rdbms)
  | parseForce (ddl : List Char)

/-- The call as a goroutine. -/
def Call.run [CaseMap] (g : Room) (isNum : Str → Bool) (n : Nat) : Call → Go (Outcome (Option Sl × Option VErr))
  | .parse ddl d => parseG g isNum n ddl d
  | .parseForce ddl => parseForceG g isNum n ddl

/-! ### goroutines in one memory -/

/-- What is done to an array. -/
inductive Ev where
  | made (a : Nat)
  | read (a : Nat)
  | wrote (a : Nat)
  deriving DecidableEq, Repr

/-- The array in question. -/
def Ev.array : Ev → Nat
  | .made a | .read a | .wrote a => a

/-- What a cell holds that has not been written. -/
def noCell : Cell := .str []

/-- The next operation of a goroutine. A new array has a number that no other one has. -/
def step (h : Heap) : Go α → Option (Ev × Heap × Go α)
  | .done _ => none
  | .new k => some (.made h.length, h ++ [[]], k h.length)
  | .read a i k => some (.read a, h, k ((h.getD a []).getD i noCell))
  | .write a i c k => some (.wrote a, h.set a (put (h.getD a []) i c), k)

/-- What can happen to the memory `h₀` and goroutines `ts₀`: at any time any goroutine does its next operation, or something else
in the program does whatever it likes to the memory, but not to the arrays made by a goroutine that has not ended (no one else has
got them). What a goroutine that has ended has returned, others may write to. The list says what was done by which goroutine. -/
inductive Exec (h₀ : Heap) (ts₀ : List (Go α)) : List (Nat × Ev) → Heap → List (Go α) → Prop
  | start : Exec h₀ ts₀ [] h₀ ts₀
  | step {tr h ts i t e h' t'} : Exec h₀ ts₀ tr h ts → ts[i]? = some t → step h t = some (e, h', t') →
      Exec h₀ ts₀ (tr ++ [(i, e)]) h' (ts.set i t')
  | other {tr h ts h'} : Exec h₀ ts₀ tr h ts → h.length ≤ h'.length →
      (∀ i a t, (i, Ev.made a) ∈ tr → ts[i]? = some t → (∀ r, t ≠ .done r) → h'[a]? = h[a]?) → Exec h₀ ts₀ tr h' ts

end DDL.Conc

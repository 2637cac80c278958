import Verif.Model.Parse
/-
The converter with its slices in memory: a slice is a piece of an array, `append` writes into the array if there is room
and makes a new array otherwise. The functions of converter.go that make or extend slices, with the same text as in
Model/Converter.lean; those that do not are taken from there.

Simplifications: arrays are never freed; an array is the list of the cells written so far, what is behind them is not
looked at; a slice starts at the first cell of its array (the code takes no slices of slices); strings, which cannot be
written to, stay values. An empty slice literal gets an array of its own, without cells.
-/

namespace DDL.Mem

/-- A slice that is not nil: array, length, capacity. -/
structure Sl where
  arr : Nat
  len : Nat
  cap : Nat
  deriving DecidableEq, Repr

/-- types.go:36-39 `Reference`, in memory. -/
structure MReference where
  tableName : Str := []
  columnNames : Option Sl := none
  deriving DecidableEq, Repr

/-- types.go:24-34 `Constraint`, in memory. -/
structure MConstraint where
  name : Str := []
  isPrimaryKey : Bool := false
  isUnique : Bool := false
  isNotNull : Bool := false
  isAutoincrement : Bool := false
  default : DefaultVal := .nil
  check : Str := []
  collate : Str := []
  references : MReference := {}
  deriving DecidableEq, Repr

/-- types.go:12-16 `Column`, in memory. -/
structure MColumn where
  name : Str := []
  dataType : DataType := {}
  constraint : MConstraint := {}
  deriving DecidableEq, Repr

/-- types.go:48-56 `PrimaryKey` and `Unique`, in memory. -/
structure MKey where
  name : Str
  columnNames : Option Sl
  deriving DecidableEq, Repr

/-- types.go:63-67 `ForeignKey`, in memory. -/
structure MForeignKey where
  name : Str
  columnNames : Option Sl
  references : MReference
  deriving DecidableEq, Repr

/-- types.go:41-46 `TableConstraint`, in memory. -/
structure MTableConstraint where
  primaryKey : Option Sl := none
  unique : Option Sl := none
  check : Option Sl := none
  foreignKey : Option Sl := none
  deriving DecidableEq, Repr

/-- types.go:4-10 `Table`, in memory. -/
structure MTable where
  schema : Str := []
  name : Str := []
  ifNotExists : Bool := false
  columns : Option Sl := none
  constraints : MTableConstraint := {}
  deriving DecidableEq, Repr

/-- What a cell of an array holds. -/
inductive Cell where
  | str (s : Str)
  | column (c : MColumn)
  | primaryKey (k : MKey)
  | unique (k : MKey)
  | check (c : Check)
  | foreignKey (k : MForeignKey)
  | table (t : MTable)
  deriving DecidableEq, Repr

/-- The arrays, by number. -/
abbrev Heap := List (List Cell)

/-- How much room `append` asks for when it makes a new array of so many cells. -/
abbrev Grow := Heap → Nat → Nat

/-- Outcome of a converter method. -/
inductive MRes (α : Type) where
  | ok (a : α) (h : Heap) (rest : List Str)
  | panic
  | timeout
  deriving DecidableEq, Repr

/-- A converter method: memory, remaining tokens. -/
def MM (α : Type) := Heap → List Str → MRes α

namespace MM
def pure (a : α) : MM α := fun h s => .ok a h s
def bind (f : MM α) (g : α → MM β) : MM β := fun h s =>
  match f h s with
  | .ok a h' s' => g a h' s'
  | .panic => .panic
  | .timeout => .timeout
/-- A method that does nothing to the memory. -/
def lift (p : CM α) : MM α := fun h s =>
  match p s with
  | .ok a s' => .ok a h s'
  | .panic => .panic
  | .timeout => .timeout
end MM

/-- Fuel exhausted. -/
def timeout : MM α := fun _ _ => .timeout

/-- Go `if` on a `matchToken` test. -/
def ifM (c : CM Bool) (t e : MM α) : MM α := (MM.lift c).bind fun b => cond b t e

/-- `c.next()` as a statement. -/
def skip : MM Unit := MM.lift C.skip

/-- Write a cell of an array. -/
def put (l : List Cell) (i : Nat) (c : Cell) : List Cell := l.take i ++ c :: l.drop (i + 1)

/-- A new array with these cells, and the slice of all of them. -/
def alloc (g : Grow) (h : Heap) (cells : List Cell) : Option Sl × Heap :=
  (some ⟨h.length, cells.length, max cells.length (g h cells.length)⟩, h ++ [cells])

/-- `append(s, c)`: in place if the capacity allows, whatever is there; otherwise into a new array. -/
def appendH (g : Grow) (h : Heap) (s : Option Sl) (c : Cell) : Option Sl × Heap :=
  match s with
  | none => alloc g h [c]
  | some s =>
    if s.len < s.cap then (some { s with len := s.len + 1 }, h.set s.arr (put (h.getD s.arr []) s.len c))
    else alloc g h ((h.getD s.arr []).take s.len ++ [c])

/-- `append(s, c)`. -/
def append (g : Grow) (s : Option Sl) (c : Cell) : MM (Option Sl) := fun h r =>
  .ok (appendH g h s c).1 (appendH g h s c).2 r

/-- The literal `[]T{}`. -/
def emptyH (h : Heap) : Option Sl × Heap := (some ⟨h.length, 0, 0⟩, h ++ [[]])

/-- The literal `[]T{}`. -/
def empty : MM (Option Sl) := fun h r => .ok (emptyH h).1 (emptyH h).2 r

/-- converter.go:427-436: the loop of `convertCommaSeparatedColumnNames`. -/
def columnNamesLoop (g : Grow) : Nat → Option Sl → MM (Option Sl)
  | 0, _ => timeout
  | n + 1, ls =>
    ifM (C.matchToken [")"]) (MM.pure ls)
      (ifM (C.matchToken [","])
        (skip.bind fun _ => columnNamesLoop g n ls)
        ((MM.lift C.token).bind fun t => (append g ls (.str t)).bind fun ls => skip.bind fun _ =>
          columnNamesLoop g n ls))

/-- converter.go:424-439 `convertCommaSeparatedColumnNames`. -/
def convertCommaSeparatedColumnNames (g : Grow) (n : Nat) : MM (Option Sl) :=
  skip.bind fun _ =>
  empty.bind fun ls =>
  (columnNamesLoop g n ls).bind fun ls =>
  skip.bind fun _ => MM.pure ls

/-- converter.go:369-377 `convertReference`. -/
def convertReference (g : Grow) (d : Rdbms) (n : Nat) : MM MReference :=
  skip.bind fun _ =>
  (MM.lift (C.convertName d)).bind fun t =>
  ifM (C.matchToken ["("])
    ((convertCommaSeparatedColumnNames g n).bind fun cs =>
      MM.pure { tableName := t, columnNames := cs })
    (MM.pure { tableName := t, columnNames := none })

/-- converter.go:266-319 `convertConstraintAux`. -/
def convertConstraintAux [CaseMap] (g : Grow) (isNum : Str → Bool) (d : Rdbms) : Nat → MConstraint → MM MConstraint
  | 0, _ => timeout
  | n + 1, con =>
    ifM (C.matchToken [",", ")"]) (MM.pure con) <|
    ifM (C.matchToken ["PRIMARY"])
      (skip.bind fun _ => skip.bind fun _ =>
        convertConstraintAux g isNum d n { con with isPrimaryKey := true }) <|
    ifM (C.matchToken ["AUTOINCREMENT", "AUTO_INCREMENT"])
      (skip.bind fun _ =>
        convertConstraintAux g isNum d n { con with isAutoincrement := true }) <|
    ifM (C.matchToken ["NOT"])
      (skip.bind fun _ => skip.bind fun _ =>
        convertConstraintAux g isNum d n { con with isNotNull := true }) <|
    ifM (C.matchToken ["UNIQUE"])
      (skip.bind fun _ =>
        convertConstraintAux g isNum d n { con with isUnique := true }) <|
    ifM (C.matchToken ["DEFAULT"])
      (skip.bind fun _ => (MM.lift (C.convertDefaultValue isNum d n)).bind fun v =>
        convertConstraintAux g isNum d n { con with default := v }) <|
    ifM (C.matchToken ["CHECK"])
      (skip.bind fun _ => (MM.lift (C.convertExpr n)).bind fun e =>
        convertConstraintAux g isNum d n { con with check := e }) <|
    ifM (C.matchToken ["COLLATE"])
      (skip.bind fun _ => (MM.lift (C.convertName d)).bind fun e =>
        convertConstraintAux g isNum d n { con with collate := e }) <|
    ifM (C.matchToken ["REFERENCES"])
      ((convertReference g d n).bind fun r =>
        convertConstraintAux g isNum d n { con with references := r })
    (MM.pure con)

/-- converter.go:253-263 `convertConstraint`. -/
def convertConstraint [CaseMap] (g : Grow) (isNum : Str → Bool) (d : Rdbms) (n : Nat) : MM MConstraint :=
  (ifM (C.matchToken ["CONSTRAINT"])
    (skip.bind fun _ =>
      ifM (C.matchToken C.notConstraintName) (MM.pure []) (MM.lift (C.convertName d)))
    (MM.pure [])).bind fun name =>
  convertConstraintAux g isNum d n { name := name }

/-- converter.go:207-214 `convertColumnDefinition`. -/
def convertColumnDefinition [CaseMap] (g : Grow) (isNum : Str → Bool) (d : Rdbms) (n : Nat) : MM MColumn :=
  (MM.lift (C.convertName d)).bind fun name =>
  (MM.lift C.convertDateType).bind fun dt =>
  (convertConstraint g isNum d n).bind fun con =>
  MM.pure { name := name, dataType := dt, constraint := con }

/-- converter.go:380-421 `convertTableConstraint`. -/
def convertTableConstraint (g : Grow) (d : Rdbms) (n : Nat) (tc : MTableConstraint) : MM MTableConstraint :=
  (ifM (C.matchToken ["CONSTRAINT"])
    (skip.bind fun _ =>
      ifM (C.matchToken ["PRIMARY", "UNIQUE", "CHECK", "FOREIGN"]) (MM.pure []) (MM.lift (C.convertName d)))
    (MM.pure [])).bind fun name =>
  ifM (C.matchToken ["PRIMARY"])
    (skip.bind fun _ => skip.bind fun _ =>
      (convertCommaSeparatedColumnNames g n).bind fun cs =>
      (append g tc.primaryKey (.primaryKey ⟨name, cs⟩)).bind fun l =>
      MM.pure { tc with primaryKey := l }) <|
  ifM (C.matchToken ["UNIQUE"])
    (skip.bind fun _ =>
      (convertCommaSeparatedColumnNames g n).bind fun cs =>
      (append g tc.unique (.unique ⟨name, cs⟩)).bind fun l =>
      MM.pure { tc with unique := l }) <|
  ifM (C.matchToken ["CHECK"])
    (skip.bind fun _ =>
      (MM.lift (C.convertExpr n)).bind fun e =>
      (append g tc.check (.check ⟨name, e⟩)).bind fun l =>
      MM.pure { tc with check := l }) <|
  ifM (C.matchToken ["FOREIGN"])
    (skip.bind fun _ => skip.bind fun _ =>
      (convertCommaSeparatedColumnNames g n).bind fun cs =>
      (convertReference g d n).bind fun r =>
      (append g tc.foreignKey (.foreignKey ⟨name, cs, r⟩)).bind fun l =>
      MM.pure { tc with foreignKey := l })
  (MM.pure tc)

/-- converter.go:189-201: the loop of `convertTableDefinition`. -/
def tableDefinitionLoop [CaseMap] (g : Grow) (isNum : Str → Bool) (d : Rdbms) :
    Nat → Option Sl → MTableConstraint → MM (Option Sl × MTableConstraint)
  | 0, _, _ => timeout
  | n + 1, cols, tc =>
    ifM (C.matchToken [")"]) (MM.pure (cols, tc))
      ((ifM (C.matchToken ["CONSTRAINT", "PRIMARY", "UNIQUE", "CHECK", "FOREIGN"])
          ((convertTableConstraint g d (n + 1) tc).bind fun tc' => MM.pure (cols, tc'))
          ((convertColumnDefinition g isNum d (n + 1)).bind fun c =>
            (append g cols (.column c)).bind fun cols => MM.pure (cols, tc))).bind fun ct =>
        ifM (C.matchToken [")"]) (MM.pure ct)
          (skip.bind fun _ => tableDefinitionLoop g isNum d n ct.1 ct.2))

/-- converter.go:185-204 `convertTableDefinition`. -/
def convertTableDefinition [CaseMap] (g : Grow) (isNum : Str → Bool) (d : Rdbms) (n : Nat) :
    MM (Option Sl × MTableConstraint) :=
  skip.bind fun _ =>
  (tableDefinitionLoop g isNum d n none {}).bind fun r =>
  skip.bind fun _ => MM.pure r

/-- converter.go:130-156 `convertTable`. -/
def convertTable [CaseMap] (g : Grow) (isNum : Str → Bool) (d : Rdbms) (n : Nat) : MM MTable :=
  skip.bind fun _ =>
  skip.bind fun _ =>
  (ifM (C.matchToken ["IF"])
    (skip.bind fun _ => skip.bind fun _ => skip.bind fun _ => MM.pure true)
    (MM.pure false)).bind fun ine =>
  (MM.lift (C.convertTableName d)).bind fun names =>
  (convertTableDefinition g isNum d n).bind fun defs =>
  (ifM (C.matchToken [";"]) skip (MM.pure ())).bind fun _ =>
  MM.pure { schema := names.1, name := names.2, ifNotExists := ine,
            columns := defs.1, constraints := defs.2 }

/-- converter.go:119-127 `convert`; `acc` is `c.result`. -/
def convert [CaseMap] (g : Grow) (isNum : Str → Bool) (d : Rdbms) : Nat → Option Sl → MM (Option Sl)
  | 0, _ => timeout
  | n + 1, acc =>
    ifM C.isOutOfRange (MM.pure acc)
      ((convertTable g isNum d (n + 1)).bind fun t =>
        (append g acc (.table t)).bind fun acc => convert g isNum d n acc)

/-- converter.go:41-53 `Convert`, `init`: the result starts as `[]types.Table{}`. -/
def convertH [CaseMap] (g : Grow) (isNum : Str → Bool) (d : Rdbms) (n : Nat) (h : Heap) (tokens : List Str) :
    Outcome (Option Sl × Heap) :=
  match (empty.bind (convert g isNum d n)) h tokens with
  | .ok s h _ => .ok (s, h)
  | .panic => .panic
  | .timeout => .timeout

/-- `appendToken` (lexer.go:98-102) and `set` (validator.go:64-66), token by token, on a result that starts as
`[]string{}` (lexer.go:76, validator.go:49). -/
def tokensH (g : Grow) (h : Heap) (tokens : List Str) : Option Sl × Heap :=
  tokens.foldl (fun sh t => appendH g sh.2 sh.1 (.str t)) (emptyH h)

/-- The tokens that a slice holds. -/
def tokensOf (h : Heap) (s : Option Sl) : List Str :=
  match s with
  | none => []
  | some s => ((h.getD s.arr []).take s.len).filterMap fun c =>
    match c with
    | .str t => some t
    | _ => none

/-- ddlparse.go:36-52 `Parse`: the slice returned, the error, and the memory afterwards. Each step reads its tokens from
memory. (The list of constraints seen that the validators keep is left out.) -/
def parseH [CaseMap] (g : Grow) (isNum : Str → Bool) (n : Nat) (h : Heap) (ddl : List Char) (d : Rdbms) :
    Outcome ((Option Sl × Option VErr) × Heap) :=
  match Lex.lexN d n ddl with
  | .err e => .ok (((emptyH h).1, some e), (emptyH h).2)
  | .panic => .panic
  | .timeout => .timeout
  | .ok tokens =>
    let t := tokensH g h tokens
    match validateN isNum d n (tokensOf t.2 t.1) with
    | .err e => .ok (((emptyH t.2).1, some e), (emptyH t.2).2)
    | .panic => .panic
    | .timeout => .timeout
    | .ok validatedTokens =>
      let v := tokensH g t.2 validatedTokens
      match convertH g isNum d n v.2 (tokensOf v.2 v.1) with
      | .err e => .err e      -- unreachable
      | .panic => .panic
      | .timeout => .timeout
      | .ok (s, h) => .ok ((s, none), h)

/-- ddlparse.go:66-76 `ParseForce`, see `parseForceLoop`. -/
def parseForceLoopH [CaseMap] (g : Grow) (isNum : Str → Bool) (n : Nat) (h : Heap) (ddl : List Char) :
    List Rdbms → Outcome ((Option Sl × Option VErr) × Heap)
  | [] => .ok (((emptyH h).1, none), (emptyH h).2)
  | d :: ds =>
    match parseH g isNum n h ddl d with
    | .ok ((s, none), h) => .ok ((s, none), h)
    | .ok ((_, some _), h) => parseForceLoopH g isNum n h ddl ds
    | .err e => .err e
    | .panic => .panic
    | .timeout => .timeout

/-- ddlparse.go:66-76 `ParseForce`. -/
def parseForceH [CaseMap] (g : Grow) (isNum : Str → Bool) (n : Nat) (h : Heap) (ddl : List Char) :
    Outcome ((Option Sl × Option VErr) × Heap) :=
  parseForceLoopH g isNum n h ddl [.sqlite, .postgres, .mysql]

end DDL.Mem

import Verif.Go.Source
/-
What the syntax trees mean: an interpreter.

Fuel bounds the depth of calls and the rounds of a loop; running out of it is `timeout`. A program that runs for
ever gives `timeout` for every fuel. `panic` is a run-time panic, `stuck` is anything the Go compiler rules out.

Simplifications, all about what the code in /repo does not do:
  * a string is a list of characters, and `s[a:b]` counts characters. The code takes `s[0:1]`, which it compares with
    quotes, and `s[1:len(s)-1]` of a string that starts with a quote;
  * `int` does not overflow;
  * a pointer parameter is passed by value and result: the code never has two pointers to one variable;
  * slices are values: the code never writes to an element;
  * the fields of the struct that the validators embed are fields of the validators.
-/

namespace DDL.Src

/-- Variables in scope, innermost first. -/
abbrev Locals := List (Var × Val)

/-- The fields of the receiver. -/
abbrev State := List (Fld × Val)

/-- Outcome of a piece of code that may change variables and the receiver. -/
inductive Out (α : Type) where
  | ok (a : α) (vars : Locals) (s : State)
  | panic
  | stuck
  | timeout

/-- Outcome of a call: result, the values the pointer parameters point to, the receiver. -/
inductive Ret where
  | ok (v : Val) (ptrs : List Val) (s : State)
  | panic
  | stuck
  | timeout

/-- A meaning for every function. -/
abbrev Env := Fn → List Val → State → Ret

/-- Code that may change variables and the receiver. -/
abbrev Act (α : Type) := Locals → State → Out α

namespace Act
def pure (a : α) : Act α := fun vs s => .ok a vs s
def bind (p : Act α) (q : α → Act β) : Act β := fun vs s =>
  match p vs s with
  | .ok a vs s => q a vs s
  | .panic => .panic
  | .stuck => .stuck
  | .timeout => .timeout
def panic : Act α := fun _ _ => .panic
def stuck : Act α := fun _ _ => .stuck
def timeout : Act α := fun _ _ => .timeout
/-- `none` is stuck. -/
def get : Option α → Act α
  | none => stuck
  | some a => pure a
end Act

/-! ### names -/

/-- The value of a variable or field. -/
def look [DecidableEq κ] (x : κ) : List (κ × Val) → Option Val
  | [] => none
  | (y, v) :: r => if x = y then some v else look x r

/-- Change a variable or field; of several with one name the innermost. -/
def upd [DecidableEq κ] (x : κ) (v : Val) : List (κ × Val) → Option (List (κ × Val))
  | [] => none
  | (y, w) :: r => if x = y then some ((y, v) :: r) else (upd x v r).map ((y, w) :: ·)

/-! ### values -/

/-- The elements of a slice of strings. -/
def Val.strings : Val → Option (List Str)
  | .nil => some []
  | .strs l => some l
  | .kws l => some (l.map S)
  | _ => none

/-- The elements of a slice. -/
def Val.elems : Val → Option (List Val)
  | .slice l => some l
  | v => v.strings.map (·.map .str)

/-- `a == b`. -/
def Val.eq : Val → Val → Option Bool
  | .nil, .nil => some true
  | .nil, .err _ _ | .err _ _, .nil | .nil, .libErr | .libErr, .nil => some false
  | .str a, .str b => some (decide (a = b))
  | .int a, .int b => some (decide (a = b))
  | .bool a, .bool b => some (decide (a = b))
  | .rdbms a, .rdbms b => some (decide (a = b))
  | _, _ => none

/-- `a + b`. -/
def Val.add : Val → Val → Option Val
  | .int a, .int b => some (.int (a + b))
  | .str a, .str b => some (.str (a ++ b))
  | _, _ => none

/-- `a - b`. -/
def Val.sub : Val → Val → Option Val
  | .int a, .int b => some (.int (a - b))
  | _, _ => none

/-- `a > b`. -/
def Val.gt : Val → Val → Option Val
  | .int a, .int b => some (.bool (decide (a > b)))
  | _, _ => none

/-- `a[i]`. -/
def Val.index (a i : Val) : Act Val :=
  match i with
  | .int i =>
    match a with
    | .runes l => if i < 0 then Act.panic else match l[i.toNat]? with
      | none => Act.panic
      | some c => Act.pure (.rune c)
    | a => match a.strings with
      | none => Act.stuck
      | some l => if i < 0 then Act.panic else match l[i.toNat]? with
        | none => Act.panic
        | some t => Act.pure (.str t)
  | _ => Act.stuck

/-- `s[lo:hi]`. -/
def Val.cut : Val → Val → Val → Act Val
  | .str s, .int lo, .int hi =>
    if 0 ≤ lo ∧ lo ≤ hi ∧ hi ≤ s.length then Act.pure (.str ((s.take hi.toNat).drop lo.toNat)) else Act.panic
  | _, _, _ => Act.stuck

/-- Library functions. `isNum` says which strings `strconv.ParseFloat` accepts. -/
def Lib.run [CaseMap] (isNum : Str → Bool) : Lib → List Val → Option Val
  | .toUpper, [.str s] => some (.str (upStr s))
  | .toLower, [.str s] => some (.str (lowStr s))
  | .atoi, [.str s] => some (.tuple [.int (DDL.atoi s).1, if (DDL.atoi s).2 then .nil else .libErr])
  | .parseFloat, [.str s, .int 64] => some (.tuple [.num s, if isNum s then .nil else .libErr])
  | .compile, [.str s] => some (.regexp s)
  | .matchString, [.regexp r, .str s] =>
    if r = S "^[a-zA-Z_][a-zA-Z0-9_]*$" then some (.bool (matchIdent s)) else none
  | .runes, [.str s] => some (.runes s)
  | .string, [.rune c] => some (.str [c])
  | .string, [.str s] => some (.str s)
  | .len, [.runes l] => some (.int l.length)
  | .len, [.str s] => some (.int s.length)
  | .len, [v] => v.strings.map (fun l => .int l.length)
  | .append, [v, .str s] => v.strings.map (fun l => .strs (l ++ [s]))
  | .append, [.nil, .obj t fs] => some (.slice [.obj t fs])
  | .append, [.slice l, .obj t fs] => some (.slice (l ++ [.obj t fs]))
  | .appendAll, [v, w] =>
    match v.strings, w.strings with
    | some l, some m => some (.strs (l ++ m))
    | _, _ => none
  | .mkErr, [.int line, .str near] => some (.err line near)
  | _, _ => none

/-! ### expressions -/

/-- The variables to which pointers are passed. -/
def Expr.ptrs : Expr → List Var
  | .cons (.addr x) es => x :: es.ptrs
  | .cons _ es => es.ptrs
  | _ => []

/-- The values of the pointer parameters, back into the variables. -/
def writeBack : List Var → List Val → Locals → Option Locals
  | [], [], vs => some vs
  | x :: xs, v :: ws, vs => (upd x v vs).bind (writeBack xs ws)
  | _, _, _ => none

/-- A call. -/
def call (E : Env) (f : Fn) (args : List Val) (ptrs : List Var) : Act Val := fun vs s =>
  match E f args s with
  | .ok v ws s =>
    match writeBack ptrs ws vs with
    | some vs => .ok v vs s
    | none => .stuck
  | .panic => .panic
  | .stuck => .stuck
  | .timeout => .timeout

/-- A call of a method on an object in a variable; the receiver of the caller is not touched. -/
def invoke (E : Env) (x : Var) (m : Mth) (args : List Val) : Act Val := fun vs s =>
  match look x vs with
  | some (.obj t fs) =>
    match impl t m with
    | some f =>
      match E f args fs with
      | .ok v [] fs =>
        match upd x (.obj t fs) vs with
        | some vs => .ok v vs s
        | none => .stuck
      | .ok _ _ _ => .stuck
      | .panic => .panic
      | .stuck => .stuck
      | .timeout => .timeout
    | none => .stuck
  | _ => .stuck

/-- `if` on a value. -/
def branch (v : Val) (t e : Act α) : Act α :=
  match v with
  | .bool true => t
  | .bool false => e
  | _ => Act.stuck

def Val.list : Val → List Val
  | .tuple l => l
  | _ => []

/-- The value of an expression. -/
def eval [CaseMap] (isNum : Str → Bool) (E : Env) : Expr → Act Val
  | .lit v => Act.pure v
  | .var x => fun vs s => Act.get (look x vs) vs s
  | .field f => fun vs s => Act.get (look f s) vs s
  | .sel e f => (eval isNum E e).bind fun v =>
    match v with
    | .obj _ fs => Act.get (look f fs)
    | _ => Act.stuck
  | .not e => (eval isNum E e).bind fun v => branch v (Act.pure (.bool false)) (Act.pure (.bool true))
  | .and a b => (eval isNum E a).bind fun v => branch v (eval isNum E b) (Act.pure (.bool false))
  | .or a b => (eval isNum E a).bind fun v => branch v (Act.pure (.bool true)) (eval isNum E b)
  | .eq a b => (eval isNum E a).bind fun v => (eval isNum E b).bind fun w => Act.get ((v.eq w).map .bool)
  | .ne a b => (eval isNum E a).bind fun v => (eval isNum E b).bind fun w =>
    Act.get ((v.eq w).map fun b => .bool (!b))
  | .add a b => (eval isNum E a).bind fun v => (eval isNum E b).bind fun w => Act.get (v.add w)
  | .sub a b => (eval isNum E a).bind fun v => (eval isNum E b).bind fun w => Act.get (v.sub w)
  | .gt a b => (eval isNum E a).bind fun v => (eval isNum E b).bind fun w => Act.get (v.gt w)
  | .index a b => (eval isNum E a).bind fun v => (eval isNum E b).bind fun w => v.index w
  | .slice a lo hi => (eval isNum E a).bind fun v => (eval isNum E lo).bind fun w =>
    (eval isNum E hi).bind fun u => v.cut w u
  | .mk t zero f e => (eval isNum E e).bind fun v => Act.get ((upd f v zero).map (.obj t))
  | .call f args => (eval isNum E args).bind fun v => call E f v.list args.ptrs
  | .invoke x m args => (eval isNum E args).bind fun v => invoke E x m v.list
  | .callv x args => (eval isNum E args).bind fun v => fun vs s =>
    match look x vs with
    | some (.fn f) => Act.get (f.run isNum v.list) vs s
    | _ => .stuck
  | .lib f args => (eval isNum E args).bind fun v => Act.get (f.run isNum v.list)
  | .addr x => fun vs s => Act.get (look x vs) vs s
  | .tuple args => eval isNum E args
  | .nil => Act.pure (.tuple [])
  | .cons e es => (eval isNum E e).bind fun v => (eval isNum E es).bind fun w => Act.pure (.tuple (v :: w.list))

/-! ### statements -/

/-- How a statement ends. -/
inductive Ctl where
  | next
  | brk
  | cont
  | ret (v : Val)

/-- `x = v`. -/
def store (x : Lhs) (v : Val) : Act Unit := fun vs s =>
  match x with
  | .blank => .ok () vs s
  | .var x => match upd x v vs with
    | some vs => .ok () vs s
    | none => .stuck
  | .recv f => match upd f v s with
    | some s => .ok () vs s
    | none => .stuck
  | .fld x f => match look x vs with
    | some (.obj t fs) => match upd f v fs with
      | some fs => match upd x (.obj t fs) vs with
        | some vs => .ok () vs s
        | none => .stuck
      | none => .stuck
    | _ => .stuck

/-- `x := v`. -/
def declare (x : Lhs) (v : Val) : Act Unit := fun vs s =>
  match x with
  | .blank => .ok () vs s
  | .var x => .ok () ((x, v) :: vs) s
  | _ => .stuck

/-- Two results. -/
def Val.two (v : Val) (k : Val → Val → Act α) : Act α :=
  match v with
  | .tuple [a, b] => k a b
  | _ => Act.stuck

/-- The variables declared in a block go out of scope at its end. -/
def inBlock (p : Act α) : Act α := fun vs s =>
  match p vs s with
  | .ok a vs' s => .ok a (vs'.drop (vs'.length - vs.length)) s
  | .panic => .panic
  | .stuck => .stuck
  | .timeout => .timeout

/-- `for c { body }`, at most so many rounds. -/
def rounds (c : Act Val) (body : Act Ctl) : Nat → Act Ctl
  | 0 => Act.timeout
  | k + 1 => c.bind fun v => branch v
      (body.bind fun r =>
        match r with
        | .next | .cont => rounds c body k
        | .brk => Act.pure .next
        | .ret v => Act.pure (.ret v))
      (Act.pure .next)

/-- `for _, x := range l { body }`. -/
def each (x : Var) (body : Act Ctl) : List Val → Act Ctl
  | [] => Act.pure .next
  | v :: l => (inBlock ((declare (.var x) v).bind fun _ => body)).bind fun r =>
      match r with
      | .next | .cont => each x body l
      | .brk => Act.pure .next
      | .ret v => Act.pure (.ret v)

/-- A statement, with fuel for its loops. -/
def exec [CaseMap] (isNum : Str → Bool) (E : Env) (k : Nat) : Stmt → Act Ctl
  | .skip => Act.pure .next
  | .seq a b => (exec isNum E k a).bind fun r =>
    match r with
    | .next => exec isNum E k b
    | r => Act.pure r
  | .block a => inBlock (exec isNum E k a)
  | .expr e => (eval isNum E e).bind fun _ => Act.pure .next
  | .define x e => (eval isNum E e).bind fun v => (declare x v).bind fun _ => Act.pure .next
  | .define2 x y e => (eval isNum E e).bind fun v => v.two fun a b =>
    (declare x a).bind fun _ => (declare y b).bind fun _ => Act.pure .next
  | .assign x e => (eval isNum E e).bind fun v => (store x v).bind fun _ => Act.pure .next
  | .assign2 x y e => (eval isNum E e).bind fun v => v.two fun a b =>
    (store x a).bind fun _ => (store y b).bind fun _ => Act.pure .next
  | .ite c t e => (eval isNum E c).bind fun v => branch v (exec isNum E k t) (exec isNum E k e)
  | .loop c body => rounds (eval isNum E c) (exec isNum E k body) k
  | .range x e body => (eval isNum E e).bind fun v => (Act.get v.elems).bind fun l => each x (exec isNum E k body) l
  | .ret e => (eval isNum E e).bind fun v => Act.pure (.ret v)
  | .brk => Act.pure .brk
  | .cont => Act.pure .cont

/-! ### functions -/

/-- The variables of a function at its start: the parameters. -/
def bindParams : List (Var × Bool) → List Val → Option Locals
  | [], [] => some []
  | (x, _) :: ps, v :: vs => (bindParams ps vs).map ((x, v) :: ·)
  | _, _ => none

/-- What the pointer parameters point to at the end. -/
def ptrVals : List (Var × Bool) → Locals → Option (List Val)
  | [], _ => some []
  | (_, false) :: ps, vs => ptrVals ps vs
  | (x, true) :: ps, vs =>
    match look x vs, ptrVals ps vs with
    | some v, some ws => some (v :: ws)
    | _, _ => none

/-- Result of a function whose body ended so. -/
def finish (ps : List (Var × Bool)) : Out Ctl → Ret
  | .ok r vs s =>
    match r with
    | .ret v => match ptrVals ps vs with
      | some ws => .ok v ws s
      | none => .stuck
    | .next => match ptrVals ps vs with
      | some ws => .ok (.tuple []) ws s
      | none => .stuck
    | _ => .stuck
  | .panic => .panic
  | .stuck => .stuck
  | .timeout => .timeout

/-- The meaning of a function, from the meaning of the functions it calls. -/
def body [CaseMap] (isNum : Str → Bool) (E : Env) (k : Nat) : Env := fun f args s =>
  match bindParams (decl f).params args with
  | some vs => finish (decl f).params (exec isNum E k (decl f).body vs s)
  | none => .stuck

/-- The functions of the program, with calls nested at most so deep. -/
def env [CaseMap] (isNum : Str → Bool) : Nat → Env
  | 0 => fun _ _ _ => .timeout
  | k + 1 => body isNum (env isNum k) k

end DDL.Src

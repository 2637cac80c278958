import Verif.Proof.GoLimit
import Verif.Proof.Objects
/-
The functions of internal/common and the methods of the base validator (validator.go), from their syntax trees.
-/

set_option linter.unusedSectionVars false

namespace DDL.Src
open DDL Obj

/-- What comes after. -/
def Out.into (o : Out α) (k : α → Locals → State → Out β) : Out β :=
  match o with
  | .ok a vs s => k a vs s
  | .panic => .panic
  | .stuck => .stuck
  | .timeout => .timeout

/-- Simplify what is run first before what comes after. -/
@[congr] theorem Out.into_congr {o o' : Out α} {k : α → Locals → State → Out β} (h : o = o') : o.into k = o'.into k := by
  rw [h]

theorem into_ok (a : α) (vs : Locals) (s : State) (k : α → Locals → State → Out β) : (Out.ok a vs s).into k = k a vs s := rfl
theorem into_panic (k : α → Locals → State → Out β) : (Out.panic : Out α).into k = .panic := rfl
theorem into_stuck (k : α → Locals → State → Out β) : (Out.stuck : Out α).into k = .stuck := rfl
theorem into_timeout (k : α → Locals → State → Out β) : (Out.timeout : Out α).into k = .timeout := rfl
theorem into_cond (b : Bool) (o o' : Out α) (k : α → Locals → State → Out β) :
    (cond b o o').into k = cond b (o.into k) (o'.into k) := by cases b <;> rfl

/-- What a call makes of the answer of the function. -/
def Ret.into (o : Ret) (k : Val → List Val → State → Out β) : Out β :=
  match o with
  | .ok a ws s => k a ws s
  | .panic => .panic
  | .stuck => .stuck
  | .timeout => .timeout

@[congr] theorem Ret.into_congr {o o' : Ret} {k : Val → List Val → State → Out β} (h : o = o') : o.into k = o'.into k := by
  rw [h]

theorem rinto_ok (a : Val) (ws : List Val) (s : State) (k : Val → List Val → State → Out β) :
    (Ret.ok a ws s).into k = k a ws s := rfl
theorem rinto_panic (k : Val → List Val → State → Out β) : (Ret.panic).into k = .panic := rfl
theorem rinto_stuck (k : Val → List Val → State → Out β) : (Ret.stuck).into k = .stuck := rfl
theorem rinto_timeout (k : Val → List Val → State → Out β) : (Ret.timeout).into k = .timeout := rfl
theorem rinto_cond (b : Bool) (o o' : Ret) (k : Val → List Val → State → Out β) :
    (cond b o o').into k = cond b (o.into k) (o'.into k) := by cases b <;> rfl

/-- `none` is stuck. -/
def orStuck (o : Option γ) (k : γ → Out β) : Out β :=
  match o with
  | some x => k x
  | none => .stuck

@[congr] theorem orStuck_congr {o o' : Option γ} {k : γ → Out β} (h : o = o') : orStuck o k = orStuck o' k := by rw [h]

theorem orStuck_some (x : γ) (k : γ → Out β) : orStuck (some x) k = k x := rfl
theorem orStuck_none (k : γ → Out β) : orStuck none k = .stuck := rfl

/-- A struct. -/
def onObj (v : Val) (k : Ty → List (Fld × Val) → Out β) : Out β :=
  match v with
  | .obj t fs => k t fs
  | _ => .stuck

/-- A library function. -/
def onFn (v : Val) (k : Lib → Out β) : Out β :=
  match v with
  | .fn f => k f
  | _ => .stuck

section
variable [CaseMap] (isNum : Str → Bool) (E : Env) (vs : Locals) (s : State)

theorem bind_app (p : Act α) (q : α → Act β) : (p.bind q) vs s = (p vs s).into q := rfl
theorem pure_app (a : α) : (Act.pure a) vs s = .ok a vs s := rfl
theorem stuck_app : (Act.stuck : Act α) vs s = .stuck := rfl
theorem panic_app : (Act.panic : Act α) vs s = .panic := rfl
theorem get_app (o : Option α) : (Act.get o) vs s = orStuck o (fun a => .ok a vs s) := by cases o <;> rfl
theorem branch_app (b : Bool) (t e : Act α) : (branch (.bool b) t e) vs s = cond b (t vs s) (e vs s) := by cases b <;> rfl

theorem ev_lit (v : Val) : eval isNum E (.lit v) vs s = .ok v vs s := rfl
theorem ev_var (x : Var) : eval isNum E (.var x) vs s = orStuck (look x vs) (fun a => .ok a vs s) := get_app ..
theorem ev_addr (x : Var) : eval isNum E (.addr x) vs s = orStuck (look x vs) (fun a => .ok a vs s) := get_app ..
theorem ev_field (x : Fld) : eval isNum E (.field x) vs s = orStuck (look x s) (fun a => .ok a vs s) := get_app ..
theorem ev_sel (e : Expr) (f : Fld) : eval isNum E (.sel e f) vs s = (eval isNum E e vs s).into fun v vs s =>
    onObj v fun _ fs => orStuck (look f fs) (fun a => .ok a vs s) := by
  show (_ : Out Val).into _ = _
  congr 1
  funext v vs s
  cases v <;> first | exact get_app .. | rfl
theorem ev_not (e : Expr) : eval isNum E (.not e) vs s = (eval isNum E e vs s).into fun v vs s =>
    branch v (Act.pure (.bool false)) (Act.pure (.bool true)) vs s := rfl
theorem ev_and (a b : Expr) : eval isNum E (.and a b) vs s = (eval isNum E a vs s).into fun v vs s =>
    branch v (eval isNum E b) (Act.pure (.bool false)) vs s := rfl
theorem ev_or (a b : Expr) : eval isNum E (.or a b) vs s = (eval isNum E a vs s).into fun v vs s =>
    branch v (Act.pure (.bool true)) (eval isNum E b) vs s := rfl
theorem ev_eq (a b : Expr) : eval isNum E (.eq a b) vs s = (eval isNum E a vs s).into fun v vs s =>
    (eval isNum E b vs s).into fun w vs s => orStuck (v.eq w) (fun b => .ok (.bool b) vs s) := by
  show (_ : Out Val).into _ = _
  congr 1; funext v vs s
  show (_ : Out Val).into _ = _
  congr 1; funext w vs s
  show Act.get _ vs s = _
  cases v.eq w <;> rfl
theorem ev_ne (a b : Expr) : eval isNum E (.ne a b) vs s = (eval isNum E a vs s).into fun v vs s =>
    (eval isNum E b vs s).into fun w vs s => orStuck (v.eq w) (fun b => .ok (.bool (!b)) vs s) := by
  show (_ : Out Val).into _ = _
  congr 1; funext v vs s
  show (_ : Out Val).into _ = _
  congr 1; funext w vs s
  show Act.get _ vs s = _
  cases v.eq w <;> rfl
theorem ev_add (a b : Expr) : eval isNum E (.add a b) vs s = (eval isNum E a vs s).into fun v vs s =>
    (eval isNum E b vs s).into fun w vs s => orStuck (v.add w) (fun b => .ok b vs s) := by
  show (_ : Out Val).into _ = _
  congr 1; funext v vs s
  show (_ : Out Val).into _ = _
  congr 1; funext w vs s
  exact get_app ..
theorem ev_sub (a b : Expr) : eval isNum E (.sub a b) vs s = (eval isNum E a vs s).into fun v vs s =>
    (eval isNum E b vs s).into fun w vs s => orStuck (v.sub w) (fun b => .ok b vs s) := by
  show (_ : Out Val).into _ = _
  congr 1; funext v vs s
  show (_ : Out Val).into _ = _
  congr 1; funext w vs s
  exact get_app ..
theorem ev_gt (a b : Expr) : eval isNum E (.gt a b) vs s = (eval isNum E a vs s).into fun v vs s =>
    (eval isNum E b vs s).into fun w vs s => orStuck (v.gt w) (fun b => .ok b vs s) := by
  show (_ : Out Val).into _ = _
  congr 1; funext v vs s
  show (_ : Out Val).into _ = _
  congr 1; funext w vs s
  exact get_app ..
theorem ev_index (a b : Expr) : eval isNum E (.index a b) vs s = (eval isNum E a vs s).into fun v vs s =>
    (eval isNum E b vs s).into fun w vs s => v.index w vs s := rfl
theorem ev_slice (a b c : Expr) : eval isNum E (.slice a b c) vs s = (eval isNum E a vs s).into fun v vs s =>
    (eval isNum E b vs s).into fun w vs s => (eval isNum E c vs s).into fun u vs s => v.cut w u vs s := rfl
theorem ev_mk (t : Ty) (zero : List (Fld × Val)) (f : Fld) (e : Expr) : eval isNum E (.mk t zero f e) vs s =
    (eval isNum E e vs s).into fun v vs s => orStuck (upd f v zero) (fun fs => .ok (.obj t fs) vs s) := by
  show (_ : Out Val).into _ = _
  congr 1; funext v vs s
  show Act.get _ vs s = _
  cases upd f v zero <;> rfl
theorem ev_call (f : Fn) (args : Expr) : eval isNum E (.call f args) vs s = (eval isNum E args vs s).into fun v vs s =>
    (E f v.list s).into fun v ws s => orStuck (writeBack args.ptrs ws vs) (fun vs => .ok v vs s) := by
  show (_ : Out Val).into _ = _
  congr 1; funext v vs s
  show call E f v.list args.ptrs vs s = _
  unfold call
  cases E f v.list s with
  | ok v ws s => simp only [rinto_ok]; cases writeBack args.ptrs ws vs <;> rfl
  | panic | stuck | timeout => rfl
theorem ev_invoke (x : Var) (m : Mth) (args : Expr) : eval isNum E (.invoke x m args) vs s =
    (eval isNum E args vs s).into fun v vs s => invoke E x m v.list vs s := rfl
theorem ev_callv (x : Var) (args : Expr) : eval isNum E (.callv x args) vs s =
    (eval isNum E args vs s).into fun v vs s => orStuck (look x vs) fun w =>
    onFn w fun f => orStuck (f.run isNum v.list) (fun a => .ok a vs s) := by
  show (_ : Out Val).into _ = _
  congr 1; funext v vs s
  cases look x vs with
  | none => rfl
  | some w => cases w <;> first | exact get_app .. | rfl
theorem ev_lib (f : Lib) (args : Expr) : eval isNum E (.lib f args) vs s =
    (eval isNum E args vs s).into fun v vs s => orStuck (f.run isNum v.list) (fun a => .ok a vs s) := by
  show (_ : Out Val).into _ = _
  congr 1; funext v vs s
  exact get_app ..
theorem ev_tuple (args : Expr) : eval isNum E (.tuple args) vs s = eval isNum E args vs s := rfl
theorem ev_nil : eval isNum E .nil vs s = .ok (.tuple []) vs s := rfl
theorem ev_cons (e es : Expr) : eval isNum E (.cons e es) vs s = (eval isNum E e vs s).into fun v vs s =>
    (eval isNum E es vs s).into fun w vs s => .ok (.tuple (v :: w.list)) vs s := rfl

theorem ex_skip : exe isNum .skip vs s = .ok .next vs s := by rw [exe_skip]; rfl
theorem ex_brk : exe isNum .brk vs s = .ok .brk vs s := by rw [exe_brk]; rfl
theorem ex_cont : exe isNum .cont vs s = .ok .cont vs s := by rw [exe_cont]; rfl
theorem ex_seq (a b : Stmt) : exe isNum (.seq a b) vs s = (exe isNum a vs s).into fun r vs s =>
    r.andThen (exe isNum b) vs s := by rw [exe_seq]; rfl
theorem ex_block (a : Stmt) : exe isNum (.block a) vs s = (exe isNum a vs s).into fun r vs' s =>
    .ok r (vs'.drop (vs'.length - vs.length)) s := by rw [exe_block]; rfl
theorem ex_expr (e : Expr) : exe isNum (.expr e) vs s = (eval isNum (go isNum) e vs s).into fun _ vs s => .ok .next vs s := by
  rw [exe_expr]; rfl
theorem ex_define (x : Lhs) (e : Expr) : exe isNum (.define x e) vs s = (eval isNum (go isNum) e vs s).into fun v vs s =>
    (declare x v vs s).into fun _ vs s => .ok .next vs s := by rw [exe_define]; rfl
theorem ex_define2 (x y : Lhs) (e : Expr) : exe isNum (.define2 x y e) vs s =
    (eval isNum (go isNum) e vs s).into fun v vs s => v.two (fun a b vs s =>
    (declare x a vs s).into fun _ vs s => (declare y b vs s).into fun _ vs s => .ok .next vs s) vs s := by
  rw [exe_define2]; rfl
theorem ex_assign (x : Lhs) (e : Expr) : exe isNum (.assign x e) vs s = (eval isNum (go isNum) e vs s).into fun v vs s =>
    (store x v vs s).into fun _ vs s => .ok .next vs s := by rw [exe_assign]; rfl
theorem ex_assign2 (x y : Lhs) (e : Expr) : exe isNum (.assign2 x y e) vs s =
    (eval isNum (go isNum) e vs s).into fun v vs s => v.two (fun a b vs s =>
    (store x a vs s).into fun _ vs s => (store y b vs s).into fun _ vs s => .ok .next vs s) vs s := by
  rw [exe_assign2]; rfl
theorem ex_ite (c : Expr) (t e : Stmt) : exe isNum (.ite c t e) vs s = (eval isNum (go isNum) c vs s).into fun v vs s =>
    branch v (exe isNum t) (exe isNum e) vs s := by rw [exe_ite]; rfl
theorem ex_loop (c : Expr) (b : Stmt) : exe isNum (.loop c b) vs s = (eval isNum (go isNum) c vs s).into fun v vs s =>
    branch v (fun vs s => (exe isNum b vs s).into fun r vs s => r.again (exe isNum (.loop c b)) vs s) (Act.pure .next) vs s :=
  congrFun (congrFun (exe_loop isNum c b) vs) s
theorem ex_range (x : Var) (e : Expr) (b : Stmt) : exe isNum (.range x e b) vs s =
    (eval isNum (go isNum) e vs s).into fun v vs s => orStuck v.elems fun l => each x (exe isNum b) l vs s := by
  rw [exe_range]
  show (_ : Out Val).into _ = _
  congr 1; funext v vs s
  show (Act.get _ vs s : Out _).into _ = _
  cases v.elems <;> rfl
theorem ex_ret (e : Expr) : exe isNum (.ret e) vs s = (eval isNum (go isNum) e vs s).into fun v vs s => .ok (.ret v) vs s := by
  rw [exe_ret]; rfl

theorem next_then (p : Act Ctl) : Ctl.next.andThen p vs s = p vs s := rfl
theorem brk_then (p : Act Ctl) : Ctl.brk.andThen p vs s = .ok .brk vs s := rfl
theorem cont_then (p : Act Ctl) : Ctl.cont.andThen p vs s = .ok .cont vs s := rfl
theorem ret_then (v : Val) (p : Act Ctl) : (Ctl.ret v).andThen p vs s = .ok (.ret v) vs s := rfl
theorem next_again (p : Act Ctl) : Ctl.next.again p vs s = p vs s := rfl
theorem brk_again (p : Act Ctl) : Ctl.brk.again p vs s = .ok .next vs s := rfl
theorem cont_again (p : Act Ctl) : Ctl.cont.again p vs s = p vs s := rfl
theorem ret_again (v : Val) (p : Act Ctl) : (Ctl.ret v).again p vs s = .ok (.ret v) vs s := rfl
theorem two_app (a b : Val) (k : Val → Val → Act α) : (Val.tuple [a, b]).two k vs s = k a b vs s := rfl

theorem declare_var (x : Var) (v : Val) : declare (.var x) v vs s = .ok () ((x, v) :: vs) s := rfl
theorem declare_blank (v : Val) : declare .blank v vs s = .ok () vs s := rfl
theorem store_blank (v : Val) : store .blank v vs s = .ok () vs s := rfl
theorem store_var (x : Var) (v : Val) : store (.var x) v vs s = orStuck (upd x v vs) (fun vs => .ok () vs s) := by
  simp only [store]; cases upd x v vs <;> rfl
theorem store_recv (f : Fld) (v : Val) : store (.recv f) v vs s = orStuck (upd f v s) (fun s => .ok () vs s) := by
  simp only [store]; cases upd f v s <;> rfl
theorem store_fld (x : Var) (f : Fld) (v : Val) : store (.fld x f) v vs s =
    orStuck (look x vs) fun w => onObj w fun t fs =>
    orStuck (upd f v fs) fun fs => orStuck (upd x (.obj t fs) vs) (fun vs => .ok () vs s) := by
  simp only [store]
  cases look x vs with
  | none => rfl
  | some w =>
    cases w with
    | obj t fs =>
      simp only [orStuck_some, onObj]
      cases upd f v fs with
      | none => rfl
      | some fs => simp only [orStuck_some]; cases upd x (.obj t fs) vs <;> rfl
    | _ => rfl

theorem each_nil (x : Var) (b : Act Ctl) : each x b [] vs s = .ok .next vs s := rfl
theorem each_cons (x : Var) (b : Act Ctl) (v : Val) (l : List Val) : each x b (v :: l) vs s =
    ((b ((x, v) :: vs) s).into fun r vs' s => .ok r (vs'.drop (vs'.length - vs.length)) s).into
      fun r vs s => r.again (each x b l) vs s := by
  show (_ : Out Ctl).into _ = _
  congr 1

theorem finish_ret (ps : List (Var × Bool)) (v : Val) : finish ps (.ok (.ret v) vs s) =
    match ptrVals ps vs with
    | some ws => .ok v ws s
    | none => .stuck := rfl
theorem finish_next (ps : List (Var × Bool)) : finish ps (.ok .next vs s) =
    match ptrVals ps vs with
    | some ws => .ok (.tuple []) ws s
    | none => .stuck := rfl
theorem finish_panic (ps : List (Var × Bool)) : finish ps .panic = .panic := rfl
theorem finish_timeout (ps : List (Var × Bool)) : finish ps .timeout = .timeout := rfl
theorem finish_cond (ps : List (Var × Bool)) (b : Bool) (o o' : Out Ctl) :
    finish ps (cond b o o') = cond b (finish ps o) (finish ps o') := by cases b <;> rfl

theorem list_tuple (l : List Val) : (Val.tuple l).list = l := rfl
theorem onObj_obj (t : Ty) (fs : List (Fld × Val)) (k : Ty → List (Fld × Val) → Out β) : onObj (.obj t fs) k = k t fs := rfl
theorem onFn_fn (f : Lib) (k : Lib → Out β) : onFn (.fn f) k = k f := rfl
theorem eq_nil_nil : Val.eq .nil .nil = some true := rfl
theorem eq_err_nil (l : Int) (n : Str) : Val.eq (.err l n) .nil = some false := rfl
theorem eq_libErr_nil : Val.eq .libErr .nil = some false := rfl
theorem eq_str (a b : Str) : Val.eq (.str a) (.str b) = some (decide (a = b)) := rfl
theorem eq_rdbms (a b : Rdbms) : Val.eq (.rdbms a) (.rdbms b) = some (decide (a = b)) := rfl
theorem add_int (a b : Int) : Val.add (.int a) (.int b) = some (.int (a + b)) := rfl
theorem add_str (a b : Str) : Val.add (.str a) (.str b) = some (.str (a ++ b)) := rfl
theorem sub_int (a b : Int) : Val.sub (.int a) (.int b) = some (.int (a - b)) := rfl
theorem gt_int (a b : Int) : Val.gt (.int a) (.int b) = some (.bool (decide (a > b))) := rfl
theorem strings_nil : Val.nil.strings = some [] := rfl
theorem strings_strs (l : List Str) : (Val.strs l).strings = some l := rfl
theorem strings_kws (l : List String) : (Val.kws l).strings = some (l.map S) := rfl
theorem run_toUpper (t : Str) : Lib.toUpper.run isNum [.str t] = some (.str (upStr t)) := rfl
theorem run_toLower (t : Str) : Lib.toLower.run isNum [.str t] = some (.str (lowStr t)) := rfl
theorem run_atoi (t : Str) : Lib.atoi.run isNum [.str t] =
  some (.tuple [.int (DDL.atoi t).1, if (DDL.atoi t).2 then .nil else .libErr]) := rfl
theorem run_parseFloat (t : Str) : Lib.parseFloat.run isNum [.str t, .int 64] =
  some (.tuple [.num t, if isNum t then .nil else .libErr]) := rfl
theorem run_compile (t : Str) : Lib.compile.run isNum [.str t] = some (.regexp t) := rfl
theorem run_matchString (t : Str) : Lib.matchString.run isNum [.regexp (S "^[a-zA-Z_][a-zA-Z0-9_]*$"), .str t] =
  some (.bool (matchIdent t)) := rfl
theorem run_runes (t : Str) : Lib.runes.run isNum [.str t] = some (.runes t) := rfl
theorem run_string_rune (c : Char) : Lib.string.run isNum [.rune c] = some (.str [c]) := rfl
theorem run_string_str (t : Str) : Lib.string.run isNum [.str t] = some (.str t) := rfl
theorem run_len_runes (l : List Char) : Lib.len.run isNum [.runes l] = some (.int l.length) := rfl
theorem run_len_str (l : Str) : Lib.len.run isNum [.str l] = some (.int l.length) := rfl
theorem run_len_strs (l : List Str) : Lib.len.run isNum [.strs l] = some (.int l.length) := rfl
theorem run_append_str (v : Val) (t : Str) : Lib.append.run isNum [v, .str t] = v.strings.map (fun l => .strs (l ++ [t])) := by
  cases v <;> rfl
theorem run_append_nil (t : Ty) (fs : List (Fld × Val)) : Lib.append.run isNum [.nil, .obj t fs] = some (.slice [.obj t fs]) := rfl
theorem run_append_slice (l : List Val) (t : Ty) (fs : List (Fld × Val)) :
  Lib.append.run isNum [.slice l, .obj t fs] = some (.slice (l ++ [.obj t fs])) := rfl
theorem run_appendAll (v w : Val) (l m : List Str) (hv : v.strings = some l) (hw : w.strings = some m) :
    Lib.appendAll.run isNum [v, w] = some (.strs (l ++ m)) := by
  simp only [Lib.run, hv, hw]
theorem run_mkErr (l : Int) (n : Str) : Lib.mkErr.run isNum [.int l, .str n] = some (.err l n) := rfl

/-- A string of ASCII characters. -/
def Ascii (t : Str) : Prop := ∀ c ∈ t, c.toNat < 128

omit [CaseMap] in
theorem upStr_of_ascii [CaseMap] {t : Str} (h : Ascii t) : upStr t = toUpper t :=
  List.map_congr_left fun c hc => CaseMap.up_ascii c (h c hc)

omit [CaseMap] in
theorem lowStr_of_ascii [CaseMap] {t : Str} (h : Ascii t) : lowStr t = toLower t :=
  List.map_congr_left fun c hc => CaseMap.low_ascii c (h c hc)

/-- All keywords are ASCII. -/
def asciiKws (l : List String) : Bool := l.all fun k => (S k).all fun c => decide (c.toNat < 128)

/-- Closes `asciiKws l = true` for the keywords in the code. -/
macro "go_ascii" : tactic => `(tactic| first | assumption | decide +kernel)

/-- Symbolic execution. -/
macro "go_simp" "[" ls:Lean.Parser.Tactic.simpLemma,* "]" : tactic => `(tactic| simp only [into_ok, into_panic, into_stuck, into_timeout, rinto_ok, rinto_panic,
  rinto_stuck, rinto_timeout, orStuck_some, orStuck_none, bind_app, pure_app, stuck_app, panic_app, get_app, branch_app,
  ev_lit, ev_var, ev_addr, ev_field, ev_sel, ev_not, ev_and, ev_or, ev_eq, ev_ne, ev_add, ev_sub, ev_gt, ev_index,
  ev_slice, ev_mk, ev_call, ev_invoke, ev_callv, ev_lib, ev_tuple, ev_nil, ev_cons, ex_skip, ex_brk, ex_cont, ex_seq,
  ex_block, ex_expr, ex_define, ex_define2, ex_assign, ex_assign2, ex_ite, ex_range, ex_ret, next_then, brk_then,
  cont_then, ret_then, next_again, brk_again, cont_again, ret_again, two_app, declare_var, declare_blank, store_blank,
  store_var, store_recv, store_fld, each_nil, each_cons, list_tuple, onObj_obj, onFn_fn, eq_nil_nil, eq_err_nil,
  eq_libErr_nil, eq_str, eq_rdbms, add_int, add_str, sub_int, gt_int, strings_nil, strings_strs, strings_kws, run_toUpper,
  run_toLower, run_atoi, run_parseFloat, run_compile, run_matchString, run_runes, run_string_rune, run_string_str,
  run_len_runes, run_len_str, run_len_strs, run_append_str, run_append_nil, run_append_slice, run_mkErr, Expr.ptrs,
  writeBack, look, upd, finish_ret, finish_next, finish_panic, finish_timeout, finish_cond, ptrVals, Option.map_some, Option.map_none, Option.bind_some,
  reduceCtorEq, if_true, if_false, reduceIte, cond_true, cond_false, List.length_cons, List.length_nil, Nat.sub_self,
  List.drop_zero, Nat.reduceAdd, Nat.reduceSub, List.drop_succ_cons, Bool.not_true, Bool.not_false, $ls,*])

/-- Symbolic execution. -/
macro "go_simp" : tactic => `(tactic| simp only [into_ok, into_panic, into_stuck, into_timeout, rinto_ok, rinto_panic,
  rinto_stuck, rinto_timeout, orStuck_some, orStuck_none, bind_app, pure_app, stuck_app, panic_app, get_app, branch_app,
  ev_lit, ev_var, ev_addr, ev_field, ev_sel, ev_not, ev_and, ev_or, ev_eq, ev_ne, ev_add, ev_sub, ev_gt, ev_index,
  ev_slice, ev_mk, ev_call, ev_invoke, ev_callv, ev_lib, ev_tuple, ev_nil, ev_cons, ex_skip, ex_brk, ex_cont, ex_seq,
  ex_block, ex_expr, ex_define, ex_define2, ex_assign, ex_assign2, ex_ite, ex_range, ex_ret, next_then, brk_then,
  cont_then, ret_then, next_again, brk_again, cont_again, ret_again, two_app, declare_var, declare_blank, store_blank,
  store_var, store_recv, store_fld, each_nil, each_cons, list_tuple, onObj_obj, onFn_fn, eq_nil_nil, eq_err_nil,
  eq_libErr_nil, eq_str, eq_rdbms, add_int, add_str, sub_int, gt_int, strings_nil, strings_strs, strings_kws, run_toUpper,
  run_toLower, run_atoi, run_parseFloat, run_compile, run_matchString, run_runes, run_string_rune, run_string_str,
  run_len_runes, run_len_str, run_len_strs, run_append_str, run_append_nil, run_append_slice, run_mkErr, Expr.ptrs,
  writeBack, look, upd, finish_ret, finish_next, finish_panic, finish_timeout, finish_cond, ptrVals, Option.map_some, Option.map_none, Option.bind_some,
  reduceCtorEq, if_true, if_false, reduceIte, cond_true, cond_false, List.length_cons, List.length_nil, Nat.sub_self,
  List.drop_zero, Nat.reduceAdd, Nat.reduceSub, List.drop_succ_cons, Bool.not_true, Bool.not_false])

end

section
variable [CaseMap] (isNum : Str → Bool)

theorem go_def (f : Fn) (D : Decl) (hD : decl f = D) (args : List Val) (s : State) (vs : Locals)
    (hvs : bindParams D.params args = some vs) : go isNum f args s = finish D.params (exe isNum D.body vs s) := by
  subst hD
  exact go_eq isNum f args s vs hvs

theorem go_NewValidateError (line : Int) (near : Str) (s : State) :
    go isNum .co_NewValidateError [.int line, .str near] s = .ok (.err line near) [] s := by
  rw [go_def isNum _ Tree.co_NewValidateError rfl _ _ _ rfl]
  simp only [Tree.co_NewValidateError]
  go_simp

theorem elems_of_strings {v : Val} {l : List Str} (h : v.strings = some l) : v.elems = some (l.map .str) := by
  cases v with
  | slice => exact nomatch h
  | _ => simp only [Val.elems, h, Option.map_some]

theorem go_Contains (v : Val) (l : List Str) (h : v.strings = some l) (key : Str) (s : State) :
    go isNum .co_Contains [v, .str key] s = .ok (.bool (contains l key)) [] s := by
  rw [go_def isNum _ Tree.co_Contains rfl _ _ [(.slice, v), (.key, .str key)] rfl]
  simp only [Tree.co_Contains]
  go_simp
  rw [elems_of_strings h]
  go_simp
  clear h
  induction l with
  | nil =>
    simp only [List.map_nil]
    go_simp
    rfl
  | cons t l ih =>
    simp only [List.map_cons]
    go_simp
    by_cases ht : t = key
    · subst ht
      simp only [decide_true]
      go_simp
      simp [contains]
    · have : contains (t :: l) key = contains l key := by simp [contains, ht]
      rw [this, ← ih]
      simp only [ht, decide_false]
      go_simp

theorem go_MapSlice (v : Val) (l : List Str) (h : v.strings = some l) (f : Lib) (g : Str → Str)
    (hf : ∀ t, f.run isNum [.str t] = some (.str (g t))) (s : State) :
    ∃ w, w.strings = some (l.map g) ∧ go isNum .co_MapSlice [v, .fn f] s = .ok w [] s := by
  rw [go_def isNum _ Tree.co_MapSlice rfl _ _ [(.slice, v), (.f, .fn f)] rfl]
  simp only [Tree.co_MapSlice]
  go_simp
  rw [elems_of_strings h]
  go_simp
  clear h
  suffices ∀ (w : Val) (m : List Str), w.strings = some m → ∃ w', w'.strings = some (m ++ l.map g) ∧
      each .s (exe isNum (.block (.assign (.var .ret)
        (.lib .append (.cons (.var .ret) (.cons (.callv .f (.cons (.var .s) .nil)) .nil)))))) (l.map .str)
        [(.ret, w), (.slice, v), (.f, .fn f)] s = .ok .next [(.ret, w'), (.slice, v), (.f, .fn f)] s by
    obtain ⟨w', h1, h2⟩ := this .nil [] rfl
    refine ⟨w', h1, ?_⟩
    rw [h2]
    go_simp
  induction l with
  | nil => intro w m hm; exact ⟨w, by simpa using hm, rfl⟩
  | cons t l ih =>
    intro w m hm
    obtain ⟨w', h1, h2⟩ := ih (.strs (m ++ [g t])) (m ++ [g t]) rfl
    refine ⟨w', by simpa using h1, ?_⟩
    rw [← h2]
    simp only [List.map_cons]
    go_simp
    simp only [hf]
    go_simp
    simp only [hm]
    go_simp

theorem go_IsNumericToken (t : Str) (s : State) :
    go isNum .co_IsNumericToken [.str t] s = .ok (.bool (isNum t)) [] s := by
  rw [go_def isNum _ Tree.co_IsNumericToken rfl _ _ _ rfl]
  simp only [Tree.co_IsNumericToken]
  go_simp
  cases isNum t <;> rfl

theorem go_IsPositiveIntegerToken (t : Str) (s : State) :
    go isNum .co_IsPositiveIntegerToken [.str t] s = .ok (.bool (isPositiveIntegerToken t)) [] s := by
  rw [go_def isNum _ Tree.co_IsPositiveIntegerToken rfl _ _ _ rfl]
  simp only [Tree.co_IsPositiveIntegerToken]
  go_simp
  unfold isPositiveIntegerToken
  rcases atoi t with ⟨n, b⟩
  cases b
  · simp only [Bool.false_eq_true]
    go_simp
    simp only [Bool.false_and]
  · go_simp
    simp only [Bool.true_and]

/-- The strings that `matchToken` compares with, as both packages make them (validator.go:99-105, converter.go:82-88). -/
theorem go_keywords (l : List String) (hl : asciiKws l = true) (s : State) :
    ∃ w w', w.strings = some (l.map fun k => toLower (S k)) ∧ w'.strings = some (l.map fun k => toUpper (S k)) ∧
      go isNum .co_MapSlice [.kws l, .fn .toLower] s = .ok w [] s ∧
      go isNum .co_MapSlice [.kws l, .fn .toUpper] s = .ok w' [] s := by
  obtain ⟨w, h1, h2⟩ := go_MapSlice isNum (.kws l) (l.map S) rfl .toLower lowStr (fun _ => rfl) s
  obtain ⟨w', h3, h4⟩ := go_MapSlice isNum (.kws l) (l.map S) rfl .toUpper upStr (fun _ => rfl) s
  have ha : ∀ k ∈ l, Ascii (S k) := fun k hk c hc => by
    simpa using List.all_eq_true.1 (List.all_eq_true.1 hl k hk) c hc
  refine ⟨w, w', ?_, ?_, h2, h4⟩
  · rw [h1, List.map_map]; exact congrArg some (List.map_congr_left fun k hk => lowStr_of_ascii (ha k hk))
  · rw [h3, List.map_map]; exact congrArg some (List.map_congr_left fun k hk => upStr_of_ascii (ha k hk))

/-! ### the base validator -/

/-- The fields of a validator. -/
def encV (v : Validator) : State :=
  [(.tokens, .strs v.tokens), (.size, .int v.size), (.i, .int v.i), (.line, .int v.line), (.result, .strs v.result)]

theorem go_va_isOutOfRange (v : Validator) :
    go isNum .va_isOutOfRange [] (encV v) = .ok (.bool v.outOfRange) [] (encV v) := by
  rw [go_def isNum _ Tree.va_isOutOfRange rfl _ _ _ rfl]
  simp only [Tree.va_isOutOfRange, encV]
  go_simp
  rfl

theorem go_va_token (v : Validator) : go isNum .va_token [] (encV v) =
    match v.token with
    | none => .panic
    | some t => .ok (.str t) [] (encV v) := by
  rw [go_def isNum _ Tree.va_token rfl _ _ _ rfl]
  simp only [Tree.va_token]
  go_simp
  rw [go_va_isOutOfRange]
  go_simp
  unfold Validator.token
  cases h : v.outOfRange
  · simp only [encV, Bool.false_eq_true, if_false, ]
    go_simp
    simp only [Val.index, Val.strings, index]
    split
    · rfl
    · cases v.tokens[v.i.toNat]? <;> rfl
  · rfl

theorem go_va_set (v : Validator) (t : Str) : go isNum .va_set [.str t] (encV v) = .ok (.tuple []) [] (encV (v.set t)) := by
  rw [go_def isNum _ Tree.va_set rfl _ _ _ rfl]
  simp only [Tree.va_set, encV]
  go_simp
  rfl

theorem go_va_token_some {v : Validator} {t : Str} (h : v.token = some t) :
    go isNum .va_token [] (encV v) = .ok (.str t) [] (encV v) := by rw [go_va_token, h]

/-- The loop of `next` (validator.go:79-89). -/
theorem go_va_nextLoop (n : Nat) : ∀ (v v' : Validator) (vs : Locals), v.nextLoop n = some v' →
    exe isNum (.loop (.lit (.bool true))
            (.block (.seq (.assign (.recv .i) (.add (.field .i) (.lit (.int 1))))
                (.ite (.call .va_isOutOfRange .nil)
                  (.block .brk)
                  (.block (.ite (.eq (.call .va_token .nil) (.lit (.str (S "\n"))))
                      (.block (.seq (.assign (.recv .line) (.add (.field .line) (.lit (.int 1))))
                          .cont))
                      (.block .brk))))))) vs (encV v) = .ok .next vs (encV v') := by
  induction n with
  | zero => intro v v' vs h; exact nomatch h
  | succ n ih =>
    intro v v' vs h
    rw [Validator.nextLoop] at h
    dsimp only at h
    have h1 := go_va_isOutOfRange isNum { v with i := v.i + 1 }
    have h2 := go_va_token isNum { v with i := v.i + 1 }
    rw [ex_loop]
    go_simp
    rw [encV]
    go_simp
    rw [encV] at h1 h2
    rw [h1]
    go_simp
    cases ho : ({ v with i := v.i + 1 } : Validator).outOfRange
    · rw [ho] at h
      simp only [Bool.false_eq_true, if_false] at h
      go_simp
      rw [h2]
      cases ht : ({ v with i := v.i + 1 } : Validator).token with
      | none => rw [ht] at h; exact nomatch h
      | some t =>
        rw [ht] at h
        dsimp only at h
        dsimp only
        go_simp
        by_cases hn : t = S "\n"
        · rw [if_pos hn] at h
          have := ih _ v' vs h
          rw [encV] at this
          rw [decide_eq_true hn]
          go_simp
          exact this
        · rw [if_neg hn] at h
          rw [decide_eq_false hn]
          go_simp
          obtain rfl := Option.some.inj h
          rfl
    · rw [ho] at h
      simp only [if_true] at h
      go_simp
      obtain rfl := Option.some.inj h
      rfl

theorem go_va_next {v v' : Validator} {t : Str} (h : v.next = some (t, v')) :
    go isNum .va_next [] (encV v) = .ok (.str t) [] (encV v') := by
  rw [go_def isNum _ Tree.va_next rfl _ _ _ rfl]
  simp only [Tree.va_next]
  unfold Validator.next at h
  go_simp
  rw [go_va_isOutOfRange]
  go_simp
  cases ho : v.outOfRange
  · rw [ho] at h
    simp only [Bool.false_eq_true, if_false] at h
    go_simp
    cases ht : v.token with
    | none => rw [ht] at h; exact nomatch h
    | some u =>
      cases hl : v.nextLoop v.tokens.length with
      | none => rw [ht, hl] at h; exact nomatch h
      | some w =>
        rw [ht, hl] at h
        obtain ⟨rfl, rfl⟩ := Prod.mk.inj (Option.some.inj h)
        rw [go_va_token_some isNum ht]
        go_simp
        rw [go_va_nextLoop isNum _ v w _ hl]
        go_simp
  · rw [ho] at h
    simp only [if_true] at h
    go_simp
    obtain ⟨rfl, rfl⟩ := Prod.mk.inj (Option.some.inj h)
    rfl

theorem go_va_syntaxError {v : Validator} {t : Str} (h : v.token = some t) :
    go isNum .va_syntaxError [] (encV v) = .ok (.err v.line t) [] (encV v) := by
  rw [go_def isNum _ Tree.va_syntaxError rfl _ _ _ rfl]
  simp only [Tree.va_syntaxError]
  go_simp
  have hl : look Fld.line (encV v) = some (.int v.line) := rfl
  rw [hl]
  go_simp
  rw [go_va_token_some isNum h]
  go_simp
  rw [go_NewValidateError]
  go_simp

theorem go_va_matchToken {v : Validator} {t : Str} (h : v.token = some t) (l : List String) (hl : asciiKws l = true) :
    go isNum .va_matchToken [.kws l] (encV v) = .ok (.bool (isKw l t)) [] (encV v) := by
  rw [go_def isNum _ Tree.va_matchToken rfl _ _ _ rfl]
  simp only [Tree.va_matchToken]
  obtain ⟨w, w', h1, h2, h3, h4⟩ := go_keywords isNum l hl (encV v)
  go_simp
  rw [h3]
  go_simp
  rw [h4]
  go_simp
  rw [run_appendAll isNum w w' _ _ h1 h2]
  go_simp
  rw [go_va_token_some isNum h]
  go_simp
  rw [go_Contains isNum _ _ rfl]
  go_simp
  rfl

theorem go_va_matchTokenNext {v v' : Validator} {t u : Str} (h : v.token = some t) (h' : v.next = some (u, v'))
    (set : Bool) (l : List String) (hl : asciiKws l = true) :
    go isNum .va_matchTokenNext [.bool set, .kws l] (encV v) =
      .ok (.bool (isKw l t)) [] (encV (if isKw l t then if set then v'.set u else v' else v)) := by
  rw [go_def isNum _ Tree.va_matchTokenNext rfl _ _ _ rfl]
  simp only [Tree.va_matchTokenNext]
  go_simp
  rw [go_va_matchToken isNum h l hl]
  go_simp
  cases isKw l t
  · go_simp
  · go_simp
    rw [go_va_next isNum h']
    cases set
    · go_simp
    · go_simp
      rw [go_va_set]
      go_simp

theorem go_va_init (tokens : List Str) (v v' : Validator) (h : v.init tokens = some v') (s : State)
    (hs : ∃ a b c d e, s = [(.tokens, a), (.size, b), (.i, c), (.line, d), (.result, e)]) :
    go isNum .va_init [.strs tokens] s = .ok (.tuple []) [] (encV v') := by
  rw [go_def isNum _ Tree.va_init rfl _ _ _ rfl]
  obtain ⟨a, b, c, d, e, rfl⟩ := hs
  simp only [Tree.va_init]
  go_simp
  unfold Validator.init at h
  dsimp only at h
  cases ht : ({ v with tokens := tokens, size := tokens.length, i := 0, line := 1, result := [] } : Validator).token with
  | none => rw [ht] at h; exact nomatch h
  | some t =>
    rw [ht] at h
    dsimp only at h
    have h1 := go_va_token_some isNum ht
    rw [encV] at h1
    dsimp only at h1
    rw [Int.natCast_one] at h1
    rw [h1]
    go_simp
    by_cases hn : t = S "\n"
    · rw [if_pos hn] at h
      rw [decide_eq_true hn]
      go_simp
      cases hx : ({ v with tokens := tokens, size := tokens.length, i := 0, line := 1, result := [] } : Validator).next with
      | none => rw [hx] at h; exact nomatch h
      | some r =>
        obtain ⟨u, w⟩ := r
        rw [hx] at h
        obtain rfl := Option.some.inj h
        have h2 := go_va_next isNum hx
        rw [encV] at h2
        dsimp only at h2
        rw [Int.natCast_one] at h2
        rw [h2]
        go_simp
    · rw [if_neg hn] at h
      rw [decide_eq_false hn]
      go_simp
      obtain rfl := Option.some.inj h
      rfl

end
end DDL.Src

import Verif.Proof.GoBase
import Verif.Proof.Prog
/-
The methods of the three validators: rules that lead from the syntax tree of a method to the program (`Prog`) that the
model has for it.

A method with fuel `m` must answer what the program answers, or run out of fuel; and where the program answers, the
method with fuel enough answers the same. `Side` is one of these two halves: `side isNum m false` runs the tree with
fuel `m`, `side isNum m true` runs it with fuel enough.
-/

set_option linter.unusedSectionVars false

namespace DDL.Src
open DDL Obj

/-- A validator whose position is inside its tokens. -/
def WF (v : Validator) : Prop := ∃ s, Validator.R v s

theorem WF.token {v : Validator} (h : WF v) : ∃ t, v.token = some t := by
  obtain ⟨s, h⟩ := h
  exact ⟨_, Validator.token_eq h⟩

theorem WF.next {v : Validator} (h : WF v) : ∃ t v', v.next = some (t, v') ∧ WF v' := by
  obtain ⟨s, h⟩ := h
  obtain ⟨v', e, h'⟩ := Validator.next_eq h
  exact ⟨_, v', e, _, h'⟩

theorem WF.set {v : Validator} (h : WF v) (t : Str) : WF (v.set t) := by
  obtain ⟨s, h⟩ := h
  exact ⟨_, Validator.set_R h t⟩

theorem WF.run {v : Validator} (h : WF v) (p : Prog α) {a : α} {v' : Validator}
    (e : Validator.run p v = .ok a v') : WF v' := by
  obtain ⟨s, h⟩ := h
  have := Validator.run_sim p v s h
  rw [e] at this
  revert this
  generalize DDL.run p s = y
  intro hs
  cases hs with
  | ok a h => exact ⟨_, h⟩

theorem WF.fail {v : Validator} (h : WF v) (p : Prog α) {x : VErr} {v' : Validator}
    (e : Validator.run p v = .fail x v') : WF v' ∧ v'.token = some x.near ∧ v'.line = x.line := by
  induction p generalizing v with
  | ret a => exact nomatch e
  | token k ih =>
    obtain ⟨t, ht⟩ := h.token
    rw [Validator.run, ht] at e
    exact ih _ h e
  | oob k ih => exact ih _ h e
  | head k ih =>
    obtain ⟨t, ht⟩ := h.token
    rw [Validator.run, ht] at e
    cases t with
    | nil => exact nomatch e
    | cons c cs => exact ih _ h e
  | adv b k ih =>
    obtain ⟨t, v1, hn, h1⟩ := h.next
    cases b with
    | true =>
      rw [Validator.run, hn] at e
      exact ih (h1.set t) e
    | false =>
      rw [Validator.run, hn] at e
      exact ih h1 e
  | emit t k ih => exact ih (h.set t) e
  | fail =>
    obtain ⟨t, ht⟩ := h.token
    rw [Validator.run, ht] at e
    cases e
    exact ⟨h, ht, rfl⟩
  | timeout => exact nomatch e

theorem vrun_bind (p : Prog α) (f : α → Prog β) (v : Validator) : Validator.run (p.bind f) v =
    match Validator.run p v with
    | .ok a v' => Validator.run (f a) v'
    | .fail e v' => .fail e v'
    | .panic => .panic
    | .timeout => .timeout := by
  induction p generalizing v with
  | ret a => rfl
  | token k ih =>
    simp only [Prog.bind, Validator.run]
    cases v.token with
    | none => rfl
    | some t => exact ih t v
  | oob k ih => exact ih _ v
  | head k ih =>
    simp only [Prog.bind, Validator.run]
    cases v.token with
    | none => rfl
    | some t =>
      cases t with
      | nil => rfl
      | cons c cs => exact ih c v
  | adv b k ih =>
    cases b
    · simp only [Prog.bind, Validator.run]
      cases v.next with
      | none => rfl
      | some t => exact ih _
    · simp only [Prog.bind, Validator.run]
      cases v.next with
      | none => rfl
      | some t => exact ih _
  | emit t k ih => exact ih _
  | fail =>
    simp only [Prog.bind, Validator.run]
    cases v.token <;> rfl
  | timeout => rfl

/-! ### sides -/

/-- The equations that running a statement satisfies. -/
structure Sem [CaseMap] (isNum : Str → Bool) (E : Env) (X : Stmt → Act Ctl) : Prop where
  skip (vs : Locals) (s : State) : X .skip vs s = .ok .next vs s
  seq (a b : Stmt) (vs : Locals) (s : State) : X (.seq a b) vs s = (X a vs s).into fun r vs s => r.andThen (X b) vs s
  block (a : Stmt) (vs : Locals) (s : State) : X (.block a) vs s = (X a vs s).into fun r vs' s =>
    .ok r (vs'.drop (vs'.length - vs.length)) s
  expr (e : Expr) (vs : Locals) (s : State) : X (.expr e) vs s = (eval isNum E e vs s).into fun _ vs s => .ok .next vs s
  define (x : Lhs) (e : Expr) (vs : Locals) (s : State) : X (.define x e) vs s = (eval isNum E e vs s).into fun v vs s =>
    (declare x v vs s).into fun _ vs s => .ok .next vs s
  assign (x : Lhs) (e : Expr) (vs : Locals) (s : State) : X (.assign x e) vs s = (eval isNum E e vs s).into fun v vs s =>
    (store x v vs s).into fun _ vs s => .ok .next vs s
  ite (c : Expr) (t e : Stmt) (vs : Locals) (s : State) : X (.ite c t e) vs s =
    (eval isNum E c vs s).into fun v vs s => branch v (X t) (X e) vs s
  ret (e : Expr) (vs : Locals) (s : State) : X (.ret e) vs s = (eval isNum E e vs s).into fun v vs s => .ok (.ret v) vs s

/-- One of the two halves. -/
structure Side [CaseMap] (isNum : Str → Bool) where
  up : Bool
  E : Env
  X : Stmt → Act Ctl
  sem : Sem isNum E X
  le : ∀ f args s, E f args s = go isNum f args s ∨ (up = false ∧ E f args s = .timeout)
  leE : ∀ e vs s, eval isNum E e vs s = eval isNum (go isNum) e vs s ∨ (up = false ∧ eval isNum E e vs s = .timeout)

/-- Fuel `m`, or fuel enough. -/
noncomputable def side [CaseMap] (isNum : Str → Bool) (m : Nat) : Bool → Side isNum
  | false =>
    { up := false
      E := env isNum m
      X := exec isNum (env isNum m) m
      sem := {
        skip := fun _ _ => rfl, seq := fun _ _ _ _ => rfl, block := fun _ _ _ => rfl, expr := fun _ _ _ => rfl
        define := fun _ _ _ _ => rfl, assign := fun _ _ _ _ => rfl, ite := fun _ _ _ _ _ => rfl, ret := fun _ _ _ => rfl }
      le := fun f args s => ((env_chain isNum).le_lim m f args s).elim (fun h => .inr ⟨rfl, h⟩) .inl
      leE := fun e vs s => (eval_le isNum ((env_chain isNum).le_lim m) e vs s).elim (fun h => .inr ⟨rfl, h⟩) .inl }
  | true =>
    { up := true
      E := go isNum
      X := exe isNum
      sem := {
        skip := ex_skip isNum, seq := fun a b vs s => ex_seq isNum vs s a b, block := fun a vs s => ex_block isNum vs s a
        expr := fun e vs s => ex_expr isNum vs s e, define := fun x e vs s => ex_define isNum vs s x e
        assign := fun x e vs s => ex_assign isNum vs s x e, ite := fun c t e vs s => ex_ite isNum vs s c t e
        ret := fun e vs s => ex_ret isNum vs s e }
      le := fun _ _ _ => .inl rfl
      leE := fun _ _ _ => .inl rfl }

/-- What a validator method returns. -/
def retOf : Res Validator Unit → Ret
  | .ok _ v => .ok .nil [] (encV v)
  | .fail e v => .ok (.err e.line e.near) [] (encV v)
  | .panic => .panic
  | .timeout => .timeout

/-- The outcome `o` of a statement is the outcome `r` of a program. `N` says how the statement ends when the program
goes on. When the program fails, the statement returns the error. -/
def Real (N : Validator → Out Ctl → Prop) : Res Validator Unit → Out Ctl → Prop
  | .ok _ v, o => N v o
  | .fail e v, o => ∃ vs, o = .ok (.ret (.err e.line e.near)) vs (encV v)
  | .panic, o => o = .panic
  | .timeout, o => o = .timeout

/-- Falls through, with these variables. -/
def FallsTo (ℓ : Locals) (v : Validator) (o : Out Ctl) : Prop := o = .ok .next ℓ (encV v)

/-- Returns nil. -/
def Returns0 (v : Validator) (o : Out Ctl) : Prop := ∃ vs, o = .ok (.ret .nil) vs (encV v)

/-- What one half says. -/
def Ok (up : Bool) (N : Validator → Out Ctl → Prop) (r : Res Validator Unit) (o : Out Ctl) : Prop :=
  (match up with | true => r = .timeout | false => o = .timeout) ∨ Real N r o

variable [CaseMap] {isNum : Str → Bool}

/-- A statement does what a program does. -/
def Run [CaseMap] (isNum : Str → Bool) (m : Nat) (N : Validator → Out Ctl → Prop) (st : Stmt) (ℓ : Locals) (p : Prog Unit) : Prop :=
  ∀ b v, WF v → Ok (side isNum m b).up N (Validator.run p v) ((side isNum m b).X st ℓ (encV v))

/-- A statement does what a program does, and falls through. -/
def Fall [CaseMap] (isNum : Str → Bool) (m : Nat) (st : Stmt) (ℓ : Locals) (p : Prog Unit) : Prop := Run isNum m (FallsTo ℓ) st ℓ p

/-- A statement does what a program does, and returns. -/
def Done [CaseMap] (isNum : Str → Bool) (m : Nat) (st : Stmt) (ℓ : Locals) (p : Prog Unit) : Prop := Run isNum m Returns0 st ℓ p

/-- A call does what a program does. -/
def Call [CaseMap] (isNum : Str → Bool) (m : Nat) (f : Fn) (args : List Val) (p : Prog Unit) : Prop :=
  ∀ v, WF v → Flat .timeout (env isNum m f args (encV v)) (retOf (Validator.run p v)) ∧
    Flat .timeout (retOf (Validator.run p v)) (go isNum f args (encV v))

/-- A method does what a family of programs does. -/
class Fun [CaseMap] (isNum : Str → Bool) (f : Fn) (args : List Val) (P : outParam (Nat → Prog Unit)) : Prop where
  call : ∀ n, Call isNum n f args (P n)

/-- A condition does what a program does. -/
def Cnd [CaseMap] (isNum : Str → Bool) (c : Expr) (ℓ : Locals) (p : Prog Bool) : Prop :=
  ∀ v, WF v →
    match Validator.run p v with
    | .ok b v' => eval isNum (go isNum) c ℓ (encV v) = .ok (.bool b) ℓ (encV v')
    | .panic => eval isNum (go isNum) c ℓ (encV v) = .panic
    | .fail _ _ | .timeout => False

/-- The arguments of a call. -/
inductive Args (ℓ : Locals) : Expr → List Val → Prop
  | nil : Args ℓ .nil []
  | lit {es : Expr} {vs : List Val} (v : Val) (h : Args ℓ es vs) : Args ℓ (.cons (.lit v) es) (v :: vs)
  | var {es : Expr} {vs : List Val} {x : Var} {v : Val} (h : look x ℓ = some v) (h' : Args ℓ es vs) :
    Args ℓ (.cons (.var x) es) (v :: vs)

theorem Args.eval {ℓ : Locals} {e : Expr} {vs : List Val} (h : Args ℓ e vs) (E : Env) (s : State) :
    eval isNum E e ℓ s = .ok (.tuple vs) ℓ s := by
  induction h with
  | nil => rfl
  | lit v h ih => rw [ev_cons, ev_lit, into_ok, ih, into_ok]; rfl
  | var h h' ih => rw [ev_cons, ev_var, h, orStuck_some, into_ok, ih, into_ok]; rfl

theorem Args.ptrs {ℓ : Locals} {e : Expr} {vs : List Val} (h : Args ℓ e vs) : e.ptrs = [] := by
  induction h with
  | nil => rfl
  | lit v h ih => exact ih
  | var h h' ih => exact ih

/-! ### calls -/

theorem Fun.at (f : Fn) (args : List Val) {P : Nat → Prog Unit} [h : Fun isNum f args P] {n : Nat} :
    Call isNum n f args (P n) := h.call n

theorem Fun.up (f : Fn) (args : List Val) {P : Nat → Prog Unit} [h : Fun isNum f args P] {n : Nat} :
    Call isNum n f args (P (n + 1)) := fun v hv =>
  ⟨(env_succ isNum n f args (encV v)).trans (h.call (n + 1) v hv).1, (h.call (n + 1) v hv).2⟩

/-- What a side makes of a call. -/
theorem Call.side {m : Nat} {f : Fn} {args : List Val} {p : Prog Unit} (h : Call isNum m f args p) (b : Bool)
    (v : Validator) (hv : WF v) :
    (match (side isNum m b).up with | true => Validator.run p v = .timeout | false => (side isNum m b).E f args (encV v) = .timeout) ∨
      (side isNum m b).E f args (encV v) = retOf (Validator.run p v) := by
  cases b with
  | false => exact (h v hv).1
  | true =>
    rcases (h v hv).2 with h | h
    · left
      show _ = _
      revert h
      cases Validator.run p v <;> intro h <;> first | rfl | exact nomatch h
    · exact .inr h.symm

theorem evalCall {E : Env} {f : Fn} {args : Expr} {vals : List Val} {ℓ : Locals} (ha : Args ℓ args vals) (s : State) :
    eval isNum E (.call f args) ℓ s = (E f vals s).into fun v ws s => orStuck (writeBack [] ws ℓ) (fun vs => .ok v vs s) := by
  rw [ev_call, ha.eval, into_ok, ha.ptrs]
  rfl

/-! ### statements -/

section
variable {m : Nat} {N : Validator → Out Ctl → Prop} {ℓ : Locals} {a b : Stmt} {pa pb : Prog Unit}

theorem Run.cast (h : Run isNum m N a ℓ pa) (e : pa = pb) : Run isNum m N a ℓ pb := e ▸ h

theorem Fall.skip : Fall isNum m .skip ℓ (.ret ()) := fun b _ _ => .inr ((side isNum m b).sem.skip ..)

theorem Fall.seq (h : Fall isNum m a ℓ pa) (h' : Run isNum m N b ℓ pb) : Run isNum m N (.seq a b) ℓ (pa.bind fun _ => pb) := by
  intro c v hv
  have h1 := h c v hv
  rw [(side isNum m c).sem.seq, vrun_bind]
  revert h1
  cases hr : Validator.run pa v with
  | ok x v' =>
    have hv' := hv.run pa hr
    rintro (h1 | h1)
    · cases c
      · exact .inl (by show Out.into _ _ = _; rw [h1]; rfl)
      · exact nomatch h1
    · rw [h1]
      exact h' c v' hv'
  | fail e v' =>
    rintro (h1 | ⟨vs, h1⟩)
    · cases c
      · exact .inl (by show Out.into _ _ = _; rw [h1]; rfl)
      · exact nomatch h1
    · exact .inr ⟨vs, by rw [h1]; rfl⟩
  | panic =>
    rintro (h1 | h1)
    · cases c
      · exact .inl (by show Out.into _ _ = _; rw [h1]; rfl)
      · exact nomatch h1
    · exact .inr (by show Out.into _ _ = _; rw [h1]; rfl)
  | timeout =>
    intro h1
    cases c
    · rcases h1 with h1 | h1
      · exact .inl (by show Out.into _ _ = _; rw [h1]; rfl)
      · exact .inl (by show Out.into _ _ = _; rw [h1]; rfl)
    · exact .inl rfl

theorem Done.dead (h : Done isNum m a ℓ pa) : Done isNum m (.seq a b) ℓ pa := by
  intro c v hv
  have h1 := h c v hv
  rw [(side isNum m c).sem.seq]
  revert h1
  cases hr : Validator.run pa v with
  | ok x v' =>
    rintro (h1 | ⟨vs, h1⟩)
    · cases c
      · exact .inl (by show Out.into _ _ = _; rw [h1]; rfl)
      · exact nomatch h1
    · exact .inr ⟨vs, by rw [h1]; rfl⟩
  | fail e v' =>
    rintro (h1 | ⟨vs, h1⟩)
    · cases c
      · exact .inl (by show Out.into _ _ = _; rw [h1]; rfl)
      · exact nomatch h1
    · exact .inr ⟨vs, by rw [h1]; rfl⟩
  | panic =>
    rintro (h1 | h1)
    · cases c
      · exact .inl (by show Out.into _ _ = _; rw [h1]; rfl)
      · exact nomatch h1
    · exact .inr (by show Out.into _ _ = _; rw [h1]; rfl)
  | timeout =>
    intro h1
    cases c
    · rcases h1 with h1 | h1
      · exact .inl (by show Out.into _ _ = _; rw [h1]; rfl)
      · exact .inl (by show Out.into _ _ = _; rw [h1]; rfl)
    · exact .inl rfl

/-- Rewrite a statement into one that does the same. -/
theorem Run.same (h : Run isNum m N a ℓ pa) (e : ∀ c s, (side isNum m c).X b ℓ s = (side isNum m c).X a ℓ s) :
    Run isNum m N b ℓ pa := by
  intro c v hv
  rw [e]
  exact h c v hv

theorem block_real {r : Res Validator Unit} {o : Out Ctl} (up : Bool)
    (hN : ∀ v, N v o → N v (o.into fun r vs' s => .ok r (vs'.drop (vs'.length - ℓ.length)) s)) (h : Ok up N r o) :
    Ok up N r (o.into fun r vs' s => .ok r (vs'.drop (vs'.length - ℓ.length)) s) := by
  rcases h with h | h
  · left
    cases up
    · show Out.into _ _ = _
      rw [show o = .timeout from h]
      rfl
    · exact h
  · right
    cases r with
    | ok x v => exact hN v h
    | fail e v => obtain ⟨vs, rfl⟩ := h; exact ⟨_, rfl⟩
    | panic => rw [show o = .panic from h]; rfl
    | timeout => rw [show o = .timeout from h]; rfl

theorem Fall.block (h : Fall isNum m a ℓ pa) : Fall isNum m (.block a) ℓ pa := by
  intro c v hv
  rw [(side isNum m c).sem.block]
  refine block_real _ ?_ (h c v hv)
  intro v' h1
  rw [show _ = _ from h1]
  simp only [into_ok, Nat.sub_self, List.drop_zero]
  rfl

theorem Done.block (h : Done isNum m a ℓ pa) : Done isNum m (.block a) ℓ pa := by
  intro c v hv
  rw [(side isNum m c).sem.block]
  refine block_real _ ?_ (h c v hv)
  rintro v' ⟨vs, h1⟩
  rw [h1]
  exact ⟨_, rfl⟩

theorem Run.ite {c : Expr} {pc : Prog Bool} (hc : Cnd isNum c ℓ pc) (h : Run isNum m N a ℓ pa) (h' : Run isNum m N b ℓ pb) :
    Run isNum m N (.ite c a b) ℓ (V.ifM pc pa pb) := by
  intro d v hv
  have h1 := hc v hv
  rw [(side isNum m d).sem.ite, V.ifM, vrun_bind]
  rcases (side isNum m d).leE c ℓ (encV v) with h2 | ⟨h2, h3⟩
  · rw [h2]
    cases hr : Validator.run pc v with
    | ok x v' =>
      rw [hr] at h1
      rw [show _ = _ from h1]
      have hv' := hv.run pc hr
      cases x with
      | true => exact h d v' hv'
      | false => exact h' d v' hv'
    | fail e v' => rw [hr] at h1; exact nomatch h1
    | panic =>
      rw [hr] at h1
      rw [show _ = _ from h1]
      exact .inr rfl
    | timeout => rw [hr] at h1; exact nomatch h1
  · left
    rw [h2, h3]
    rfl

/-- `if c { … return }; b`. -/
theorem Done.iteL {c : Expr} {pc : Prog Bool} {d : Stmt} {pd : Prog Unit} (hc : Cnd isNum c ℓ pc) (h : Done isNum m a ℓ pa)
    (h' : Fall isNum m b ℓ pb) (hd : Done isNum m d ℓ pd) :
    Done isNum m (.seq (.ite c a b) d) ℓ (V.ifM pc pa (pb.bind fun _ => pd)) := by
  refine Run.same (Run.ite hc (Done.dead (b := d) h) (Fall.seq h' hd)) ?_
  intro x s
  rw [(side isNum m x).sem.seq, (side isNum m x).sem.ite, (side isNum m x).sem.ite]
  cases eval isNum (side isNum m x).E c ℓ s with
  | ok v vs s =>
    simp only [into_ok]
    cases v with
    | bool t =>
      cases t
      · exact ((side isNum m x).sem.seq ..).symm
      · exact ((side isNum m x).sem.seq ..).symm
    | _ => rfl
  | panic | stuck | timeout => rfl

/-- `if c { … } else { … return }; b`. -/
theorem Done.iteR {c : Expr} {pc : Prog Bool} {d : Stmt} {pd : Prog Unit} (hc : Cnd isNum c ℓ pc) (h : Fall isNum m a ℓ pa)
    (h' : Done isNum m b ℓ pb) (hd : Done isNum m d ℓ pd) :
    Done isNum m (.seq (.ite c a b) d) ℓ (V.ifM pc (pa.bind fun _ => pd) pb) := by
  refine Run.same (Run.ite hc (Fall.seq h hd) (Done.dead (b := d) h')) ?_
  intro x s
  rw [(side isNum m x).sem.seq, (side isNum m x).sem.ite, (side isNum m x).sem.ite]
  cases eval isNum (side isNum m x).E c ℓ s with
  | ok v vs s =>
    simp only [into_ok]
    cases v with
    | bool t =>
      cases t
      · exact ((side isNum m x).sem.seq ..).symm
      · exact ((side isNum m x).sem.seq ..).symm
    | _ => rfl
  | panic | stuck | timeout => rfl

theorem Done.ite {c : Expr} {pc : Prog Bool} (hc : Cnd isNum c ℓ pc) (h : Done isNum m a ℓ pa) (h' : Done isNum m b ℓ pb) :
    Done isNum m (.ite c a b) ℓ (V.ifM pc pa pb) := Run.ite hc h h'

theorem Fall.ite {c : Expr} {pc : Prog Bool} (hc : Cnd isNum c ℓ pc) (h : Fall isNum m a ℓ pa) (h' : Fall isNum m b ℓ pb) :
    Fall isNum m (.ite c a b) ℓ (V.ifM pc pa pb) := Run.ite hc h h'

theorem Fall.seqF (h : Fall isNum m a ℓ pa) (h' : Fall isNum m b ℓ pb) : Fall isNum m (.seq a b) ℓ (pa.bind fun _ => pb) :=
  Fall.seq h h'

theorem Fall.seqD (h : Fall isNum m a ℓ pa) (h' : Done isNum m b ℓ pb) : Done isNum m (.seq a b) ℓ (pa.bind fun _ => pb) :=
  Fall.seq h h'

/-- `x := literal`. -/
theorem Done.define {x : Var} {v : Val} (h : Done isNum m b ((x, v) :: ℓ) pb) :
    Done isNum m (.seq (.define (.var x) (.lit v)) b) ℓ pb := by
  intro c w hw
  rw [(side isNum m c).sem.seq, (side isNum m c).sem.define]
  exact h c w hw

theorem Done.retNil : Done isNum m (.ret (.lit .nil)) ℓ (.ret ()) := by
  intro c v _
  rw [(side isNum m c).sem.ret]
  exact .inr ⟨ℓ, rfl⟩

theorem retOf_real {v : Validator} (hv : WF v) {p : Prog Unit} {up : Bool} {o : Ret} (N : Validator → Out Ctl → Prop)
    {k : Val → List Val → State → Out Ctl}
    (h : (match up with | true => Validator.run p v = .timeout | false => o = .timeout) ∨ o = retOf (Validator.run p v))
    (hok : ∀ v', WF v' → N v' (k .nil [] (encV v')))
    (hfail : ∀ (e : VErr) v', WF v' → v'.token = some e.near → v'.line = e.line →
      ∃ vs, k (.err e.line e.near) [] (encV v') = .ok (.ret (.err e.line e.near)) vs (encV v')) :
    Ok up N (Validator.run p v) (o.into k) := by
  rcases h with h | h
  · left
    cases up
    · rw [show o = .timeout from h]; rfl
    · exact h
  · right
    rw [h]
    cases hr : Validator.run p v with
    | ok x v' => exact hok v' (hv.run p hr)
    | fail e v' =>
      obtain ⟨h1, h2, h3⟩ := hv.fail p hr
      exact hfail e v' h1 h2 h3
    | panic => rfl
    | timeout => rfl

theorem Done.retCall {f : Fn} {args : Expr} {vals : List Val} {p : Prog Unit} (ha : Args ℓ args vals)
    (h : Call isNum m f vals p) : Done isNum m (.ret (.call f args)) ℓ p := by
  intro c v hv
  rw [(side isNum m c).sem.ret, evalCall ha]
  have := h.side c v hv
  revert this
  generalize (side isNum m c).E f vals (encV v) = o
  intro ho
  have : ∀ (o : Ret), ((o.into fun v ws s => orStuck (writeBack [] ws ℓ) (fun vs => Out.ok v vs s)).into fun v vs s =>
      Out.ok (Ctl.ret v) vs s) = o.into fun v ws s => orStuck (writeBack [] ws ℓ) (fun vs => Out.ok (Ctl.ret v) vs s) := by
    intro o
    cases o with
    | ok v ws s => cases ws <;> rfl
    | panic | stuck | timeout => rfl
  rw [this]
  exact retOf_real hv _ ho (fun v' _ => ⟨ℓ, rfl⟩) (fun e v' _ _ _ => ⟨ℓ, rfl⟩)

/-- `if err := f(…); err != nil { return err }`. -/
theorem Fall.check {f : Fn} {args : Expr} {vals : List Val} {p : Prog Unit} (ha : Args ℓ args vals)
    (h : Call isNum m f vals p) :
    Fall isNum m (.block (.seq (.define (.var .err) (.call f args))
      (.ite (.ne (.var .err) (.lit .nil)) (.block (.ret (.var .err))) .skip))) ℓ p := by
  intro c v hv
  have sem := (side isNum m c).sem
  rw [sem.block, sem.seq, sem.define, evalCall ha]
  have := h.side c v hv
  revert this
  generalize (side isNum m c).E f vals (encV v) = o
  intro ho
  have : ∀ (o : Ret) (k : Val → Locals → State → Out Ctl) (k' : Ctl → Locals → State → Out Ctl)
      (k'' : Ctl → Locals → State → Out Ctl),
      ((((o.into fun v ws s => orStuck (writeBack [] ws ℓ) (fun vs => Out.ok v vs s)).into k).into k').into k'')
      = o.into fun v ws s => orStuck (writeBack [] ws ℓ) (fun vs => ((k v vs s).into k').into k'') := by
    intro o k k' k''
    cases o with
    | ok v ws s => cases ws <;> rfl
    | panic | stuck | timeout => rfl
  rw [this]
  refine retOf_real hv _ ho ?_ ?_
  · intro v' _
    simp only [writeBack, orStuck_some, declare_var, into_ok, next_then, sem.ite, sem.skip, ev_ne, ev_var, ev_lit, look,
      if_true, eq_nil_nil, Bool.not_true, branch_app, cond_false, List.length_cons, Nat.add_sub_cancel_left,
      List.drop_succ_cons, List.drop_zero]
    rfl
  · intro e v' _ _ _
    simp only [writeBack, orStuck_some, declare_var, into_ok, next_then, sem.ite, sem.block, sem.ret, ev_ne, ev_var, ev_lit,
      look, if_true, eq_err_nil, Bool.not_false, branch_app, cond_true]
    exact ⟨_, rfl⟩

theorem Call.syntaxError : Call isNum m .va_syntaxError [] .fail := by
  intro v hv
  obtain ⟨t, ht⟩ := hv.token
  have h := go_va_syntaxError isNum ht
  have : retOf (Validator.run .fail v) = .ok (.err v.line t) [] (encV v) := by
    rw [Validator.run, ht]
    rfl
  rw [this, ← h]
  exact ⟨(env_chain isNum).le_lim m _ _ _, .refl⟩

/-- The rest belongs to both branches. -/
theorem Done.split {c : Expr} {pc : Prog Bool} {d : Stmt} (hc : Cnd isNum c ℓ pc) (h : Done isNum m (.seq a d) ℓ pa)
    (h' : Done isNum m (.seq b d) ℓ pb) : Done isNum m (.seq (.ite c a b) d) ℓ (V.ifM pc pa pb) := by
  refine Run.same (Done.ite hc h h') ?_
  intro k s
  simp only [(side isNum m k).sem.seq, (side isNum m k).sem.ite]
  cases eval isNum (side isNum m k).E c ℓ s with
  | ok v vs s =>
    simp only [into_ok]
    cases v with
    | bool t => cases t <;> simp only [branch_app, cond_true, cond_false, (side isNum m k).sem.seq]
    | _ => rfl
  | panic | stuck | timeout => rfl

theorem eval_cnd {c : Expr} {pc : Prog Bool} (hc : Cnd isNum c ℓ pc) (k : Bool) {v : Validator} (hv : WF v) :
    eval isNum (side isNum m k).E c ℓ (encV v) = .panic ∨ eval isNum (side isNum m k).E c ℓ (encV v) = .timeout ∨
      ∃ t v', eval isNum (side isNum m k).E c ℓ (encV v) = .ok (.bool t) ℓ (encV v') := by
  rcases (side isNum m k).leE c ℓ (encV v) with h | ⟨_, h⟩
  · rw [h]
    have := hc v hv
    revert this
    cases Validator.run pc v with
    | ok b v' => exact fun h => .inr (.inr ⟨b, v', h⟩)
    | panic => exact .inl
    | fail | timeout => exact fun h => nomatch h
  · exact .inr (.inl h)

/-- The same, inside a block. -/
theorem Done.splitB {c : Expr} {pc : Prog Bool} {d : Stmt} (hc : Cnd isNum c ℓ pc) (h : Done isNum m (.seq (.block a) d) ℓ pa)
    (h' : Done isNum m (.seq (.block b) d) ℓ pb) : Done isNum m (.seq (.block (.ite c a b)) d) ℓ (V.ifM pc pa pb) := by
  intro k v hv
  have h1 := Done.split hc h h' k v hv
  have : (side isNum m k).X (.seq (.block (.ite c a b)) d) ℓ (encV v)
      = (side isNum m k).X (.seq (.ite c (.block a) (.block b)) d) ℓ (encV v) := by
    simp only [(side isNum m k).sem.seq, (side isNum m k).sem.ite, (side isNum m k).sem.block]
    rcases eval_cnd (m := m) hc k hv with h | h | ⟨t, v', h⟩
    · rw [h]; rfl
    · rw [h]; rfl
    · rw [h]
      cases t <;> simp only [into_ok, branch_app, cond_true, cond_false, (side isNum m k).sem.block]
  rw [this]
  exact h1

/-- A block in a block. -/
theorem Done.blockB {d : Stmt} (h : Done isNum m (.seq (.block a) d) ℓ pa) : Done isNum m (.seq (.block (.block a)) d) ℓ pa := by
  refine Run.same h ?_
  intro k s
  simp only [(side isNum m k).sem.seq, (side isNum m k).sem.block]
  cases (side isNum m k).X a ℓ s with
  | ok r vs s =>
    simp only [into_ok, List.length_drop]
    have : vs.length - (vs.length - ℓ.length) - ℓ.length = 0 := by omega
    rw [this, List.drop_zero]
  | panic | stuck | timeout => rfl

theorem Done.cast (h : Done isNum m a ℓ pa) (e : pa = pb) : Done isNum m a ℓ pb := e ▸ h

/-- `return v.syntaxError()`, as the end of a path on which nothing follows. -/
theorem Fall.err : Fall isNum m (.ret (.call .va_syntaxError .nil)) ℓ .fail := by
  intro c v hv
  have h := Done.retCall (ℓ := ℓ) .nil (Call.syntaxError (isNum := isNum) (m := m)) c v hv
  obtain ⟨t, ht⟩ := hv.token
  revert h
  simp only [Validator.run, ht]
  exact id

/-- `if err := f(…); err != nil { return v.syntaxError() }`. -/
theorem Fall.check' {f : Fn} {args : Expr} {vals : List Val} {p : Prog Unit} (ha : Args ℓ args vals)
    (h : Call isNum m f vals p) :
    Fall isNum m (.block (.seq (.define (.var .err) (.call f args))
      (.ite (.ne (.var .err) (.lit .nil)) (.block (.ret (.call .va_syntaxError .nil))) .skip))) ℓ p := by
  intro c v hv
  have sem := (side isNum m c).sem
  rw [sem.block, sem.seq, sem.define, evalCall ha]
  have := h.side c v hv
  revert this
  generalize ho' : (side isNum m c).E f vals (encV v) = o
  intro ho
  have : ∀ (o : Ret) (k : Val → Locals → State → Out Ctl) (k' : Ctl → Locals → State → Out Ctl)
      (k'' : Ctl → Locals → State → Out Ctl),
      ((((o.into fun v ws s => orStuck (writeBack [] ws ℓ) (fun vs => Out.ok v vs s)).into k).into k').into k'')
      = o.into fun v ws s => orStuck (writeBack [] ws ℓ) (fun vs => ((k v vs s).into k').into k'') := by
    intro o k k' k''
    cases o with
    | ok v ws s => cases ws <;> rfl
    | panic | stuck | timeout => rfl
  rw [this]
  have hok : ∀ v', WF v' → FallsTo ℓ v' ((fun v ws s => orStuck (writeBack [] ws ℓ) (fun vs => (((declare (.var .err) v vs s).into
      fun _ vs s => Out.ok Ctl.next vs s).into fun r vs s => r.andThen ((side isNum m c).X (.ite (.ne (.var .err) (.lit .nil))
      (.block (.ret (.call .va_syntaxError .nil))) .skip)) vs s).into fun r vs' s => .ok r (vs'.drop (vs'.length - ℓ.length)) s)) Val.nil [] (encV v')) := by
    intro v' _
    simp only [writeBack, orStuck_some, declare_var, into_ok, next_then, sem.ite, sem.skip, ev_ne, ev_var, ev_lit, look,
      if_true, eq_nil_nil, Bool.not_true, branch_app, cond_false, List.length_cons, Nat.add_sub_cancel_left,
      List.drop_succ_cons, List.drop_zero]
    rfl
  rcases ho with ho | ho
  · left
    revert ho
    cases c
    · intro ho
      show Ret.into _ _ = _
      rw [show o = .timeout from ho]; rfl
    · exact id
  · rw [ho]
    cases hr : Validator.run p v with
    | ok x v' => exact .inr (hok v' (hv.run p hr))
    | fail e v' =>
      obtain ⟨h1, h2, h3⟩ := hv.fail p hr
      obtain ⟨ln, nr⟩ := e
      dsimp only at h2 h3
      subst h3
      have hs := (Call.syntaxError (isNum := isNum) (m := m)).side c v' h1
      simp only [Validator.run, h2, retOf] at hs
      simp only [retOf, rinto_ok]
      simp only [writeBack, orStuck_some, declare_var, into_ok, next_then, sem.ite, sem.block, sem.ret, ev_ne, ev_var, ev_lit,
        look, if_true, eq_err_nil, Bool.not_false, branch_app, cond_true, ev_call, ev_nil, list_tuple, Expr.ptrs]
      rcases hs with hs | hs
      · left
        revert hs
        cases c
        · intro hs
          rw [show _ = Ret.timeout from hs]; rfl
        · intro hs; exact nomatch hs
      · right
        rw [hs]
        exact ⟨_, rfl⟩
    | panic => exact .inr rfl
    | timeout => exact .inr rfl

/-! ### conditions -/

theorem Cnd.outOfRange : Cnd isNum (.call .va_isOutOfRange .nil) ℓ V.isOutOfRange := by
  intro v _
  show _ = _
  rw [evalCall .nil, go_va_isOutOfRange]
  rfl

theorem Cnd.matchToken {args : Expr} {ks : List String} (ha : Args ℓ args [.kws ks]) (hl : asciiKws ks = true) :
    Cnd isNum (.call .va_matchToken args) ℓ (V.matchToken ks) := by
  intro v hv
  obtain ⟨t, ht⟩ := hv.token
  simp only [V.matchToken, Validator.run, ht]
  rw [evalCall ha, go_va_matchToken isNum ht ks hl]
  rfl

theorem Cnd.matchTokenNext {args : Expr} {set : Bool} {ks : List String} (ha : Args ℓ args [.bool set, .kws ks]) (hl : asciiKws ks = true) :
    Cnd isNum (.call .va_matchTokenNext args) ℓ (V.matchTokenNext set ks) := by
  intro v hv
  obtain ⟨t, ht⟩ := hv.token
  obtain ⟨u, v', hn, _⟩ := hv.next
  simp only [V.matchTokenNext, V.ifM, V.matchToken, Prog.bind, Validator.run, ht]
  rw [evalCall ha, go_va_matchTokenNext isNum ht hn set ks hl]
  cases isKw ks t
  · rfl
  · cases set
    · simp only [cond_true, Validator.run, hn]; rfl
    · simp only [cond_true, Validator.run, hn]; rfl

theorem Cnd.not {c : Expr} {p : Prog Bool} (h : Cnd isNum c ℓ p) : Cnd isNum (.not c) ℓ (p.bind fun b => .ret (!b)) := by
  intro v hv
  have h1 := h v hv
  rw [vrun_bind]
  revert h1
  cases Validator.run p v with
  | ok b v' =>
    intro h1
    show _ = _
    rw [ev_not, show _ = _ from h1]
    cases b <;> rfl
  | panic =>
    intro h1
    show _ = _
    rw [ev_not, show _ = _ from h1]
    rfl
  | fail | timeout => exact id

theorem Cnd.and {c d : Expr} {p q : Prog Bool} (h : Cnd isNum c ℓ p) (h' : Cnd isNum d ℓ q) :
    Cnd isNum (.and c d) ℓ (V.ifM p q (.ret false)) := by
  intro v hv
  have h1 := h v hv
  rw [V.ifM, vrun_bind]
  revert h1
  cases hr : Validator.run p v with
  | ok b v' =>
    intro h1
    cases b with
    | false =>
      show _ = _
      rw [ev_and, show _ = _ from h1]
      rfl
    | true =>
      have h2 := h' v' (hv.run p hr)
      dsimp only [cond_true]
      rw [ev_and, show _ = _ from h1]
      exact h2
  | panic =>
    intro h1
    show _ = _
    rw [ev_and, show _ = _ from h1]
    rfl
  | fail | timeout => exact id

/-- A function of the token. -/
theorem Cnd.ofToken {f : Fn} {g : Str → Bool} (h : ∀ t s, go isNum f [.str t] s = .ok (.bool (g t)) [] s) :
    Cnd isNum (.call f (.cons (.call .va_token .nil) .nil)) ℓ (.token fun t => .ret (g t)) := by
  intro v hv
  obtain ⟨t, ht⟩ := hv.token
  simp only [Validator.run, ht]
  rw [ev_call, ev_cons, evalCall .nil, go_va_token_some isNum ht]
  simp only [rinto_ok, writeBack, orStuck_some, into_ok, ev_nil, list_tuple]
  rw [h]
  rfl

theorem Cnd.isNumeric :
    Cnd isNum (.call .co_IsNumericToken (.cons (.call .va_token .nil) .nil)) ℓ (.token fun t => .ret (isNum t)) :=
  Cnd.ofToken (go_IsNumericToken isNum)

theorem Cnd.isPositive : Cnd isNum (.call .co_IsPositiveIntegerToken (.cons (.call .va_token .nil) .nil)) ℓ
    (.token fun t => .ret (isPositiveIntegerToken t)) :=
  Cnd.ofToken (go_IsPositiveIntegerToken isNum)

/-- A function of the token that looks at its first character. -/
theorem Cnd.ofHead {f : Fn} {g : Char → Str → Bool} (h0 : ∀ s, go isNum f [.str []] s = .panic)
    (h : ∀ c t s, go isNum f [.str (c :: t)] s = .ok (.bool (g c (c :: t))) [] s) :
    Cnd isNum (.call f (.cons (.call .va_token .nil) .nil)) ℓ (.head fun c => .token fun t => .ret (g c t)) := by
  intro v hv
  obtain ⟨t, ht⟩ := hv.token
  rw [ev_call, ev_cons, evalCall .nil, go_va_token_some isNum ht]
  simp only [rinto_ok, writeBack, orStuck_some, into_ok, ev_nil, list_tuple]
  simp only [Validator.run, ht]
  cases t with
  | nil => show _ = _; rw [h0]; rfl
  | cons c t => show _ = _; rw [h]; rfl

/-! ### steps -/

theorem Fall.skipToken {args : Expr} {set : Bool} {ks : List String} (ha : Args ℓ args [.bool set, .kws ks]) (hl : asciiKws ks = true) :
    Fall isNum m (.expr (.call .va_matchTokenNext args)) ℓ (V.skipToken set ks) := by
  intro c v hv
  rw [(side isNum m c).sem.expr]
  have h1 := Cnd.matchTokenNext (isNum := isNum) ha hl v hv
  rw [V.skipToken, vrun_bind]
  rcases (side isNum m c).leE (.call .va_matchTokenNext args) ℓ (encV v) with h2 | ⟨h2, h3⟩
  · rw [h2]
    revert h1
    cases Validator.run (V.matchTokenNext set ks) v with
    | ok b v' => intro h1; rw [show _ = _ from h1]; exact .inr rfl
    | panic => intro h1; rw [show _ = _ from h1]; exact .inr rfl
    | fail | timeout => intro h1; exact nomatch h1
  · left
    rw [h2, h3]
    rfl

/-- A step that always works. -/
theorem Fall.step {e : Expr} {p : Prog Unit}
    (h : ∀ v, WF v → ∃ w v', eval isNum (go isNum) e ℓ (encV v) = .ok w ℓ (encV v') ∧ Validator.run p v = .ok () v') :
    Fall isNum m (.expr e) ℓ p := by
  intro c v hv
  obtain ⟨w, v', h1, h4⟩ := h v hv
  rw [(side isNum m c).sem.expr, h4]
  rcases (side isNum m c).leE e ℓ (encV v) with h2 | ⟨h2, h3⟩
  · rw [h2, h1]
    exact .inr rfl
  · left
    rw [h2, h3]
    rfl

theorem Fall.set {args : Expr} {t : Str} (ha : Args ℓ args [.str t]) :
    Fall isNum m (.expr (.call .va_set args)) ℓ (V.set t) := by
  refine Fall.step fun v _ => ⟨.tuple [], v.set t, ?_, rfl⟩
  rw [evalCall ha, go_va_set]
  rfl

theorem Fall.next : Fall isNum m (.expr (.call .va_next .nil)) ℓ (V.next false) := by
  refine Fall.step fun v hv => ?_
  obtain ⟨t, v', hn, _⟩ := hv.next
  refine ⟨.str t, v', ?_, by simp only [V.next, Validator.run, hn]⟩
  rw [evalCall .nil, go_va_next isNum hn]
  rfl

theorem Fall.setNext : Fall isNum m (.expr (.call .va_set (.cons (.call .va_next .nil) .nil))) ℓ (V.next true) := by
  refine Fall.step fun v hv => ?_
  obtain ⟨t, v', hn, _⟩ := hv.next
  refine ⟨.tuple [], v'.set t, ?_, by simp only [V.next, Validator.run, hn]⟩
  rw [ev_call, ev_cons, evalCall .nil, go_va_next isNum hn]
  simp only [rinto_ok, writeBack, orStuck_some, into_ok, ev_nil, list_tuple]
  rw [go_va_set]
  rfl

/-- `if set { v.set(v.next()) } else { v.next() }`. -/
theorem Fall.adv {set : Bool} (h : look .«set» ℓ = some (.bool set)) :
    Fall isNum m (.ite (.var .«set») (.block (.expr (.call .va_set (.cons (.call .va_next .nil) .nil))))
      (.block (.expr (.call .va_next .nil)))) ℓ (V.next set) := by
  cases set with
  | true =>
    refine Run.same (Fall.block Fall.setNext) ?_
    intro c s
    rw [(side isNum m c).sem.ite, ev_var, h]
    rfl
  | false =>
    refine Run.same (Fall.block Fall.next) ?_
    intro c s
    rw [(side isNum m c).sem.ite, ev_var, h]
    rfl

/-! ### functions -/

theorem finish_real {ps : List (Var × Bool)} (hps : ∀ vs, ptrVals ps vs = some []) {r : Res Validator Unit} {o : Out Ctl}
    (h : Real Returns0 r o) : finish ps o = retOf r := by
  cases r with
  | ok x v => obtain ⟨vs, rfl⟩ := h; simp only [finish, hps, retOf]
  | fail e v => obtain ⟨vs, rfl⟩ := h; simp only [finish, hps, retOf]
  | panic => rw [show o = .panic from h]; rfl
  | timeout => rw [show o = .timeout from h]; rfl

theorem Call.ofBody {f : Fn} {D : Decl} (hD : decl f = D) {args : List Val} (hps : ∀ vs, ptrVals D.params vs = some [])
    (hb : bindParams D.params args = some ℓ) {p : Prog Unit} (h : Done isNum m D.body ℓ p) :
    Call isNum (m + 1) f args p := by
  subst hD
  intro v hv
  constructor
  · have h1 := h false v hv
    show Flat _ (body isNum (env isNum m) m f args (encV v)) _
    unfold body
    rw [hb]
    rcases h1 with h1 | h1
    · left
      show finish _ ((DDL.Src.side isNum m false).X _ _ _) = _
      rw [show _ = Out.timeout from h1]
      rfl
    · right
      exact finish_real hps h1
  · have h1 := h true v hv
    rw [go_eq isNum f args (encV v) ℓ hb]
    rcases h1 with h1 | h1
    · left
      rw [show _ = Res.timeout from h1]
      rfl
    · right
      exact (finish_real hps h1).symm

theorem Call.less {f : Fn} {args : List Val} {p : Prog Unit} (h : Call isNum (m + 1) f args p) : Call isNum m f args p :=
  fun v hv => ⟨(env_succ isNum m f args (encV v)).trans (h v hv).1, (h v hv).2⟩

/-- A method that does not call itself. -/
theorem Fun.plain {f : Fn} (D : Decl) (hD : decl f = D) {args : List Val} (hps : ∀ vs, ptrVals D.params vs = some [])
    (hb : bindParams D.params args = some ℓ) {P : Nat → Prog Unit} (h : ∀ n, Done isNum n D.body ℓ (P n)) :
    Fun isNum f args P := ⟨fun n => (Call.ofBody hD hps hb (h n)).less⟩

/-- A method that calls itself with the same arguments. -/
theorem Fun.loop {f : Fn} (D : Decl) (hD : decl f = D) {args : List Val} (hps : ∀ vs, ptrVals D.params vs = some [])
    (hb : bindParams D.params args = some ℓ) {P : Nat → Prog Unit} (h0 : P 0 = .timeout)
    (h : ∀ n, Call isNum n f args (P n) → Done isNum n D.body ℓ (P (n + 1))) : Fun isNum f args P := by
  constructor
  intro n
  induction n with
  | zero => rw [h0]; exact fun v _ => ⟨.inl rfl, .inl rfl⟩
  | succ n ih => exact Call.ofBody hD hps hb (h n ih)

end
end DDL.Src

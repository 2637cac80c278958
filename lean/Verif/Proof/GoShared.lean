import Verif.Proof.GoRules
/-
The rules of GoRules as a tactic, and the methods of the base validator that return errors (validator.go:121-167).
-/

set_option linter.unusedSectionVars false

namespace DDL.Src
open DDL Obj

/-- A test of the token. -/
class Test [CaseMap] (isNum : Str → Bool) (f : Fn) (p : outParam (Prog Bool)) : Prop where
  cnd : ∀ ℓ, Cnd isNum (.call f (.cons (.call .va_token .nil) .nil)) ℓ p

theorem Test.at [CaseMap] {isNum : Str → Bool} {ℓ : Locals} (f : Fn) {p : Prog Bool} [h : Test isNum f p] :
    Cnd isNum (.call f (.cons (.call .va_token .nil) .nil)) ℓ p := h.cnd ℓ

macro "go_args" : tactic => `(tactic| repeat (first | exact Args.nil | apply Args.lit | apply Args.var rfl))

syntax "go_call" term:max : tactic
macro_rules | `(tactic| go_call $t) => `(tactic| first | assumption | exact Call.syntaxError | exact $t _ _)

syntax "go_cnd" : tactic
macro_rules | `(tactic| go_cnd) => `(tactic| first
  | exact Cnd.outOfRange
  | (apply Cnd.matchToken; (· go_args); (· go_ascii))
  | (apply Cnd.matchTokenNext; (· go_args); (· go_ascii))
  | exact Cnd.isNumeric
  | exact Cnd.isPositive
  | exact Test.at _
  | (apply Cnd.not; go_cnd)
  | (apply Cnd.and; (· go_cnd); (· go_cnd)))

syntax "go_fall" term:max : tactic
syntax "go_done" term:max : tactic
macro_rules | `(tactic| go_fall $t) => `(tactic| first
  | exact Fall.skip
  | (apply Fall.check; (· go_args); (· go_call $t))
  | (apply Fall.check'; (· go_args); (· go_call $t))
  | (apply Fall.skipToken; (· go_args); (· go_ascii))
  | exact Fall.next
  | exact Fall.setNext
  | exact Fall.adv rfl
  | (apply Fall.set; go_args)
  | (apply Fall.block; go_fall $t)
  | (apply Fall.seqF; (· go_fall $t); (· go_fall $t))
  | (apply Fall.ite; (· go_cnd); (· go_fall $t); (· go_fall $t))
  | exact Fall.err)
macro_rules | `(tactic| go_done $t) => `(tactic| first
  | exact Done.retNil
  | (apply Done.retCall; (· go_args); (· go_call $t))
  | (apply Done.block; go_done $t)
  | (apply Done.define; go_done $t)
  | (apply Fall.seqD; (· go_fall $t); (· go_done $t))
  | (apply Done.iteL; (· go_cnd); (· go_done $t); (· go_fall $t); (· go_done $t))
  | (apply Done.iteR; (· go_cnd); (· go_fall $t); (· go_done $t); (· go_done $t))
  | (apply Done.dead; go_done $t)
  | (apply Done.ite; (· go_cnd); (· go_done $t); (· go_done $t))
  | (apply Done.split; (· go_cnd); (· go_done $t); (· go_done $t))
  | (apply Done.splitB; (· go_cnd); (· go_done $t); (· go_done $t))
  | (apply Done.blockB; go_done $t))

theorem ret_bind (a : α) (f : α → Prog β) : (Prog.ret a).bind f = f a := rfl
theorem fail_bind (f : α → Prog β) : Prog.fail.bind f = .fail := rfl
theorem bind_unit (p : Prog Unit) : (p.bind fun _ => Prog.ret ()) = p := Prog.bind_ret p
theorem ifM_not (p : Prog Bool) (a b : Prog α) : V.ifM (p.bind fun b => .ret (!b)) a b = V.ifM p b a := by
  simp only [V.ifM, Prog.bind_assoc, ret_bind]
  congr 1
  funext b
  cases b <;> rfl
theorem ifM_and (p q : Prog Bool) (a b : Prog α) : V.ifM (V.ifM p q (.ret false)) a b = V.ifM p (V.ifM q a b) b := by
  simp only [V.ifM, Prog.bind_assoc]
  congr 1
  funext b
  cases b <;> rfl

theorem ifM_and' (p q : Prog Bool) (a b : Prog α) : V.ifM (V.ifM p (.ret false) q) a b = V.ifM p b (V.ifM q a b) := by
  simp only [V.ifM, Prog.bind_assoc]
  congr 1
  funext b
  cases b <;> rfl

theorem ifM_fail_l (c : Prog Bool) (f : Unit → Prog α) : (V.ifM c .fail (.ret ())).bind f = V.ifM c .fail (f ()) := by
  simp only [V.ifM, Prog.bind_assoc]
  congr 1
  funext b
  cases b <;> rfl
theorem ifM_fail_r (c : Prog Bool) (f : Unit → Prog α) : (V.ifM c (.ret ()) .fail).bind f = V.ifM c (f ()) .fail := by
  simp only [V.ifM, Prog.bind_assoc]
  congr 1
  funext b
  cases b <;> rfl

theorem ifM_matchTokenNext (set : Bool) (ks : List String) (a b : Prog α) :
    V.ifM (V.matchTokenNext set ks) a b = V.ifM (V.matchToken ks) ((V.next set).bind fun _ => a) b := by
  simp only [V.ifM, V.matchTokenNext, V.next, Prog.bind_assoc]
  congr 1
  funext b
  cases b <;> rfl

theorem validatePositiveInteger_eq (set : Bool) :
    V.validatePositiveInteger set = V.ifM (.token fun t => .ret (isPositiveIntegerToken t)) (V.next set) .fail := rfl

theorem skipToken_eq (set : Bool) (ks : List String) :
    V.skipToken set ks = V.ifM (V.matchToken ks) (V.next set) (.ret ()) := by
  simp only [V.skipToken, V.ifM, V.matchTokenNext, V.next, Prog.bind_assoc]
  congr 1
  funext b
  cases b <;> rfl

/-- Normal form of programs. -/
macro "go_eq" "[" ls:Lean.Parser.Tactic.simpLemma,* "]" : tactic => `(tactic| simp only [Prog.bind_eq, Prog.pure_eq, Prog.bind_assoc, ret_bind, fail_bind,
  bind_unit, ifM_not, ifM_and, ifM_and', ifM_fail_l, ifM_fail_r, V.syntaxError, $ls,*])

variable [CaseMap] {isNum : Str → Bool}

theorem fun_validateToken (set : Bool) (ks : List String) (hl : asciiKws ks = true) :
    Fun isNum .va_validateToken [.bool set, .kws ks] (fun _ => V.validateToken set ks) := by
  refine Fun.plain (ℓ := [(.«set», .bool set), (.keywords, .kws ks)]) Tree.va_validateToken rfl (fun _ => rfl) rfl fun n => ?_
  apply Done.cast
  · go_done Fun.at
  · go_eq [V.validateToken]

theorem call_validateToken (set : Bool) (ks : List String) (hl : asciiKws ks = true) {n : Nat} :
    Call isNum n .va_validateToken [.bool set, .kws ks] (V.validateToken set ks) := (fun_validateToken set ks hl).call n

macro_rules | `(tactic| go_call $_) => `(tactic| exact call_validateToken _ _ (by go_ascii))

theorem done_brackets {n : Nat} {set : Bool} {p : Prog Unit} (h : Call isNum n .va_validateBracketsAux [.bool set] p) :
    Done isNum n Tree.va_validateBrackets.body [(.«set», .bool set)]
      (V.validateToken set ["("] >>= fun _ => p >>= fun _ => V.validateToken set [")"]) := by
  apply Done.cast
  · go_done Fun.at
  · go_eq []

instance fun_validateBracketsAux (set : Bool) :
    Fun isNum .va_validateBracketsAux [.bool set] (fun n => V.validateBracketsAux set n) := by
  refine Fun.loop (ℓ := [(.«set», .bool set)]) Tree.va_validateBracketsAux rfl (fun _ => rfl) rfl rfl fun n ih => ?_
  have ih' := (Call.ofBody (D := Tree.va_validateBrackets) (f := .va_validateBrackets) (args := [.bool set]) rfl (fun _ => rfl) rfl
    (done_brackets ih)).less
  apply Done.cast
  · go_done Fun.at
  · go_eq [V.validateBracketsAux]

instance fun_validateBrackets (set : Bool) :
    Fun isNum .va_validateBrackets [.bool set] (fun n => V.validateBrackets n set) := by
  refine Fun.plain (ℓ := [(.«set», .bool set)]) Tree.va_validateBrackets rfl (fun _ => rfl) rfl fun n => ?_
  apply Done.cast
  · go_done Fun.at
  · go_eq [V.validateBrackets]

/-! ### tests of the token -/

theorem Cnd.congr {c : Expr} {ℓ : Locals} {p q : Prog Bool} (h : Cnd isNum c ℓ p) (e : ∀ v, Validator.run p v = Validator.run q v) :
    Cnd isNum c ℓ q := by
  intro v hv
  rw [← e]
  exact h v hv

/-- `isStringValue(v.token())`. -/
theorem Test.ofHead {f : Fn} {g : Char → Bool} (h0 : ∀ s, go isNum f [.str []] s = .panic)
    (h : ∀ c t s, go isNum f [.str (c :: t)] s = .ok (.bool (g c)) [] s) : Test isNum f (.head fun c => .ret (g c)) := by
  constructor
  intro ℓ
  refine (Cnd.ofHead (g := fun c _ => g c) h0 h).congr fun v => ?_
  simp only [Validator.run]
  cases hv : v.token with
  | none => rfl
  | some t => cases t with
    | nil => rfl
    | cons c t => rfl

/-- `isValidName(v.token())`. -/
theorem Test.validName {f : Fn} {d : Rdbms} (h0 : ∀ s, go isNum f [.str []] s = .panic)
    (h : ∀ c t s, go isNum f [.str (c :: t)] s = .ok (.bool (V.isIdentifier d c || V.plainName d (c :: t))) [] s) :
    Test isNum f (V.isValidName d) := by
  constructor
  intro ℓ
  refine (Cnd.ofHead (g := fun c t => V.isIdentifier d c || V.plainName d t) h0 h).congr fun v => ?_
  simp only [V.isValidName, Validator.run]
  cases hv : v.token with
  | none => rfl
  | some t => cases t with
    | nil => rfl
    | cons c t =>
      dsimp only
      cases V.isIdentifier d c
      · simp only [cond_false, Validator.run, hv, Bool.false_or]
      · rfl

/-- A test that looks at the token itself. -/
theorem Test.kind {f : Fn} {ks : List String}
    (h : ∀ (v : Validator) (t : Str), v.token = some t → go isNum f [.str t] (encV v) = .ok (.bool (isKw ks t)) [] (encV v)) :
    Test isNum f (V.matchToken ks) := by
  constructor
  intro ℓ v hv
  obtain ⟨t, ht⟩ := hv.token
  simp only [V.matchToken, Validator.run, ht]
  rw [ev_call, ev_cons, evalCall .nil, go_va_token_some isNum ht]
  simp only [rinto_ok, writeBack, orStuck_some, into_ok, ev_nil, list_tuple]
  rw [h v t ht]
  rfl

theorem cut_nil (vs : Locals) (s : State) : Val.cut (.str []) (.int 0) (.int 1) vs s = .panic := rfl
theorem cut_cons (c : Char) (t : Str) (vs : Locals) (s : State) :
    Val.cut (.str (c :: t)) (.int 0) (.int 1) vs s = .ok (.str [c]) vs s := by
  have h : (0 : Int) ≤ 0 ∧ (0 : Int) ≤ 1 ∧ (1 : Int) ≤ ((c :: t).length : Nat) :=
    ⟨by omega, by omega, by simp only [List.length_cons]; omega⟩
  simp only [Val.cut, h, and_self, if_true]
  rfl

theorem S_dq : S "\"" = ['"'] := rfl
theorem S_sq : S "'" = ['\''] := rfl
theorem S_bq : S "`" = ['`'] := rfl
theorem decide_char (a b : Char) : decide ([a] = [b]) = (a == b) := by
  by_cases h : a = b
  · subst h; simp
  · simp [h]

/-! ### statements that change a variable -/

/-- What fuel `m` makes of a statement. -/
theorem exec_or (m : Nat) (b : Bool) (st : Stmt) (ℓ : Locals) (s : State) :
    ((side isNum m b).up = false ∧ (side isNum m b).X st ℓ s = .timeout) ∨ (side isNum m b).X st ℓ s = exe isNum st ℓ s := by
  cases b with
  | true => exact .inr rfl
  | false =>
    rcases Src.le_lim (bot := Out.timeout) (F := fun n => exec isNum (env isNum n) n st ℓ s) (fun n => exe_chain isNum st n ℓ s) m with h | h
    · exact .inl ⟨rfl, h⟩
    · exact .inr h

/-- A statement that looks at the token, and returns an error or goes on with other variables. -/
theorem Done.head {m : Nat} {H rest : Stmt} {ℓ : Locals} {bad : Str → Bool} {ℓ' : Str → Locals} {q : Str → Prog Unit}
    (h : ∀ (v : Validator) (t : Str), v.token = some t → exe isNum H ℓ (encV v) =
      cond (bad t) (.ok (.ret (.err v.line t)) ℓ (encV v)) (.ok .next (ℓ' t) (encV v)))
    (hr : ∀ t, Done isNum m rest (ℓ' t) (q t)) :
    Done isNum m (.seq H rest) ℓ (.token fun t => cond (bad t) .fail (q t)) := by
  intro b v hv
  obtain ⟨t, ht⟩ := hv.token
  rw [(side isNum m b).sem.seq]
  simp only [Validator.run, ht]
  rcases exec_or (isNum := isNum) m b H ℓ (encV v) with ⟨h1, h2⟩ | h2
  · rw [h2, h1]
    exact .inl rfl
  · rw [h2, h v t ht]
    cases bad t with
    | true => exact .inr (by simp only [cond_true, Validator.run, ht]; exact ⟨ℓ, rfl⟩)
    | false => exact hr t b v hv

theorem Done.assoc {m : Nat} {a b c : Stmt} {ℓ : Locals} {p : Prog Unit} (h : Done isNum m (.seq (.seq a b) c) ℓ p) :
    Done isNum m (.seq a (.seq b c)) ℓ p := by
  refine Run.same h ?_
  intro d s
  simp only [(side isNum m d).sem.seq]
  cases (side isNum m d).X a ℓ s with
  | ok r vs s =>
    cases r with
    | next => simp only [into_ok, next_then, (side isNum m d).sem.seq]
    | brk | cont | ret => rfl
  | panic | stuck | timeout => rfl

/-- A method that calls itself with other arguments. -/
theorem Fun.loopG {ι : Type} {f : Fn} (D : Decl) (hD : decl f = D) {args : ι → List Val} {ℓ : ι → Locals}
    (hps : ∀ vs, ptrVals D.params vs = some [])
    (hb : ∀ x, bindParams D.params (args x) = some (ℓ x)) {P : Nat → ι → Prog Unit} (h0 : ∀ x, P 0 x = .timeout)
    (h : ∀ n, (∀ x, Call isNum n f (args x) (P n x)) → ∀ x, Done isNum n D.body (ℓ x) (P (n + 1) x)) (x : ι) :
    Fun isNum f (args x) (fun n => P n x) := by
  constructor
  intro n
  induction n generalizing x with
  | zero => rw [h0]; exact fun v _ => ⟨.inl rfl, .inl rfl⟩
  | succ n ih => exact Call.ofBody hD hps (hb x) (h n ih x)

/-! ### the loop of validateCreateOther -/

/-- The body of the loop (validator_sqlite.go:152-169). -/
def otherBody : Stmt :=
  (.block (.seq (.ite (.call .va_isOutOfRange .nil)
                  (.block (.ret (.call .va_syntaxError .nil)))
                  .skip)
                (.seq (.ite (.call .va_matchToken (.cons (.lit (.kws ["BEGIN"])) .nil))
                    (.block (.assign (.var .«begin») (.lit (.bool true))))
                    .skip)
                  (.seq (.ite (.var .«begin»)
                      (.block (.ite (.call .va_matchToken (.cons (.lit (.kws ["END"])) .nil))
                          (.block (.assign (.var .«begin») (.lit (.bool false))))
                          .skip))
                      (.block (.ite (.call .va_matchToken (.cons (.lit (.kws [";"])) .nil))
                          (.block .brk)
                          .skip)))
                    (.expr (.call .va_next .nil))))))

theorem go_otherBody {v v' : Validator} {t u : Str} (ht : v.token = some t) (hn : v.next = some (u, v')) (b : Bool) :
    exe isNum otherBody [(.«begin», .bool b)] (encV v) =
      cond v.outOfRange (.ok (.ret (.err v.line t)) [(.«begin», .bool b)] (encV v))
        (cond (b || isKw ["BEGIN"] t) (.ok .next [(.«begin», .bool (!isKw ["END"] t))] (encV v'))
          (cond (isKw [";"] t) (.ok .brk [(.«begin», .bool false)] (encV v)) (.ok .next [(.«begin», .bool false)] (encV v')))) := by
  unfold otherBody
  go_simp
  rw [go_va_isOutOfRange]
  go_simp
  cases v.outOfRange
  · go_simp
    rw [go_va_matchToken isNum ht _ (by go_ascii)]
    go_simp
    cases b <;> cases isKw ["BEGIN"] t <;> go_simp <;> rw [go_va_matchToken isNum ht _ (by go_ascii)] <;> go_simp
    · cases isKw [";"] t <;> go_simp
      · rw [go_va_next isNum hn]
        go_simp
        rfl
      · rfl
    all_goals
      cases isKw ["END"] t <;> go_simp <;> rw [go_va_next isNum hn] <;> go_simp <;> rfl
  · go_simp
    rw [go_va_syntaxError isNum ht]
    go_simp

/-- What follows the loop (validator_sqlite.go:170-173). -/
def otherTail : Stmt :=
  (.seq (.block (.seq (.define (.var .err) (.call .va_validateToken (.cons (.lit (.bool false)) (.cons (.lit (.kws [";"])) .nil))))
                (.ite (.ne (.var .err) (.lit .nil))
                  (.block (.ret (.var .err)))
                  .skip)))
            (.ret (.lit .nil)))

theorem done_otherTail {m : Nat} {ℓ : Locals} : Done isNum m otherTail ℓ (V.validateToken false [";"]) := by
  apply Done.cast
  · unfold otherTail
    go_done Fun.at
  · go_eq []

theorem other_aux {m : Nat} (c : Bool) (L : Nat → Act Ctl) (h0 : (side isNum m c).up = false → L 0 = Act.timeout)
    (hs : ∀ k ℓ s, L (k + 1) ℓ s = ((side isNum m c).X otherBody ℓ s).into fun r vs s => r.again (L k) vs s) (k : Nat) :
    ∀ (v : Validator) (b : Bool), WF v → Ok (side isNum m c).up Returns0 (Validator.run (V.createOtherLoop k b) v)
      ((L k [(.«begin», .bool b)] (encV v)).into fun r vs s => r.andThen ((side isNum m c).X otherTail) vs s) := by
  induction k with
  | zero =>
    intro v b hv
    cases c with
    | true => exact .inl rfl
    | false => exact .inl (by rw [h0 rfl]; rfl)
  | succ k ih =>
    intro v b hv
    rw [hs]
    obtain ⟨t, ht⟩ := hv.token
    obtain ⟨u, v', hn, hv'⟩ := hv.next
    rcases exec_or (isNum := isNum) m c otherBody [(.«begin», .bool b)] (encV v) with ⟨h1, h2⟩ | h2
    · rw [h2, h1]
      exact .inl rfl
    · rw [h2, go_otherBody ht hn]
      simp only [V.createOtherLoop, V.ifM, V.isOutOfRange, V.matchToken, V.next, Prog.bind_eq, Prog.bind, Validator.run]
      cases v.outOfRange
      · simp only [cond_false, Validator.run, ht]
        cases hb : b || isKw ["BEGIN"] t
        · simp only [cond_false]
          cases he : isKw [";"] t
          · simp only [Validator.run, ht, he, hn, cond_false, into_ok, next_again]
            exact ih v' false hv'
          · simp only [Validator.run, ht, he, cond_true, into_ok, brk_again, next_then]
            exact done_otherTail c v hv
        · simp only [cond_true, Validator.run, ht, hn, into_ok, next_again]
          exact ih v' _ hv'
      · simp only [cond_true, V.syntaxError, Validator.run, ht, into_ok, ret_again, ret_then]
        exact .inr ⟨_, rfl⟩

theorem Done.other {m : Nat} (b : Bool) : Done isNum m (.seq (.loop (.lit (.bool true)) otherBody) otherTail) [(.«begin», .bool b)]
    (V.createOtherLoop m b) := by
  intro c v hv
  rw [(side isNum m c).sem.seq]
  cases c with
  | true =>
    refine other_aux (m := m) true (fun _ => exe isNum (.loop (.lit (.bool true)) otherBody)) (fun h => nomatch h) ?_ m v b hv
    intro k ℓ s
    rw [ex_loop]
    rfl
  | false =>
    refine other_aux (m := m) false (rounds (eval isNum (env isNum m) (.lit (.bool true))) (exec isNum (env isNum m) m otherBody))
      (fun _ => rfl) ?_ m v b hv
    intro k ℓ s
    rfl

/-! ### upper case -/

theorem Fun.same {f : Fn} {args : List Val} {P P' : Nat → Prog Unit} (h : Fun isNum f args P)
    (e : ∀ n v, Validator.run (P n) v = Validator.run (P' n) v) : Fun isNum f args P' :=
  ⟨fun n v hv => by rw [← e n v]; exact h.call n v hv⟩

theorem ascii_map {f : Char → Char} (hf : ∀ c : Char, c.toNat < 128 → (f c).toNat < 128) {t : Str} (h : Ascii t) : Ascii (t.map f) := by
  intro c hc
  obtain ⟨x, hx, rfl⟩ := List.mem_map.1 hc
  exact hf x (h x hx)

theorem lt_of_table {P : Char → Prop} (h : ∀ n : Fin 128, P (Char.ofNat n)) (c : Char) (hc : c.toNat < 128) : P c := by
  have := h ⟨c.toNat, hc⟩
  rwa [show Char.ofNat (⟨c.toNat, hc⟩ : Fin 128).val = c from Char.ofNat_toNat c] at this

theorem upC_ascii (c : Char) (hc : c.toNat < 128) : (upC c).toNat < 128 :=
  lt_of_table (P := fun c => (upC c).toNat < 128) (by decide +kernel) c hc
theorem lowC_ascii (c : Char) (hc : c.toNat < 128) : (lowC c).toNat < 128 :=
  lt_of_table (P := fun c => (lowC c).toNat < 128) (by decide +kernel) c hc

/-- A token that is a keyword is ASCII. -/
theorem isKw_ascii {ks : List String} (hl : asciiKws ks = true) {t : Str} (h : isKw ks t = true) : Ascii t := by
  have ha : ∀ k ∈ ks, Ascii (S k) := fun k hk c hc => by
    simpa using List.all_eq_true.1 (List.all_eq_true.1 hl k hk) c hc
  unfold isKw contains at h
  obtain ⟨x, hx, he⟩ := List.any_eq_true.1 h
  obtain rfl := eq_of_beq he
  rcases List.mem_append.1 hx with hx | hx <;> obtain ⟨k, hk, rfl⟩ := List.mem_map.1 hx
  · exact ascii_map lowC_ascii (ha k hk)
  · exact ascii_map upC_ascii (ha k hk)

/-- A plain name is ASCII. -/
theorem matchIdent_ascii {t : Str} (h : matchIdent t = true) : Ascii t := by
  cases t with
  | nil => exact nomatch h
  | cons c r =>
    have h1 : ∀ c : Char, isAlpha_ c = true → c.toNat < 128 := by
      intro c hc
      unfold isAlpha_ at hc
      simp only [Bool.or_eq_true, Bool.and_eq_true, decide_eq_true_eq, beq_iff_eq] at hc
      have e1 : 'z'.toNat = 122 := rfl
      have e2 : 'Z'.toNat = 90 := rfl
      rcases hc with (hc | hc) | rfl
      · omega
      · omega
      · decide
    have h2 : ∀ c : Char, isDig c = true → c.toNat < 128 := by
      intro c hc
      unfold isDig at hc
      simp only [Bool.and_eq_true, decide_eq_true_eq] at hc
      have e1 : '9'.toNat = 57 := rfl
      omega
    unfold matchIdent at h
    rw [Bool.and_eq_true, List.all_eq_true] at h
    intro x hx
    rcases List.mem_cons.1 hx with rfl | hx
    · exact h1 _ h.1
    · have := h.2 x hx
      rw [Bool.or_eq_true] at this
      exact this.elim (h1 x) (h2 x)

/-- Only the words that begin a constraint are looked at. -/
theorem run_columnConstraintsAux {kinds : List String} {key key' : Str → Str} (hk : ∀ t, isKw kinds t = true → key t = key' t)
    (one : Nat → Prog Unit) : ∀ (n : Nat) (ls : List Str) (v : Validator),
      Validator.run (V.columnConstraintsAux kinds key one n ls) v = Validator.run (V.columnConstraintsAux kinds key' one n ls) v := by
  intro n
  induction n with
  | zero => intro ls v; rfl
  | succ n ih =>
    intro ls v
    simp only [V.columnConstraintsAux, V.ifM, V.matchToken, Prog.bind, Validator.run]
    cases ht : v.token with
    | none => rfl
    | some t =>
      dsimp only
      cases h : isKw kinds t with
      | false => rfl
      | true =>
        simp only [cond_true, Validator.run, ht, hk t h]
        cases contains ls (key' t)
        · simp only [cond_false, Prog.bind_eq, vrun_bind]
          cases Validator.run (one (n + 1)) v with
          | ok a v' => exact ih _ _
          | _ => rfl
        · rfl

end DDL.Src

import Verif.Proof.GoConverterLow
import Verif.Proof.GoSqlite
import Verif.Proof.GoPostgres
import Verif.Proof.GoMysql
import Verif.Proof.ForceFacts
/-
The exported functions, from their syntax trees.
-/

set_option linter.unusedSectionVars false

namespace DDL.Src
open DDL Obj Spec

/-! ### results as values -/

theorem map_inj {enc : α → Val} (h : ∀ a b, enc a = enc b → a = b) : ∀ (l m : List α), l.map enc = m.map enc → l = m
  | [], [], _ => rfl
  | [], _ :: _, e => nomatch e
  | _ :: _, [], e => nomatch e
  | a :: l, b :: m, e => by
    rw [List.map_cons, List.map_cons] at e
    injection e with e1 e2
    rw [h a b e1, map_inj h l m e2]

theorem encSlice_inj {enc : α → Val} (h : ∀ a b, enc a = enc b → a = b) (l m : List α) (e : encSlice enc l = encSlice enc m) : l = m := by
  cases l with
  | nil =>
    cases m with
    | nil => rfl
    | cons b m => exact nomatch e
  | cons a l =>
    cases m with
    | nil => exact nomatch e
    | cons b m =>
      injection e with e
      exact map_inj h _ _ e

theorem encDefault_inj (a b : DefaultVal) (e : encDefault a = encDefault b) : a = b := by
  cases a <;> cases b <;> simp_all [encDefault]

theorem encReference_inj (a b : Reference) (e : encReference a = encReference b) : a = b := by
  obtain ⟨a1, a2⟩ := a
  obtain ⟨b1, b2⟩ := b
  cases a2 <;> cases b2 <;> simp_all [encReference]

theorem encDataType_inj (a b : DataType) (e : encDataType a = encDataType b) : a = b := by
  obtain ⟨a1, a2, a3⟩ := a
  obtain ⟨b1, b2, b3⟩ := b
  simp_all [encDataType]

theorem encConstraint_inj (a b : Constraint) (e : encConstraint a = encConstraint b) : a = b := by
  obtain ⟨a1, a2, a3, a4, a5, a6, a7, a8, a9⟩ := a
  obtain ⟨b1, b2, b3, b4, b5, b6, b7, b8, b9⟩ := b
  simp only [encConstraint, encConstraintF, Val.obj.injEq, List.cons.injEq, Prod.mk.injEq, true_and, and_true, Val.str.injEq,
    Val.bool.injEq] at e
  obtain ⟨rfl, rfl, rfl, rfl, rfl, h6, rfl, rfl, h9⟩ := e
  rw [encDefault_inj _ _ h6, encReference_inj _ _ h9]

theorem encColumn_inj (a b : Column) (e : encColumn a = encColumn b) : a = b := by
  obtain ⟨a1, a2, a3⟩ := a
  obtain ⟨b1, b2, b3⟩ := b
  simp only [encColumn, encColumnF, Val.obj.injEq, List.cons.injEq, Prod.mk.injEq, true_and, and_true, Val.str.injEq] at e
  obtain ⟨rfl, h2, h3⟩ := e
  rw [encDataType_inj _ _ h2, encConstraint_inj _ _ h3]

theorem encPrimaryKey_inj (a b : PrimaryKey) (e : encPrimaryKey a = encPrimaryKey b) : a = b := by
  obtain ⟨a1, a2⟩ := a
  obtain ⟨b1, b2⟩ := b
  simp_all [encPrimaryKey]

theorem encUnique_inj (a b : Unique) (e : encUnique a = encUnique b) : a = b := by
  obtain ⟨a1, a2⟩ := a
  obtain ⟨b1, b2⟩ := b
  simp_all [encUnique]

theorem encCheck_inj (a b : Check) (e : encCheck a = encCheck b) : a = b := by
  obtain ⟨a1, a2⟩ := a
  obtain ⟨b1, b2⟩ := b
  simp_all [encCheck]

theorem encForeignKey_inj (a b : ForeignKey) (e : encForeignKey a = encForeignKey b) : a = b := by
  obtain ⟨a1, a2, a3⟩ := a
  obtain ⟨b1, b2, b3⟩ := b
  simp only [encForeignKey, Val.obj.injEq, List.cons.injEq, Prod.mk.injEq, true_and, and_true, Val.str.injEq, Val.strs.injEq] at e
  obtain ⟨rfl, rfl, h3⟩ := e
  rw [encReference_inj _ _ h3]

theorem encTableConstraint_inj (a b : TableConstraint) (e : encTableConstraint a = encTableConstraint b) : a = b := by
  obtain ⟨a1, a2, a3, a4⟩ := a
  obtain ⟨b1, b2, b3, b4⟩ := b
  simp only [encTableConstraint, encTableConstraintF, Val.obj.injEq, List.cons.injEq, Prod.mk.injEq, true_and, and_true] at e
  obtain ⟨h1, h2, h3, h4⟩ := e
  rw [encSlice_inj encPrimaryKey_inj _ _ h1, encSlice_inj encUnique_inj _ _ h2, encSlice_inj encCheck_inj _ _ h3,
    encSlice_inj encForeignKey_inj _ _ h4]

theorem encTable_inj (a b : Table) (e : encTable a = encTable b) : a = b := by
  obtain ⟨a1, a2, a3, a4, a5⟩ := a
  obtain ⟨b1, b2, b3, b4, b5⟩ := b
  simp only [encTable, encTableF, Val.obj.injEq, List.cons.injEq, Prod.mk.injEq, true_and, and_true, Val.str.injEq,
    Val.bool.injEq] at e
  obtain ⟨rfl, rfl, rfl, h4, h5⟩ := e
  rw [encSlice_inj encColumn_inj _ _ h4, encTableConstraint_inj _ _ h5]

theorem encErr_inj (a b : Option VErr) (e : encErr a = encErr b) : a = b := by
  cases a with
  | none =>
    cases b with
    | none => rfl
    | some b => exact nomatch e
  | some a =>
    cases b with
    | none => exact nomatch e
    | some b =>
      obtain ⟨a1, a2⟩ := a
      obtain ⟨b1, b2⟩ := b
      simp only [encErr, Val.err.injEq] at e
      obtain ⟨h1, rfl⟩ := e
      have : a1 = b1 := by omega
      rw [this]

/-- Different results are different values. -/
theorem encResult_inj (a b : List Table × Option VErr) (e : encResult a = encResult b) : a = b := by
  obtain ⟨a1, a2⟩ := a
  obtain ⟨b1, b2⟩ := b
  simp only [encResult, Val.tuple.injEq, List.cons.injEq, Val.slice.injEq, and_true] at e
  rw [map_inj encTable_inj _ _ e.1, encErr_inj _ _ e.2]

/-! ### Validate -/

variable [CaseMap] (isNum : Str → Bool)

/-- The type of the validator of a dialect. -/
def vType : Rdbms → Ty
  | .postgres => .postgresqlValidator
  | .mysql => .mysqlValidator
  | _ => .sqliteValidator

/-- Its method `Validate`. -/
def vFn : Rdbms → Fn
  | .postgres => .pg_Validate
  | .mysql => .my_Validate
  | _ => .sq_Validate

/-- Its method `validate`. -/
def vRun : Rdbms → Fn
  | .postgres => .pg_validate
  | .mysql => .my_validate
  | _ => .sq_validate

/-- A new validator. -/
def v0 : State := [(.tokens, .nil), (.size, .int 0), (.i, .int 0), (.line, .int 0), (.result, .nil)]

/-- The syntax tree of `Validate`. -/
def vTree (F : Fn) : Decl :=
  { params := [(.tokens, false)]
    body := (.seq (.expr (.call .va_init (.cons (.var .tokens) .nil)))
      (.seq (.block (.seq (.define (.var .err) (.call F .nil))
            (.ite (.ne (.var .err) (.lit .nil))
              (.block (.ret (.tuple (.cons (.lit .nil) (.cons (.var .err) .nil)))))
              .skip)))
        (.ret (.tuple (.cons (.field .result) (.cons (.lit .nil) .nil)))))) }

theorem vTree_eq (d : Rdbms) : decl (vFn d) = vTree (vRun d) := by cases d <;> rfl

theorem vRun_call (d : Rdbms) (n : Nat) : Call isNum n (vRun d) [] (validateProg isNum d n) := by
  cases d with
  | postgres => exact fun_pg_validate.call n
  | mysql => exact fun_my_validate.call n
  | sqlite => exact fun_sq_validate.call n
  | other => exact fun_sq_validate.call n

theorem encV_result (v : Validator) : look .result (encV v) = some (.strs v.result) := rfl

theorem go_Validate (d : Rdbms) (n : Nat) (tokens : List Str) :
    match validateN isNum d n tokens with
    | .ok ts => ∃ s, go isNum (vFn d) [.strs tokens] v0 = .ok (.tuple [.strs ts, .nil]) [] s
    | .err e => ∃ s, go isNum (vFn d) [.strs tokens] v0 = .ok (.tuple [.nil, .err e.line e.near]) [] s
    | _ => True := by
  obtain ⟨v, hv, hR⟩ := Validator.init_R tokens { tokens := [], size := 0, i := 0, line := 0, result := [] }
  have hi := go_va_init isNum tokens _ v hv v0 ⟨_, _, _, _, _, rfl⟩
  have hc := (vRun_call isNum d n v ⟨_, hR⟩).2
  have hs := Validator.run_sim (validateProg isNum d n) v _ hR
  rw [go_def isNum _ _ (vTree_eq d) _ _ _ rfl]
  simp only [vTree]
  unfold validateN
  revert hs hc
  generalize Validator.run (validateProg isNum d n) v = x
  generalize run (validateProg isNum d n) (VS.init tokens) = y
  intro hc hs
  cases hs with
  | @ok a s1 _ h =>
    rcases hc with hc | hc
    · exact nomatch hc
    · refine ⟨encV s1, ?_⟩
      go_simp [hi, ← hc, retOf, encV_result, h.result]
  | @fail e s1 _ h =>
    rcases hc with hc | hc
    · exact nomatch hc
    · refine ⟨encV s1, ?_⟩
      go_simp [hi, ← hc, retOf]
  | panic => trivial
  | timeout => trivial

theorem dead_Validate (d : Rdbms) (tokens : List Str) (h : ∀ n, validateN isNum d n tokens = .timeout) :
    go isNum (vFn d) [.strs tokens] v0 = .timeout := by
  obtain ⟨v, hv, hR⟩ := Validator.init_R tokens { tokens := [], size := 0, i := 0, line := 0, result := [] }
  have hi := go_va_init isNum tokens _ v hv v0 ⟨_, _, _, _, _, rfl⟩
  have g : go isNum (vRun d) [] (encV v) = .timeout := by
    refine go_dead isNum fun n => ?_
    have hc := (vRun_call isNum d n v ⟨_, hR⟩).1
    have hs := Validator.run_sim (validateProg isNum d n) v _ hR
    have hn := h n
    unfold validateN at hn
    revert hs hc hn
    generalize Validator.run (validateProg isNum d n) v = x
    generalize run (validateProg isNum d n) (VS.init tokens) = y
    intro hc hs hn
    cases hs with
    | timeout => exact hc.elim id id
    | ok a h => exact nomatch hn
    | fail e h => exact nomatch hn
    | panic => exact nomatch hn
  rw [go_def isNum _ _ (vTree_eq d) _ _ _ rfl]
  simp only [vTree]
  go_simp [hi, g]

/-! ### constructors -/

theorem go_NewValidator (d : Rdbms) (s : State) : go isNum .va_NewValidator [.rdbms d] s = .ok (.obj (vType d) v0) [] s := by
  have h1 : go isNum .pg_NewPostgreSQLValidator [] s = .ok (.obj .postgresqlValidator v0) [] s := by
    rw [go_def isNum _ Tree.pg_NewPostgreSQLValidator rfl _ _ _ rfl]
    simp only [Tree.pg_NewPostgreSQLValidator]
    go_simp
    rfl
  have h2 : go isNum .my_NewMySQLValidator [] s = .ok (.obj .mysqlValidator v0) [] s := by
    rw [go_def isNum _ Tree.my_NewMySQLValidator rfl _ _ _ rfl]
    simp only [Tree.my_NewMySQLValidator]
    go_simp
    rfl
  have h3 : go isNum .sq_NewSQLiteValidator [] s = .ok (.obj .sqliteValidator v0) [] s := by
    rw [go_def isNum _ Tree.sq_NewSQLiteValidator rfl _ _ _ rfl]
    simp only [Tree.sq_NewSQLiteValidator]
    go_simp
    rfl
  rw [go_def isNum _ Tree.va_NewValidator rfl _ _ _ rfl]
  simp only [Tree.va_NewValidator]
  cases d <;> go_simp [h1, h2, h3, decide_true, decide_false] <;> rfl

/-- A new lexer. -/
def l0 (d : Rdbms) : State := [(.rdbms, .rdbms d), (.ddlr, .nil), (.size, .int 0), (.i, .int 0), (.line, .int 0), (.result, .nil)]

theorem go_NewLexer (d : Rdbms) (s : State) : go isNum .lx_NewLexer [.rdbms d] s = .ok (.obj .lexer (l0 d)) [] s := by
  rw [go_def isNum _ Tree.lx_NewLexer rfl _ _ _ rfl]
  simp only [Tree.lx_NewLexer]
  go_simp
  rfl

/-- A new converter. -/
def c0 (d : Rdbms) : State := [(.rdbms, .rdbms d), (.tokens, .nil), (.size, .int 0), (.i, .int 0), (.result, .nil)]

theorem go_NewConverter (d : Rdbms) (s : State) : go isNum .cv_NewConverter [.rdbms d] s = .ok (.obj .converter (c0 d)) [] s := by
  rw [go_def isNum _ Tree.cv_NewConverter rfl _ _ _ rfl]
  simp only [Tree.cv_NewConverter]
  go_simp
  rfl

/-! ### Parse -/

theorem impl_v (d : Rdbms) : impl (vType d) .Validate = some (vFn d) := by cases d <;> rfl

theorem inv_ok {E : Env} {x : Var} {m : Mth} {args : List Val} {vs vs' : Locals} {s : State} {t : Ty} {fs fs' : State} {f : Fn}
    {v : Val} (h1 : look x vs = some (.obj t fs)) (h2 : impl t m = some f) (h3 : E f args fs = .ok v [] fs')
    (h4 : upd x (.obj t fs') vs = some vs') : invoke E x m args vs s = .ok v vs' s := by
  unfold invoke
  simp only [h1, h2, h3, h4]

theorem inv_timeout {E : Env} {x : Var} {m : Mth} {args : List Val} {vs : Locals} {s : State} {t : Ty} {fs : State} {f : Fn}
    (h1 : look x vs = some (.obj t fs)) (h2 : impl t m = some f) (h3 : E f args fs = .timeout) :
    invoke E x m args vs s = .timeout := by
  unfold invoke
  simp only [h1, h2, h3]

theorem go_Parse_lexErr (d : Rdbms) (ddl : Str) (n : Nat) (e : VErr) (h : Lex.lexN d n ddl = .err e) :
    go isNum .dp_Parse [.str ddl, .rdbms d] [] = .ok (encResult ([], some e)) [] [] := by
  have hl := go_lx_Lex d isNum n ddl .nil (.int 0) (.int 0) (.int 0) .nil
  rw [h] at hl
  obtain ⟨s, hl⟩ := hl
  rw [go_def isNum _ Tree.dp_Parse rfl _ _ _ rfl]
  simp only [Tree.dp_Parse]
  have i1 := inv_ok (E := go isNum) (x := .l) (m := .Lex) (args := [.str ddl])
    (vs := [(.c, .obj .converter (c0 d)), (.v, .obj (vType d) v0), (.l, .obj .lexer (l0 d)), (.ddl, .str ddl), (.rdbms, .rdbms d)])
    (s := []) rfl rfl hl rfl
  go_simp [go_NewLexer, go_NewValidator, go_NewConverter, i1]
  rfl

/-- The variables of `Parse` after the lexer returned `ts`. -/
def afterLex (d : Rdbms) (ddl : Str) (s : State) (ts : List Str) : Locals :=
  [(.err, .nil), (.tokens, .strs ts), (.c, .obj .converter (c0 d)), (.v, .obj (vType d) v0), (.l, .obj .lexer s),
    (.ddl, .str ddl), (.rdbms, .rdbms d)]

/-- The rest of `Parse`. -/
def afterLexS : Stmt := Tree.dp_Parse.body.two.two.two.two.two

theorem go_Parse_lexed (d : Rdbms) (ddl : Str) (n : Nat) (ts : List Str) (h : Lex.lexN d n ddl = .ok ts) :
    ∃ s, go isNum .dp_Parse [.str ddl, .rdbms d] [] = finish Tree.dp_Parse.params (exe isNum afterLexS (afterLex d ddl s ts) []) := by
  have hl := go_lx_Lex d isNum n ddl .nil (.int 0) (.int 0) (.int 0) .nil
  rw [h] at hl
  obtain ⟨s, hl⟩ := hl
  refine ⟨s, ?_⟩
  rw [go_def isNum _ Tree.dp_Parse rfl _ _ _ rfl]
  have i1 := inv_ok (E := go isNum) (x := .l) (m := .Lex) (args := [.str ddl])
    (vs := [(.c, .obj .converter (c0 d)), (.v, .obj (vType d) v0), (.l, .obj .lexer (l0 d)), (.ddl, .str ddl), (.rdbms, .rdbms d)])
    (s := []) rfl rfl hl rfl
  have hb : Tree.dp_Parse.body = .seq _ (.seq _ (.seq _ (.seq _ (.seq _ afterLexS)))) := rfl
  rw [hb]
  generalize afterLexS = A
  go_simp [go_NewLexer, go_NewValidator, go_NewConverter, i1]
  rfl

/-- `Parse` returns what the model returns. -/
theorem go_Parse (d : Rdbms) (ddl : Str) (r : List Table × Option VErr) (h : Returns isNum ddl d r) :
    go isNum .dp_Parse [.str ddl, .rdbms d] [] = .ok (encResult r) [] [] := by
  obtain ⟨n, h⟩ := h
  unfold parseN at h
  cases hl : Lex.lexN d n ddl with
  | panic => rw [hl] at h; exact nomatch h
  | timeout => rw [hl] at h; exact nomatch h
  | err e =>
    rw [hl] at h
    cases h
    exact go_Parse_lexErr isNum d ddl n e hl
  | ok ts =>
    rw [hl] at h
    simp only at h
    obtain ⟨s, g⟩ := go_Parse_lexed isNum d ddl n ts hl
    rw [g]
    have hv := go_Validate isNum d n ts
    cases hr : validateN isNum d n ts with
    | panic => rw [hr] at h; exact nomatch h
    | timeout => rw [hr] at h; exact nomatch h
    | err e =>
      rw [hr] at h hv
      cases h
      obtain ⟨s', hv⟩ := hv
      have i1 := inv_ok (E := go isNum) (x := .v) (m := .Validate) (args := [.strs ts]) (vs := afterLex d ddl s ts)
        (s := []) rfl (impl_v d) hv rfl
      unfold afterLex at i1
      simp only [afterLexS, Tree.dp_Parse, Stmt.two, afterLex]
      go_simp [i1]
      rfl
    | ok out =>
      rw [hr] at h hv
      simp only at h
      obtain ⟨s', hv⟩ := hv
      have i1 := inv_ok (E := go isNum) (x := .v) (m := .Validate) (args := [.strs ts]) (vs := afterLex d ddl s ts)
        (s := []) rfl (impl_v d) hv rfl
      cases hc : C.convert isNum d n [] out with
      | panic => simp only [convertN, hc] at h; exact nomatch h
      | timeout => simp only [convertN, hc] at h; exact nomatch h
      | ok tb rest =>
        simp only [convertN, hc] at h
        cases h
        obtain ⟨s2, g2⟩ := go_cv_Convert d isNum n out rest tb hc .nil (.int 0) (.int 0) .nil
        have i2 := inv_ok (E := go isNum) (x := .c) (m := .Convert) (args := [.strs out])
          (vs := (.err, .nil) :: (.validatedTokens, .strs out) :: [(.err, .nil), (.tokens, .strs ts),
            (.c, .obj .converter (c0 d)), (.v, .obj (vType d) s'), (.l, .obj .lexer s), (.ddl, .str ddl), (.rdbms, .rdbms d)])
          (s := []) rfl rfl g2 rfl
        unfold afterLex at i1
        simp only [afterLexS, Tree.dp_Parse, Stmt.two, afterLex]
        go_simp [i1, i2]
        rfl

/-- `Parse` does not return where the model does not. -/
theorem dead_Parse (d : Rdbms) (ddl : Str) (h : Hangs isNum ddl d) : go isNum .dp_Parse [.str ddl, .rdbms d] [] = .timeout := by
  rcases lexes_or_fails d ddl with ⟨ts, k, hk⟩ | ⟨e, k, hk⟩
  · obtain ⟨s, g⟩ := go_Parse_lexed isNum d ddl k ts hk
    rw [g]
    by_cases hv : ∀ n, validateN isNum d n ts = .timeout
    · have i1 := inv_timeout (E := go isNum) (x := .v) (m := .Validate) (args := [.strs ts]) (vs := afterLex d ddl s ts)
        (s := []) rfl (impl_v d) (dead_Validate isNum d ts hv)
      unfold afterLex at i1
      simp only [afterLexS, Tree.dp_Parse, Stmt.two, afterLex]
      go_simp [i1]
    · obtain ⟨j, hj⟩ := Classical.not_forall.1 hv
      have hv := go_Validate isNum d j ts
      cases hr : validateN isNum d j ts with
      | timeout => exact absurd hr hj
      | panic => exact absurd hr (validateN_ne_panic (lexN_good hk))
      | err e =>
        have := h (max k j)
        unfold parseN at this
        rw [Lexes.mono hk (Nat.le_max_left k j)] at this
        simp only [Rejects.mono hr (Nat.le_max_right k j)] at this
        exact nomatch this
      | ok out =>
        rw [hr] at hv
        obtain ⟨s', hv⟩ := hv
        have i1 := inv_ok (E := go isNum) (x := .v) (m := .Validate) (args := [.strs ts]) (vs := afterLex d ddl s ts)
          (s := []) rfl (impl_v d) hv rfl
        have hc : ∀ n, C.convert isNum d n [] out = .timeout := by
          intro n
          have e := h (max (max k j) n)
          unfold parseN at e
          rw [Lexes.mono hk (by omega)] at e
          simp only [Validates.mono hr (show j ≤ max (max k j) n by omega)] at e
          rcases C.convert_mono isNum d (Nat.le_max_right (max k j) n) [] out with e' | e'
          · exact e'
          · rw [e']
            unfold convertN at e
            cases hx : C.convert isNum d (max (max k j) n) [] out with
            | timeout => rfl
            | panic => rw [hx] at e; exact nomatch e
            | ok a b => rw [hx] at e; exact nomatch e
        have i2 := inv_timeout (E := go isNum) (x := .c) (m := .Convert) (args := [.strs out])
          (vs := (.err, .nil) :: (.validatedTokens, .strs out) :: [(.err, .nil), (.tokens, .strs ts),
            (.c, .obj .converter (c0 d)), (.v, .obj (vType d) s'), (.l, .obj .lexer s), (.ddl, .str ddl), (.rdbms, .rdbms d)])
          (s := []) rfl rfl (dead_Convert d isNum out hc .nil (.int 0) (.int 0) .nil)
        unfold afterLex at i1
        simp only [afterLexS, Tree.dp_Parse, Stmt.two, afterLex]
        go_simp [i1, i2]
  · have := h k
    unfold parseN at this
    rw [hk] at this
    exact nomatch this

/-! ### ParseForce and the three others -/

theorem go_ParseSQLite (ddl : Str) : go isNum .dp_ParseSQLite [.str ddl] [] = go isNum .dp_Parse [.str ddl, .rdbms .sqlite] [] := by
  rw [go_def isNum _ Tree.dp_ParseSQLite rfl _ _ _ rfl]
  simp only [Tree.dp_ParseSQLite]
  rcases returns_or_hangs isNum ddl .sqlite with ⟨r, h⟩ | h
  · go_simp [go_Parse isNum _ _ _ h]
  · go_simp [dead_Parse isNum _ _ h]

theorem go_ParsePostgreSQL (ddl : Str) : go isNum .dp_ParsePostgreSQL [.str ddl] [] = go isNum .dp_Parse [.str ddl, .rdbms .postgres] [] := by
  rw [go_def isNum _ Tree.dp_ParsePostgreSQL rfl _ _ _ rfl]
  simp only [Tree.dp_ParsePostgreSQL]
  rcases returns_or_hangs isNum ddl .postgres with ⟨r, h⟩ | h
  · go_simp [go_Parse isNum _ _ _ h]
  · go_simp [dead_Parse isNum _ _ h]

theorem go_ParseMySQL (ddl : Str) : go isNum .dp_ParseMySQL [.str ddl] [] = go isNum .dp_Parse [.str ddl, .rdbms .mysql] [] := by
  rw [go_def isNum _ Tree.dp_ParseMySQL rfl _ _ _ rfl]
  simp only [Tree.dp_ParseMySQL]
  rcases returns_or_hangs isNum ddl .mysql with ⟨r, h⟩ | h
  · go_simp [go_Parse isNum _ _ _ h]
  · go_simp [dead_Parse isNum _ _ h]

/-- The body of the loop of `ParseForce`. -/
def pfBody : Stmt := match Tree.dp_ParseForce.body.two.two with
  | .seq (.range _ _ b) _ => b
  | _ => .skip

theorem pf_body : Tree.dp_ParseForce.body = .seq (.define (.var .ls) (.lit (.slice [.rdbms .sqlite, .rdbms .postgres, .rdbms .mysql])))
    (.seq (.define (.var .err) (.lit .nil)) (.seq (.range .rdbms (.var .ls) pfBody)
      (.ret (.tuple (.cons (.lit (.slice [])) (.cons (.var .err) .nil)))))) := rfl

/-- The variables in the loop of `ParseForce`. -/
def pfVars (ddl : Str) : Locals :=
  [(.err, .nil), (.ls, .slice [.rdbms .sqlite, .rdbms .postgres, .rdbms .mysql]), (.ddl, .str ddl)]

theorem pf_ok (ddl : Str) (d : Rdbms) (t : List Table) (h : Returns isNum ddl d (t, none)) :
    exe isNum pfBody ((.rdbms, .rdbms d) :: pfVars ddl) [] =
      .ok (.ret (encResult (t, none))) ((.rdbms, .rdbms d) :: pfVars ddl) [] := by
  have g := go_Parse isNum d ddl _ h
  unfold encResult encErr at g
  simp only at g
  simp only [pfBody, Tree.dp_ParseForce, Stmt.two, pfVars]
  go_simp [g]
  rfl

theorem pf_err (ddl : Str) (d : Rdbms) (t : List Table) (e : VErr) (h : Returns isNum ddl d (t, some e)) :
    exe isNum pfBody ((.rdbms, .rdbms d) :: pfVars ddl) [] = .ok .next ((.rdbms, .rdbms d) :: pfVars ddl) [] := by
  have g := go_Parse isNum d ddl _ h
  unfold encResult encErr at g
  simp only at g
  simp only [pfBody, Tree.dp_ParseForce, Stmt.two, pfVars]
  go_simp [g]

theorem pf_hang (ddl : Str) (d : Rdbms) (h : Hangs isNum ddl d) :
    exe isNum pfBody ((.rdbms, .rdbms d) :: pfVars ddl) [] = .timeout := by
  have g := dead_Parse isNum d ddl h
  simp only [pfBody, Tree.dp_ParseForce, Stmt.two, pfVars]
  go_simp [g]

theorem pf_drop (ddl : Str) (x : Var × Val) : (x :: pfVars ddl).drop ((x :: pfVars ddl).length - (pfVars ddl).length) = pfVars ddl := rfl

theorem pf_each (ddl : Str) (ds : List Rdbms) :
    (∃ t n, parseForceLoop isNum n ddl ds = .ok (t, none) ∧
      (each .rdbms (exe isNum pfBody) (ds.map .rdbms) (pfVars ddl) [] = .ok (.ret (encResult (t, none))) (pfVars ddl) [] ∨
        (t = [] ∧ each .rdbms (exe isNum pfBody) (ds.map .rdbms) (pfVars ddl) [] = .ok .next (pfVars ddl) []))) ∨
    ((∀ n, parseForceLoop isNum n ddl ds = .timeout) ∧
      each .rdbms (exe isNum pfBody) (ds.map .rdbms) (pfVars ddl) [] = .timeout) := by
  induction ds with
  | nil => exact .inl ⟨[], 0, rfl, .inr ⟨rfl, rfl⟩⟩
  | cons d ds ih =>
    simp only [List.map_cons]
    rcases returns_or_hangs isNum ddl d with ⟨⟨t, e⟩, h⟩ | h
    · cases e with
      | none =>
        have g := pf_ok isNum ddl d t h
        obtain ⟨n, h⟩ := h
        refine .inl ⟨t, n, ?_, .inl ?_⟩
        · simp only [parseForceLoop, h]
        · simp only [each_cons, into_ok, g, pf_drop, ret_again]
      | some e =>
        have g := pf_err isNum ddl d t e h
        obtain ⟨n, h⟩ := h
        have hs : each .rdbms (exe isNum pfBody) (.rdbms d :: ds.map .rdbms) (pfVars ddl) [] =
            each .rdbms (exe isNum pfBody) (ds.map .rdbms) (pfVars ddl) [] := by
          simp only [each_cons, into_ok, g, pf_drop, next_again]
        rw [hs]
        have hp : ∀ m, n ≤ m → parseForceLoop isNum m ddl (d :: ds) = parseForceLoop isNum m ddl ds := by
          intro m hm
          rcases parseN_mono isNum d hm ddl with e' | e'
          · rw [h] at e'; exact nomatch e'
          · simp only [parseForceLoop, ← e', h]
        rcases ih with ⟨t, m, h1, h2⟩ | ⟨h1, h2⟩
        · refine .inl ⟨t, max n m, ?_, h2⟩
          rw [hp _ (Nat.le_max_left n m)]
          rcases forceLoop_mono isNum (Nat.le_max_right n m) ddl ds with e' | e'
          · rw [h1] at e'; exact nomatch e'
          · rw [← e', h1]
        · refine .inr ⟨fun m => ?_, h2⟩
          rcases forceLoop_mono isNum (Nat.le_max_right n m) ddl (d :: ds) with e' | e'
          · exact e'
          · rw [e', hp _ (Nat.le_max_left n m), h1]
    · have g := pf_hang isNum ddl d h
      refine .inr ⟨fun n => ?_, ?_⟩
      · simp only [parseForceLoop, h n]
      · simp only [each_cons, g, into_timeout]

/-- `ParseForce`, whole. -/
theorem go_ParseForce (ddl : Str) :
    (∃ r, ForceReturns isNum ddl r ∧ go isNum .dp_ParseForce [.str ddl] [] = .ok (encResult r) [] []) ∨
    ((∀ n, parseForceN isNum n ddl = .timeout) ∧ go isNum .dp_ParseForce [.str ddl] [] = .timeout) := by
  rw [go_def isNum _ Tree.dp_ParseForce rfl _ _ _ rfl, pf_body]
  have hv : ([(.err, .nil), (.ls, .slice [.rdbms .sqlite, .rdbms .postgres, .rdbms .mysql]), (.ddl, .str ddl)] : Locals) = pfVars ddl := rfl
  have h3 := pf_each isNum ddl [.sqlite, .postgres, .mysql]
  revert h3
  generalize hR : each .rdbms (exe isNum pfBody) ([Rdbms.sqlite, .postgres, .mysql].map .rdbms) (pfVars ddl) [] = R
  intro h3
  have hx : exe isNum (.range .rdbms (.var .ls) pfBody) (pfVars ddl) [] = R := by
    rw [ex_range, ← hR]
    rfl
  generalize Stmt.range .rdbms (.var .ls) pfBody = L at hx
  rcases h3 with ⟨t, n, h1, h2 | ⟨rfl, h2⟩⟩ | ⟨h1, h2⟩
  · refine .inl ⟨_, ⟨n, h1⟩, ?_⟩
    go_simp [hv, hx, h2]
    rfl
  · refine .inl ⟨_, ⟨n, h1⟩, ?_⟩
    go_simp [hv, hx, h2]
    rfl
  · refine .inr ⟨h1, ?_⟩
    go_simp [hv, hx, h2]

end DDL.Src

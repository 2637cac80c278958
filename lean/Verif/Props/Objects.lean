import Verif.Proof.Objects
import Verif.Proof.ParseFacts
import Verif.Spec.Session
/-
C39 Parser objects carry no state between calls; C01 at the level of Go's index arithmetic.
-/

namespace DDL.Props
open DDL Spec

theorem lexer_answer (n : Nat) (ddl : List Char) (l : Obj.Lexer) :
    answer (l.Lex n ddl) = answer ((Obj.Lexer.new l.rdbms).Lex n ddl) := by
  have h1 := Obj.Lexer.Lex_eq n ddl l
  have h2 := Obj.Lexer.Lex_eq n ddl (Obj.Lexer.new l.rdbms)
  revert h1 h2
  generalize l.Lex n ddl = x
  generalize (Obj.Lexer.new l.rdbms).Lex n ddl = y
  show _ → (match y with
    | .ok ts l' => DDL.Lex.lexN l.rdbms n ddl = .ok ts ∧ l'.rdbms = l.rdbms
    | .fail e l' => DDL.Lex.lexN l.rdbms n ddl = .err e ∧ l'.rdbms = l.rdbms
    | .panic => DDL.Lex.lexN l.rdbms n ddl = .panic
    | .timeout => DDL.Lex.lexN l.rdbms n ddl = .timeout) → _
  generalize DDL.Lex.lexN l.rdbms n ddl = z
  intro h1 h2
  cases x <;> cases y <;> simp only at h1 h2 <;> grind [answer]

/-- C39 (Lex). A lexer object that has been used for any number of calls, successful or not,
answers every further call as a new one. -/
theorem C39_lexer {d : Rdbms} {l : Obj.Lexer} (h : Used (Obj.Lexer.new d) Obj.Lexer.Lex l)
    (n : Nat) (ddl : List Char) :
    answer (l.Lex n ddl) = answer ((Obj.Lexer.new d).Lex n ddl) := by
  have hd : l.rdbms = d := by
    induction h with
    | fresh => rfl
    | @value s s' n x a _ e ih =>
      have h1 := Obj.Lexer.Lex_eq n x s
      rw [e] at h1
      exact h1.2.trans ih
    | @error s s' n x er _ e ih =>
      have h1 := Obj.Lexer.Lex_eq n x s
      rw [e] at h1
      exact h1.2.trans ih
  rw [lexer_answer, hd]

/-- A lexer that failed in the middle of a string: its fields are not those of a new lexer. -/
example : Used (Obj.Lexer.new .sqlite) Obj.Lexer.Lex
    ⟨.sqlite, "ab\n 'cd".toList, 7, 7, 2, [S "ab", S "\n"]⟩ :=
  .error (n := 100) (x := "ab\n 'cd".toList) (e := ⟨2, EOF⟩) .fresh (by decide +kernel)

/-- C39 (Validate). The answer of a validator object does not depend on its fields at all, so
not on any history of calls. -/
theorem C39_validator (isNum : Str → Bool) (d : Rdbms) (v : Obj.Validator) (n : Nat)
    (tokens : List Str) :
    answer (v.Validate isNum d n tokens) =
      answer (Obj.Validator.new.Validate isNum d n tokens) := by
  have h1 := Obj.Validator.Validate_eq isNum d n tokens v
  have h2 := Obj.Validator.Validate_eq isNum d n tokens Obj.Validator.new
  revert h1 h2
  generalize v.Validate isNum d n tokens = x
  generalize Obj.Validator.new.Validate isNum d n tokens = y
  generalize validateN isNum d n tokens = z
  intro h1 h2
  cases x <;> cases y <;> simp only at h1 h2 <;> grind [answer]

/-- A validator that failed at its third token: such a state does occur. -/
example : Used Obj.Validator.new (Obj.Validator.Validate simpleNum .sqlite)
    ⟨[S "CREATE", S "TABLE", S ";"], 3, 2, 1, [S "CREATE", S "TABLE"]⟩ :=
  .error (n := 100) (x := [S "CREATE", S "TABLE", S ";"]) (e := ⟨1, S ";"⟩) .fresh
    (by decide +kernel)

/-- C39 (Convert). A used converter object answers as a new one. -/
theorem C39_converter [CaseMap] (isNum : Str → Bool) {d : Rdbms} {c : Obj.Converter}
    (h : Used (Obj.Converter.new d) (Obj.Converter.Convert isNum) c) (n : Nat)
    (tokens : List Str) :
    answer (c.Convert isNum n tokens) =
      answer ((Obj.Converter.new d).Convert isNum n tokens) := by
  have hd : c.rdbms = d := by
    induction h with
    | fresh => rfl
    | @value s s' n x a _ e ih =>
      have h1 := Obj.Converter.Convert_eq isNum n x s
      rw [e] at h1
      exact h1.2.trans ih
    | @error s s' n x er _ e ih =>
      have h1 := Obj.Converter.Convert_eq isNum n x s
      rw [e] at h1
      exact h1.elim
  have h1 := Obj.Converter.Convert_eq isNum n tokens c
  have h2 := Obj.Converter.Convert_eq isNum n tokens (Obj.Converter.new d)
  rw [hd] at h1
  revert h1 h2
  generalize c.Convert isNum n tokens = x
  generalize (Obj.Converter.new d).Convert isNum n tokens = y
  show _ → (match y with
    | .ok ts c' => convertN isNum d n tokens = .ok ts ∧ c'.rdbms = d
    | .fail _ _ => False
    | .panic => convertN isNum d n tokens = .panic
    | .timeout => convertN isNum d n tokens = .timeout) → _
  generalize convertN isNum d n tokens = z
  intro h1 h2
  cases x <;> cases y <;> simp only at h1 h2 <;> grind [answer]

/-- A converter that has made a table. -/
example : Used (Obj.Converter.new .sqlite) (Obj.Converter.Convert simpleNum)
    ⟨.sqlite, [S "CREATE", S "TABLE", S "tt", S "(", S "aa", S "TEXT", S ")", S ";"], 8, 8,
      [⟨[], S "tt", false, [⟨S "aa", ⟨S "TEXT", 0, 0⟩, {}⟩], {}⟩]⟩ :=
  .value (n := 100)
    (x := [S "CREATE", S "TABLE", S "tt", S "(", S "aa", S "TEXT", S ")", S ";"])
    (a := [⟨[], S "tt", false, [⟨S "aa", ⟨S "TEXT", 0, 0⟩, {}⟩], {}⟩]) .fresh
    (by decide +kernel)

/-- C01 for the objects with their index arithmetic: whatever the text and the dialect, and
whatever number of steps, `Parse` never indexes outside a slice. -/
theorem C01_objects_never_panic [CaseMap] (isNum : Str → Bool) (ddl : List Char) (d : Rdbms) (n : Nat) :
    Obj.parseN isNum n ddl d ≠ .panic := by
  rw [Obj.parseN_eq]
  exact parseN_ne_panic isNum n ddl d

example : Obj.parseN simpleNum 300 "CREATE TABLE tt (aa TEXT DEFAULT '');".toList .sqlite =
    .ok ([⟨[], S "tt", false, [⟨S "aa", ⟨S "TEXT", 0, 0⟩, { default := .str [] }⟩], {}⟩],
      none) := by decide +kernel

end DDL.Props

import Verif.Proof.WorkParse
import Verif.Proof.Num
/-
C52: a call of `Parse` that returns does an amount of work linear in the length of the text.
-/

namespace DDL.Props
open DDL

/-- C52: if `Parse` returns, its three phases together have called the operations on their position (`token`, `next`,
`isOutOfRange`, `char`, `appendToken`, `set`, `matchToken`, error, slicing) and passed tokens at most
`202 * length + 281` times: no part of the text is read again and again. -/
theorem C52_linear [CaseMap] {isNum : Str → Bool} (hN : NumOK isNum) {n : Nat} {ddl : List Char} {d : Rdbms}
    {r : List Table × Option VErr} (h : parseN isNum n ddl d = .ok r) :
    parseWork isNum n ddl d ≤ 202 * ddl.length + 281 :=
  parse_work hN h

/-- C52: the same for `ParseForce`, which tries three dialects. -/
theorem C52_force_linear [CaseMap] {isNum : Str → Bool} (hN : NumOK isNum) {n : Nat} {ddl : List Char}
    {r : List Table × Option VErr} (h : parseForceN isNum n ddl = .ok r) :
    parseForceWork isNum n ddl [.sqlite, .postgres, .mysql] ≤ 3 * (202 * ddl.length + 281) := by
  have hp : ∀ d r, parseN isNum n ddl d = .ok r → parseWork isNum n ddl d ≤ 202 * ddl.length + 281 :=
    fun _ _ h => parse_work hN h
  generalize 202 * ddl.length + 281 = K at hp ⊢
  have key : ∀ ds, parseForceLoop isNum n ddl ds = .ok r →
      parseForceWork isNum n ddl ds ≤ ds.length * K := by
    intro ds
    induction ds with
    | nil => intro _; simp [parseForceWork]
    | cons d ds ih =>
      intro h
      unfold parseForceLoop at h
      unfold parseForceWork
      rw [List.length_cons, Nat.succ_mul]
      cases he : parseN isNum n ddl d with
      | ok x =>
        have := hp _ _ he
        obtain ⟨ts, e⟩ := x
        cases e with
        | none => exact Nat.le_trans this (Nat.le_add_left _ _)
        | some e =>
          rw [he] at h
          exact Nat.le_trans (Nat.add_le_add this (ih h)) (Nat.le_of_eq (Nat.add_comm _ _))
      | err e => rw [he] at h; cases h
      | panic => rw [he] at h; cases h
      | timeout => rw [he] at h; cases h
  exact key _ h

/-- C52: the lexer and the converter with counters, on which `parseWork` is defined, compute what the lexer and the
converter compute. -/
theorem C52_counted [CaseMap] (isNum : Str → Bool) (d : Rdbms) (n : Nat) :
    (∀ ddl, (LexW.lexLoop d n [] (Lex.init ddl)).1 = Lex.lexLoop d n [] (Lex.init ddl)) ∧
    (∀ toks, (CW.convert isNum d n [] toks).1 = C.convert isNum d n [] toks) :=
  ⟨fun _ => (LexW.lexLoop_l d n []).same _, fun _ => (CW.convert_l isNum d n []).same _⟩

example : parseWork simpleNum 100 "CREATE TABLE tt (aa INTEGER DEFAULT (1 + (2)), bb TEXT);".toList .sqlite = 451 := by
  decide +kernel
example : parseWork simpleNum 100 "CREATE TABEL tt (aa INTEGER);".toList .sqlite = 138 := by decide +kernel
example {r} (h : parseN simpleNum 100 "CREATE TABLE tt (aa INTEGER);".toList .mysql = .ok r) :
    parseWork simpleNum 100 "CREATE TABLE tt (aa INTEGER);".toList .mysql ≤ 202 * 29 + 281 :=
  C52_linear simpleNum_ok h
example : ∃ r, parseN simpleNum 100 "CREATE TABLE tt (aa INTEGER);".toList .mysql = .ok r :=
  ⟨([{ schema := [], name := S "tt", columns := [{ name := S "aa", dataType := { name := S "INTEGER" } }] }], none), by decide +kernel⟩

end DDL.Props

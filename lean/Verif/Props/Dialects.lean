import Verif.Proof.AgreeScript
import Verif.Proof.ResultFacts
import Verif.Proof.Simple
import Verif.Proof.Num
import Verif.Props.Force
import Verif.Spec.Dialects
/-
C47: two dialects that both accept a text return the same tables for it.
-/

namespace DDL.Props
open DDL V Spec Conv

/-- Two dialects that both accept the text read the same. -/
private theorem same_core {isNum : Str → Bool} {d e : Rdbms} (hp : Pair d e) {ddl : List Char} {T U : List Str}
    {ss ss' : List Stmt} (hl : Lexes d ddl T) (hs : script isNum d (noNewlines T) ss) (hl' : Lexes e ddl U)
    (hs' : script isNum e (noNewlines U) ss') (hm : e = .mysql → SharpOnlyQuoted T ∧ NoCheckThenNotNull ss) :
    T = U ∧ tablesVal isNum d ss = tablesVal isNum e ss' ∧ (Faithful ss ↔ Faithful ss') := by
  have hT : T = U := by
    refine lexes_same hl hl' hp.not_mysql ?_
    by_cases he : e = .mysql
    · right
      intro t ht hb hx
      obtain ⟨q, x, rfl, hq⟩ := (hm he).1 t ht hx
      have := hb _ _ rfl
      rcases hq with rfl | rfl | rfl <;> revert this <;> decide
    · exact .inl he
  subst hT
  refine ⟨rfl, tables_same (script_same hp hs hs' ?_)⟩
  rintro he s h1 t rfl i hi c rfl
  exact (hm he).2 t h1 c hi

/-- C47: a text that SQLite and PostgreSQL both accept gives the same tables with both of them. -/
theorem C47_sqlite_postgres [CaseMap] {isNum : Str → Bool} (hN : NumOK isNum) {ddl : List Char} {toks : List Str} {ss : List Stmt}
    (hl : Lexes .sqlite ddl toks) (hs : script isNum .sqlite (noNewlines toks) ss) (hf : Faithful ss)
    (hp : Passes isNum .postgres ddl) :
    ∃ T, Returns isNum ddl .sqlite (T, none) ∧ Returns isNum ddl .postgres (T, none) := by
  obtain ⟨U, ss', hl', hs'⟩ := (passes_iff hN).1 hp
  obtain ⟨rfl, h1, h2⟩ := same_core .sp hl hs hl' hs' (fun h => by cases h)
  exact ⟨_, returns_of_script hN hl hs hf, h1 ▸ returns_of_script hN hl' hs' (h2.1 hf)⟩

/-- C47: the same, for a text that SQLite or PostgreSQL accepts and MySQL, too, provided that `#` occurs in quotes and
comments only and that no column has a CHECK directly followed by NOT NULL. -/
theorem C47_mysql [CaseMap] {isNum : Str → Bool} (hN : NumOK isNum) {d : Rdbms} (hd : d = .sqlite ∨ d = .postgres) {ddl : List Char}
    {toks : List Str} {ss : List Stmt} (hl : Lexes d ddl toks) (hs : script isNum d (noNewlines toks) ss) (hf : Faithful ss)
    (hx : SharpOnlyQuoted toks) (hc : NoCheckThenNotNull ss) (hp : Passes isNum .mysql ddl) :
    ∃ T, Returns isNum ddl d (T, none) ∧ Returns isNum ddl .mysql (T, none) := by
  obtain ⟨U, ss', hl', hs'⟩ := (passes_iff hN).1 hp
  have hq : Pair d .mysql := by rcases hd with rfl | rfl <;> constructor
  obtain ⟨rfl, h1, h2⟩ := same_core hq hl hs hl' hs' (fun _ => ⟨hx, hc⟩)
  exact ⟨_, returns_of_script hN hl hs hf, h1 ▸ returns_of_script hN hl' hs' (h2.1 hf)⟩

/-- C47: `ParseForce` does not return anything else than `Parse` with the right dialect: if the text is a script of `d`
and `ParseForce` returns, then it returns the tables that `Parse` returns with `d` - whichever dialect it has taken. -/
theorem C47_force [CaseMap] {isNum : Str → Bool} (hN : NumOK isNum) {d : Rdbms} (hd : d ∈ [Rdbms.sqlite, .postgres, .mysql])
    {ddl : List Char} {toks : List Str} {ss : List Stmt} (hl : Lexes d ddl toks)
    (hs : script isNum d (noNewlines toks) ss) (hf : Faithful ss)
    (hm : d = .mysql → ∀ e ∈ [Rdbms.sqlite, .postgres], ∀ toks' ss', Lexes e ddl toks' → script isNum e (noNewlines toks') ss' →
      SharpOnlyQuoted toks' ∧ NoCheckThenNotNull ss')
    {r : List Table × Option VErr} (h : ForceReturns isNum ddl r) : Returns isNum ddl d r := by
  have hr := returns_of_script hN hl hs hf
  have hno : ∀ T e, ¬ Returns isNum ddl d (T, some e) := by
    intro T e h
    cases Returns.unique hr h
  have key : ∀ e, Pair e d → Returns isNum ddl e r → r.2 = none → Returns isNum ddl d r := by
    intro e hp h h0
    obtain ⟨T, o⟩ := r
    cases h0
    obtain ⟨toks', out, hl', hv', _⟩ := returns_ok_iff.1 h
    obtain ⟨U, ss', hl', hs'⟩ := (passes_iff hN).1 ⟨toks', out, hl', hv'⟩
    obtain ⟨rfl, h1, h2⟩ := same_core hp hl' hs' hl hs (fun e1 => hm e1 e (by cases hp <;> simp) _ _ hl' hs')
    obtain ⟨rfl, _⟩ := result_eq hN hl' hs' (h2.2 hf) h
    rw [h1]
    exact hr
  rcases C26_result_origin h with ⟨pre, e, post, h1, h2, h3, h4⟩ | ⟨h1, _⟩
  · by_cases he : e = d
    · exact he ▸ h3
    · have hd' : d ∉ pre := by
        intro hx
        obtain ⟨T, er, h⟩ := h2 d hx
        exact hno _ _ h
      have hp : Pair e d := by
        rcases pre with _ | ⟨a, _ | ⟨b, _ | ⟨c, pre⟩⟩⟩
        · cases h1
          simp at hd
          rcases hd with rfl | rfl | rfl
          · exact absurd rfl he
          · exact .sp
          · exact .sm
        · cases h1
          simp at hd hd'
          rcases hd with rfl | rfl | rfl
          · exact absurd rfl hd'
          · exact absurd rfl he
          · exact .pm
        · cases h1
          simp at hd hd'
          rcases hd with rfl | rfl | rfl
          · exact absurd rfl hd'.1
          · exact absurd rfl hd'.2
          · exact absurd rfl he
        · have := congrArg List.length h1
          simp at this
      exact key e hp h3 h4
  · obtain ⟨T, e, h⟩ := h1 d hd
    exact absurd h (hno T e)

/-- C47 needs its first condition: in this text the two dialects see different expressions, because `#` starts a comment in
MySQL only. -/
theorem C47_sharp_negation :
    Returns simpleNum "CREATE TABLE tt (cc INTEGER CHECK (cc #dd\n));".toList .sqlite
      ([{ name := S "tt", columns := [{ name := S "cc", dataType := { name := S "INTEGER" }
                                        constraint := { check := S "(cc#dd)" } }] }], none) ∧
    Returns simpleNum "CREATE TABLE tt (cc INTEGER CHECK (cc #dd\n));".toList .mysql
      ([{ name := S "tt", columns := [{ name := S "cc", dataType := { name := S "INTEGER" }
                                        constraint := { check := S "(cc)" } }] }], none) :=
  ⟨⟨200, by decide +kernel⟩, ⟨200, by decide +kernel⟩⟩

/-- C47 needs its second condition: here MySQL loses the NOT NULL (C35). -/
theorem C47_check_not_null_negation :
    Returns simpleNum "CREATE TABLE tt (cc INTEGER CHECK (cc) NOT NULL);".toList .sqlite
      ([{ name := S "tt", columns := [{ name := S "cc", dataType := { name := S "INTEGER" }
                                        constraint := { check := S "(cc)", isNotNull := true } }] }], none) ∧
    Returns simpleNum "CREATE TABLE tt (cc INTEGER CHECK (cc) NOT NULL);".toList .mysql
      ([{ name := S "tt", columns := [{ name := S "cc", dataType := { name := S "INTEGER" }
                                        constraint := { check := S "(cc)", isNotNull := false } }] }], none) :=
  ⟨⟨200, by decide +kernel⟩, ⟨200, by decide +kernel⟩⟩

/-- The hypotheses can be met: this text is accepted by all the dialects. -/
example : ∃ T, Returns simpleNum "CREATE TABLE tt (cc INTEGER CHECK (cc > '#'));".toList .sqlite (T, none) ∧
    Returns simpleNum "CREATE TABLE tt (cc INTEGER CHECK (cc > '#'));".toList .postgres (T, none) ∧
    Returns simpleNum "CREATE TABLE tt (cc INTEGER CHECK (cc > '#'));".toList .mysql (T, none) ∧
    ∀ r, ForceReturns simpleNum "CREATE TABLE tt (cc INTEGER CHECK (cc > '#'));".toList r → r = (T, none) := by
  have hn : ∀ d, ∀ n, n = S "tt" ∨ n = S "cc" → Name (vd d) n := by
    rintro d n (rfl | rfl)
    · refine .inr ⟨⟨'t', ['t'], rfl, by decide, by decide⟩, ?_⟩
      cases d <;> decide +kernel
    · refine .inr ⟨⟨'c', ['c'], rfl, by decide, by decide⟩, ?_⟩
      cases d <;> decide +kernel
  have hb : Bal [S "cc", S ">", S "'#'"] :=
    .plain _ _ (by decide) (by decide) (.plain _ _ (by decide) (by decide) (.plain _ _ (by decide) (by decide) .nil))
  have hl : ∀ d, Lexes d "CREATE TABLE tt (cc INTEGER CHECK (cc > '#'));".toList
      [S "CREATE", S "TABLE", S "tt", S "(", S "cc", S "INTEGER", S "CHECK", S "(", S "cc", S ">", S "'#'", S ")",
        S ")", S ";"] := by
    intro d; cases d <;> exact ⟨60, by decide +kernel⟩
  have hs : ∀ d, script simpleNum d
      [S "CREATE", S "TABLE", S "tt", S "(", S "cc", S "INTEGER", S "CHECK", S "(", S "cc", S ">", S "'#'", S ")",
        S ")", S ";"] [.table ⟨false, ⟨none, S "tt"⟩, [.column ⟨S "cc", ⟨S "INTEGER", false, none⟩, .absent,
          [.check [S "(", S "cc", S ">", S "'#'", S ")"]]⟩]⟩] := fun d =>
    .cons (stmt_simple (hn _ _ (.inl rfl)) (by decide) (.one (item_simple (hn _ _ (.inr rfl)) (by decide) (by decide)
      (colCons_one (by cases d <;> decide) (check_simple d [S ";"] hb) (by cases d <;> decide)))
      (notAt_cons (by decide)))) .nil
  have hf : Faithful [.table ⟨false, ⟨none, S "tt"⟩, [.column ⟨S "cc", ⟨S "INTEGER", false, none⟩, .absent,
          [.check [S "(", S "cc", S ">", S "'#'", S ")"]]⟩]⟩] := by
    intro t ht
    cases List.mem_singleton.1 ht
    refine ⟨fun i hi => ?_, by rintro i is h; cases h⟩
    cases List.mem_singleton.1 hi
    refine ⟨fun r hr => ?_, by rintro n h; cases h⟩
    simp at hr
  have hx : SharpOnlyQuoted [S "CREATE", S "TABLE", S "tt", S "(", S "cc", S "INTEGER", S "CHECK", S "(", S "cc", S ">",
      S "'#'", S ")", S ")", S ";"] := by
    intro t ht h
    have : ∀ t ∈ [S "CREATE", S "TABLE", S "tt", S "(", S "cc", S "INTEGER", S "CHECK", S "(", S "cc", S ">",
      S "'#'", S ")", S ")", S ";"], '#' ∈ t → t = S "'#'" := by decide
    exact ⟨'\'', ['#', '\''], this t ht h, .inr (.inl rfl)⟩
  have hc : NoCheckThenNotNull [.table ⟨false, ⟨none, S "tt"⟩, [.column ⟨S "cc", ⟨S "INTEGER", false, none⟩, .absent,
          [.check [S "(", S "cc", S ">", S "'#'", S ")"]]⟩]⟩] := by
    intro t ht c hc a x b he
    cases List.mem_singleton.1 ht
    cases List.mem_singleton.1 hc
    have := congrArg List.length he
    simp only [List.length_append, List.length_cons, List.length_nil] at this
    omega
  have hp : ∀ d, Passes simpleNum d "CREATE TABLE tt (cc INTEGER CHECK (cc > '#'));".toList := fun d =>
    (passes_iff simpleNum_ok).2 ⟨_, _, hl d, hs d⟩
  obtain ⟨T, h1, h2⟩ := C47_sqlite_postgres simpleNum_ok (hl _) (hs _) hf (hp _)
  obtain ⟨T', h3, h4⟩ := C47_mysql simpleNum_ok (.inl rfl) (hl _) (hs _) hf hx hc (hp _)
  cases Returns.unique h1 h3
  refine ⟨T, h1, h2, h4, fun r hr => ?_⟩
  exact Returns.unique (C47_force simpleNum_ok (d := .postgres) (by simp) (hl _) (hs _) hf (fun h => by cases h) hr) h2

end DDL.Props

import Verif.Proof.ReadmeCheck
import Verif.Props.Bound
import Verif.Proof.Float
/-
C50: what the README documents is accepted.
-/

namespace DDL.Props
open DDL Spec

/-- The property: every script of the README is parsed, and gives one table per statement. -/
def Documented [CaseMap] (isNum : Str → Bool) (d : Rdbms) : Prop :=
  ∀ ddl toks n, Lexes d ddl toks → Readme.script isNum .readme d n (noNewlines toks) →
    ∃ tbs, tbs.length = n ∧ Returns isNum ddl d (tbs, none)

/-- C50, except for the parts of the README marked `only` and `most` in Spec/Readme, and for column
constraints in the combinations that `Readme.Supported` excludes. -/
theorem C50_returned_partial [CaseMap] {isNum : Str → Bool} (hN : NumOK isNum) {d : Rdbms} (hd : d ≠ .other)
    {ddl : List Char} {toks : List Str} {n : Nat} (hl : Lexes d ddl toks)
    (h : Readme.script isNum .returned d n (noNewlines toks)) :
    ∃ tbs, tbs.length = n ∧ Returns isNum ddl d (tbs, none) := by
  obtain ⟨ss, h1, h2, h3⟩ := Readme.script_takes hN hd (by decide) h
  exact ⟨_, h3, returns_of_script hN hl h1 (h2 rfl)⟩

/-- C50, the syntax check only, except for the parts marked `only` and `Readme.Supported`. -/
theorem C50_accepted_partial {isNum : Str → Bool} (hN : NumOK isNum) {d : Rdbms} (hd : d ≠ .other)
    {ddl : List Char} {toks : List Str} {n : Nat} (hl : Lexes d ddl toks)
    (h : Readme.script isNum .accepted d n (noNewlines toks)) : Passes isNum d ddl := by
  obtain ⟨ss, h1, _, _⟩ := Readme.script_takes hN hd (by decide) h
  exact (passes_iff hN).2 ⟨toks, ss, hl, h1⟩

/-- Texts of the README which give an error: the parts marked `only`, and what `Supported` excludes. -/
def rejectedTexts : List (Rdbms × String) := [
  -- [;] left out
  (.sqlite, "CREATE TABLE t (a INTEGER)"),
  -- CONSTRAINT in front of another than the first constraint
  (.sqlite, "CREATE TABLE t (a INTEGER NOT NULL CONSTRAINT y UNIQUE);"),
  -- MATCH name
  (.sqlite, "CREATE TABLE t (a INTEGER REFERENCES u MATCH foo);"),
  (.sqlite, "CREATE TABLE t (a INTEGER, FOREIGN KEY (a) REFERENCES u MATCH foo);"),
  -- both table options
  (.sqlite, "CREATE TABLE t (a INTEGER) WITHOUT ROWID STRICT;"),
  -- NOT NULL after a reference
  (.sqlite, "CREATE TABLE t (a INTEGER REFERENCES u NOT NULL);"),
  -- a constraint twice
  (.sqlite, "CREATE TABLE t (a INTEGER CHECK (a) CHECK (a));"),
  (.postgres, "CREATE TABLE tt (aa INTEGER AS (1) STORED);"),
  (.postgres, "CREATE TABLE tt (aa INTEGER NOT NULL CONSTRAINT yy UNIQUE);"),
  (.postgres, "CREATE TABLE tt (aa INTEGER CHECK (aa) CHECK (aa));"),
  -- a table called IF
  (.postgres, "CREATE TABLE if (aa INTEGER);"),
  -- USING without an index name
  (.mysql, "CREATE TABLE t (a INT, UNIQUE USING BTREE (a));"),
  (.mysql, "CREATE TABLE t (a INT, CHECK (a) NO INHERIT);"),
  (.mysql, "CREATE TABLE t (a INT UNIQUE CONSTRAINT c CHECK (a));"),
  (.mysql, "CREATE TABLE t (a INT CHECK (a) CHECK (a));")]

/-- Does `Parse` return an error, within 300 steps? -/
def failsB (d : Rdbms) (ddl : List Char) : Bool :=
  match parseN Go.isNumeric 300 ddl d with
  | .ok ([], some _) => true
  | _ => false

theorem failsB_sound {d : Rdbms} {ddl : List Char} (h : failsB d ddl = true) :
    ∃ e, Returns Go.isNumeric ddl d ([], some e) := by
  unfold failsB at h
  split at h
  · exact ⟨_, 300, by assumption⟩
  · cases h

/-- C50: each exception is real: these texts are documented, and rejected. -/
theorem C50_rejected_negation : ∀ p ∈ rejectedTexts,
    (∃ toks, Lexes p.1 p.2.toList toks ∧ Readme.script Go.isNumeric .readme p.1 1 (noNewlines toks)) ∧
    ∃ e, Returns Go.isNumeric p.2.toList p.1 ([], some e) := by
  have h : ∀ p ∈ rejectedTexts, Readme.textB .readme p.1 1 p.2.toList = true ∧ failsB p.1 p.2.toList = true := by
    decide +kernel
  exact fun p hp => ⟨Readme.textB_sound (h p hp).1, failsB_sound (h p hp).2⟩

/-- C50 is false in each of the three dialects. -/
theorem C50_documented_negation {d : Rdbms} (hd : d ≠ .other) : ¬ Documented Go.isNumeric d := by
  have key : ∀ s, (d, s) ∈ rejectedTexts → ¬ Documented Go.isNumeric d := by
    intro s hs hD
    obtain ⟨⟨toks, h1, h2⟩, e, he⟩ := C50_rejected_negation _ hs
    obtain ⟨tbs, _, h⟩ := hD _ _ _ h1 h2
    cases h.unique he
  cases d with
  | other => exact absurd rfl hd
  | sqlite => exact key _ (List.mem_of_elem_eq_true (by decide : rejectedTexts.elem (.sqlite, "CREATE TABLE t (a INTEGER)") = true))
  | postgres => exact key _ (List.mem_of_elem_eq_true (by decide : rejectedTexts.elem (.postgres, "CREATE TABLE if (aa INTEGER);") = true))
  | mysql => exact key _ (List.mem_of_elem_eq_true (by decide : rejectedTexts.elem (.mysql, "CREATE TABLE t (a INT, UNIQUE USING BTREE (a));") = true))

/-- C50: a documented text on which `Parse` does not return. -/
theorem C50_hangs_negation :
    (∃ toks, Lexes .mysql "CREATE TABLE t (a INT, INDEX (a));".toList toks ∧
      Readme.script Go.isNumeric .readme .mysql 1 (noNewlines toks)) ∧
    Hangs Go.isNumeric "CREATE TABLE t (a INT, INDEX (a));".toList .mysql :=
  ⟨Readme.textB_sound (by decide +kernel), (C41_hangs_iff Go.isNumeric_ok _ _).2 (by decide +kernel)⟩

/-- Documented texts. -/
def documentedTexts : List (Rdbms × String) := [
  (.sqlite, "CREATE TABLE IF NOT EXISTS s.t (a INTEGER CONSTRAINT x PRIMARY KEY DESC ON CONFLICT ABORT,
    b TEXT NOT NULL COLLATE NOCASE, CONSTRAINT y FOREIGN KEY (a, b) REFERENCES u (v, w) MATCH FULL) WITHOUT ROWID;"),
  (.postgres, "CREATE TABLE tt (aa NUMERIC (10, 2) GENERATED BY DEFAULT AS IDENTITY (START 1) NOT NULL,
    bb TIMESTAMP (3) WITH TIME ZONE CHECK (bb > 0) NO INHERIT NULL, PRIMARY KEY (aa)) PARTITION BY RANGE (aa);"),
  (.mysql, "CREATE TABLE t (a INT (11) AUTO_INCREMENT UNIQUE KEY COMMENT 'x', b DECIMAL (5, 2) DEFAULT -15 NOT NULL,
    CONSTRAINT UNIQUE INDEX i USING HASH (a ASC, b (3)) KEY_BLOCK_SIZE = 8) ENGINE = innodb UNION (t1, t2);")]

/-- The hypotheses of `C50_returned_partial` hold for them. -/
theorem documentedTexts_ok : ∀ p ∈ documentedTexts, p.1 ≠ .other ∧ ∃ toks, Lexes p.1 p.2.toList toks ∧
    Readme.script Go.isNumeric .returned p.1 1 (noNewlines toks) := by
  have h : ∀ p ∈ documentedTexts, p.1 ≠ .other ∧ Readme.textB .returned p.1 1 p.2.toList = true := by decide +kernel
  exact fun p hp => ⟨(h p hp).1, Readme.textB_sound (h p hp).2⟩

example : ∀ p ∈ documentedTexts, ∃ tb, Returns Go.isNumeric p.2.toList p.1 ([tb], none) := by
  intro p hp
  obtain ⟨hd, toks, h1, h2⟩ := documentedTexts_ok p hp
  obtain ⟨tbs, h3, h4⟩ := C50_returned_partial Go.isNumeric_ok hd h1 h2
  match tbs, h3 with
  | [tb], _ => exact ⟨tb, h4⟩

end DDL.Props

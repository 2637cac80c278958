import Verif.Proof.Letters
import Verif.Props.Tables
/-
C54: letters outside ASCII. The code upper-cases words with `strings.ToUpper`, which also changes letters outside ASCII (the
long s `ſ` becomes `S`). A `CaseMap` is any way of doing this that is the usual one on ASCII; `asciiCase` leaves all other
letters alone. Theorems without a `CaseMap` are about `asciiCase`; those below say what they are worth for the others.
-/

namespace DDL.Props
open DDL Spec

/-- C54: whatever `strings.ToUpper` does to letters outside ASCII, `Parse` returns when it would return if they were left
alone, the error is the same, and the tables are the same up to names of types and default values in which there are
such letters. -/
theorem C54_returns [CaseMap] (isNum : Str → Bool) (ddl : List Char) (d : Rdbms) (r : List Table × Option VErr)
    (h : Returns isNum ddl d r) : ∃ r', @Returns asciiCase isNum ddl d r' ∧ ResultAs r r' :=
  let ⟨n, h⟩ := h
  let ⟨r', h1, h2⟩ := (parseN_as isNum n ddl d).right h
  ⟨r', ⟨n, h1⟩, h2⟩

/-- C54, the other way round. -/
theorem C54_returned [CaseMap] (isNum : Str → Bool) (ddl : List Char) (d : Rdbms) (r' : List Table × Option VErr)
    (h : @Returns asciiCase isNum ddl d r') : ∃ r, Returns isNum ddl d r ∧ ResultAs r r' :=
  let ⟨n, h⟩ := h
  let ⟨r, h1, h2⟩ := (parseN_as isNum n ddl d).left h
  ⟨r, ⟨n, h1⟩, h2⟩

/-- C54: it never returns for the same texts. -/
theorem C54_hangs [CaseMap] (isNum : Str → Bool) (ddl : List Char) (d : Rdbms) :
    Hangs isNum ddl d ↔ @Hangs asciiCase isNum ddl d :=
  ⟨fun h n => (parseN_as isNum n ddl d).hang.1 (h n), fun h n => (parseN_as isNum n ddl d).hang.2 (h n)⟩

/-- C54: it returns the same errors. -/
theorem C54_error [CaseMap] (isNum : Str → Bool) (ddl : List Char) (d : Rdbms) (ts : List Table) (e : VErr) :
    Returns isNum ddl d (ts, some e) ↔ @Returns asciiCase isNum ddl d (ts, some e) := by
  rw [returns_err_iff, @returns_err_iff asciiCase]

/-- C54: if there are no letters outside ASCII in the words of the text (comments have no words), the result is the same. -/
theorem C54_words [CaseMap] {isNum : Str → Bool} (hN : NumOK isNum) {d : Rdbms} {ddl : List Char} {toks : List Str}
    (hl : Lexes d ddl toks) (hw : ∀ t ∈ toks, ¬ Foreign t) (r : List Table × Option VErr) :
    Returns isNum ddl d r ↔ @Returns asciiCase isNum ddl d r := by
  unfold Returns
  simp only [parse_words hN hl hw]

/-- C54: for the scripts of C07-C09 the result is the same, whatever letters there are in names, strings and expressions. -/
theorem C54_faithful [CaseMap] {isNum : Str → Bool} (hN : NumOK isNum) {d : Rdbms} {ddl : List Char} {toks : List Str}
    {ss : List Stmt} (hl : Lexes d ddl toks) (hs : script isNum d (noNewlines toks) ss) (hf : Faithful ss)
    (r : List Table × Option VErr) : Returns isNum ddl d r ↔ @Returns asciiCase isNum ddl d r := by
  have h1 := returns_of_script hN hl hs hf
  have h2 := @returns_of_script asciiCase _ hN _ _ _ _ hl hs hf
  constructor
  · intro h; rw [Returns.unique h h1]; exact h2
  · intro h; rw [@Returns.unique asciiCase _ _ _ _ _ h h2]; exact h1

/-- C54 (ParseForce). -/
theorem C54_force [CaseMap] (isNum : Str → Bool) (ddl : List Char) (r : List Table × Option VErr)
    (h : ForceReturns isNum ddl r) : ∃ r', @ForceReturns asciiCase isNum ddl r' ∧ ResultAs r r' :=
  let ⟨n, h⟩ := h
  let ⟨r', h1, h2⟩ := (forceLoop_as isNum n ddl _).right h
  ⟨r', ⟨n, h1⟩, h2⟩

/-- C54 (ParseForce): it never returns for the same texts. -/
theorem C54_force_hangs [CaseMap] (isNum : Str → Bool) (ddl : List Char) :
    (∀ n, parseForceN isNum n ddl = .timeout) ↔ ∀ n, @parseForceN asciiCase isNum n ddl = .timeout :=
  ⟨fun h n => (forceLoop_as isNum n ddl _).hang.1 (h n), fun h n => (forceLoop_as isNum n ddl _).hang.2 (h n)⟩

/-- Results related by `ResultAs` are the same if there are letters outside ASCII neither in the names of types nor in
default values. -/
theorem C54_same [CaseMap] {r r' : List Table × Option VErr} (h : ResultAs r r')
    (hn : ∀ t ∈ r'.1, ∀ c ∈ t.columns, ¬ Foreign c.dataType.name ∧ ∀ s, c.constraint.default = .str s → ¬ Foreign s) :
    r = r' := by
  obtain ⟨ts, e⟩ := r
  obtain ⟨ts', e'⟩ := r'
  obtain ⟨h1, h2⟩ := h
  cases h2
  refine congrArg (·, e) ?_
  simp only at h1 hn
  induction h1 with
  | nil => rfl
  | @cons t t' l l' h _ ih =>
    rw [ih fun x hx => hn x (List.mem_cons_of_mem _ hx)]
    refine congrArg (· :: l') (tableAs_eq _ _ ⟨?_, h.others⟩)
    have hc := h.columns
    have hx := hn t' (List.mem_cons_self ..)
    revert hc hx
    generalize t.columns = cs
    generalize t'.columns = cs'
    intro hc
    induction hc with
    | nil => intro _; exact .nil
    | @cons c c' _ _ h _ ih =>
      intro hx
      have h0 := hx c' (List.mem_cons_self ..)
      refine .cons ⟨h.name, ?_, h.digitN, h.digitM, ?_, h.constraint⟩ (ih fun x h => hx x (List.mem_cons_of_mem _ h))
      · exact h.typeName.elim id fun x => absurd x.1 h0.1
      · exact h.default.elim id fun ⟨s, e, f, _⟩ => absurd f (h0.2 s e)

/-! ### examples -/

/-- The two letters outside ASCII whose upper case is in ASCII. -/
@[reducible] def longS : CaseMap where
  up c := if c = 'ſ' then 'S' else if c = 'ı' then 'I' else upC c
  low := lowC
  up_ascii c h := by
    rw [if_neg (by rintro rfl; exact absurd h (by decide)), if_neg (by rintro rfl; exact absurd h (by decide))]
  low_ascii _ _ := rfl

/-- The name of the type can differ: here a column is taken for a type (PostgreSQL). -/
theorem C54_type_negation :
    let ddl := "CREATE TABLE tt (EXCLUDE (cc WITH +), \"ſ\" INT);".toList
    @Returns longS simpleNum ddl .postgres
      ([{ name := S "tt", columns := [{ name := S ",", dataType := { name := S "\"S\"" } }] }], none) ∧
    @Returns asciiCase simpleNum ddl .postgres
      ([{ name := S "tt", columns := [{ name := S ",", dataType := { name := S "\"ſ\"" } }] }], none) :=
  ⟨⟨200, by decide +kernel⟩, ⟨200, by decide +kernel⟩⟩

/-- A table with such letters in names and in a string. -/
def foreignTable : Table :=
  { name := S "ſ", columns := [⟨S "falſe", { name := S "INTEGER" }, { isPrimaryKey := true, default := .str (S "falſe") }⟩] }

theorem foreignTable_ok : TableOK simpleNum .sqlite foreignTable := by
  have hq : ∀ s, quotableB s = true → Quotable s := fun s h => quotable_of h
  refine ⟨hq _ (by decide), hq _ (by decide), ?_, (fun _ h => nomatch h), (fun _ h => nomatch h), (fun _ h => nomatch h),
    (fun _ h => nomatch h), by simp [itemTexts, foreignTable]⟩
  intro c hc
  cases List.mem_singleton.1 hc
  refine ⟨hq _ (by decide), ⟨_, .head _, "INTEGER", by decide, rfl, ?_⟩, hq _ (by decide), hq _ (by decide), .inl rfl,
    fun h => (h rfl).elim, ⟨hq _ (by decide), fun _ h => (nomatch h)⟩, fun _ h => (nomatch h), fun h => (nomatch h)⟩
  refine ⟨?_, ?_, ?_, ?_, ?_, ?_, ?_⟩ <;> simp

/-- It is a script of C07; the string is not taken for FALSE. -/
example : ∃ toks ss, Lexes .sqlite (scriptText .sqlite [foreignTable]) toks ∧
    script simpleNum .sqlite (noNewlines toks) ss ∧ Faithful ss ∧ tablesVal simpleNum .sqlite ss = [foreignTable] := by
  obtain ⟨ts, ss, h1, h2, h3, h4, _⟩ := script_ok simpleNum_ok (d := .sqlite) (by decide) (tabs := [foreignTable])
    (fun t ht => by rw [List.mem_singleton.1 ht]; exact foreignTable_ok)
  refine ⟨ts, ss, h1.lexes, ?_, h4, h3⟩
  have e : noNewlines ts = ts := strip_id h1.no_nl
  rw [e]
  exact h2

example : @Returns longS simpleNum (scriptText .sqlite [foreignTable]) .sqlite ([foreignTable], none) :=
  @C10_round_trip longS _ simpleNum_ok _ (by decide) _ (fun t ht => by rw [List.mem_singleton.1 ht]; exact foreignTable_ok)

/-- A text with such letters in a comment only. -/
example : ∃ toks, Lexes .mysql "CREATE TABLE tt (aa INT); -- ſ".toList toks ∧ ∀ t ∈ toks, ¬ Foreign t := by
  have hl : Lexes .mysql "CREATE TABLE tt (aa INT); -- ſ".toList
      [S "CREATE", S "TABLE", S "tt", S "(", S "aa", S "INT", S ")", S ";"] := ⟨60, by decide +kernel⟩
  refine ⟨_, hl, ?_⟩
  have : ∀ t ∈ [S "CREATE", S "TABLE", S "tt", S "(", S "aa", S "INT", S ")", S ";"], ∀ c ∈ t, c.toNat < 128 := by
    decide +kernel
  rintro t ht ⟨c, hc, hle⟩
  have := this t ht c hc
  omega

end DDL.Props

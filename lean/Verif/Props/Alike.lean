import Verif.Proof.LexCase
/-
C22: letter case. C40: the choice of names.
-/

namespace DDL.Props
open DDL Spec

/-- Every key word of the text is written in one case. -/
def KeyWordsOneCase (d : Rdbms) (ddl : List Char) : Prop :=
  ∀ toks, Lexes d ddl toks → ∀ t ∈ toks, (∃ w ∈ grammarWords d, upper t = w.toList) → OneCase t

/-- C22: two texts that are the same up to letter case, with all key words in one case, are
accepted together, with the same tables up to letter case; or rejected together, at the same
line and token; or both never return. (`strconv.ParseFloat` ignores letter case.) -/
theorem C22_case [CaseMap] (isNum : Str → Bool) (hnum : ∀ t t', upper t = upper t' → isNum t = isNum t')
    (d : Rdbms) (ddl ddl' : List Char) (h : upper ddl = upper ddl')
    (hk : KeyWordsOneCase d ddl) (hk' : KeyWordsOneCase d ddl') :
    (∀ tbs, Returns isNum ddl d (tbs, none) →
      ∃ tbs', Returns isNum ddl' d (tbs', none) ∧ tbs.map upperTable = tbs'.map upperTable) ∧
    (∀ e, Returns isNum ddl d ([], some e) →
      ∃ e', Returns isNum ddl' d ([], some e') ∧ e'.line = e.line ∧ upper e'.near = upper e.near) ∧
    (Hangs isNum ddl d ↔ Hangs isNum ddl' d) := by
  rw [upper_eq, upper_eq] at h
  rcases lexes_or_fails d ddl with ⟨toks, hl⟩ | ⟨e, hl⟩
  · obtain ⟨toks', hl', hu⟩ := lexes_case h hl
    have hT : Each (Recased d) toks toks' := by
      refine Each.imp ?_ (each_of_map hu)
      rintro a b ⟨hab, ha, hb⟩
      rw [← upper_eq, ← upper_eq] at hab
      exact ⟨hab, .inr fun hw => ⟨hk _ hl a ha hw, hk' _ hl' b hb (hab ▸ hw)⟩⟩
    have hc := corresponding (recased_alike (d := d) hnum) recased_up hl hl' hT
    refine ⟨fun tbs hr => ?_, fun e hr => ?_, hc.hangs⟩
    · obtain ⟨tbs', hr', ht⟩ := hc.tables tbs hr
      exact ⟨tbs', hr', upper_tables (fun _ _ h => h.1) ht⟩
    · obtain ⟨e', hr', h1, h2⟩ := hc.error e hr
      exact ⟨e', hr', h1, h2.1.symm⟩
  · have hl' := lexFails_case h hl
    have r1 : Returns isNum ddl d ([], some e) := returns_err_iff.2 ⟨rfl, .inl hl⟩
    have r2 : Returns isNum ddl' d ([], some e) := returns_err_iff.2 ⟨rfl, .inl hl'⟩
    refine ⟨fun tbs hr => ?_, fun e' hr => ?_, fun hh => ?_, fun hh => ?_⟩
    · cases Returns.unique r1 hr
    · cases Returns.unique r1 hr
      exact ⟨e, r2, rfl, rfl⟩
    · exact (not_returns_and_hangs r1 hh).elim
    · exact (not_returns_and_hangs r2 hh).elim

/-- `simpleNum` ignores letter case. -/
theorem simpleNum_case (t t' : Str) (h : upper t = upper t') : simpleNum t = simpleNum t' := by
  rw [upper_eq, upper_eq] at h
  rw [← simpleNum_upC, h, simpleNum_upC]

instance (t : Str) : Decidable (OneCase t) := inferInstanceAs (Decidable (_ ∨ _))

/-- Two spellings of one script, and their tables. -/
example :
    let a := "create table Tt (Aa text not null default 'It');".toList
    let b := "CREATE TABLE TT (aA TEXT not NULL DEFAULT 'iT');".toList
    upper a = upper b ∧ KeyWordsOneCase .sqlite a ∧ KeyWordsOneCase .sqlite b ∧
    Returns simpleNum a .sqlite
      ([⟨[], S "Tt", false,
        [⟨S "Aa", ⟨S "TEXT", 0, 0⟩, { isNotNull := true, default := .str (S "It") }⟩], {}⟩], none) ∧
    Returns simpleNum b .sqlite
      ([⟨[], S "TT", false,
        [⟨S "aA", ⟨S "TEXT", 0, 0⟩, { isNotNull := true, default := .str (S "iT") }⟩], {}⟩], none) := by
  refine ⟨by decide +kernel, ?_, ?_, ⟨200, by decide +kernel⟩, ⟨200, by decide +kernel⟩⟩
  · have hl : Lexes .sqlite "create table Tt (Aa text not null default 'It');".toList
        [S "create", S "table", S "Tt", S "(", S "Aa", S "text", S "not", S "null", S "default",
         S "'It'", S ")", S ";"] := ⟨200, by decide +kernel⟩
    intro toks h
    cases Lexes.unique hl h
    decide +kernel
  · have hl : Lexes .sqlite "CREATE TABLE TT (aA TEXT not NULL DEFAULT 'iT');".toList
        [S "CREATE", S "TABLE", S "TT", S "(", S "aA", S "TEXT", S "not", S "NULL", S "DEFAULT",
         S "'iT'", S ")", S ";"] := ⟨200, by decide +kernel⟩
    intro toks h
    cases Lexes.unique hl h
    decide +kernel

/-- C22: a script that starts with a spelling of CREATE in mixed case is rejected there. -/
theorem C22_mixed_create [CaseMap] (isNum : Str → Bool) (d : Rdbms) (ddl : List Char) (toks : List Str)
    (t : Str) (r : List Str) (hl : Lexes d ddl toks) (ht : noNewlines toks = t :: r)
    (hu : upper t = S "CREATE") (hm : ¬ OneCase t) :
    ∃ l, Returns isNum ddl d ([], some ⟨l, t⟩) := by
  have hk : ¬ Kw ["CREATE"] t := by
    rintro ⟨k, hk, h⟩
    rw [List.mem_singleton] at hk; subst hk
    apply hm
    rcases h with rfl | rfl
    · exact .inl (by decide)
    · exact .inr (by decide)
  obtain ⟨l, h⟩ := rejects_first (isNum := isNum) (d := d) ht hk
  exact ⟨l, returns_err_iff.2 ⟨rfl, .inr ⟨_, hl, h⟩⟩⟩

example : Returns simpleNum "\n\nCreate TABLE tt (aa TEXT);".toList .mysql
    ([], some ⟨2, S "Create"⟩) := ⟨200, by decide +kernel⟩
example : upper (S "Create") = S "CREATE" ∧ ¬ OneCase (S "Create") := by decide

/-- C40: renaming the words that are not key words to other such words changes nothing but the
names: the tables are the same up to the renaming, errors are at the same line and at the
renamed token, and the new text never returns if and only if the old one never does. -/
theorem C40_renaming [CaseMap] (isNum : Str → Bool) (d : Rdbms) (ρ : Str → Str) (hρ : Renaming isNum d ρ)
    (ddl ddl' : List Char) (toks : List Str) (hl : Lexes d ddl toks)
    (hl' : Lexes d ddl' (toks.map ρ)) : Corresponding isNum d (fun t t' => t' = ρ t) ddl ddl' := by
  refine corresponding (renaming_alike hρ) (renaming_up hρ) hl hl' ?_
  clear hl hl'
  induction toks with
  | nil => exact .nil
  | cons t ts ih => exact .cons rfl ih

/-- A renaming, and its effect on a script with a quoted and an unquoted name. -/
example :
    let ρ : Str → Str := fun t => if t = S "users" then S "people" else t
    Renaming simpleNum .sqlite ρ ∧
    (∃ toks, Lexes .sqlite "CREATE TABLE users (\"users\" TEXT CHECK (users > 0));".toList toks ∧
      Lexes .sqlite "CREATE TABLE people (\"users\" TEXT CHECK (people > 0));".toList (toks.map ρ)) ∧
    Returns simpleNum "CREATE TABLE users (\"users\" TEXT CHECK (users > 0));".toList .sqlite
      ([⟨[], S "users", false,
        [⟨S "users", ⟨S "TEXT", 0, 0⟩, { check := S "(users>0)" }⟩], {}⟩], none) ∧
    Returns simpleNum "CREATE TABLE people (\"users\" TEXT CHECK (people > 0));".toList .sqlite
      ([⟨[], S "people", false,
        [⟨S "users", ⟨S "TEXT", 0, 0⟩, { check := S "(people>0)" }⟩], {}⟩], none) := by
  refine ⟨?_, ?_, ⟨200, by decide +kernel⟩, ⟨200, by decide +kernel⟩⟩
  · intro t
    have hu : Ordinary simpleNum .sqlite (S "users") :=
      ⟨(plainName_iff _ _).1 (by decide +kernel), by decide +kernel, by decide +kernel⟩
    have hp : Ordinary simpleNum .sqlite (S "people") :=
      ⟨(plainName_iff _ _).1 (by decide +kernel), by decide +kernel, by decide +kernel⟩
    by_cases h : t = S "users"
    · subst h
      exact ⟨fun _ => by show Ordinary _ _ (if _ then _ else _); rw [if_pos rfl]; exact hp, fun h => absurd hu h⟩
    · exact ⟨fun h' => by show Ordinary _ _ (if _ then _ else _); rw [if_neg h]; exact h', fun _ => if_neg h⟩
  · exact ⟨[S "CREATE", S "TABLE", S "users", S "(", S "\"users\"", S "TEXT", S "CHECK", S "(",
      S "users", S ">", S "0", S ")", S ")", S ";"], ⟨200, by decide +kernel⟩, ⟨200, by decide +kernel⟩⟩

end DDL.Props

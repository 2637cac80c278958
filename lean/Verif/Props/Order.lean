import Verif.Proof.Order
import Verif.Props.Tables
/-
C55: the order in which the constraints of a column are written.
-/

namespace DDL.Props
open DDL V Spec Conv

/-- C55: writing the constraints `ps` of a column in another order `qs` changes neither whether the
script is accepted nor the returned tables. The two texts agree up to layout and comments (`A` and
`B` are their tokens) except for the order of the constraints. Needed: in both orders no constraint
takes the first word of the next one (`NoneAbsorbs`), and MySQL's `CONSTRAINT` without a name stays in
front of a CHECK. -/
theorem C55_order [CaseMap] {isNum : Str → Bool} (hN : NumOK isNum) {d : Rdbms} {a b : List Char} {A B pre x : List Str}
    {t : Str} {ps qs : List Phrase} {c : Str} {τ : TypeAst} {cn : ConName}
    (ha : Lexes d a A) (hb : Lexes d b B)
    (hA : noNewlines A = pre ++ (phrasesText ps ++ t :: x)) (hB : noNewlines B = pre ++ (phrasesText qs ++ t :: x))
    (ht : Kw [",", ")"] t) (hc : ColumnIn isNum d (noNewlines A) c τ cn (phrasesText ps ++ t :: x))
    (hp : ∀ p ∈ ps, p.Reads isNum d) (hperm : ps.Perm qs) (h1 : NoneAbsorbs d ps) (h2 : NoneAbsorbs d qs)
    (hcn : cn = .anonymous → ∃ q ∈ qs.head?, q.Starts "CHECK") :
    (Passes isNum d a ↔ Passes isNum d b) ∧
    ∀ ss, script isNum d (noNewlines A) ss → Faithful ss →
      ∃ T, Returns isNum a d (T, none) ∧ Returns isNum b d (T, none) := by
  have hcn2 : cn = .anonymous → at_ ["CHECK"] (phrasesText qs ++ t :: x) () (phrasesText qs ++ t :: x) := by
    intro e
    obtain ⟨q, hq, w, r, e1, hw⟩ := hcn e
    cases qs with
    | nil => cases hq
    | cons q' qs =>
      cases hq
      exact ⟨rfl, w, r ++ (phrasesText qs ++ t :: x), by simp [phrasesText, e1], hw⟩
  have hgA := strip_good (Lexes.good ha)
  have hgB := strip_good (Lexes.good hb)
  obtain ⟨pre1, e1, hc2, hs⟩ := reorder hN hgA ht hc hp hperm h1 h2 hcn2
  have e1 : pre ++ (phrasesText ps ++ t :: x) = pre1 ++ (phrasesText ps ++ t :: x) := hA.symm.trans e1
  cases List.append_cancel_right e1
  have hB' : strip B = pre ++ (phrasesText qs ++ t :: x) := hB
  have hA' : strip A = pre ++ (phrasesText ps ++ t :: x) := hA
  rw [← hB'] at hc2 hs
  refine ⟨⟨fun h => ?_, fun h => ?_⟩, fun ss h hf => ?_⟩
  · obtain ⟨A', ss, hl, h⟩ := (passes_iff hN).1 h
    cases Lexes.unique ha hl
    obtain ⟨_, _, _, _, _, _, _, _, h3⟩ := hs ss h
    exact (passes_iff hN).2 ⟨B, _, hb, h3⟩
  · obtain ⟨B', ss, hl, h⟩ := (passes_iff hN).1 h
    cases Lexes.unique hb hl
    have hcn3 : cn = .anonymous → at_ ["CHECK"] (phrasesText ps ++ t :: x) () (phrasesText ps ++ t :: x) := by
      rintro rfl
      obtain ⟨_, _, _, _, _, _, _, _, _, _, _, _, _, h⟩ := hc
      exact anonymous_at h
    obtain ⟨pre2, e2, _, hs2⟩ := reorder hN hgB ht hc2 (fun q hq => hp q (hperm.mem_iff.2 hq)) hperm.symm h2 h1 hcn3
    have e2 : pre ++ (phrasesText qs ++ t :: x) = pre2 ++ (phrasesText qs ++ t :: x) := hB.symm.trans e2
    cases List.append_cancel_right e2
    obtain ⟨_, _, _, _, _, _, _, _, h3⟩ := hs2 ss h
    rw [← hA'] at h3
    exact (passes_iff hN).2 ⟨A, _, ha, h3⟩
  · obtain ⟨sb, bb, n, is, js, se, rfl, hd, h3⟩ := hs ss h
    have hq := hperm.map Phrase.con
    refine ⟨_, returns_of_script hN ha h hf, ?_⟩
    rw [tablesVal_perm hq hd]
    exact returns_of_script hN hb h3 (faithful_perm hq hf)

/-! The exceptions are real. -/

/-- SQLite: `NOT NULL REFERENCES uu` is accepted, `REFERENCES uu NOT NULL` is not. -/
theorem C55_sqlite_negation :
    Returns simpleNum "CREATE TABLE tt (aa INTEGER NOT NULL REFERENCES uu);".toList .sqlite
      ([{ name := S "tt"
          columns := [{ name := S "aa", dataType := { name := S "INTEGER" }
                        constraint := { isNotNull := true, references := { tableName := S "uu" } } }] }], none) ∧
    Returns simpleNum "CREATE TABLE tt (aa INTEGER REFERENCES uu NOT NULL);".toList .sqlite
      ([], some ⟨1, S "NULL"⟩) :=
  ⟨⟨200, by decide +kernel⟩, ⟨200, by decide +kernel⟩⟩

/-- MySQL: `NOT NULL CHECK (aa)` and `CHECK (aa) NOT NULL` are both accepted and give different columns. -/
theorem C55_mysql_check_negation :
    Returns simpleNum "CREATE TABLE tt (aa INT NOT NULL CHECK (aa));".toList .mysql
      ([{ name := S "tt"
          columns := [{ name := S "aa", dataType := { name := S "INT" }
                        constraint := { isNotNull := true, check := S "(aa)" } }] }], none) ∧
    Returns simpleNum "CREATE TABLE tt (aa INT CHECK (aa) NOT NULL);".toList .mysql
      ([{ name := S "tt"
          columns := [{ name := S "aa", dataType := { name := S "INT" }
                        constraint := { isNotNull := false, check := S "(aa)" } }] }], none) :=
  ⟨⟨200, by decide +kernel⟩, ⟨200, by decide +kernel⟩⟩

/-- MySQL: `KEY UNIQUE` is a primary key and unique, `UNIQUE KEY` is only unique. -/
theorem C55_mysql_key_negation :
    Returns simpleNum "CREATE TABLE tt (aa INT KEY UNIQUE);".toList .mysql
      ([{ name := S "tt"
          columns := [{ name := S "aa", dataType := { name := S "INT" }
                        constraint := { isPrimaryKey := true, isUnique := true } }] }], none) ∧
    Returns simpleNum "CREATE TABLE tt (aa INT UNIQUE KEY);".toList .mysql
      ([{ name := S "tt"
          columns := [{ name := S "aa", dataType := { name := S "INT" }
                        constraint := { isPrimaryKey := false, isUnique := true } }] }], none) :=
  ⟨⟨200, by decide +kernel⟩, ⟨200, by decide +kernel⟩⟩

/-- MySQL: `CONSTRAINT` without a name is accepted only in front of a CHECK. -/
theorem C55_mysql_constraint_negation :
    Returns simpleNum "CREATE TABLE tt (aa INT CONSTRAINT CHECK (aa) UNIQUE);".toList .mysql
      ([{ name := S "tt"
          columns := [{ name := S "aa", dataType := { name := S "INT" }
                        constraint := { isUnique := true, check := S "(aa)" } }] }], none) ∧
    Returns simpleNum "CREATE TABLE tt (aa INT CONSTRAINT UNIQUE CHECK (aa));".toList .mysql
      ([], some ⟨1, S "UNIQUE"⟩) :=
  ⟨⟨200, by decide +kernel⟩, ⟨200, by decide +kernel⟩⟩

/-! The hypotheses can be met: four constraints of a column in SQLite. -/

/-- `NOT NULL` -/
def notNullP : Phrase := ⟨[S "NOT", S "NULL"], .notNull⟩
/-- `REFERENCES uu` -/
def referencesP : Phrase := ⟨[S "REFERENCES", S "uu"], .references ⟨⟨none, S "uu"⟩, none⟩⟩
/-- `UNIQUE` -/
def uniqueP : Phrase := ⟨[S "UNIQUE"], .unique⟩
/-- `DEFAULT 1` -/
def defaultP : Phrase := ⟨[S "DEFAULT", S "1"], .default (.lit (S "1"))⟩

example : ∃ T,
    Returns simpleNum "CREATE TABLE tt (aa INTEGER NOT NULL REFERENCES uu UNIQUE DEFAULT 1);".toList .sqlite (T, none) ∧
    Returns simpleNum "CREATE TABLE tt (aa INTEGER DEFAULT 1 REFERENCES uu UNIQUE NOT NULL);".toList .sqlite (T, none) := by
  have nm : ∀ s : Str, plainName .sqlite s = true → Name .sqlite s := fun s h => .inr ((plainName_iff _ s).1 h)
  have pR : [notNullP, referencesP, uniqueP, defaultP].Perm [defaultP, referencesP, uniqueP, notNullP] := by
    refine List.Perm.trans (List.Perm.swap referencesP notNullP _) ?_
    refine List.Perm.trans (.cons _ (List.Perm.swap uniqueP notNullP _)) ?_
    refine List.Perm.trans (.cons _ (.cons _ (List.Perm.swap defaultP notNullP _))) ?_
    refine List.Perm.trans (.cons _ (List.Perm.swap defaultP uniqueP _)) ?_
    exact List.Perm.swap _ _ _
  have hr : ∀ p ∈ [notNullP, referencesP, uniqueP, defaultP], p.Reads simpleNum .sqlite := by
    intro p hp
    simp only [List.mem_cons, List.not_mem_nil, or_false] at hp
    rcases hp with rfl | rfl | rfl | rfl
    · exact ⟨[], .inr (.inl ⟨(), _, kw_intro (by decide), (), _, kw_intro (by decide), (), _,
        ⟨none, _, optKw_none ⟨rfl, by simp⟩, rfl, rfl⟩, rfl, rfl⟩)⟩
    · refine ⟨[], .inr (.inr (.inr (.inr (.inr (.inr (.inl ⟨⟨⟨none, S "uu"⟩, none⟩, [], ?_, (), [],
        ⟨[], [], .nil ⟨rfl, by simp⟩, rfl, rfl⟩, rfl, rfl⟩))))))⟩
      exact ⟨(), _, kw_intro (by decide), ⟨none, S "uu"⟩, [], ⟨S "uu", [], ⟨rfl, nm _ (by decide +kernel)⟩, none, [],
        optKw_none ⟨rfl, by simp⟩, rfl, rfl⟩, none, [], optKw_none ⟨rfl, by simp⟩, rfl, rfl⟩
    · exact ⟨[], .inr (.inr (.inl ⟨(), _, kw_intro (by decide), (), _, ⟨none, _, optKw_none ⟨rfl, by simp⟩, rfl, rfl⟩,
        rfl, rfl⟩))⟩
    · exact ⟨[], .inr (.inr (.inr (.inr (.inl ⟨(), _, kw_intro (by decide), .lit (S "1"), [],
        .inr ⟨(), _, notAt_cons (by decide), S "1", [], ⟨rfl, .inl (by decide)⟩, rfl, rfl⟩, rfl, rfl⟩))))⟩
  have hc : ColumnIn simpleNum .sqlite
      ([S "CREATE", S "TABLE", S "tt", S "(", S "aa", S "INTEGER"] ++
        (phrasesText [notNullP, referencesP, uniqueP, defaultP] ++ S ")" :: [S ";"]))
      (S "aa") ⟨S "INTEGER", false, none⟩ .absent
      (phrasesText [notNullP, referencesP, uniqueP, defaultP] ++ S ")" :: [S ";"]) := by
    refine ⟨[], [], _, (false, ⟨none, S "tt"⟩), _, _, _, rfl, .nil, ?_, .nil, nm _ (by decide +kernel),
      ⟨S "INTEGER", _, ⟨rfl, by decide⟩, rfl, rfl⟩, ⟨none, _, optKw_none (notAt_cons (by decide)), rfl, rfl⟩⟩
    exact ⟨(), _, kw_intro (by decide), false, _, .inr ⟨(), _, notAt_cons (by decide), rfl, rfl⟩, (), _,
      kw_intro (by decide), false, _, ⟨none, _, optKw_none (notAt_cons (by decide)), rfl, rfl⟩, _, _,
      ⟨S "tt", _, ⟨rfl, nm _ (by decide +kernel)⟩, none, _, optKw_none (notAt_cons (by decide)), rfl, rfl⟩, (), _,
      kw_intro (by decide), rfl, rfl⟩
  have na : ∀ p q : Phrase, (∀ r, p.con ≠ .references r) ∨ ¬ q.Starts "NOT" → ¬ Absorbs .sqlite p q := by
    rintro p q h ⟨r, h1, h2⟩
    rcases h with h | h
    · exact h r h1
    · exact h h2
  have ns : ∀ {p : Phrase} {t x}, p.text = t :: x → ¬ Kw ["NOT"] t → ¬ p.Starts "NOT" := by
    rintro p t x e h ⟨t', x', e', h'⟩
    rw [e] at e'; cases e'; exact h h'
  have h := C55_order simpleNum_ok (d := .sqlite)
    (a := "CREATE TABLE tt (aa INTEGER NOT NULL REFERENCES uu UNIQUE DEFAULT 1);".toList)
    (b := "CREATE TABLE tt (aa INTEGER DEFAULT 1 REFERENCES uu UNIQUE NOT NULL);".toList)
    (A := [S "CREATE", S "TABLE", S "tt", S "(", S "aa", S "INTEGER", S "NOT", S "NULL", S "REFERENCES", S "uu",
      S "UNIQUE", S "DEFAULT", S "1", S ")", S ";"])
    (B := [S "CREATE", S "TABLE", S "tt", S "(", S "aa", S "INTEGER", S "DEFAULT", S "1", S "REFERENCES", S "uu",
      S "UNIQUE", S "NOT", S "NULL", S ")", S ";"])
    (pre := [S "CREATE", S "TABLE", S "tt", S "(", S "aa", S "INTEGER"]) (t := S ")") (x := [S ";"])
    (qs := [defaultP, referencesP, uniqueP, notNullP])
    ⟨200, by decide +kernel⟩ ⟨200, by decide +kernel⟩ (by decide) (by decide) (by decide) hc hr pR
    ⟨na _ _ (.inl (by intro r h; cases h)), na _ _ (.inr (ns rfl (by decide))), na _ _ (.inl (by intro r h; cases h)), trivial⟩
    ⟨na _ _ (.inl (by intro r h; cases h)), na _ _ (.inr (ns rfl (by decide))), na _ _ (.inl (by intro r h; cases h)), trivial⟩
    (fun h => nomatch h)
  -- the first order is a script, and its tables are reported faithfully
  have hm : colCons (colConFirstOf .sqlite) (colConOf simpleNum .sqlite)
      (phrasesText [notNullP, referencesP, uniqueP, defaultP] ++ S ")" :: [S ";"])
      ([notNullP, referencesP, uniqueP, defaultP].map Phrase.con) [S ")", S ";"] :=
    ⟨phrases_read (by decide) hr
      ⟨na _ _ (.inl (by intro r h; cases h)), na _ _ (.inr (ns rfl (by decide))), na _ _ (.inl (by intro r h; cases h)), trivial⟩,
      by decide⟩
  have hi := column_intro (d := .sqlite) (c := S "aa") (nm (S "aa") (by decide +kernel))
    (⟨S "INTEGER", _, ⟨rfl, by decide⟩, rfl, rfl⟩ : typeLang .sqlite (S "INTEGER" :: _) _ _)
    (⟨none, _, optKw_none (notAt_cons (by decide)), rfl, rfl⟩ : conNameLang .sqlite _ .absent _) hm
  have hd : tableHead .sqlite (S "CREATE" :: S "TABLE" :: S "tt" :: S "(" :: S "aa" :: S "INTEGER" ::
      (phrasesText [notNullP, referencesP, uniqueP, defaultP] ++ S ")" :: [S ";"])) (false, ⟨none, S "tt"⟩)
      (S "aa" :: S "INTEGER" :: (phrasesText [notNullP, referencesP, uniqueP, defaultP] ++ S ")" :: [S ";"])) :=
    ⟨(), _, kw_intro (by decide), false, _, .inr ⟨(), _, notAt_cons (by decide), rfl, rfl⟩, (), _,
      kw_intro (by decide), false, _, ⟨none, _, optKw_none (notAt_cons (by decide)), rfl, rfl⟩, _, _,
      ⟨S "tt", _, ⟨rfl, nm _ (by decide +kernel)⟩, none, _, optKw_none (notAt_cons (by decide)), rfl, rfl⟩, (), _,
      kw_intro (by decide), rfl, rfl⟩
  have hs := table_intro (isNum := simpleNum) (u := ()) (r := []) hd (.one hi (notAt_cons (by decide)))
    ⟨(), _, kw_intro (by decide), (), _, .inr (.inr (notAt_cons (by decide))), kw_intro (by decide)⟩
  refine h.2 _ (.cons hs .nil) ?_
  intro t ht
  cases List.mem_singleton.1 ht
  refine ⟨fun i hi => ?_, fun i is e => by cases e⟩
  cases List.mem_singleton.1 hi
  refine ⟨fun r hr => ?_, fun n hn => nomatch hn⟩
  simp only [List.map, List.mem_cons, notNullP, referencesP, uniqueP, defaultP, List.not_mem_nil] at hr
  rcases hr with hr | hr | hr | hr | hr
  · cases hr
  · cases hr; rfl
  · cases hr
  · cases hr
  · exact hr.elim

end DDL.Props

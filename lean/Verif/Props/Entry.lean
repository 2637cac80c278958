import Verif.Proof.Entry
import Verif.Props.Tables
/-
C56: a table definition is the sum of its parts.
-/

namespace DDL.Props
open DDL V Spec Conv

/-- C56: let `a`, `b` and `c` be texts that differ, up to layout and comments, in the entries of one
table definition only, `A`, `B` and `C` their tokens: the entries are `X` in `a`, `Y` in `b`, and `X , Y`
in `c`. The parts `X` and `Y` are any tokens with balanced parentheses. Then `c` is accepted iff `a` and
`b` are, and (within the exclusions of C07–C09) its table has the columns and constraints of the table of
`a` followed by those of the table of `b`; all other tables are the same in all three results. -/
theorem C56_sum [CaseMap] {isNum : Str → Bool} (hN : NumOK isNum) {d : Rdbms} {a b c : List Char}
    {A B C before head X Y z : List Str} {s0 : List Stmt} {v : Bool × QName}
    (ha : Lexes d a A) (hb : Lexes d b B) (hc : Lexes d c C)
    (hs : script isNum d before s0) (hh : tableHead d head v []) (hX : Bal X) (hY : Bal Y)
    (hA : noNewlines A = before ++ (head ++ (X ++ S ")" :: z)))
    (hB : noNewlines B = before ++ (head ++ (Y ++ S ")" :: z)))
    (hC : noNewlines C = before ++ (head ++ (X ++ S "," :: Y ++ S ")" :: z))) :
    (Passes isNum d c ↔ Passes isNum d a ∧ Passes isNum d b) ∧
    ∀ sa sb sc, script isNum d (noNewlines A) sa → script isNum d (noNewlines B) sb → script isNum d (noNewlines C) sc →
      Faithful sa → Faithful sb → Faithful sc →
      ∃ t u T, SameHead t u ∧
        Returns isNum a d (tablesVal isNum d s0 ++ t :: T, none) ∧
        Returns isNum b d (tablesVal isNum d s0 ++ u :: T, none) ∧
        Returns isNum c d (tablesVal isNum d s0 ++ joined t u :: T, none) := by
  have hgA : ∀ t ∈ noNewlines A, Good t := strip_good (Lexes.good ha)
  have hgB : ∀ t ∈ noNewlines B, Good t := strip_good (Lexes.good hb)
  have hgC : ∀ t ∈ noNewlines C, Good t := strip_good (Lexes.good hc)
  have hXY : Bal (X ++ S "," :: Y) := bal_append hX (.plain _ _ (by decide) (by decide) hY)
  have tA := fun ss => table_rows (ss := ss) (z := z) hN hs hh hX (hA ▸ hgA)
  have tB := fun ss => table_rows (ss := ss) (z := z) hN hs hh hY (hB ▸ hgB)
  have tC := fun ss => table_rows (ss := ss) (z := z) hN hs hh hXY (hC ▸ hgC)
  have hA' : strip A = before ++ (head ++ (X ++ S ")" :: z)) := hA
  have hB' : strip B = before ++ (head ++ (Y ++ S ")" :: z)) := hB
  have hC' : strip C = before ++ (head ++ (X ++ S "," :: Y ++ S ")" :: z)) := hC
  refine ⟨⟨fun h => ?_, fun ⟨h, h'⟩ => ?_⟩, fun sa sb sc gA gB gC fA fB fC => ?_⟩
  · obtain ⟨C', ss, hl, h⟩ := (passes_iff hN).1 h
    cases Lexes.unique hc hl
    rw [hC'] at h
    obtain ⟨ks, se, u, r, _, hr, hend, hrest⟩ := (tC ss).1 h
    obtain ⟨is, js, rfl, h1, h2⟩ := rows_split hr hX rfl
    exact ⟨(passes_iff hN).2 ⟨A, _, ha, by rw [hA']; exact (tA _).2 ⟨is, se, u, r, rfl, h1, hend, hrest⟩⟩,
      (passes_iff hN).2 ⟨B, _, hb, by rw [hB']; exact (tB _).2 ⟨js, se, u, r, rfl, h2, hend, hrest⟩⟩⟩
  · obtain ⟨A', ss, hl, h⟩ := (passes_iff hN).1 h
    cases Lexes.unique ha hl
    obtain ⟨B', ss', hl, h'⟩ := (passes_iff hN).1 h'
    cases Lexes.unique hb hl
    rw [hA'] at h
    rw [hB'] at h'
    obtain ⟨is, se, u, r, _, h1, hend, hrest⟩ := (tA ss).1 h
    obtain ⟨js, _, _, _, _, h2, _, _⟩ := (tB ss').1 h'
    exact (passes_iff hN).2 ⟨C, _, hc, by rw [hC']; exact (tC _).2 ⟨is ++ js, se, u, r, rfl, h1.append h2, hend, hrest⟩⟩
  · have gC' := gC
    rw [hC] at gC'
    obtain ⟨ks, se, u, r, rfl, hr, hend, hrest⟩ := (tC sc).1 gC'
    obtain ⟨is, js, rfl, h1, h2⟩ := rows_split hr hX rfl
    have kA : script isNum d (noNewlines A) _ := hA ▸ (tA _).2 ⟨is, se, u, r, rfl, h1, hend, hrest⟩
    have kB : script isNum d (noNewlines B) _ := hB ▸ (tB _).2 ⟨js, se, u, r, rfl, h2, hend, hrest⟩
    cases script_unique hN hgA gA kA
    cases script_unique hN hgB gB kB
    have rA := returns_of_script hN ha kA fA
    have rB := returns_of_script hN hb kB fB
    have rC := returns_of_script hN hc gC fC
    rw [tables_at] at rA rB rC
    rw [table_sum] at rC
    exact ⟨tableVal isNum d ⟨v.1, v.2, is⟩, tableVal isNum d ⟨v.1, v.2, js⟩, _, ⟨rfl, rfl, rfl⟩, rA, rB, rC⟩

/-- C56: the entries `Xs` of a table definition in another order `Ys`: accepted or not alike, and (within
the exclusions of C07–C09) with the same columns and constraints, up to their order; all other tables
are the same. -/
theorem C56_shuffled [CaseMap] {isNum : Str → Bool} (hN : NumOK isNum) {d : Rdbms} {a b : List Char}
    {A B before head z : List Str} {Xs Ys : List (List Str)} {s0 : List Stmt} {v : Bool × QName}
    (ha : Lexes d a A) (hb : Lexes d b B)
    (hs : script isNum d before s0) (hh : tableHead d head v []) (hXs : ∀ X ∈ Xs, Bal X) (hne : Xs ≠ [])
    (hperm : Xs.Perm Ys)
    (hA : noNewlines A = before ++ (head ++ (commas Xs ++ S ")" :: z)))
    (hB : noNewlines B = before ++ (head ++ (commas Ys ++ S ")" :: z))) :
    (Passes isNum d a ↔ Passes isNum d b) ∧
    ∀ sa sb, script isNum d (noNewlines A) sa → script isNum d (noNewlines B) sb → Faithful sa → Faithful sb →
      ∃ t u T, SameHead t u ∧ Shuffled t u ∧
        Returns isNum a d (tablesVal isNum d s0 ++ t :: T, none) ∧
        Returns isNum b d (tablesVal isNum d s0 ++ u :: T, none) := by
  have hgA : ∀ t ∈ noNewlines A, Good t := strip_good (Lexes.good ha)
  have hgB : ∀ t ∈ noNewlines B, Good t := strip_good (Lexes.good hb)
  have hYs : ∀ Y ∈ Ys, Bal Y := fun Y hY => hXs Y (hperm.mem_iff.2 hY)
  have hneY : Ys ≠ [] := fun e => hne (by subst e; exact hperm.eq_nil)
  have tA := fun ss => table_rows (ss := ss) (z := z) hN hs hh (commas_bal hXs) (hA ▸ hgA)
  have tB := fun ss => table_rows (ss := ss) (z := z) hN hs hh (commas_bal hYs) (hB ▸ hgB)
  have hA' : strip A = before ++ (head ++ (commas Xs ++ S ")" :: z)) := hA
  have hB' : strip B = before ++ (head ++ (commas Ys ++ S ")" :: z)) := hB
  have move : ∀ is, Rows (itemOf isNum d) (commas Xs) is → ∃ js, is.Perm js ∧ Rows (itemOf isNum d) (commas Ys) js := by
    intro is h
    obtain ⟨js, e, hj⟩ := Parts.perm hperm ((rows_commas hne hXs).1 h)
    exact ⟨js, e, (rows_commas hneY hYs).2 hj⟩
  have back : ∀ is, Rows (itemOf isNum d) (commas Ys) is → ∃ js, is.Perm js ∧ Rows (itemOf isNum d) (commas Xs) js := by
    intro is h
    obtain ⟨js, e, hj⟩ := Parts.perm hperm.symm ((rows_commas hneY hYs).1 h)
    exact ⟨js, e, (rows_commas hne hXs).2 hj⟩
  refine ⟨⟨fun h => ?_, fun h => ?_⟩, fun sa sb gA gB fA fB => ?_⟩
  · obtain ⟨A', ss, hl, h⟩ := (passes_iff hN).1 h
    cases Lexes.unique ha hl
    rw [hA'] at h
    obtain ⟨is, se, u, r, _, hr, hend, hrest⟩ := (tA ss).1 h
    obtain ⟨js, _, h2⟩ := move is hr
    exact (passes_iff hN).2 ⟨B, _, hb, by rw [hB']; exact (tB _).2 ⟨js, se, u, r, rfl, h2, hend, hrest⟩⟩
  · obtain ⟨B', ss, hl, h⟩ := (passes_iff hN).1 h
    cases Lexes.unique hb hl
    rw [hB'] at h
    obtain ⟨is, se, u, r, _, hr, hend, hrest⟩ := (tB ss).1 h
    obtain ⟨js, _, h2⟩ := back is hr
    exact (passes_iff hN).2 ⟨A, _, ha, by rw [hA']; exact (tA _).2 ⟨js, se, u, r, rfl, h2, hend, hrest⟩⟩
  · have gA' := gA
    rw [hA] at gA'
    obtain ⟨is, se, u, r, rfl, hr, hend, hrest⟩ := (tA sa).1 gA'
    obtain ⟨js, e, h2⟩ := move is hr
    have kB : script isNum d (noNewlines B) _ := hB ▸ (tB _).2 ⟨js, se, u, r, rfl, h2, hend, hrest⟩
    cases script_unique hN hgB gB kB
    have rA := returns_of_script hN ha gA fA
    have rB := returns_of_script hN hb kB fB
    rw [tables_at] at rA rB
    exact ⟨tableVal isNum d ⟨v.1, v.2, is⟩, tableVal isNum d ⟨v.1, v.2, js⟩, _, ⟨rfl, rfl, rfl⟩, table_shuffled e, rA, rB⟩

/-- An unnamed EXCLUDE in front of another entry is one of the exclusions: together, the entries
`EXCLUDE (cc)` and `bb INT` give a column `,` of type `BB`. -/
theorem C56_exclude_negation :
    Returns simpleNum "CREATE TABLE tt (EXCLUDE (cc));".toList .postgres ([{ name := S "tt" }], none) ∧
    Returns simpleNum "CREATE TABLE tt (bb INT);".toList .postgres
      ([{ name := S "tt", columns := [{ name := S "bb", dataType := { name := S "INT" } }] }], none) ∧
    Returns simpleNum "CREATE TABLE tt (EXCLUDE (cc), bb INT);".toList .postgres
      ([{ name := S "tt", columns := [{ name := S ",", dataType := { name := S "BB" } }] }], none) :=
  ⟨⟨200, by decide +kernel⟩, ⟨200, by decide +kernel⟩, ⟨200, by decide +kernel⟩⟩

/-- The hypotheses can be met: two columns and a key in MySQL, in any order. -/
theorem head_tt : tableHead .mysql [S "CREATE", S "TABLE", S "tt", S "("] (false, ⟨none, S "tt"⟩) [] := by
  have nm : Name .mysql (S "tt") := .inr ((plainName_iff _ _).1 (by decide +kernel))
  exact ⟨(), _, kw_intro (by decide), false, _, ⟨rfl, rfl⟩, (), _, kw_intro (by decide), false, _,
    ⟨none, _, optKw_none (notAt_cons (by decide)), rfl, rfl⟩, _, _,
    ⟨S "tt", _, ⟨rfl, nm⟩, none, _, optKw_none (notAt_cons (by decide)), rfl, rfl⟩, (), _, kw_intro (by decide), rfl, rfl⟩

example :
    Passes simpleNum .mysql "CREATE TABLE tt (aa DECIMAL(5, 2), PRIMARY KEY (aa, bb), bb INT);".toList ↔
    Passes simpleNum .mysql "CREATE TABLE tt (aa DECIMAL(5, 2));".toList ∧
      Passes simpleNum .mysql "CREATE TABLE tt (PRIMARY KEY (aa, bb), bb INT);".toList :=
  (C56_sum simpleNum_ok (d := .mysql) (before := []) (s0 := []) (z := [S ";"])
    (X := [S "aa", S "DECIMAL", S "(", S "5", S ",", S "2", S ")"])
    (Y := [S "PRIMARY", S "KEY", S "(", S "aa", S ",", S "bb", S ")", S ",", S "bb", S "INT"])
    (A := [S "CREATE", S "TABLE", S "tt", S "(", S "aa", S "DECIMAL", S "(", S "5", S ",", S "2", S ")", S ")", S ";"])
    (B := [S "CREATE", S "TABLE", S "tt", S "(", S "PRIMARY", S "KEY", S "(", S "aa", S ",", S "bb", S ")", S ",", S "bb",
      S "INT", S ")", S ";"])
    (C := [S "CREATE", S "TABLE", S "tt", S "(", S "aa", S "DECIMAL", S "(", S "5", S ",", S "2", S ")", S ",", S "PRIMARY",
      S "KEY", S "(", S "aa", S ",", S "bb", S ")", S ",", S "bb", S "INT", S ")", S ";"])
    ⟨200, by decide +kernel⟩ ⟨200, by decide +kernel⟩ ⟨200, by decide +kernel⟩ .nil head_tt
    (.plain _ _ (by decide) (by decide) (.plain _ _ (by decide) (by decide)
      (.paren [S "5", S ",", S "2"] [] (.plain _ _ (by decide) (by decide) (.plain _ _ (by decide) (by decide)
        (.plain _ _ (by decide) (by decide) .nil))) .nil)))
    (.plain _ _ (by decide) (by decide) (.plain _ _ (by decide) (by decide)
      (.paren [S "aa", S ",", S "bb"] [S ",", S "bb", S "INT"] (.plain _ _ (by decide) (by decide)
        (.plain _ _ (by decide) (by decide) (.plain _ _ (by decide) (by decide) .nil)))
        (.plain _ _ (by decide) (by decide) (.plain _ _ (by decide) (by decide) (.plain _ _ (by decide) (by decide) .nil))))))
    (by decide) (by decide) (by decide)).1

example :
    Passes simpleNum .mysql "CREATE TABLE tt (aa DECIMAL(5, 2), bb INT);".toList ↔
    Passes simpleNum .mysql "CREATE TABLE tt (bb INT, aa DECIMAL(5, 2));".toList :=
  (C56_shuffled simpleNum_ok (d := .mysql) (before := []) (s0 := []) (z := [S ";"])
    (Xs := [[S "aa", S "DECIMAL", S "(", S "5", S ",", S "2", S ")"], [S "bb", S "INT"]])
    (Ys := [[S "bb", S "INT"], [S "aa", S "DECIMAL", S "(", S "5", S ",", S "2", S ")"]])
    (A := [S "CREATE", S "TABLE", S "tt", S "(", S "aa", S "DECIMAL", S "(", S "5", S ",", S "2", S ")", S ",", S "bb", S "INT",
      S ")", S ";"])
    (B := [S "CREATE", S "TABLE", S "tt", S "(", S "bb", S "INT", S ",", S "aa", S "DECIMAL", S "(", S "5", S ",", S "2", S ")",
      S ")", S ";"])
    ⟨200, by decide +kernel⟩ ⟨200, by decide +kernel⟩ .nil head_tt
    (by
      intro X hX
      simp only [List.mem_cons, List.not_mem_nil, or_false] at hX
      rcases hX with rfl | rfl
      · exact .plain _ _ (by decide) (by decide) (.plain _ _ (by decide) (by decide)
          (.paren [S "5", S ",", S "2"] [] (.plain _ _ (by decide) (by decide) (.plain _ _ (by decide) (by decide)
            (.plain _ _ (by decide) (by decide) .nil))) .nil))
      · exact .plain _ _ (by decide) (by decide) (.plain _ _ (by decide) (by decide) .nil))
    (by simp) (.swap _ _ _) (by decide) (by decide)).1

end DDL.Props

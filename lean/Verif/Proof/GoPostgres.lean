import Verif.Proof.GoShared
import Verif.Model.Postgres
/-
The methods of the PostgreSQL validator (validator_postgresql.go), from their syntax trees to the model.
-/

set_option linter.unusedSectionVars false

namespace DDL.Src
open DDL Obj

variable [CaseMap] {isNum : Str → Bool}

theorem types_pg : Tree.DataType_PostgreSQL = dataTypePostgres := rfl

theorem go_pg_isStringValue_nil (s : State) : go isNum .pg_isStringValue [.str []] s = .panic := by
  rw [go_def isNum _ Tree.pg_isStringValue rfl _ _ _ rfl]
  simp only [Tree.pg_isStringValue]
  go_simp
  simp only [cut_nil, into_panic, finish_panic]

theorem go_pg_isStringValue_cons (c : Char) (t : Str) (s : State) :
    go isNum .pg_isStringValue [.str (c :: t)] s = .ok (.bool (V.isStringValue .postgres c)) [] s := by
  rw [go_def isNum _ Tree.pg_isStringValue rfl _ _ _ rfl]
  simp only [Tree.pg_isStringValue]
  go_simp
  simp only [cut_cons]
  go_simp
  simp only [S_sq, decide_char, V.isStringValue]

instance test_pg_isStringValue : Test isNum .pg_isStringValue (.head fun c => .ret (V.isStringValue .postgres c)) :=
  Test.ofHead go_pg_isStringValue_nil go_pg_isStringValue_cons

theorem go_pg_isIdentifier_nil (s : State) : go isNum .pg_isIdentifier [.str []] s = .panic := by
  rw [go_def isNum _ Tree.pg_isIdentifier rfl _ _ _ rfl]
  simp only [Tree.pg_isIdentifier]
  go_simp
  simp only [cut_nil, into_panic, finish_panic]

theorem go_pg_isIdentifier_cons (c : Char) (t : Str) (s : State) :
    go isNum .pg_isIdentifier [.str (c :: t)] s = .ok (.bool (V.isIdentifier .postgres c)) [] s := by
  rw [go_def isNum _ Tree.pg_isIdentifier rfl _ _ _ rfl]
  simp only [Tree.pg_isIdentifier]
  go_simp
  simp only [cut_cons]
  go_simp
  simp only [S_dq, decide_char, V.isIdentifier]

theorem words_pg : Tree.ReservedWords_PostgreSQL = reservedPostgres := rfl

theorem go_pg_isValidName_nil (s : State) : go isNum .pg_isValidName [.str []] s = .panic := by
  rw [go_def isNum _ Tree.pg_isValidName rfl _ _ _ rfl]
  simp only [Tree.pg_isValidName]
  go_simp
  rw [go_pg_isIdentifier_nil]
  rfl

theorem go_pg_isValidName_cons (c : Char) (t : Str) (s : State) :
    go isNum .pg_isValidName [.str (c :: t)] s = .ok (.bool (V.isIdentifier .postgres c || V.plainName .postgres (c :: t))) [] s := by
  rw [go_def isNum _ Tree.pg_isValidName rfl _ _ _ rfl]
  simp only [Tree.pg_isValidName]
  go_simp
  rw [go_pg_isIdentifier_cons]
  go_simp
  cases V.isIdentifier .postgres c
  · go_simp
    unfold V.plainName
    cases hm : matchIdent (c :: t)
    · go_simp
      rfl
    · go_simp
      rw [go_Contains isNum (.kws Tree.ReservedWords_PostgreSQL) _ rfl, words_pg, upStr_of_ascii (matchIdent_ascii hm)]
      go_simp
      simp only [V.reserved]
      cases contains (List.map S reservedPostgres) (toUpper (c :: t)) <;> rfl
  · go_simp
    rfl

instance test_pg_isValidName : Test isNum .pg_isValidName (V.isValidName .postgres) :=
  Test.validName go_pg_isValidName_nil go_pg_isValidName_cons

instance test_pg_isColumnConstraint : Test isNum .pg_isColumnConstraint (V.matchToken Postgres.columnConstraintKinds) := by
  refine Test.kind fun v t ht => ?_
  rw [go_def isNum _ Tree.pg_isColumnConstraint rfl _ _ _ rfl]
  simp only [Tree.pg_isColumnConstraint]
  go_simp
  rw [go_va_matchToken isNum ht _ (by go_ascii)]
  go_simp
  rfl

instance fun_pg_validateName (set : Bool) : Fun isNum .pg_validateName [.bool set] (fun _ => V.validateName .postgres set) := by
  refine Fun.plain (ℓ := [(.«set», .bool set)]) Tree.pg_validateName rfl (fun _ => rfl) rfl fun _ => ?_
  apply Done.cast
  · go_done Fun.at
  · go_eq [V.validateName]

instance fun_pg_validateTableName (set : Bool) : Fun isNum .pg_validateTableName [.bool set] (fun _ => V.validateTableName .postgres set) := by
  refine Fun.plain (ℓ := [(.«set», .bool set)]) Tree.pg_validateTableName rfl (fun _ => rfl) rfl fun _ => ?_
  apply Done.cast
  · go_done Fun.at
  · go_eq [V.validateTableName, ifM_matchTokenNext]

instance fun_pg_validateColumnName (set : Bool) : Fun isNum .pg_validateColumnName [.bool set] (fun _ => V.validateName .postgres set) := by
  refine Fun.plain (ℓ := [(.«set», .bool set)]) Tree.pg_validateColumnName rfl (fun _ => rfl) rfl fun _ => ?_
  apply Done.cast
  · go_done Fun.at
  · go_eq []

instance fun_pg_validateCommaSeparatedColumnNames (set : Bool) : Fun isNum .pg_validateCommaSeparatedColumnNames [.bool set] (fun n => V.validateCommaSeparatedColumnNames .postgres set n) := by
  refine Fun.loop (ℓ := [(.«set», .bool set)]) Tree.pg_validateCommaSeparatedColumnNames rfl (fun _ => rfl) rfl rfl fun n ih => ?_
  apply Done.cast
  · go_done Fun.up
  · go_eq [V.validateCommaSeparatedColumnNames]

instance fun_pg_validateExpr (set : Bool) : Fun isNum .pg_validateExpr [.bool set] (fun n => V.validateExpr n set) := by
  refine Fun.plain (ℓ := [(.«set», .bool set)]) Tree.pg_validateExpr rfl (fun _ => rfl) rfl fun n => ?_
  apply Done.cast
  · go_done Fun.at
  · go_eq [V.validateExpr]

instance fun_pg_validateIfNotExists : Fun isNum .pg_validateIfNotExists [] (fun _ => V.validateIfNotExists) := by
  refine Fun.plain (ℓ := []) Tree.pg_validateIfNotExists rfl (fun _ => rfl) rfl fun _ => ?_
  apply Done.cast
  · go_done Fun.at
  · go_eq [V.validateIfNotExists]

instance fun_pg_validateLiteralValue : Fun isNum .pg_validateLiteralValue [] (fun _ => V.validateLiteralValue isNum .postgres true) := by
  refine Fun.plain (ℓ := []) Tree.pg_validateLiteralValue rfl (fun _ => rfl) rfl fun _ => ?_
  apply Done.cast
  · go_done Fun.at
  · go_eq [V.validateLiteralValue, V.literalKeywords, V.ifM, Prog.bind]

instance fun_pg_validatePositiveInteger : Fun isNum .pg_validatePositiveInteger [] (fun _ => V.validatePositiveInteger true) := by
  refine Fun.plain (ℓ := []) Tree.pg_validatePositiveInteger rfl (fun _ => rfl) rfl fun _ => ?_
  apply Done.cast
  · go_done Fun.at
  · go_eq [validatePositiveInteger_eq]

instance fun_pg_validateTypeDigitN : Fun isNum .pg_validateTypeDigitN [] (fun _ => V.validateTypeDigitN true) := by
  refine Fun.plain (ℓ := []) Tree.pg_validateTypeDigitN rfl (fun _ => rfl) rfl fun _ => ?_
  apply Done.cast
  · go_done Fun.at
  · go_eq [V.validateTypeDigitN]

instance fun_pg_validateTypeDigitP : Fun isNum .pg_validateTypeDigitP [] (fun _ => V.validateTypeDigitN true) := by
  refine Fun.plain (ℓ := []) Tree.pg_validateTypeDigitP rfl (fun _ => rfl) rfl fun _ => ?_
  apply Done.cast
  · go_done Fun.at
  · go_eq []

instance fun_pg_validateTypeDigitPS : Fun isNum .pg_validateTypeDigitPS [] (fun _ => V.validateTypeDigitPS true) := by
  refine Fun.plain (ℓ := []) Tree.pg_validateTypeDigitPS rfl (fun _ => rfl) rfl fun _ => ?_
  apply Done.cast
  · go_done Fun.at
  · go_eq [V.validateTypeDigitPS]

instance fun_pg_validateColumnType : Fun isNum .pg_validateColumnType [] (fun _ => Postgres.validateColumnType) := by
  refine Fun.plain (ℓ := []) Tree.pg_validateColumnType rfl (fun _ => rfl) rfl fun _ => ?_
  apply Done.cast
  · go_done Fun.at
  · go_eq [Postgres.validateColumnType, types_pg]

instance fun_pg_validateIndexParameters : Fun isNum .pg_validateIndexParameters [] (fun n => Postgres.validateIndexParameters n) := by
  refine Fun.plain (ℓ := []) Tree.pg_validateIndexParameters rfl (fun _ => rfl) rfl fun n => ?_
  apply Done.cast
  · go_done Fun.at
  · go_eq [Postgres.validateIndexParameters]

instance fun_pg_validateConstraintPrimaryKey : Fun isNum .pg_validateConstraintPrimaryKey [] (fun n => Postgres.validateConstraintPrimaryKey n) := by
  refine Fun.plain (ℓ := []) Tree.pg_validateConstraintPrimaryKey rfl (fun _ => rfl) rfl fun n => ?_
  apply Done.cast
  · go_done Fun.at
  · go_eq [Postgres.validateConstraintPrimaryKey]

instance fun_pg_validateConstraintNotNull : Fun isNum .pg_validateConstraintNotNull [] (fun _ => Postgres.validateConstraintNotNull) := by
  refine Fun.plain (ℓ := []) Tree.pg_validateConstraintNotNull rfl (fun _ => rfl) rfl fun _ => ?_
  apply Done.cast
  · go_done Fun.at
  · go_eq [Postgres.validateConstraintNotNull]

instance fun_pg_validateConstraintNull : Fun isNum .pg_validateConstraintNull [] (fun _ => Postgres.validateConstraintNull) := by
  refine Fun.plain (ℓ := []) Tree.pg_validateConstraintNull rfl (fun _ => rfl) rfl fun _ => ?_
  apply Done.cast
  · go_done Fun.at
  · go_eq [Postgres.validateConstraintNull]

instance fun_pg_validateConstraintUnique : Fun isNum .pg_validateConstraintUnique [] (fun n => Postgres.validateConstraintUnique n) := by
  refine Fun.plain (ℓ := []) Tree.pg_validateConstraintUnique rfl (fun _ => rfl) rfl fun n => ?_
  apply Done.cast
  · go_done Fun.at
  · go_eq [Postgres.validateConstraintUnique]

instance fun_pg_validateConstraintCheck : Fun isNum .pg_validateConstraintCheck [] (fun n => Postgres.validateConstraintCheck n) := by
  refine Fun.plain (ℓ := []) Tree.pg_validateConstraintCheck rfl (fun _ => rfl) rfl fun n => ?_
  apply Done.cast
  · go_done Fun.at
  · go_eq [Postgres.validateConstraintCheck]

instance fun_pg_validateConstraintDefault : Fun isNum .pg_validateConstraintDefault [] (fun n => Postgres.validateConstraintDefault isNum n) := by
  refine Fun.plain (ℓ := []) Tree.pg_validateConstraintDefault rfl (fun _ => rfl) rfl fun n => ?_
  apply Done.cast
  · go_done Fun.at
  · go_eq [Postgres.validateConstraintDefault]

instance fun_pg_validateConstraintReferencesAux : Fun isNum .pg_validateConstraintReferencesAux [] (fun n => V.validateConstraintReferencesAux n) := by
  refine Fun.loop (ℓ := []) Tree.pg_validateConstraintReferencesAux rfl (fun _ => rfl) rfl rfl fun n ih => ?_
  apply Done.cast
  · go_done Fun.up
  · go_eq [V.validateConstraintReferencesAux]

instance fun_pg_validateConstraintReferences : Fun isNum .pg_validateConstraintReferences [] (fun n => Postgres.validateConstraintReferences n) := by
  refine Fun.plain (ℓ := []) Tree.pg_validateConstraintReferences rfl (fun _ => rfl) rfl fun n => ?_
  apply Done.cast
  · go_done Fun.at
  · go_eq [Postgres.validateConstraintReferences]

instance fun_pg_validateConstraintGenerated : Fun isNum .pg_validateConstraintGenerated [] (fun n => Postgres.validateConstraintGenerated n) := by
  refine Fun.plain (ℓ := []) Tree.pg_validateConstraintGenerated rfl (fun _ => rfl) rfl fun n => ?_
  apply Done.cast
  · go_done Fun.at
  · go_eq [Postgres.validateConstraintGenerated, Postgres.optBrackets]

instance fun_pg_validateColumnConstraint : Fun isNum .pg_validateColumnConstraint [] (fun n => Postgres.validateColumnConstraint isNum n) := by
  refine Fun.plain (ℓ := []) Tree.pg_validateColumnConstraint rfl (fun _ => rfl) rfl fun n => ?_
  apply Done.cast
  · go_done Fun.at
  · go_eq [Postgres.validateColumnConstraint]


/-- The word remembered for a constraint, as the code makes it (validator_postgresql.go:367-377). -/
def pgKey (t : Str) : Str := if isKw ["NOT"] t then S "NULL" else upStr t

theorem up_pg_validateColumnConstraintsAux (ls : List Str) : Fun isNum .pg_validateColumnConstraintsAux [.strs ls]
    (fun n => V.columnConstraintsAux Postgres.columnConstraintKinds pgKey (Postgres.validateColumnConstraint isNum) n ls) := by
  refine Fun.loopG (args := fun ls => [.strs ls]) (ℓ := fun ls => [(.ls, .strs ls)])
    (P := V.columnConstraintsAux Postgres.columnConstraintKinds pgKey (Postgres.validateColumnConstraint isNum))
    Tree.pg_validateColumnConstraintsAux rfl (fun _ => rfl) (fun _ => rfl) (fun _ => rfl) (fun n ih ls => ?_) ls
  apply Done.cast
  · apply Done.iteL
    · go_cnd
    · go_done Fun.up
    · exact Fall.skip
    · refine Done.head (bad := fun t => contains ls (pgKey t)) (ℓ' := fun t => [(.ls, .strs (ls ++ [pgKey t]))])
        (q := fun t => (Postgres.validateColumnConstraint isNum (n + 1)).bind fun _ =>
          V.columnConstraintsAux Postgres.columnConstraintKinds pgKey (Postgres.validateColumnConstraint isNum) n (ls ++ [pgKey t]))
        ?_ (fun t => ?_)
      · intro v t ht
        go_simp
        rw [go_va_matchToken isNum ht _ (by go_ascii)]
        go_simp
        unfold pgKey
        cases isKw ["NOT"] t
        · go_simp
          rw [go_va_token_some isNum ht]
          go_simp
          rw [go_Contains isNum _ _ rfl]
          go_simp
          cases contains ls (upStr t) <;> go_simp
          · rw [go_va_token_some isNum ht]
            go_simp
          · rw [go_va_syntaxError isNum ht]
            go_simp
        · go_simp
          rw [go_Contains isNum _ _ rfl]
          go_simp
          cases contains ls (S "NULL") <;> go_simp
          · rw [upStr_of_ascii (t := S "NULL") (by intro c hc; revert c; decide +kernel)]
            rfl
          · rw [go_va_syntaxError isNum ht]
            go_simp
      · apply Fall.seqD
        · go_fall Fun.up
        · exact Done.retCall (.var rfl .nil) (ih _)
  · go_eq [V.columnConstraintsAux]

instance fun_pg_validateColumnConstraintsAux (ls : List Str) : Fun isNum .pg_validateColumnConstraintsAux [.strs ls]
    (fun n => V.columnConstraintsAux Postgres.columnConstraintKinds Postgres.constraintKey (Postgres.validateColumnConstraint isNum) n ls) :=
  (up_pg_validateColumnConstraintsAux ls).same fun n v => run_columnConstraintsAux (fun t h => by
    unfold pgKey Postgres.constraintKey; rw [upStr_of_ascii (isKw_ascii (by go_ascii) h)]) _ n ls v

instance fun_pg_validateColumnConstraints : Fun isNum .pg_validateColumnConstraints [] (fun n => Postgres.validateColumnConstraints isNum n) := by
  refine Fun.plain (ℓ := []) Tree.pg_validateColumnConstraints rfl (fun _ => rfl) rfl fun n => ?_
  apply Done.cast
  · go_done Fun.at
  · go_eq [Postgres.validateColumnConstraints]

instance fun_pg_validateTableConstraintPrimaryKey : Fun isNum .pg_validateTableConstraintPrimaryKey [] (fun n => Postgres.validateTableConstraintPrimaryKey n) := by
  refine Fun.plain (ℓ := []) Tree.pg_validateTableConstraintPrimaryKey rfl (fun _ => rfl) rfl fun n => ?_
  apply Done.cast
  · go_done Fun.at
  · go_eq [Postgres.validateTableConstraintPrimaryKey]

instance fun_pg_validateTableConstraintUnique : Fun isNum .pg_validateTableConstraintUnique [] (fun n => Postgres.validateTableConstraintUnique n) := by
  refine Fun.plain (ℓ := []) Tree.pg_validateTableConstraintUnique rfl (fun _ => rfl) rfl fun n => ?_
  apply Done.cast
  · go_done Fun.at
  · go_eq [Postgres.validateTableConstraintUnique]

instance fun_pg_validateTableConstraintCheck : Fun isNum .pg_validateTableConstraintCheck [] (fun n => Postgres.validateConstraintCheck n) := by
  refine Fun.plain (ℓ := []) Tree.pg_validateTableConstraintCheck rfl (fun _ => rfl) rfl fun n => ?_
  apply Done.cast
  · go_done Fun.at
  · go_eq [Postgres.validateConstraintCheck]

instance fun_pg_validateTableConstraintForeignKey : Fun isNum .pg_validateTableConstraintForeignKey [] (fun n => Postgres.validateTableConstraintForeignKey n) := by
  refine Fun.plain (ℓ := []) Tree.pg_validateTableConstraintForeignKey rfl (fun _ => rfl) rfl fun n => ?_
  apply Done.cast
  · go_done Fun.at
  · go_eq [Postgres.validateTableConstraintForeignKey]

instance fun_pg_validateTableConstraintExclude : Fun isNum .pg_validateTableConstraintExclude [] (fun n => Postgres.validateTableConstraintExclude n) := by
  refine Fun.plain (ℓ := []) Tree.pg_validateTableConstraintExclude rfl (fun _ => rfl) rfl fun n => ?_
  apply Done.cast
  · go_done Fun.at
  · go_eq [Postgres.validateTableConstraintExclude]

instance fun_pg_validateTableConstraint : Fun isNum .pg_validateTableConstraint [] (fun n => Postgres.validateTableConstraint n) := by
  refine Fun.plain (ℓ := []) Tree.pg_validateTableConstraint rfl (fun _ => rfl) rfl fun n => ?_
  apply Done.cast
  · go_done Fun.at
  · go_eq [Postgres.validateTableConstraint]

instance fun_pg_validateColumnDefinition : Fun isNum .pg_validateColumnDefinition [] (fun n => Postgres.validateColumnDefinition isNum n) := by
  refine Fun.plain (ℓ := []) Tree.pg_validateColumnDefinition rfl (fun _ => rfl) rfl fun n => ?_
  apply Done.cast
  · go_done Fun.at
  · go_eq [Postgres.validateColumnDefinition]

instance fun_pg_validateColumnDefinitions : Fun isNum .pg_validateColumnDefinitions [] (fun n => Postgres.validateColumnDefinitions isNum n) := by
  refine Fun.loop (ℓ := []) Tree.pg_validateColumnDefinitions rfl (fun _ => rfl) rfl rfl fun n ih => ?_
  apply Done.cast
  · go_done Fun.up
  · go_eq [Postgres.validateColumnDefinitions]

instance fun_pg_validateTableOptionWith : Fun isNum .pg_validateTableOptionWith [] (fun n => Postgres.validateTableOptionWith n) := by
  refine Fun.plain (ℓ := []) Tree.pg_validateTableOptionWith rfl (fun _ => rfl) rfl fun n => ?_
  apply Done.cast
  · go_done Fun.at
  · go_eq [Postgres.validateTableOptionWith]

instance fun_pg_validateTableOptionWithout : Fun isNum .pg_validateTableOptionWithout [] (fun _ => Postgres.validateTableOptionWithout) := by
  refine Fun.plain (ℓ := []) Tree.pg_validateTableOptionWithout rfl (fun _ => rfl) rfl fun _ => ?_
  apply Done.cast
  · go_done Fun.at
  · go_eq [Postgres.validateTableOptionWithout]

instance fun_pg_validateTableOptionTablespace : Fun isNum .pg_validateTableOptionTablespace [] (fun _ => Postgres.validateTableOptionTablespace) := by
  refine Fun.plain (ℓ := []) Tree.pg_validateTableOptionTablespace rfl (fun _ => rfl) rfl fun _ => ?_
  apply Done.cast
  · go_done Fun.at
  · go_eq [Postgres.validateTableOptionTablespace]

instance fun_pg_validateTableOptionInherits : Fun isNum .pg_validateTableOptionInherits [] (fun n => Postgres.validateTableOptionInherits n) := by
  refine Fun.plain (ℓ := []) Tree.pg_validateTableOptionInherits rfl (fun _ => rfl) rfl fun n => ?_
  apply Done.cast
  · go_done Fun.at
  · go_eq [Postgres.validateTableOptionInherits]

instance fun_pg_validateTableOptionPartition : Fun isNum .pg_validateTableOptionPartition [] (fun n => Postgres.validateTableOptionPartition n) := by
  refine Fun.plain (ℓ := []) Tree.pg_validateTableOptionPartition rfl (fun _ => rfl) rfl fun n => ?_
  apply Done.cast
  · go_done Fun.at
  · go_eq [Postgres.validateTableOptionPartition]

instance fun_pg_validateTableOptionUsing : Fun isNum .pg_validateTableOptionUsing [] (fun _ => Postgres.validateTableOptionUsing) := by
  refine Fun.plain (ℓ := []) Tree.pg_validateTableOptionUsing rfl (fun _ => rfl) rfl fun _ => ?_
  apply Done.cast
  · go_done Fun.at
  · go_eq [Postgres.validateTableOptionUsing]

instance fun_pg_validateTableOption : Fun isNum .pg_validateTableOption [] (fun n => Postgres.validateTableOption n) := by
  refine Fun.plain (ℓ := []) Tree.pg_validateTableOption rfl (fun _ => rfl) rfl fun n => ?_
  apply Done.cast
  · go_done Fun.at
  · go_eq [Postgres.validateTableOption]

instance fun_pg_validateTableOptions : Fun isNum .pg_validateTableOptions [] (fun n => Postgres.validateTableOptions n) := by
  refine Fun.loop (ℓ := []) Tree.pg_validateTableOptions rfl (fun _ => rfl) rfl rfl fun n ih => ?_
  apply Done.cast
  · go_done Fun.up
  · go_eq [Postgres.validateTableOptions, skipToken_eq]

instance fun_pg_validateTableDefinition : Fun isNum .pg_validateTableDefinition [] (fun n => Postgres.validateTableDefinition isNum n) := by
  refine Fun.plain (ℓ := []) Tree.pg_validateTableDefinition rfl (fun _ => rfl) rfl fun n => ?_
  apply Done.cast
  · go_done Fun.at
  · go_eq [Postgres.validateTableDefinition]

instance fun_pg_validateCreateTable : Fun isNum .pg_validateCreateTable [] (fun n => Postgres.validateCreateTable isNum n) := by
  refine Fun.plain (ℓ := []) Tree.pg_validateCreateTable rfl (fun _ => rfl) rfl fun n => ?_
  apply Done.cast
  · go_done Fun.at
  · go_eq [Postgres.validateCreateTable]


instance fun_pg_validateCreateOther : Fun isNum .pg_validateCreateOther [] (fun n => V.validateCreateOther Postgres.otherKinds n) := by
  refine Fun.plain (ℓ := []) Tree.pg_validateCreateOther rfl (fun _ => rfl) rfl fun n => ?_
  apply Done.cast
  · apply Fall.seqD
    · go_fall Fun.at
    · apply Done.define
      exact Done.other false
  · go_eq [V.validateCreateOther, Postgres.otherKinds]

instance fun_pg_validateDdl : Fun isNum .pg_validateDdl [] (fun n => Postgres.validateDdl isNum n) := by
  refine Fun.plain (ℓ := []) Tree.pg_validateDdl rfl (fun _ => rfl) rfl fun n => ?_
  apply Done.cast
  · go_done Fun.at
  · go_eq [Postgres.validateDdl]

instance fun_pg_validate : Fun isNum .pg_validate [] (fun n => Postgres.validate isNum n) := by
  refine Fun.loop (ℓ := []) Tree.pg_validate rfl (fun _ => rfl) rfl rfl fun n ih => ?_
  apply Done.cast
  · go_done Fun.up
  · go_eq [Postgres.validate]

end DDL.Src

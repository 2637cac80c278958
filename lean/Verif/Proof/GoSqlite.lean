import Verif.Proof.GoShared
import Verif.Model.Sqlite
/-
The methods of the SQLite validator (validator_sqlite.go), from their syntax trees to the model.
-/

set_option linter.unusedSectionVars false

namespace DDL.Src
open DDL Obj

variable [CaseMap] {isNum : Str → Bool}

theorem go_sq_isStringValue_nil (s : State) : go isNum .sq_isStringValue [.str []] s = .panic := by
  rw [go_def isNum _ Tree.sq_isStringValue rfl _ _ _ rfl]
  simp only [Tree.sq_isStringValue]
  go_simp
  simp only [cut_nil, into_panic, finish_panic]

theorem go_sq_isStringValue_cons (c : Char) (t : Str) (s : State) :
    go isNum .sq_isStringValue [.str (c :: t)] s = .ok (.bool (V.isStringValue .sqlite c)) [] s := by
  rw [go_def isNum _ Tree.sq_isStringValue rfl _ _ _ rfl]
  simp only [Tree.sq_isStringValue]
  go_simp
  simp only [cut_cons]
  go_simp
  simp only [S_sq, decide_char, V.isStringValue]

instance test_sq_isStringValue : Test isNum .sq_isStringValue (.head fun c => .ret (V.isStringValue .sqlite c)) :=
  Test.ofHead go_sq_isStringValue_nil go_sq_isStringValue_cons

theorem go_sq_isIdentifier_nil (s : State) : go isNum .sq_isIdentifier [.str []] s = .panic := by
  rw [go_def isNum _ Tree.sq_isIdentifier rfl _ _ _ rfl]
  simp only [Tree.sq_isIdentifier]
  go_simp
  simp only [cut_nil, into_panic, finish_panic]

theorem go_sq_isIdentifier_cons (c : Char) (t : Str) (s : State) :
    go isNum .sq_isIdentifier [.str (c :: t)] s = .ok (.bool (V.isIdentifier .sqlite c)) [] s := by
  rw [go_def isNum _ Tree.sq_isIdentifier rfl _ _ _ rfl]
  simp only [Tree.sq_isIdentifier]
  go_simp
  simp only [cut_cons]
  go_simp
  simp only [S_dq, S_bq, decide_char, V.isIdentifier]
  cases c == '"' <;> rfl

theorem words_sq : Tree.ReservedWords_SQLite = reservedSqlite := rfl

theorem go_sq_isValidName_nil (s : State) : go isNum .sq_isValidName [.str []] s = .panic := by
  rw [go_def isNum _ Tree.sq_isValidName rfl _ _ _ rfl]
  simp only [Tree.sq_isValidName]
  go_simp
  rw [go_sq_isIdentifier_nil]
  rfl

theorem go_sq_isValidName_cons (c : Char) (t : Str) (s : State) :
    go isNum .sq_isValidName [.str (c :: t)] s = .ok (.bool (V.isIdentifier .sqlite c || V.plainName .sqlite (c :: t))) [] s := by
  rw [go_def isNum _ Tree.sq_isValidName rfl _ _ _ rfl]
  simp only [Tree.sq_isValidName]
  go_simp
  rw [go_sq_isIdentifier_cons]
  go_simp
  cases V.isIdentifier .sqlite c
  · go_simp
    unfold V.plainName
    cases hm : matchIdent (c :: t)
    · go_simp
      rfl
    · go_simp
      rw [go_Contains isNum (.kws Tree.ReservedWords_SQLite) _ rfl, words_sq, upStr_of_ascii (matchIdent_ascii hm)]
      go_simp
      simp only [V.reserved]
      cases contains (List.map S reservedSqlite) (toUpper (c :: t)) <;> rfl
  · go_simp
    rfl

instance test_sq_isValidName : Test isNum .sq_isValidName (V.isValidName .sqlite) :=
  Test.validName go_sq_isValidName_nil go_sq_isValidName_cons

instance test_sq_isColumnConstraint : Test isNum .sq_isColumnConstraint (V.matchToken Sqlite.columnConstraintKinds) := by
  refine Test.kind fun v t ht => ?_
  rw [go_def isNum _ Tree.sq_isColumnConstraint rfl _ _ _ rfl]
  simp only [Tree.sq_isColumnConstraint]
  go_simp
  rw [go_va_matchToken isNum ht _ (by go_ascii)]
  go_simp
  rfl

instance fun_sq_validateName (set : Bool) : Fun isNum .sq_validateName [.bool set] (fun _ => V.validateName .sqlite set) := by
  refine Fun.plain (ℓ := [(.«set», .bool set)]) Tree.sq_validateName rfl (fun _ => rfl) rfl fun _ => ?_
  apply Done.cast
  · go_done Fun.at
  · go_eq [V.validateName]

instance fun_sq_validateTableName (set : Bool) : Fun isNum .sq_validateTableName [.bool set] (fun _ => V.validateTableName .sqlite set) := by
  refine Fun.plain (ℓ := [(.«set», .bool set)]) Tree.sq_validateTableName rfl (fun _ => rfl) rfl fun _ => ?_
  apply Done.cast
  · go_done Fun.at
  · go_eq [V.validateTableName]

instance fun_sq_validateColumnName (set : Bool) : Fun isNum .sq_validateColumnName [.bool set] (fun _ => V.validateName .sqlite set) := by
  refine Fun.plain (ℓ := [(.«set», .bool set)]) Tree.sq_validateColumnName rfl (fun _ => rfl) rfl fun _ => ?_
  apply Done.cast
  · go_done Fun.at
  · go_eq []

instance fun_sq_validateCommaSeparatedColumnNames (set : Bool) : Fun isNum .sq_validateCommaSeparatedColumnNames [.bool set] (fun n => V.validateCommaSeparatedColumnNames .sqlite set n) := by
  refine Fun.loop (ℓ := [(.«set», .bool set)]) Tree.sq_validateCommaSeparatedColumnNames rfl (fun _ => rfl) rfl rfl fun n ih => ?_
  apply Done.cast
  · go_done Fun.up
  · go_eq [V.validateCommaSeparatedColumnNames]

instance fun_sq_validateExpr (set : Bool) : Fun isNum .sq_validateExpr [.bool set] (fun n => V.validateExpr n set) := by
  refine Fun.plain (ℓ := [(.«set», .bool set)]) Tree.sq_validateExpr rfl (fun _ => rfl) rfl fun n => ?_
  apply Done.cast
  · go_done Fun.at
  · go_eq [V.validateExpr]

instance fun_sq_validateIfNotExists : Fun isNum .sq_validateIfNotExists [] (fun _ => V.validateIfNotExists) := by
  refine Fun.plain (ℓ := []) Tree.sq_validateIfNotExists rfl (fun _ => rfl) rfl fun _ => ?_
  apply Done.cast
  · go_done Fun.at
  · go_eq [V.validateIfNotExists]

instance fun_sq_validateLiteralValue : Fun isNum .sq_validateLiteralValue [] (fun _ => V.validateLiteralValue isNum .sqlite true) := by
  refine Fun.plain (ℓ := []) Tree.sq_validateLiteralValue rfl (fun _ => rfl) rfl fun _ => ?_
  apply Done.cast
  · go_done Fun.at
  · go_eq [V.validateLiteralValue, V.literalKeywords, V.ifM, Prog.bind]

instance fun_sq_validateColumnType : Fun isNum .sq_validateColumnType [] (fun _ => Sqlite.validateColumnType) := by
  refine Fun.plain (ℓ := []) Tree.sq_validateColumnType rfl (fun _ => rfl) rfl fun _ => ?_
  apply Done.cast
  · go_done Fun.at
  · go_eq [Sqlite.validateColumnType]

instance fun_sq_validateConflictClause : Fun isNum .sq_validateConflictClause [] (fun _ => Sqlite.validateConflictClause) := by
  refine Fun.plain (ℓ := []) Tree.sq_validateConflictClause rfl (fun _ => rfl) rfl fun _ => ?_
  apply Done.cast
  · go_done Fun.at
  · go_eq [Sqlite.validateConflictClause]

instance fun_sq_validateConstraintPrimaryKey : Fun isNum .sq_validateConstraintPrimaryKey [] (fun _ => Sqlite.validateConstraintPrimaryKey) := by
  refine Fun.plain (ℓ := []) Tree.sq_validateConstraintPrimaryKey rfl (fun _ => rfl) rfl fun _ => ?_
  apply Done.cast
  · go_done Fun.at
  · go_eq [Sqlite.validateConstraintPrimaryKey]

instance fun_sq_validateConstraintNotNull : Fun isNum .sq_validateConstraintNotNull [] (fun _ => Sqlite.validateConstraintNotNull) := by
  refine Fun.plain (ℓ := []) Tree.sq_validateConstraintNotNull rfl (fun _ => rfl) rfl fun _ => ?_
  apply Done.cast
  · go_done Fun.at
  · go_eq [Sqlite.validateConstraintNotNull]

instance fun_sq_validateConstraintUnique : Fun isNum .sq_validateConstraintUnique [] (fun _ => Sqlite.validateConstraintUnique) := by
  refine Fun.plain (ℓ := []) Tree.sq_validateConstraintUnique rfl (fun _ => rfl) rfl fun _ => ?_
  apply Done.cast
  · go_done Fun.at
  · go_eq [Sqlite.validateConstraintUnique]

instance fun_sq_validateConstraintCheck : Fun isNum .sq_validateConstraintCheck [] (fun n => Sqlite.validateConstraintCheck n) := by
  refine Fun.plain (ℓ := []) Tree.sq_validateConstraintCheck rfl (fun _ => rfl) rfl fun n => ?_
  apply Done.cast
  · go_done Fun.at
  · go_eq [Sqlite.validateConstraintCheck]

instance fun_sq_validateConstraintDefault : Fun isNum .sq_validateConstraintDefault [] (fun n => Sqlite.validateConstraintDefault isNum n) := by
  refine Fun.plain (ℓ := []) Tree.sq_validateConstraintDefault rfl (fun _ => rfl) rfl fun n => ?_
  apply Done.cast
  · go_done Fun.at
  · go_eq [Sqlite.validateConstraintDefault]

instance fun_sq_validateConstraintCollate : Fun isNum .sq_validateConstraintCollate [] (fun _ => Sqlite.validateConstraintCollate) := by
  refine Fun.plain (ℓ := []) Tree.sq_validateConstraintCollate rfl (fun _ => rfl) rfl fun _ => ?_
  apply Done.cast
  · go_done Fun.at
  · go_eq [Sqlite.validateConstraintCollate]

instance fun_sq_validateConstraintReferencesAux : Fun isNum .sq_validateConstraintReferencesAux [] (fun n => Sqlite.validateConstraintReferencesAux n) := by
  refine Fun.loop (ℓ := []) Tree.sq_validateConstraintReferencesAux rfl (fun _ => rfl) rfl rfl fun n ih => ?_
  apply Done.cast
  · go_done Fun.up
  · go_eq [Sqlite.validateConstraintReferencesAux]

instance fun_sq_validateConstraintReferences : Fun isNum .sq_validateConstraintReferences [] (fun n => Sqlite.validateConstraintReferences n) := by
  refine Fun.plain (ℓ := []) Tree.sq_validateConstraintReferences rfl (fun _ => rfl) rfl fun n => ?_
  apply Done.cast
  · go_done Fun.at
  · go_eq [Sqlite.validateConstraintReferences]

instance fun_sq_validateConstraintGenerated : Fun isNum .sq_validateConstraintGenerated [] (fun n => Sqlite.validateConstraintGenerated n) := by
  refine Fun.plain (ℓ := []) Tree.sq_validateConstraintGenerated rfl (fun _ => rfl) rfl fun n => ?_
  apply Done.cast
  · go_done Fun.at
  · go_eq [Sqlite.validateConstraintGenerated]

instance fun_sq_validateColumnConstraint : Fun isNum .sq_validateColumnConstraint [] (fun n => Sqlite.validateColumnConstraint isNum n) := by
  refine Fun.plain (ℓ := []) Tree.sq_validateColumnConstraint rfl (fun _ => rfl) rfl fun n => ?_
  apply Done.cast
  · go_done Fun.at
  · go_eq [Sqlite.validateColumnConstraint]


theorem up_sq_validateColumnConstraintsAux (ls : List Str) : Fun isNum .sq_validateColumnConstraintsAux [.strs ls]
    (fun n => V.columnConstraintsAux Sqlite.columnConstraintKinds upStr (Sqlite.validateColumnConstraint isNum) n ls) := by
  refine Fun.loopG (args := fun ls => [.strs ls]) (ℓ := fun ls => [(.ls, .strs ls)])
    (P := V.columnConstraintsAux Sqlite.columnConstraintKinds upStr (Sqlite.validateColumnConstraint isNum))
    Tree.sq_validateColumnConstraintsAux rfl (fun _ => rfl) (fun _ => rfl) (fun _ => rfl) (fun n ih ls => ?_) ls
  apply Done.cast
  · apply Done.iteL
    · go_cnd
    · go_done Fun.up
    · exact Fall.skip
    · apply Done.assoc
      refine Done.head (bad := fun t => contains ls (upStr t)) (ℓ' := fun t => [(.ls, .strs (ls ++ [upStr t]))])
        (q := fun t => (Sqlite.validateColumnConstraint isNum (n + 1)).bind fun _ =>
          V.columnConstraintsAux Sqlite.columnConstraintKinds upStr (Sqlite.validateColumnConstraint isNum) n (ls ++ [upStr t]))
        ?_ (fun t => ?_)
      · intro v t ht
        go_simp
        rw [go_va_token_some isNum ht]
        go_simp
        rw [go_Contains isNum _ _ rfl]
        go_simp
        cases contains ls (upStr t) <;> go_simp
        · rw [go_va_token_some isNum ht]
          go_simp
        · rw [go_va_syntaxError isNum ht]
          go_simp
      · apply Fall.seqD
        · go_fall Fun.up
        · exact Done.retCall (.var rfl .nil) (ih _)
  · go_eq [V.columnConstraintsAux]

instance fun_sq_validateColumnConstraintsAux (ls : List Str) : Fun isNum .sq_validateColumnConstraintsAux [.strs ls]
    (fun n => V.columnConstraintsAux Sqlite.columnConstraintKinds toUpper (Sqlite.validateColumnConstraint isNum) n ls) :=
  (up_sq_validateColumnConstraintsAux ls).same fun n v => run_columnConstraintsAux (fun t h => by
    rw [upStr_of_ascii (isKw_ascii (by go_ascii) h)]) _ n ls v

instance fun_sq_validateColumnConstraints : Fun isNum .sq_validateColumnConstraints [] (fun n => Sqlite.validateColumnConstraints isNum n) := by
  refine Fun.plain (ℓ := []) Tree.sq_validateColumnConstraints rfl (fun _ => rfl) rfl fun n => ?_
  apply Done.cast
  · go_done Fun.at
  · go_eq [Sqlite.validateColumnConstraints]

instance fun_sq_validateTableConstraintPrimaryKey : Fun isNum .sq_validateTableConstraintPrimaryKey [] (fun n => Sqlite.validateTableConstraintPrimaryKey n) := by
  refine Fun.plain (ℓ := []) Tree.sq_validateTableConstraintPrimaryKey rfl (fun _ => rfl) rfl fun n => ?_
  apply Done.cast
  · go_done Fun.at
  · go_eq [Sqlite.validateTableConstraintPrimaryKey]

instance fun_sq_validateTableConstraintUnique : Fun isNum .sq_validateTableConstraintUnique [] (fun n => Sqlite.validateTableConstraintUnique n) := by
  refine Fun.plain (ℓ := []) Tree.sq_validateTableConstraintUnique rfl (fun _ => rfl) rfl fun n => ?_
  apply Done.cast
  · go_done Fun.at
  · go_eq [Sqlite.validateTableConstraintUnique]

instance fun_sq_validateTableConstraintCheck : Fun isNum .sq_validateTableConstraintCheck [] (fun n => Sqlite.validateConstraintCheck n) := by
  refine Fun.plain (ℓ := []) Tree.sq_validateTableConstraintCheck rfl (fun _ => rfl) rfl fun n => ?_
  apply Done.cast
  · go_done Fun.at
  · go_eq [Sqlite.validateConstraintCheck]

instance fun_sq_validateTableConstraintForeignKey : Fun isNum .sq_validateTableConstraintForeignKey [] (fun n => Sqlite.validateTableConstraintForeignKey n) := by
  refine Fun.plain (ℓ := []) Tree.sq_validateTableConstraintForeignKey rfl (fun _ => rfl) rfl fun n => ?_
  apply Done.cast
  · go_done Fun.at
  · go_eq [Sqlite.validateTableConstraintForeignKey]

instance fun_sq_validateTableConstraint : Fun isNum .sq_validateTableConstraint [] (fun n => Sqlite.validateTableConstraint n) := by
  refine Fun.plain (ℓ := []) Tree.sq_validateTableConstraint rfl (fun _ => rfl) rfl fun n => ?_
  apply Done.cast
  · go_done Fun.at
  · go_eq [Sqlite.validateTableConstraint]

instance fun_sq_validateColumnDefinition : Fun isNum .sq_validateColumnDefinition [] (fun n => Sqlite.validateColumnDefinition isNum n) := by
  refine Fun.plain (ℓ := []) Tree.sq_validateColumnDefinition rfl (fun _ => rfl) rfl fun n => ?_
  apply Done.cast
  · go_done Fun.at
  · go_eq [Sqlite.validateColumnDefinition]

instance fun_sq_validateColumnDefinitions : Fun isNum .sq_validateColumnDefinitions [] (fun n => Sqlite.validateColumnDefinitions isNum n) := by
  refine Fun.loop (ℓ := []) Tree.sq_validateColumnDefinitions rfl (fun _ => rfl) rfl rfl fun n ih => ?_
  apply Done.cast
  · go_done Fun.up
  · go_eq [Sqlite.validateColumnDefinitions]

instance fun_sq_validateTableOptions : Fun isNum .sq_validateTableOptions [] (fun _ => Sqlite.validateTableOptions) := by
  refine Fun.plain (ℓ := []) Tree.sq_validateTableOptions rfl (fun _ => rfl) rfl fun _ => ?_
  apply Done.cast
  · go_done Fun.at
  · go_eq [Sqlite.validateTableOptions]

instance fun_sq_validateTableDefinition : Fun isNum .sq_validateTableDefinition [] (fun n => Sqlite.validateTableDefinition isNum n) := by
  refine Fun.plain (ℓ := []) Tree.sq_validateTableDefinition rfl (fun _ => rfl) rfl fun n => ?_
  apply Done.cast
  · go_done Fun.at
  · go_eq [Sqlite.validateTableDefinition]

instance fun_sq_validateCreateTable : Fun isNum .sq_validateCreateTable [] (fun n => Sqlite.validateCreateTable isNum n) := by
  refine Fun.plain (ℓ := []) Tree.sq_validateCreateTable rfl (fun _ => rfl) rfl fun n => ?_
  apply Done.cast
  · go_done Fun.at
  · go_eq [Sqlite.validateCreateTable]


instance fun_sq_validateCreateOther : Fun isNum .sq_validateCreateOther [] (fun n => V.validateCreateOther Sqlite.otherKinds n) := by
  refine Fun.plain (ℓ := []) Tree.sq_validateCreateOther rfl (fun _ => rfl) rfl fun n => ?_
  apply Done.cast
  · apply Fall.seqD
    · go_fall Fun.at
    · apply Done.define
      exact Done.other false
  · go_eq [V.validateCreateOther, Sqlite.otherKinds]

instance fun_sq_validateDdl : Fun isNum .sq_validateDdl [] (fun n => Sqlite.validateDdl isNum n) := by
  refine Fun.plain (ℓ := []) Tree.sq_validateDdl rfl (fun _ => rfl) rfl fun n => ?_
  apply Done.cast
  · go_done Fun.at
  · go_eq [Sqlite.validateDdl]

instance fun_sq_validate : Fun isNum .sq_validate [] (fun n => Sqlite.validate isNum n) := by
  refine Fun.loop (ℓ := []) Tree.sq_validate rfl (fun _ => rfl) rfl rfl fun n ih => ?_
  apply Done.cast
  · go_done Fun.up
  · go_eq [Sqlite.validate]

end DDL.Src

import Verif.Proof.GoShared
import Verif.Model.Mysql
/-
The methods of the MySQL validator (validator_mysql.go), from their syntax trees to the model.
-/

set_option linter.unusedSectionVars false

namespace DDL.Src
open DDL Obj

variable [CaseMap] {isNum : Str → Bool}

theorem types_my : Tree.DataType_MySQL = dataTypeMysql := rfl

theorem my_validateStringValue_eq (set : Bool) :
    Mysql.validateStringValue set = V.ifM (.head fun c => .ret (V.isStringValue .mysql c)) (V.next set) .fail := rfl

theorem go_my_isStringValue_nil (s : State) : go isNum .my_isStringValue [.str []] s = .panic := by
  rw [go_def isNum _ Tree.my_isStringValue rfl _ _ _ rfl]
  simp only [Tree.my_isStringValue]
  go_simp
  simp only [cut_nil, into_panic, finish_panic]

theorem go_my_isStringValue_cons (c : Char) (t : Str) (s : State) :
    go isNum .my_isStringValue [.str (c :: t)] s = .ok (.bool (V.isStringValue .mysql c)) [] s := by
  rw [go_def isNum _ Tree.my_isStringValue rfl _ _ _ rfl]
  simp only [Tree.my_isStringValue]
  go_simp
  simp only [cut_cons]
  go_simp
  simp only [S_dq, S_sq, decide_char, V.isStringValue]
  cases c == '"' <;> rfl

instance test_my_isStringValue : Test isNum .my_isStringValue (.head fun c => .ret (V.isStringValue .mysql c)) :=
  Test.ofHead go_my_isStringValue_nil go_my_isStringValue_cons

theorem go_my_isIdentifier_nil (s : State) : go isNum .my_isIdentifier [.str []] s = .panic := by
  rw [go_def isNum _ Tree.my_isIdentifier rfl _ _ _ rfl]
  simp only [Tree.my_isIdentifier]
  go_simp
  simp only [cut_nil, into_panic, finish_panic]

theorem go_my_isIdentifier_cons (c : Char) (t : Str) (s : State) :
    go isNum .my_isIdentifier [.str (c :: t)] s = .ok (.bool (V.isIdentifier .mysql c)) [] s := by
  rw [go_def isNum _ Tree.my_isIdentifier rfl _ _ _ rfl]
  simp only [Tree.my_isIdentifier]
  go_simp
  simp only [cut_cons]
  go_simp
  simp only [S_bq, decide_char, V.isIdentifier]

theorem words_my : Tree.ReservedWords_MySQL = reservedMysql := rfl

theorem go_my_isValidName_nil (s : State) : go isNum .my_isValidName [.str []] s = .panic := by
  rw [go_def isNum _ Tree.my_isValidName rfl _ _ _ rfl]
  simp only [Tree.my_isValidName]
  go_simp
  rw [go_my_isIdentifier_nil]
  rfl

theorem go_my_isValidName_cons (c : Char) (t : Str) (s : State) :
    go isNum .my_isValidName [.str (c :: t)] s = .ok (.bool (V.isIdentifier .mysql c || V.plainName .mysql (c :: t))) [] s := by
  rw [go_def isNum _ Tree.my_isValidName rfl _ _ _ rfl]
  simp only [Tree.my_isValidName]
  go_simp
  rw [go_my_isIdentifier_cons]
  go_simp
  cases V.isIdentifier .mysql c
  · go_simp
    unfold V.plainName
    cases hm : matchIdent (c :: t)
    · go_simp
      rfl
    · go_simp
      rw [go_Contains isNum (.kws Tree.ReservedWords_MySQL) _ rfl, words_my, upStr_of_ascii (matchIdent_ascii hm)]
      go_simp
      simp only [V.reserved]
      cases contains (List.map S reservedMysql) (toUpper (c :: t)) <;> rfl
  · go_simp
    rfl

instance test_my_isValidName : Test isNum .my_isValidName (V.isValidName .mysql) :=
  Test.validName go_my_isValidName_nil go_my_isValidName_cons

instance test_my_isColumnConstraint : Test isNum .my_isColumnConstraint (V.matchToken Mysql.columnConstraintKinds) := by
  refine Test.kind fun v t ht => ?_
  rw [go_def isNum _ Tree.my_isColumnConstraint rfl _ _ _ rfl]
  simp only [Tree.my_isColumnConstraint]
  go_simp
  rw [go_va_matchToken isNum ht _ (by go_ascii)]
  go_simp
  rfl

instance fun_my_validateName (set : Bool) : Fun isNum .my_validateName [.bool set] (fun _ => V.validateName .mysql set) := by
  refine Fun.plain (ℓ := [(.«set», .bool set)]) Tree.my_validateName rfl (fun _ => rfl) rfl fun _ => ?_
  apply Done.cast
  · go_done Fun.at
  · go_eq [V.validateName]

instance fun_my_validateTableName (set : Bool) : Fun isNum .my_validateTableName [.bool set] (fun _ => V.validateTableName .mysql set) := by
  refine Fun.plain (ℓ := [(.«set», .bool set)]) Tree.my_validateTableName rfl (fun _ => rfl) rfl fun _ => ?_
  apply Done.cast
  · go_done Fun.at
  · go_eq [V.validateTableName]

instance fun_my_validateColumnName (set : Bool) : Fun isNum .my_validateColumnName [.bool set] (fun _ => V.validateName .mysql set) := by
  refine Fun.plain (ℓ := [(.«set», .bool set)]) Tree.my_validateColumnName rfl (fun _ => rfl) rfl fun _ => ?_
  apply Done.cast
  · go_done Fun.at
  · go_eq []

instance fun_my_validateStringValue (set : Bool) : Fun isNum .my_validateStringValue [.bool set] (fun _ => Mysql.validateStringValue set) := by
  refine Fun.plain (ℓ := [(.«set», .bool set)]) Tree.my_validateStringValue rfl (fun _ => rfl) rfl fun _ => ?_
  apply Done.cast
  · go_done Fun.at
  · go_eq [my_validateStringValue_eq]

instance fun_my_validateCommaSeparatedColumnNames (set : Bool) : Fun isNum .my_validateCommaSeparatedColumnNames [.bool set] (fun n => V.validateCommaSeparatedColumnNames .mysql set n) := by
  refine Fun.loop (ℓ := [(.«set», .bool set)]) Tree.my_validateCommaSeparatedColumnNames rfl (fun _ => rfl) rfl rfl fun n ih => ?_
  apply Done.cast
  · go_done Fun.up
  · go_eq [V.validateCommaSeparatedColumnNames]

instance fun_my_validateCommaSeparatedTableNames (set : Bool) : Fun isNum .my_validateCommaSeparatedTableNames [.bool set] (fun n => Mysql.validateCommaSeparatedTableNames set n) := by
  refine Fun.loop (ℓ := [(.«set», .bool set)]) Tree.my_validateCommaSeparatedTableNames rfl (fun _ => rfl) rfl rfl fun n ih => ?_
  apply Done.cast
  · go_done Fun.up
  · go_eq [Mysql.validateCommaSeparatedTableNames]

instance fun_my_validateExpr (set : Bool) : Fun isNum .my_validateExpr [.bool set] (fun n => V.validateExpr n set) := by
  refine Fun.plain (ℓ := [(.«set», .bool set)]) Tree.my_validateExpr rfl (fun _ => rfl) rfl fun n => ?_
  apply Done.cast
  · go_done Fun.at
  · go_eq [V.validateExpr]

instance fun_my_validateIfNotExists : Fun isNum .my_validateIfNotExists [] (fun _ => V.validateIfNotExists) := by
  refine Fun.plain (ℓ := []) Tree.my_validateIfNotExists rfl (fun _ => rfl) rfl fun _ => ?_
  apply Done.cast
  · go_done Fun.at
  · go_eq [V.validateIfNotExists]

instance fun_my_validateLiteralValue (set : Bool) : Fun isNum .my_validateLiteralValue [.bool set] (fun _ => V.validateLiteralValue isNum .mysql set) := by
  refine Fun.plain (ℓ := [(.«set», .bool set)]) Tree.my_validateLiteralValue rfl (fun _ => rfl) rfl fun _ => ?_
  apply Done.cast
  · go_done Fun.at
  · go_eq [V.validateLiteralValue, V.literalKeywords, V.ifM, Prog.bind]

instance fun_my_validatePositiveInteger (set : Bool) : Fun isNum .my_validatePositiveInteger [.bool set] (fun _ => V.validatePositiveInteger set) := by
  refine Fun.plain (ℓ := [(.«set», .bool set)]) Tree.my_validatePositiveInteger rfl (fun _ => rfl) rfl fun _ => ?_
  apply Done.cast
  · go_done Fun.at
  · go_eq [validatePositiveInteger_eq]

instance fun_my_validateTypeDigitN (set : Bool) : Fun isNum .my_validateTypeDigitN [.bool set] (fun _ => V.validateTypeDigitN set) := by
  refine Fun.plain (ℓ := [(.«set», .bool set)]) Tree.my_validateTypeDigitN rfl (fun _ => rfl) rfl fun _ => ?_
  apply Done.cast
  · go_done Fun.at
  · go_eq [V.validateTypeDigitN]

instance fun_my_validateTypeDigitP (set : Bool) : Fun isNum .my_validateTypeDigitP [.bool set] (fun _ => V.validateTypeDigitN set) := by
  refine Fun.plain (ℓ := [(.«set», .bool set)]) Tree.my_validateTypeDigitP rfl (fun _ => rfl) rfl fun _ => ?_
  apply Done.cast
  · go_done Fun.at
  · go_eq []

instance fun_my_validateTypeDigitPS (set : Bool) : Fun isNum .my_validateTypeDigitPS [.bool set] (fun _ => V.validateTypeDigitPS set) := by
  refine Fun.plain (ℓ := [(.«set», .bool set)]) Tree.my_validateTypeDigitPS rfl (fun _ => rfl) rfl fun _ => ?_
  apply Done.cast
  · go_done Fun.at
  · go_eq [V.validateTypeDigitPS]

instance fun_my_validateIndexKeysAux (set : Bool) : Fun isNum .my_validateIndexKeysAux [.bool set] (fun n => Mysql.validateIndexKeysAux set n) := by
  refine Fun.loop (ℓ := [(.«set», .bool set)]) Tree.my_validateIndexKeysAux rfl (fun _ => rfl) rfl rfl fun n ih => ?_
  apply Done.cast
  · go_done Fun.up
  · go_eq [Mysql.validateIndexKeysAux]

instance fun_my_validateIndexKeys (set : Bool) : Fun isNum .my_validateIndexKeys [.bool set] (fun n => Mysql.validateIndexKeys n set) := by
  refine Fun.plain (ℓ := [(.«set», .bool set)]) Tree.my_validateIndexKeys rfl (fun _ => rfl) rfl fun n => ?_
  apply Done.cast
  · go_done Fun.at
  · go_eq [Mysql.validateIndexKeys]

instance fun_my_validateColumnType : Fun isNum .my_validateColumnType [] (fun _ => Mysql.validateColumnType) := by
  refine Fun.plain (ℓ := []) Tree.my_validateColumnType rfl (fun _ => rfl) rfl fun _ => ?_
  apply Done.cast
  · go_done Fun.at
  · go_eq [Mysql.validateColumnType, types_my]

instance fun_my_validateConstraintPrimaryKey : Fun isNum .my_validateConstraintPrimaryKey [] (fun _ => Mysql.validateConstraintPrimaryKey) := by
  refine Fun.plain (ℓ := []) Tree.my_validateConstraintPrimaryKey rfl (fun _ => rfl) rfl fun _ => ?_
  apply Done.cast
  · go_done Fun.at
  · go_eq [Mysql.validateConstraintPrimaryKey]

instance fun_my_validateConstraintNotNull : Fun isNum .my_validateConstraintNotNull [] (fun _ => Mysql.validateConstraintNotNull) := by
  refine Fun.plain (ℓ := []) Tree.my_validateConstraintNotNull rfl (fun _ => rfl) rfl fun _ => ?_
  apply Done.cast
  · go_done Fun.at
  · go_eq [Mysql.validateConstraintNotNull]

instance fun_my_validateConstraintNull : Fun isNum .my_validateConstraintNull [] (fun _ => Mysql.validateConstraintNull) := by
  refine Fun.plain (ℓ := []) Tree.my_validateConstraintNull rfl (fun _ => rfl) rfl fun _ => ?_
  apply Done.cast
  · go_done Fun.at
  · go_eq [Mysql.validateConstraintNull]

instance fun_my_validateConstraintUnique : Fun isNum .my_validateConstraintUnique [] (fun _ => Mysql.validateConstraintUnique) := by
  refine Fun.plain (ℓ := []) Tree.my_validateConstraintUnique rfl (fun _ => rfl) rfl fun _ => ?_
  apply Done.cast
  · go_done Fun.at
  · go_eq [Mysql.validateConstraintUnique]

instance fun_my_validateConstraintCheck : Fun isNum .my_validateConstraintCheck [] (fun n => Mysql.validateConstraintCheck n) := by
  refine Fun.plain (ℓ := []) Tree.my_validateConstraintCheck rfl (fun _ => rfl) rfl fun n => ?_
  apply Done.cast
  · go_done Fun.at
  · go_eq [Mysql.validateConstraintCheck]

instance fun_my_validateConstraintDefault : Fun isNum .my_validateConstraintDefault [] (fun n => Mysql.validateConstraintDefault isNum n) := by
  refine Fun.plain (ℓ := []) Tree.my_validateConstraintDefault rfl (fun _ => rfl) rfl fun n => ?_
  apply Done.cast
  · go_done Fun.at
  · go_eq [Mysql.validateConstraintDefault]

instance fun_my_validateConstraintCollate : Fun isNum .my_validateConstraintCollate [] (fun _ => Mysql.validateConstraintCollate) := by
  refine Fun.plain (ℓ := []) Tree.my_validateConstraintCollate rfl (fun _ => rfl) rfl fun _ => ?_
  apply Done.cast
  · go_done Fun.at
  · go_eq [Mysql.validateConstraintCollate]

instance fun_my_validateConstraintReferencesAux : Fun isNum .my_validateConstraintReferencesAux [] (fun n => V.validateConstraintReferencesAux n) := by
  refine Fun.loop (ℓ := []) Tree.my_validateConstraintReferencesAux rfl (fun _ => rfl) rfl rfl fun n ih => ?_
  apply Done.cast
  · go_done Fun.up
  · go_eq [V.validateConstraintReferencesAux]

instance fun_my_validateConstraintReferences : Fun isNum .my_validateConstraintReferences [] (fun n => Mysql.validateConstraintReferences n) := by
  refine Fun.plain (ℓ := []) Tree.my_validateConstraintReferences rfl (fun _ => rfl) rfl fun n => ?_
  apply Done.cast
  · go_done Fun.at
  · go_eq [Mysql.validateConstraintReferences]

instance fun_my_validateConstraintGenerated : Fun isNum .my_validateConstraintGenerated [] (fun n => Mysql.validateConstraintGenerated n) := by
  refine Fun.plain (ℓ := []) Tree.my_validateConstraintGenerated rfl (fun _ => rfl) rfl fun n => ?_
  apply Done.cast
  · go_done Fun.at
  · go_eq [Mysql.validateConstraintGenerated]

instance fun_my_validateConstraintComment : Fun isNum .my_validateConstraintComment [] (fun _ => Mysql.validateConstraintComment) := by
  refine Fun.plain (ℓ := []) Tree.my_validateConstraintComment rfl (fun _ => rfl) rfl fun _ => ?_
  apply Done.cast
  · go_done Fun.at
  · go_eq [Mysql.validateConstraintComment]

instance fun_my_validateConstraintColumnFormat : Fun isNum .my_validateConstraintColumnFormat [] (fun _ => Mysql.validateConstraintColumnFormat) := by
  refine Fun.plain (ℓ := []) Tree.my_validateConstraintColumnFormat rfl (fun _ => rfl) rfl fun _ => ?_
  apply Done.cast
  · go_done Fun.at
  · go_eq [Mysql.validateConstraintColumnFormat]

instance fun_my_validateConstraintEngineAttribute : Fun isNum .my_validateConstraintEngineAttribute [] (fun _ => Mysql.validateConstraintEngineAttribute) := by
  refine Fun.plain (ℓ := []) Tree.my_validateConstraintEngineAttribute rfl (fun _ => rfl) rfl fun _ => ?_
  apply Done.cast
  · go_done Fun.at
  · go_eq [Mysql.validateConstraintEngineAttribute]

instance fun_my_validateConstraintStorage : Fun isNum .my_validateConstraintStorage [] (fun _ => Mysql.validateConstraintStorage) := by
  refine Fun.plain (ℓ := []) Tree.my_validateConstraintStorage rfl (fun _ => rfl) rfl fun _ => ?_
  apply Done.cast
  · go_done Fun.at
  · go_eq [Mysql.validateConstraintStorage]

instance fun_my_validateConstraintAutoincrement : Fun isNum .my_validateConstraintAutoincrement [] (fun _ => Mysql.validateConstraintAutoincrement) := by
  refine Fun.plain (ℓ := []) Tree.my_validateConstraintAutoincrement rfl (fun _ => rfl) rfl fun _ => ?_
  apply Done.cast
  · go_done Fun.at
  · go_eq [Mysql.validateConstraintAutoincrement]

instance fun_my_validateColumnConstraint : Fun isNum .my_validateColumnConstraint [] (fun n => Mysql.validateColumnConstraint isNum n) := by
  refine Fun.plain (ℓ := []) Tree.my_validateColumnConstraint rfl (fun _ => rfl) rfl fun n => ?_
  apply Done.cast
  · go_done Fun.at
  · go_eq [Mysql.validateColumnConstraint]


/-- The word remembered for a constraint, as the code makes it (validator_mysql.go:425-445). -/
def myKey (t : Str) : Str :=
  if isKw ["NOT"] t then S "NULL"
  else if isKw ["PRIMARY", "KEY"] t then S "PRIMARY"
  else if isKw ["GENERATED", "AS"] t then S "GENERATED"
  else upStr t

theorem up_my_validateColumnConstraintsAux (ls : List Str) : Fun isNum .my_validateColumnConstraintsAux [.strs ls]
    (fun n => V.columnConstraintsAux Mysql.columnConstraintKinds myKey (Mysql.validateColumnConstraint isNum) n ls) := by
  refine Fun.loopG (args := fun ls => [.strs ls]) (ℓ := fun ls => [(.ls, .strs ls)])
    (P := V.columnConstraintsAux Mysql.columnConstraintKinds myKey (Mysql.validateColumnConstraint isNum))
    Tree.my_validateColumnConstraintsAux rfl (fun _ => rfl) (fun _ => rfl) (fun _ => rfl) (fun n ih ls => ?_) ls
  apply Done.cast
  · apply Done.iteL
    · go_cnd
    · go_done Fun.up
    · exact Fall.skip
    · refine Done.head (bad := fun t => contains ls (myKey t)) (ℓ' := fun t => [(.ls, .strs (ls ++ [myKey t]))])
        (q := fun t => (Mysql.validateColumnConstraint isNum (n + 1)).bind fun _ =>
          V.columnConstraintsAux Mysql.columnConstraintKinds myKey (Mysql.validateColumnConstraint isNum) n (ls ++ [myKey t]))
        ?_ (fun t => ?_)
      · intro v t ht
        go_simp
        rw [go_va_matchToken isNum ht _ (by go_ascii)]
        go_simp
        unfold myKey
        cases isKw ["NOT"] t
        · go_simp
          rw [go_va_matchToken isNum ht _ (by go_ascii)]
          go_simp
          cases isKw ["PRIMARY", "KEY"] t
          · go_simp
            rw [go_va_matchToken isNum ht _ (by go_ascii)]
            go_simp
            cases isKw ["GENERATED", "AS"] t
            · go_simp
              rw [go_va_token_some isNum ht]
              go_simp
              rw [go_Contains isNum _ _ rfl]
              go_simp
              cases contains ls (upStr t) <;> go_simp
              · rw [go_va_token_some isNum ht]
                go_simp
              · rw [go_va_syntaxError isNum ht]
                go_simp
            · go_simp
              rw [go_Contains isNum _ _ rfl]
              go_simp
              cases contains ls (S "GENERATED") <;> go_simp
              rw [go_va_syntaxError isNum ht]
              go_simp
          · go_simp
            rw [go_Contains isNum _ _ rfl]
            go_simp
            cases contains ls (S "PRIMARY") <;> go_simp
            rw [go_va_syntaxError isNum ht]
            go_simp
        · go_simp
          rw [go_Contains isNum _ _ rfl]
          go_simp
          cases contains ls (S "NULL") <;> go_simp
          rw [go_va_syntaxError isNum ht]
          go_simp
      · apply Fall.seqD
        · go_fall Fun.up
        · exact Done.retCall (.var rfl .nil) (ih _)
  · go_eq [V.columnConstraintsAux]

instance fun_my_validateColumnConstraintsAux (ls : List Str) : Fun isNum .my_validateColumnConstraintsAux [.strs ls]
    (fun n => V.columnConstraintsAux Mysql.columnConstraintKinds Mysql.constraintKey (Mysql.validateColumnConstraint isNum) n ls) :=
  (up_my_validateColumnConstraintsAux ls).same fun n v => run_columnConstraintsAux (fun t h => by
    unfold myKey Mysql.constraintKey; rw [upStr_of_ascii (isKw_ascii (by go_ascii) h)]) _ n ls v

instance fun_my_validateColumnConstraints : Fun isNum .my_validateColumnConstraints [] (fun n => Mysql.validateColumnConstraints isNum n) := by
  refine Fun.plain (ℓ := []) Tree.my_validateColumnConstraints rfl (fun _ => rfl) rfl fun n => ?_
  apply Done.cast
  · go_done Fun.at
  · go_eq [Mysql.validateColumnConstraints]

instance fun_my_validateIndexType : Fun isNum .my_validateIndexType [] (fun _ => Mysql.validateIndexType) := by
  refine Fun.plain (ℓ := []) Tree.my_validateIndexType rfl (fun _ => rfl) rfl fun _ => ?_
  apply Done.cast
  · go_done Fun.at
  · go_eq [Mysql.validateIndexType]

instance fun_my_validateIndexOption : Fun isNum .my_validateIndexOption [] (fun n => Mysql.validateIndexOption isNum n) := by
  refine Fun.loop (ℓ := []) Tree.my_validateIndexOption rfl (fun _ => rfl) rfl rfl fun n ih => ?_
  apply Done.cast
  · go_done Fun.up
  · go_eq [Mysql.validateIndexOption]

instance fun_my_validateTableConstraintPrimaryKey : Fun isNum .my_validateTableConstraintPrimaryKey [] (fun n => Mysql.validateTableConstraintPrimaryKey isNum n) := by
  refine Fun.plain (ℓ := []) Tree.my_validateTableConstraintPrimaryKey rfl (fun _ => rfl) rfl fun n => ?_
  apply Done.cast
  · go_done Fun.at
  · go_eq [Mysql.validateTableConstraintPrimaryKey, Mysql.optIndexType]

instance fun_my_validateTableConstraintUnique : Fun isNum .my_validateTableConstraintUnique [] (fun n => Mysql.validateTableConstraintUnique isNum n) := by
  refine Fun.plain (ℓ := []) Tree.my_validateTableConstraintUnique rfl (fun _ => rfl) rfl fun n => ?_
  apply Done.cast
  · go_done Fun.at
  · go_eq [Mysql.validateTableConstraintUnique, Mysql.optIndexType]

instance fun_my_validateTableConstraintForeignKey : Fun isNum .my_validateTableConstraintForeignKey [] (fun n => Mysql.validateTableConstraintForeignKey n) := by
  refine Fun.plain (ℓ := []) Tree.my_validateTableConstraintForeignKey rfl (fun _ => rfl) rfl fun n => ?_
  apply Done.cast
  · go_done Fun.at
  · go_eq [Mysql.validateTableConstraintForeignKey]

instance fun_my_validateTableConstraintCheck : Fun isNum .my_validateTableConstraintCheck [] (fun n => Mysql.validateConstraintCheck n) := by
  refine Fun.plain (ℓ := []) Tree.my_validateTableConstraintCheck rfl (fun _ => rfl) rfl fun n => ?_
  apply Done.cast
  · go_done Fun.at
  · go_eq []

instance fun_my_validateTableConstraintIndex : Fun isNum .my_validateTableConstraintIndex [] (fun n => Mysql.validateTableConstraintIndex isNum n) := by
  refine Fun.plain (ℓ := []) Tree.my_validateTableConstraintIndex rfl (fun _ => rfl) rfl fun n => ?_
  apply Done.cast
  · go_done Fun.at
  · go_eq [Mysql.validateTableConstraintIndex, Mysql.optIndexType]

instance fun_my_validateTableConstraintAux : Fun isNum .my_validateTableConstraintAux [] (fun n => Mysql.validateTableConstraintAux isNum n) := by
  refine Fun.plain (ℓ := []) Tree.my_validateTableConstraintAux rfl (fun _ => rfl) rfl fun n => ?_
  apply Done.cast
  · go_done Fun.at
  · go_eq [Mysql.validateTableConstraintAux]

instance fun_my_validateTableConstraint : Fun isNum .my_validateTableConstraint [] (fun n => Mysql.validateTableConstraint isNum n) := by
  refine Fun.plain (ℓ := []) Tree.my_validateTableConstraint rfl (fun _ => rfl) rfl fun n => ?_
  apply Done.cast
  · go_done Fun.at
  · go_eq [Mysql.validateTableConstraint]

instance fun_my_validateColumnDefinition : Fun isNum .my_validateColumnDefinition [] (fun n => Mysql.validateColumnDefinition isNum n) := by
  refine Fun.plain (ℓ := []) Tree.my_validateColumnDefinition rfl (fun _ => rfl) rfl fun n => ?_
  apply Done.cast
  · go_done Fun.at
  · go_eq [Mysql.validateColumnDefinition]

instance fun_my_validateColumnDefinitions : Fun isNum .my_validateColumnDefinitions [] (fun n => Mysql.validateColumnDefinitions isNum n) := by
  refine Fun.loop (ℓ := []) Tree.my_validateColumnDefinitions rfl (fun _ => rfl) rfl rfl fun n ih => ?_
  apply Done.cast
  · go_done Fun.up
  · go_eq [Mysql.validateColumnDefinitions]

instance fun_my_validateTableOptionCommonLiteral : Fun isNum .my_validateTableOptionCommonLiteral [] (fun _ => Mysql.validateTableOptionCommonLiteral isNum) := by
  refine Fun.plain (ℓ := []) Tree.my_validateTableOptionCommonLiteral rfl (fun _ => rfl) rfl fun _ => ?_
  apply Done.cast
  · go_done Fun.at
  · go_eq [Mysql.validateTableOptionCommonLiteral]

instance fun_my_validateTableOptionCommonString : Fun isNum .my_validateTableOptionCommonString [] (fun _ => Mysql.validateTableOptionCommonString) := by
  refine Fun.plain (ℓ := []) Tree.my_validateTableOptionCommonString rfl (fun _ => rfl) rfl fun _ => ?_
  apply Done.cast
  · go_done Fun.at
  · go_eq [Mysql.validateTableOptionCommonString]

instance fun_my_validateTableOptionCommonName : Fun isNum .my_validateTableOptionCommonName [] (fun _ => Mysql.validateTableOptionCommonName) := by
  refine Fun.plain (ℓ := []) Tree.my_validateTableOptionCommonName rfl (fun _ => rfl) rfl fun _ => ?_
  apply Done.cast
  · go_done Fun.at
  · go_eq [Mysql.validateTableOptionCommonName]

instance fun_my_validateTableOptionCommon01 : Fun isNum .my_validateTableOptionCommon01 [] (fun _ => Mysql.validateTableOptionCommon01) := by
  refine Fun.plain (ℓ := []) Tree.my_validateTableOptionCommon01 rfl (fun _ => rfl) rfl fun _ => ?_
  apply Done.cast
  · go_done Fun.at
  · go_eq [Mysql.validateTableOptionCommon01]

instance fun_my_validateTableOptionCommon01Default : Fun isNum .my_validateTableOptionCommon01Default [] (fun _ => Mysql.validateTableOptionCommon01Default) := by
  refine Fun.plain (ℓ := []) Tree.my_validateTableOptionCommon01Default rfl (fun _ => rfl) rfl fun _ => ?_
  apply Done.cast
  · go_done Fun.at
  · go_eq [Mysql.validateTableOptionCommon01Default]

instance fun_my_validateTableOptionDirectory : Fun isNum .my_validateTableOptionDirectory [] (fun _ => Mysql.validateTableOptionDirectory isNum) := by
  refine Fun.plain (ℓ := []) Tree.my_validateTableOptionDirectory rfl (fun _ => rfl) rfl fun _ => ?_
  apply Done.cast
  · go_done Fun.at
  · go_eq [Mysql.validateTableOptionDirectory]

instance fun_my_validateTableOptionTablespace : Fun isNum .my_validateTableOptionTablespace [] (fun _ => Mysql.validateTableOptionTablespace) := by
  refine Fun.plain (ℓ := []) Tree.my_validateTableOptionTablespace rfl (fun _ => rfl) rfl fun _ => ?_
  apply Done.cast
  · go_done Fun.at
  · go_eq [Mysql.validateTableOptionTablespace]

instance fun_my_validateTableOptionDefault : Fun isNum .my_validateTableOptionDefault [] (fun _ => Mysql.validateTableOptionDefault) := by
  refine Fun.plain (ℓ := []) Tree.my_validateTableOptionDefault rfl (fun _ => rfl) rfl fun _ => ?_
  apply Done.cast
  · go_done Fun.at
  · go_eq [Mysql.validateTableOptionDefault]

instance fun_my_validateTableOptionUnion : Fun isNum .my_validateTableOptionUnion [] (fun n => Mysql.validateTableOptionUnion n) := by
  refine Fun.plain (ℓ := []) Tree.my_validateTableOptionUnion rfl (fun _ => rfl) rfl fun n => ?_
  apply Done.cast
  · go_done Fun.at
  · go_eq [Mysql.validateTableOptionUnion]

instance fun_my_validateTableOptionInsertMethod : Fun isNum .my_validateTableOptionInsertMethod [] (fun _ => Mysql.validateTableOptionInsertMethod) := by
  refine Fun.plain (ℓ := []) Tree.my_validateTableOptionInsertMethod rfl (fun _ => rfl) rfl fun _ => ?_
  apply Done.cast
  · go_done Fun.at
  · go_eq [Mysql.validateTableOptionInsertMethod]

instance fun_my_validateTableOptionRowFormat : Fun isNum .my_validateTableOptionRowFormat [] (fun _ => Mysql.validateTableOptionRowFormat) := by
  refine Fun.plain (ℓ := []) Tree.my_validateTableOptionRowFormat rfl (fun _ => rfl) rfl fun _ => ?_
  apply Done.cast
  · go_done Fun.at
  · go_eq [Mysql.validateTableOptionRowFormat]

instance fun_my_validateTableOption : Fun isNum .my_validateTableOption [] (fun n => Mysql.validateTableOption isNum n) := by
  refine Fun.plain (ℓ := []) Tree.my_validateTableOption rfl (fun _ => rfl) rfl fun n => ?_
  apply Done.cast
  · go_done Fun.at
  · go_eq [Mysql.validateTableOption]

instance fun_my_validateTableOptions : Fun isNum .my_validateTableOptions [] (fun n => Mysql.validateTableOptions isNum n) := by
  refine Fun.loop (ℓ := []) Tree.my_validateTableOptions rfl (fun _ => rfl) rfl rfl fun n ih => ?_
  apply Done.cast
  · go_done Fun.up
  · go_eq [Mysql.validateTableOptions, skipToken_eq]

instance fun_my_validateTableDefinition : Fun isNum .my_validateTableDefinition [] (fun n => Mysql.validateTableDefinition isNum n) := by
  refine Fun.plain (ℓ := []) Tree.my_validateTableDefinition rfl (fun _ => rfl) rfl fun n => ?_
  apply Done.cast
  · go_done Fun.at
  · go_eq [Mysql.validateTableDefinition]

instance fun_my_validateCreateTable : Fun isNum .my_validateCreateTable [] (fun n => Mysql.validateCreateTable isNum n) := by
  refine Fun.plain (ℓ := []) Tree.my_validateCreateTable rfl (fun _ => rfl) rfl fun n => ?_
  apply Done.cast
  · go_done Fun.at
  · go_eq [Mysql.validateCreateTable]


instance fun_my_validateCreateOther : Fun isNum .my_validateCreateOther [] (fun n => V.validateCreateOther Mysql.otherKinds n) := by
  refine Fun.plain (ℓ := []) Tree.my_validateCreateOther rfl (fun _ => rfl) rfl fun n => ?_
  apply Done.cast
  · apply Fall.seqD
    · go_fall Fun.at
    · apply Done.define
      exact Done.other false
  · go_eq [V.validateCreateOther, Mysql.otherKinds]

instance fun_my_validateDdl : Fun isNum .my_validateDdl [] (fun n => Mysql.validateDdl isNum n) := by
  refine Fun.plain (ℓ := []) Tree.my_validateDdl rfl (fun _ => rfl) rfl fun n => ?_
  apply Done.cast
  · go_done Fun.at
  · go_eq [Mysql.validateDdl]

instance fun_my_validate : Fun isNum .my_validate [] (fun n => Mysql.validate isNum n) := by
  refine Fun.loop (ℓ := []) Tree.my_validate rfl (fun _ => rfl) rfl rfl fun n ih => ?_
  apply Done.cast
  · go_done Fun.up
  · go_eq [Mysql.validate]

end DDL.Src

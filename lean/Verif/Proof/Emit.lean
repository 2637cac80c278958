import Verif.Proof.Shared
/-
The tokens which the validators keep, for each phrase of the grammars. The three validators keep
the same tokens for the same phrases.
-/

namespace DDL
open V Spec

/-- Kept tokens of AUTOINCREMENT after PRIMARY KEY. -/
def autoE (a : Bool) (o : List Str) : Prop :=
  if a then ∃ t, isKw ["AUTOINCREMENT"] t = true ∧ o = [t] else o = []

/-- Kept tokens of a check. -/
def checkE (e : List Str) (o : List Str) : Prop :=
  ∃ c, isKw ["CHECK"] c = true ∧ ParenToks e ∧ o = c :: e

/-- Kept tokens of a column constraint. -/
def colConE (isNum : Str → Bool) (d : Rdbms) : ColCon → List Str → Prop
  | .primaryKey a, o => ∃ p k oa, isKw ["PRIMARY"] p = true ∧ isKw ["KEY"] k = true ∧
      autoE a oa ∧ o = p :: k :: oa
  | .autoIncrement, o => ∃ t, isKw ["AUTO_INCREMENT"] t = true ∧ o = [t]
  | .notNull, o => ∃ a b, isKw ["NOT"] a = true ∧ isKw ["NULL"] b = true ∧ o = [a, b]
  | .null, o => o = []
  | .unique, o => ∃ t, isKw ["UNIQUE"] t = true ∧ o = [t]
  | .check e, o => checkE e o
  | .default v, o => ∃ t od, isKw ["DEFAULT"] t = true ∧ dfltE isNum d v od ∧ o = t :: od
  | .collate n, o => ∃ t, isKw ["COLLATE"] t = true ∧ Good n ∧ n ≠ S "," ∧ o = [t, n]
  | .references r, o => refE d r o
  | .other _, o => o = []

/-- What the words for data types have in common. -/
abbrev TypeWord (t : Str) : Prop := t ≠ S "," ∧ ∀ c ∈ t, c.toNat < 128

/-- Kept tokens of a data type. -/
def typeE (τ : TypeAst) (o : List Str) : Prop :=
  ∃ ov od, TypeWord τ.name ∧
    (if τ.varying then isKw ["BIT", "CHARACTER"] τ.name = true ∧
      ∃ t, isKw ["VARYING"] t = true ∧ ov = [t] else ov = []) ∧
    digitsE τ.digits od ∧ o = τ.name :: (ov ++ od)

/-- Kept tokens of a column definition. -/
def colE (isNum : Str → Bool) (d : Rdbms) (c : ColAst) (o : List Str) : Prop :=
  ∃ ot on oc, NameTok d c.name ∧ typeE c.type ot ∧ conNameE d c.conName on ∧
    manyE (colConE isNum d) c.cons oc ∧ o = c.name :: (ot ++ (on ++ oc))

/-- Kept tokens of an index name. -/
def idxNameE (d : Rdbms) : Option Str → List Str → Prop
  | none, o => o = []
  | some n, o => NameTok d n ∧ o = [n]

/-- Kept tokens of a table constraint after its name. -/
def tableConE (d : Rdbms) : Item → List Str → Prop
  | .column _, _ => False
  | .primaryKey _ cs, o => ∃ p k oc, isKw ["PRIMARY"] p = true ∧ isKw ["KEY"] k = true ∧
      keyListE d cs oc ∧ o = p :: k :: oc
  | .unique _ cs, o => ∃ u oc, isKw ["UNIQUE"] u = true ∧ keyListE d cs oc ∧ o = u :: oc
  | .check _ e, o => checkE e o
  | .foreignKey _ cs r, o => fkE d cs r o
  | .exclude _, o => o = []
  | .index _, o => o = [[')']]
  | .fulltext _ i, o => ∃ oi, idxNameE d i oi ∧ o = oi ++ [[')']]

/-- Name of a table constraint. -/
def Item.conName : Item → ConName
  | .column _ => .absent
  | .primaryKey n _ => n
  | .unique n _ => n
  | .check n _ => n
  | .foreignKey n _ _ => n
  | .exclude n => n
  | .index n => n
  | .fulltext n _ => n

/-- Kept tokens of an entry of a table definition. -/
def itemE (isNum : Str → Bool) (d : Rdbms) : Item → List Str → Prop
  | .column c, o => colE isNum d c o
  | i, o => ∃ on oi, conNameE d (Item.conName i) on ∧ tableConE d i oi ∧ o = on ++ oi

/-- Kept tokens of a script. -/
def scriptE (isNum : Str → Bool) (d : Rdbms) : List Stmt → List Str → Prop :=
  manyE (stmtE d (itemE isNum d))

end DDL

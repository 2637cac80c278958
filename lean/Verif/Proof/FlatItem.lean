import Verif.Proof.Flat
/-
Entries of table definitions are flat.
-/

namespace DDL
open Spec Conv

syntax "flat" : tactic
macro_rules
  | `(tactic| flat) => `(tactic| repeat' first
      | assumption
      | exact Flt.pure _
      | exact Flt.kw (by decide)
      | exact Flt.optWord (by decide)
      | exact Flt.parens
      | exact Flt.name _
      | exact Flt.string _
      | exact Flt.at_ _
      | exact Flt.notAt _
      | exact Flt.posInt
      | (refine Flt.tok (Flt.kwTok ?_); decide)
      | (refine Flt.optKw (by decide) ?_)
      | refine Flt.many ?_
      | refine Flt.paren (Flt.sep_bal ?_) (fun _ => ?_)
      | refine Flt.optParen (Flt.sep_bal ?_) (fun _ => ?_)
      | refine Flt.optParen (Flt.blt ?_) (fun _ => ?_)
      | refine Flt.bind ?_ (fun _ => ?_)
      | refine Flt.alt ?_ ?_
      | split)

namespace Flt
theorem literal {isNum : Str → Bool} (hN : NumOK isNum) (d : Rdbms) : Flt (literal isNum d) := by
  refine tok fun t ht => ?_
  rcases ht with h | h | h
  · obtain ⟨c, r, rfl, hc⟩ := hN t h
    refine ⟨?_, ?_, ?_⟩ <;> rintro ⟨⟩ <;> revert hc <;> decide
  · exact string_plain _ h
  · exact kwTok (by decide) _ h
theorem qname (d : Rdbms) : Flt (qname d) := by unfold Spec.qname; flat
theorem nameList (d : Rdbms) : Flt (nameList d) := by unfold Spec.nameList names; flat
theorem conName (d : Rdbms) : Flt (conName d) := by unfold Spec.conName; flat
theorem defaultValue {isNum : Str → Bool} (hN : NumOK isNum) (d : Rdbms) : Flt (defaultValue isNum d) := by
  have := literal hN d
  unfold Spec.defaultValue; flat
theorem onAction : Flt onAction := by unfold Spec.onAction; flat
theorem refClauses : Flt refClauses := by have := onAction; unfold Spec.refClauses; flat
theorem colRef (d : Rdbms) : Flt (colRef d) := by have := qname d; unfold Spec.colRef; flat
theorem foreignKey (d : Rdbms) (n : ConName) : Flt (foreignKey d n) := by
  have := qname d; have := nameList d; unfold Spec.foreignKey names; flat
theorem digitN : Flt digitN := by unfold Spec.digitN; flat
theorem digitPS : Flt digitPS := by
  have hb : Blt (Spec.optKw [","] Spec.posInt) := by
    rintro ts v r (⟨_, m, h1, a, m', h2, h3, rfl⟩ | h)
    · cases comma h1
      obtain ⟨p, rfl, hp⟩ := posInt _ _ _ h2
      exact ⟨[','] :: p, rfl, .plain _ _ (by decide) (by decide) hp.bal⟩
    · exact ((notAt _).bind fun _ => pure _).blt _ _ _ h
  have := optParen (L := do let n ← Spec.posInt; let m ← Spec.optKw [","] Spec.posInt; return (n, m))
    (posInt.blt.bind fun _ => hb.bind fun _ => (pure _).blt) (f := fun a _ => Pure.pure a) (fun _ => pure _)
  intro ts v r h
  refine this ts v r ?_
  rcases h with ⟨_, m, h1, a, m', ⟨n, m1, h2, b, m2, h3, h4⟩, h5⟩ | h
  · exact .inl ⟨(), m, h1, a, m', ⟨(n, b), m2, ⟨n, m1, h2, b, m2, h3, rfl, rfl⟩, h4⟩, h5⟩
  · exact .inr h
theorem colCons {first : List String} {L : Lang ColCon} (h : Flt L) : Flt (colCons first L) := such (many h)
end Flt

namespace Spec.Sqlite
theorem flt_conflict : Flt conflict := by unfold conflict; flat
theorem flt_refClauses : Flt refClauses := by have := Flt.onAction; unfold refClauses; flat
theorem flt_colCon {isNum : Str → Bool} (hN : NumOK isNum) : Flt (colCon isNum) := by
  have := Flt.defaultValue hN .sqlite; have := Flt.colRef .sqlite; have := flt_conflict; have := flt_refClauses
  unfold colCon; flat
theorem flt_column {isNum : Str → Bool} (hN : NumOK isNum) : Flt (column isNum) := by
  have := Flt.colCons (first := colConFirst) (flt_colCon hN); have := Flt.conName .sqlite
  unfold column; flat
theorem flt_tableCon (n : ConName) : Flt (tableCon n) := by
  have := Flt.nameList .sqlite; have := Flt.foreignKey .sqlite n; have := flt_conflict; have := flt_refClauses
  unfold tableCon; flat
theorem flt_item {isNum : Str → Bool} (hN : NumOK isNum) : Flt (item isNum) := by
  exact .alt (.bind (.at_ _) fun _ => .bind (Flt.conName _) fun _ => flt_tableCon _) (flt_column hN)
end Spec.Sqlite

namespace Spec.Postgres
theorem flt_zone : Flt zone := by unfold zone; flat
theorem flt_type : Flt type := by
  have := Flt.digitN; have := Flt.digitPS; have := flt_zone
  unfold type; flat
  exact Flt.tok fun t h => Flt.kwTok (by decide) t h.1
theorem flt_indexParams : Flt indexParams := by have := Flt.nameList .postgres; unfold indexParams; flat
theorem flt_optParens : Flt optParens := by unfold optParens; flat
theorem flt_generated : Flt generated := by have := flt_optParens; unfold generated; flat
theorem flt_check : Flt check := by unfold check; flat
theorem flt_colCon {isNum : Str → Bool} (hN : NumOK isNum) : Flt (colCon isNum) := by
  have := Flt.defaultValue hN .postgres; have := Flt.colRef .postgres; have := flt_indexParams; have := Flt.refClauses
  have := flt_generated; have := flt_check
  unfold colCon; flat
theorem flt_column {isNum : Str → Bool} (hN : NumOK isNum) : Flt (column isNum) := by
  have := Flt.colCons (first := colConFirst) (flt_colCon hN); have := Flt.conName .postgres; have := flt_type
  unfold column; flat
theorem flt_tableCon (n : ConName) : Flt (tableCon n) := by
  have := Flt.nameList .postgres; have := Flt.foreignKey .postgres n; have := flt_indexParams; have := Flt.refClauses
  have := flt_check
  unfold tableCon; flat
theorem flt_item {isNum : Str → Bool} (hN : NumOK isNum) : Flt (item isNum) := by
  exact .alt (.bind (.at_ _) fun _ => .bind (Flt.conName _) fun _ => flt_tableCon _) (flt_column hN)
end Spec.Postgres

namespace Spec.Mysql
theorem flt_zone : Flt zone := by unfold zone; flat
theorem flt_type : Flt type := by
  have := Flt.digitN; have := Flt.digitPS; have := flt_zone
  unfold type; flat
  exact Flt.tok fun t h => Flt.kwTok (by decide) t h.1
theorem flt_keyPart : Flt keyPart := by have := Flt.digitN; unfold keyPart; flat
theorem flt_keyList : Flt keyList := by have := flt_keyPart; unfold keyList; flat
theorem flt_check : Flt check := by unfold check; flat
theorem flt_colCon {isNum : Str → Bool} (hN : NumOK isNum) : Flt (colCon isNum) := by
  have := Flt.literal hN .mysql; have := Flt.colRef .mysql; have := Flt.refClauses; have := flt_check
  unfold colCon; flat
theorem flt_conName (ks : List String) : Flt (conName ks) := by unfold conName; flat
theorem flt_column {isNum : Str → Bool} (hN : NumOK isNum) : Flt (column isNum) := by
  have := Flt.colCons (first := colConFirst) (flt_colCon hN); have := flt_conName ["CHECK"]; have := flt_type
  unfold column; flat
theorem flt_indexType : Flt indexType := by unfold indexType; flat
theorem flt_indexOptions {isNum : Str → Bool} (hN : NumOK isNum) : Flt (indexOptions isNum) := by
  have := Flt.literal hN .mysql; unfold indexOptions; flat
theorem flt_nameUnless (ks : List String) : Flt (nameUnless ks) := by unfold nameUnless; flat
theorem flt_tableCon {isNum : Str → Bool} (hN : NumOK isNum) (n : ConName) : Flt (tableCon isNum n) := by
  have := Flt.nameList .mysql; have := Flt.qname .mysql; have := flt_indexType; have := Flt.refClauses
  have := flt_check; have := flt_keyList; have := flt_indexOptions hN; have := flt_nameUnless ["("]
  have := flt_nameUnless ["USING", "("]
  unfold tableCon; flat
theorem flt_item {isNum : Str → Bool} (hN : NumOK isNum) : Flt (item isNum) := by
  exact .alt (.bind (.at_ _) fun _ => .bind (flt_conName _) fun _ => flt_tableCon hN _) (flt_column hN)
end Spec.Mysql

theorem flt_item {isNum : Str → Bool} (hN : NumOK isNum) (d : Rdbms) : Flt (itemOf isNum d) := by
  cases d
  · exact Spec.Sqlite.flt_item hN
  · exact Spec.Postgres.flt_item hN
  · exact Spec.Mysql.flt_item hN
  · exact Spec.Sqlite.flt_item hN

end DDL

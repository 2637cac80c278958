import Verif.Proof.PrintItem
import Verif.Proof.Hang
/-
Derivations of simple statements: `CREATE TABLE t ( entries ) ;`.
-/

namespace DDL
open V Spec Conv

/-- A table made of entries. -/
theorem stmt_simple {isNum : Str → Bool} {d : Rdbms} {t : Str} {ts r : List Str} {is : List Item}
    (ht : Name (vd d) t) (hi : ¬ Kw ["IF"] t)
    (h : Sep (itemOf isNum d) ts is (S ")" :: S ";" :: r)) :
    stmtOf isNum d (S "CREATE" :: S "TABLE" :: t :: S "(" :: ts) (.table ⟨false, ⟨none, t⟩, is⟩) r := by
  have key : ∀ o : Lang Unit, (∀ r, o (S ";" :: r) () (S ";" :: r)) →
      createTable (vd d) (itemOf isNum d) o (S "TABLE" :: t :: S "(" :: ts)
        (.table ⟨false, ⟨none, t⟩, is⟩) r := by
    intro o ho
    exact ⟨(), _, kwS (by decide), _, _, ⟨none, _, optKw_none (notAt_cons hi), rfl, rfl⟩, _, _,
      qname_plain ht (notAt_cons (by decide)), (), _, kwS (by decide), _, _, h, (), _,
      kwS (by decide), (), _, ho _, (), _, kwS (by decide), rfl, rfl⟩
  cases d with
  | other =>
    refine ⟨(), _, kwS (by decide), false, _, optWord_none (notAt_cons (by decide)), .inl (key _ fun r => ?_)⟩
    exact .inr (.inr (notAt_cons (by decide)))
  | sqlite =>
    refine ⟨(), _, kwS (by decide), false, _, optWord_none (notAt_cons (by decide)), .inl (key _ fun r => ?_)⟩
    exact .inr (.inr (notAt_cons (by decide)))
  | postgres =>
    refine ⟨(), _, kwS (by decide), .inl (key _ fun r => ?_)⟩
    exact .stop (.inl ⟨rfl, _, _, rfl, by decide⟩)
  | mysql =>
    refine ⟨(), _, kwS (by decide), .inl (key _ fun r => ?_)⟩
    exact .stop (.inl ⟨rfl, _, _, rfl, by decide⟩)

theorem digitN_none {ts : List Str} (h : notAt ["("] ts () ts) : digitN ts none ts := optKw_none h

/-- `c INTEGER constraint ...` -/
theorem item_simple {isNum : Str → Bool} {d : Rdbms} {c k : Str} {ts r : List Str} {cs : List ColCon}
    (hc : Name (vd d) c) (hk : ¬ Kw ["("] k) (hk' : ¬ Kw ["CONSTRAINT"] k)
    (h : colCons (colConFirstOf d) (colConOf isNum d) (k :: ts) cs r) :
    itemOf isNum d (c :: S "INTEGER" :: k :: ts)
      (.column ⟨c, ⟨S "INTEGER", false, none⟩, .absent, cs⟩) r := by
  have cn : ∀ d, conName d (k :: ts) .absent (k :: ts) := fun d =>
    ⟨none, _, optKw_none (notAt_cons hk'), rfl, rfl⟩
  cases d with
  | other =>
    exact .inr ⟨_, _, name_intro hc, S "INTEGER", _, ⟨rfl, by decide⟩, _, _, cn _, cs, _, h, rfl, rfl⟩
  | sqlite =>
    exact .inr ⟨_, _, name_intro hc, S "INTEGER", _, ⟨rfl, by decide⟩, _, _, cn _, cs, _, h, rfl, rfl⟩
  | postgres =>
    exact .inr ⟨_, _, name_intro hc, ⟨S "INTEGER", false, none⟩, _,
      .inr (.inr (.inr (.inr (.inr ⟨S "INTEGER", _, ⟨rfl, by decide +kernel, by decide⟩, rfl, rfl⟩)))),
      _, _, cn _, cs, _, h, rfl, rfl⟩
  | mysql =>
    exact .inr ⟨_, _, name_intro hc, ⟨S "INTEGER", false, none⟩, _,
      .inl ⟨S "INTEGER", _, ⟨rfl, by decide⟩, none, _, digitN_none (notAt_cons hk), rfl, rfl⟩,
      _, _, ⟨none, _, optKw_none (notAt_cons hk'), rfl, rfl⟩, cs, _, h, rfl, rfl⟩

/-- One column constraint at the end of a column. -/
theorem colCons_one {d : Rdbms} {L : Lang ColCon} {k x : Str} {ts r : List Str} {c : ColCon}
    (hk : Kw (colConFirstOf d) k) (h : L (k :: ts) c (x :: r)) (hx : ¬ Kw (colConFirstOf d) x) :
    colCons (colConFirstOf d) L (k :: ts) [c] (x :: r) :=
  ⟨.cons ⟨rfl, _, _, rfl, hk⟩ h (.nil (notAt_cons hx)), by simp⟩

/-- `CHECK ( ... )` -/
theorem check_simple {isNum : Str → Bool} (d : Rdbms) {e : List Str} (r : List Str) (he : Bal e) :
    colConOf isNum d (S "CHECK" :: S "(" :: (e ++ S ")" :: S ")" :: r))
      (.check (S "(" :: e ++ [S ")"])) (S ")" :: r) := by
  have hp : parens (S "(" :: (e ++ S ")" :: S ")" :: r)) (S "(" :: e ++ [S ")"]) (S ")" :: r) :=
    ⟨e, he, rfl, by simp⟩
  cases d with
  | other => exact .inr (.inr (.inr (.inl ⟨(), _, kwS (by decide), _, _, hp, rfl, rfl⟩)))
  | sqlite => exact .inr (.inr (.inr (.inl ⟨(), _, kwS (by decide), _, _, hp, rfl, rfl⟩)))
  | postgres =>
    exact .inr (.inr (.inr (.inr (.inl ⟨_, _, ⟨(), _, kwS (by decide), _, _, hp, none, _,
      optKw_none (notAt_cons (by decide)), rfl, rfl⟩, rfl, rfl⟩))))
  | mysql =>
    exact .inr (.inr (.inr (.inr (.inr (.inl ⟨_, _, ⟨(), _, kwS (by decide), _, _, hp, false, _,
      optWord_none (notAt_cons (by decide)), false, _, optWord_none (notAt_cons (by decide)),
      rfl, rfl⟩, rfl, rfl⟩)))))

/-- `DEFAULT ( ... )` -/
theorem default_simple {isNum : Str → Bool} (d : Rdbms) {e : List Str} (r : List Str) (he : Bal e) :
    colConOf isNum d (S "DEFAULT" :: S "(" :: (e ++ S ")" :: S ")" :: r))
      (.default (.expr (S "(" :: e ++ [S ")"]))) (S ")" :: r) := by
  have hp : parens (S "(" :: (e ++ S ")" :: S ")" :: r)) (S "(" :: e ++ [S ")"]) (S ")" :: r) :=
    ⟨e, he, rfl, by simp⟩
  have ha : at_ ["("] (S "(" :: (e ++ S ")" :: S ")" :: r)) () (S "(" :: (e ++ S ")" :: S ")" :: r)) :=
    ⟨rfl, _, _, rfl, by decide⟩
  have hd : ∀ d, defaultValue isNum d (S "(" :: (e ++ S ")" :: S ")" :: r))
      (.expr (S "(" :: e ++ [S ")"])) (S ")" :: r) := fun d =>
    .inl ⟨(), _, ha, _, _, hp, rfl, rfl⟩
  cases d with
  | other =>
    exact .inr (.inr (.inr (.inr (.inl ⟨(), _, kwS (by decide), _, _, hd _, rfl, rfl⟩))))
  | sqlite =>
    exact .inr (.inr (.inr (.inr (.inl ⟨(), _, kwS (by decide), _, _, hd _, rfl, rfl⟩))))
  | postgres =>
    exact .inr (.inr (.inr (.inr (.inr (.inl ⟨(), _, kwS (by decide), _, _, hd _, rfl, rfl⟩)))))
  | mysql =>
    exact .inr (.inr (.inr (.inr (.inr (.inr (.inl ⟨(), _, kwS (by decide),
      .inl ⟨(), _, ha, _, _, hp, rfl, rfl⟩⟩))))))

/-- `CREATE TABLE t ( c INTEGER CHECK ( ... ) ) ;`, or with DEFAULT. -/
theorem stmt_expr {isNum : Str → Bool} {d : Rdbms} {t c k : Str} {e : List Str}
    (hk : k = S "CHECK" ∨ k = S "DEFAULT") (ht : Name (vd d) t) (hi : ¬ Kw ["IF"] t)
    (hc : Name (vd d) c) (he : Bal e) :
    ∃ s, stmtOf isNum d ([S "CREATE", S "TABLE", t, S "(", c, S "INTEGER", k] ++
      S "(" :: e ++ S ")" :: [S ")", S ";"]) s [] := by
  have e1 : [S "CREATE", S "TABLE", t, S "(", c, S "INTEGER", k] ++ S "(" :: e ++ S ")" :: [S ")", S ";"] =
      S "CREATE" :: S "TABLE" :: t :: S "(" :: c :: S "INTEGER" :: k :: S "(" :: (e ++ S ")" :: S ")" :: [S ";"]) := by
    simp only [List.cons_append, List.nil_append]
  rw [e1]
  have hn : ¬ Kw (colConFirstOf d) (S ")") := by cases d <;> decide
  rcases hk with rfl | rfl
  · exact ⟨_, stmt_simple ht hi (.one (item_simple hc (by decide) (by decide)
      (colCons_one (by cases d <;> decide) (check_simple d _ he) hn)) (notAt_cons (by decide)))⟩
  · exact ⟨_, stmt_simple ht hi (.one (item_simple hc (by decide) (by decide)
      (colCons_one (by cases d <;> decide) (default_simple d _ he) hn)) (notAt_cons (by decide)))⟩

/-- `s . u` -/
theorem qname_qualified {d : Rdbms} {s u : Str} {r : List Str} (hs : Name d s) (hu : Name d u) :
    qname d (s :: S "." :: u :: r) ⟨some s, u⟩ r :=
  ⟨s, _, name_intro hs, some u, _, optKw_some (by decide) (name_intro hu), rfl, rfl⟩

/-- `REFERENCES s . u` at the end of a table. -/
theorem ref_simple {isNum : Str → Bool} (d : Rdbms) {s u : Str} (r : List Str) (hs : Name (vd d) s)
    (hu : Name (vd d) u) :
    colConOf isNum d (S "REFERENCES" :: s :: S "." :: u :: S ")" :: r)
      (.references ⟨⟨some s, u⟩, none⟩) (S ")" :: r) := by
  have hr : colRef (vd d) (S "REFERENCES" :: s :: S "." :: u :: S ")" :: r) ⟨⟨some s, u⟩, none⟩
      (S ")" :: r) :=
    ⟨(), _, kwS (by decide), _, _, qname_qualified hs hu, none, _,
      optKw_none (notAt_cons (by decide)), rfl, rfl⟩
  have h1 : Sqlite.refClauses (S ")" :: r) () (S ")" :: r) := many_unit (notAt_cons (by decide))
  have h2 : refClauses (S ")" :: r) () (S ")" :: r) := many_unit (notAt_cons (by decide))
  cases d with
  | other =>
    exact .inr (.inr (.inr (.inr (.inr (.inr (.inl ⟨_, _, hr, (), _, h1, rfl, rfl⟩))))))
  | sqlite =>
    exact .inr (.inr (.inr (.inr (.inr (.inr (.inl ⟨_, _, hr, (), _, h1, rfl, rfl⟩))))))
  | postgres =>
    exact .inr (.inr (.inr (.inr (.inr (.inr (.inl ⟨_, _, hr, (), _, h2, rfl, rfl⟩))))))
  | mysql =>
    exact .inr (.inr (.inr (.inr (.inr (.inr (.inr (.inr (.inl ⟨_, _, hr, (), _, h2, rfl, rfl⟩))))))))

/-- `INDEX ( c )` at the end of a MySQL table. -/
theorem index_simple {isNum : Str → Bool} {c : Str} (r : List Str) (hc : Name .mysql c) :
    itemOf isNum .mysql (S "INDEX" :: S "(" :: c :: S ")" :: S ")" :: r) (.index .absent)
      (S ")" :: r) := by
  refine .inl ⟨(), _, ⟨rfl, _, _, rfl, by decide⟩, .absent, _,
    ⟨none, _, optKw_none (notAt_cons (by decide)), rfl, rfl⟩, ?_⟩
  have hk : Mysql.keyList (S "(" :: c :: S ")" :: S ")" :: r) [.col c] (S ")" :: r) := by
    have hp : Mysql.keyPart (c :: S ")" :: S ")" :: r) (.col c) (S ")" :: S ")" :: r) := by
      exact ⟨.col c, _, .inr ⟨c, _, name_intro hc, none, _, digitN_none (notAt_cons (by decide)), rfl, rfl⟩,
        false, _, optWord_none (notAt_cons (by decide)), rfl, rfl⟩
    exact ⟨(), _, kwS (by decide), _, _, .one hp (notAt_cons (by decide)), (), _, kwS (by decide), rfl, rfl⟩
  exact .inr (.inr (.inr (.inr (.inl ⟨(), _, kwS (by decide), none, _,
    .inl ⟨(), _, ⟨rfl, _, _, rfl, by decide⟩, rfl, rfl⟩, (), _,
    ⟨none, _, optKw_none (notAt_cons (by decide)), rfl, rfl⟩, _, _, hk, (), _,
    many_unit (notAt_cons (by decide)), rfl, rfl⟩))))

end DDL

import Verif.Proof.Conv
import Verif.Proof.PostgresImpl
import Verif.Proof.MysqlImpl
/-
What the grammars guarantee about the meaning of a script.
-/

namespace DDL
open Spec Conv

theorem Val.bindV {P : α → Prop} {Q : β → Prop} {L : Lang α} {f : α → Lang β} (h : Val P L)
    (hf : ∀ a, P a → Val Q (f a)) : Val Q (L >>= f) := by
  rintro ts w r ⟨v, mid, h1, h2⟩; exact hf v (h _ _ _ h1) _ _ _ h2

theorem Val.sep {P : β → Prop} {L : Lang β} (h : Val P L) : Val (fun vs => ∀ v ∈ vs, P v) (Sep L) := by
  intro ts v r hs
  induction hs with
  | one h1 _ =>
    intro v hv
    rw [List.mem_singleton] at hv; subst hv; exact h _ _ _ h1
  | cons h1 _ _ ih =>
    intro v hv
    rcases List.mem_cons.1 hv with rfl | hv
    · exact h _ _ _ h1
    · exact ih v hv

theorem Val.colCons {ks : List String} {L : Lang ColCon} :
    Val (fun cs => (cs.map ColCon.kind).Nodup) (colCons ks L) := fun _ _ _ h => h.2

theorem Val.conName {d : Rdbms} : Val (fun n => n ≠ .anonymous) (conName d) := by
  unfold Spec.conName
  refine .bind fun n => ?_
  cases n <;> exact .pure (by simp)

theorem Val.foreignKey {d : Rdbms} {n : ConName} : Val ItemOk (foreignKey d n) := by
  unfold Spec.foreignKey
  repeat' first
    | exact Val.pure trivial
    | (apply Val.bind; intro _)

theorem Val.createTable {d : Rdbms} {item : Lang Item} {opts : Lang Unit} (h : Val ItemOk item) :
    Val (fun s => ∀ t, s = .table t → TableOk t) (createTable d item opts) := by
  rintro ts v r ⟨_, m1, _, ine, m2, h2, q, m3, h3, _, m4, _, its, m5, h5, _, m6, _, _, m7, _, _,
    m8, _, rfl, _⟩
  rintro t ⟨⟩
  refine ⟨Val.sep h _ _ _ h5, ?_⟩
  rintro rfl x r hx
  obtain ⟨b, m, hb, hb', rfl⟩ := h2
  cases b with
  | some b => simp at hb'
  | none =>
    have hm : notAt ["IF"] m1 () m2 := by
      rcases hb with ⟨_, _, _, _, _, _, e, _⟩ | ⟨_, _, hn, _, rfl⟩
      · cases e
      · exact hn
    obtain ⟨rfl, hn⟩ := hm
    -- the first token of the name is the next token
    have : ∃ r', m2 = x :: r' := by
      obtain ⟨a, k, ⟨ha, _⟩, b, k', hb, hq⟩ := h3
      cases b with
      | none =>
        obtain ⟨rfl, _⟩ := hq
        cases hx
        exact ⟨_, ha⟩
      | some b =>
        obtain ⟨rfl, _⟩ := hq
        cases hx
        exact ⟨_, ha⟩
    obtain ⟨r', rfl⟩ := this
    cases hk : isKw ["IF"] x with
    | false => rfl
    | true => exact absurd (isKw_kw.1 hk) (hn x r' rfl)

theorem Val.other {kinds : List String} :
    Val (fun s => ∀ t, s = .table t → TableOk t) (other kinds) := by
  unfold Spec.other
  exact .bind fun _ => .bind fun _ => .pure fun _ h => by cases h

theorem scriptOk {stmt : Lang Stmt} (h : Val (fun s => ∀ t, s = .table t → TableOk t) stmt)
    {ts : List Str} {ss : List Stmt} (hs : Script stmt ts ss) : ScriptOk ss := by
  induction hs with
  | nil => intro t ht; cases ht
  | cons h1 _ ih =>
    intro t ht
    rcases List.mem_cons.1 ht with rfl | ht
    · exact h _ _ _ h1 t rfl
    · exact ih t ht

/-- Closes `Val` goals whose results satisfy the predicate trivially. -/
macro "vals" : tactic => `(tactic| repeat' (first
  | exact Val.pure trivial
  | exact Val.pure (by assumption)
  | exact Val.pure (by first | intros; contradiction | (intro h; cases h))
  | (with_reducible apply Val.alt)
  | (with_reducible apply Val.bind; intro _)))

/-! ### SQLite -/

theorem sqlite_item (isNum : Str → Bool) : Val ItemOk (Spec.Sqlite.item isNum) := by
  refine .alt (.bind fun _ => .bind fun n => ?_) ?_
  · unfold Spec.Sqlite.tableCon
    refine .alt (by vals) (.alt (by vals) (.alt (by vals) ?_))
    exact Val.foreignKey.bindV fun a h => .bind fun _ => .pure h
  · refine .bind fun n => .bind fun t => Val.conName.bindV fun cn hcn => ?_
    refine Val.colCons.bindV fun cs hcs => .pure ⟨hcs, fun h => absurd h hcn⟩

theorem sqlite_scriptOk {isNum : Str → Bool} {ts : List Str} {ss : List Stmt}
    (h : Script (Spec.Sqlite.stmt isNum) ts ss) : ScriptOk ss :=
  scriptOk (.bind fun _ => .bind fun _ => .alt (.createTable (sqlite_item isNum)) .other) h

/-! ### PostgreSQL -/

theorem postgres_item (isNum : Str → Bool) : Val ItemOk (Spec.Postgres.item isNum) := by
  refine .alt (.bind fun _ => Val.conName.bindV fun n hn => ?_) ?_
  · unfold Spec.Postgres.tableCon
    refine .alt (by vals) (.alt (by vals) (.alt (by vals) (.alt ?_ (by vals))))
    exact Val.foreignKey.bindV fun a h => .bind fun _ => .pure h
  · refine .bind fun n => .bind fun t => Val.conName.bindV fun cn hcn => ?_
    refine Val.colCons.bindV fun cs hcs => .pure ⟨hcs, fun h => absurd h hcn⟩

theorem postgres_scriptOk {isNum : Str → Bool} {ts : List Str} {ss : List Stmt}
    (h : Script (Spec.Postgres.stmt isNum) ts ss) : ScriptOk ss :=
  scriptOk (.bind fun _ => .alt (.createTable (postgres_item isNum)) .other) h

/-! ### MySQL -/

theorem mysql_check_kind (isNum : Str → Bool) :
    Val (fun c => c.kind = "CHECK" → ∃ e, c = .check e) (Spec.Mysql.colCon isNum) := by
  unfold Spec.Mysql.colCon
  repeat' (first
    | exact Val.pure (fun h => by first | exact ⟨_, rfl⟩ | (simp [ColCon.kind] at h))
    | (with_reducible apply Val.alt)
    | (with_reducible apply Val.bind; intro _))

theorem mysql_conName {ks : List String} {ts r : List Str}
    (h : Spec.Mysql.conName ks ts .anonymous r) : isKw ks (hd r) = true := by
  obtain ⟨n, m, h1, h2⟩ := h
  match n with
  | none => cases h2.1
  | some (some n) => cases h2.1
  | some none =>
    obtain ⟨_, rfl⟩ := h2
    rcases h1 with ⟨_, m1, _, v, m2, h3, h4, rfl⟩ | ⟨_, _, _, e, _⟩
    · cases h4
      rcases h3 with ⟨_, m3, ⟨rfl, t, r', rfl, ht⟩, _, rfl⟩ | ⟨_, _, _, _, _, _, e, _⟩
      · exact isKw_kw.2 ht
      · cases e
    · cases e

theorem val_of {P : β → Prop} {L : Lang β} {ts r : List Str} {v : β} (h : L ts v r)
    (hv : Val P L) : P v := hv _ _ _ h

theorem mysql_item (isNum : Str → Bool) : Val ItemOk (Spec.Mysql.item isNum) := by
  refine .alt (.bind fun _ => ?_) ?_
  · rintro ts v r ⟨n, m1, h1, h2⟩
    by_cases hn : n = .anonymous
    · subst hn
      have hk := mysql_conName h1
      have bad : ∀ {ks}, (∀ t ∈ kwList ks, isKw ["PRIMARY", "UNIQUE", "FOREIGN", "CHECK"] t = false) →
          ∀ {u m}, kw ks m1 u m → False := by
        rintro ks hks u m ⟨t, _, ⟨rfl, ht⟩, _, rfl⟩
        rw [show hd (t :: m) = t from rfl, kwF (isKw_kw.2 ht) hks] at hk
        cases hk
      rcases h2 with h | h | h | h | h | h
      · exact val_of h (by vals)
      · exact val_of h (by vals)
      · exact val_of h (by vals)
      · exact val_of h (by vals)
      · obtain ⟨_, m, hm, _⟩ := h; exact (bad (by decide) hm).elim
      · obtain ⟨_, m, hm, _⟩ := h; exact (bad (by decide) hm).elim
    · refine val_of h2 ?_
      unfold Spec.Mysql.tableCon
      vals
  · rintro ts v r ⟨n, m1, _, t, m2, _, cn, m3, h3, cs, m4, ⟨h4, h4'⟩, rfl, rfl⟩
    refine ⟨h4', ?_⟩
    rintro rfl
    have hk := mysql_conName h3
    cases h4 with
    | nil hn =>
      exfalso
      obtain ⟨_, hn⟩ := hn
      cases r with
      | nil => revert hk; decide
      | cons t r =>
        refine hn t r rfl (isKw_kw.1 ?_)
        exact kwT (show isKw ["CHECK"] t = true from hk) (by decide)
    | @cons _ v mid vs _ hk' h5 hs =>
      obtain ⟨h6, h7⟩ := MysqlImpl.keyIs_colCon isNum _ _ _ h5
      have h8 : Mysql.constraintKey (hd m3) = S "CHECK" :=
        forall_kw (P := fun t => Mysql.constraintKey t = S "CHECK") (by decide) hk
      rw [h8] at h7
      have h9 : v.kind = "CHECK" := by
        have : v.kind.toList = "CHECK".toList := h7.symm
        exact String.toList_inj.1 this
      obtain ⟨e, rfl⟩ := mysql_check_kind isNum _ _ _ h5 h9
      exact ⟨e, vs, rfl⟩

theorem mysql_scriptOk {isNum : Str → Bool} {ts : List Str} {ss : List Stmt}
    (h : Script (Spec.Mysql.stmt isNum) ts ss) : ScriptOk ss :=
  scriptOk (.bind fun _ => .alt (.createTable (mysql_item isNum)) .other) h

end DDL

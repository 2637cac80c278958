import Verif.Proof.Concat
import Verif.Proof.Local
import Verif.Proof.Derive
/-
Facts about accepted and rejected texts, from the grammars.
-/

namespace DDL
open V Spec Conv

/-- A text without a derivation is rejected, or is never finished because of an open parenthesis. -/
theorem rejected_or_hangs [CaseMap] {isNum : Str → Bool} (hN : NumOK isNum) {d : Rdbms} {ddl : List Char}
    {toks : List Str} (hl : Lexes d ddl toks) (h : ∀ ss, ¬ script isNum d (strip toks) ss) :
    (∃ e, Returns isNum ddl d ([], some e)) ∨ (Hangs isNum ddl d ∧ Unclosed (strip toks)) := by
  rcases returns_or_hangs isNum ddl d with ⟨⟨r, e⟩, hr⟩ | hh
  · cases e with
    | none =>
      obtain ⟨t, o, h1, h2, _⟩ := returns_ok_iff.1 hr
      cases Lexes.unique hl h1
      obtain ⟨ss, h3⟩ := (validates_iff hN (Lexes.good hl)).1 ⟨o, h2⟩
      exact absurd h3 (h ss)
    | some e =>
      obtain ⟨rfl, _⟩ := returns_err_iff.1 hr
      exact .inl ⟨e, hr⟩
  · rcases validateN_spec hN d (Lexes.good hl) (Nat.lt_succ_self _) with ⟨ss, out, h1, h2, _⟩ |
      ⟨e, h1, _⟩ | ⟨_, _, hu⟩
    · exact absurd h2 (h ss)
    · exact .inl ⟨e, returns_err_iff.2 ⟨rfl, .inr ⟨toks, hl, _, h1⟩⟩⟩
    · exact .inr ⟨hh, hu⟩

/-! ### The last token -/

/-- The phrase ends with a semicolon. -/
def EndsSemi (L : Lang β) : Prop := ∀ ts v r, L ts v r → ∃ p, ts = p ++ [[';']] ++ r

theorem EndsSemi.bind {L : Lang α} {f : α → Lang β} [hL : Loc L] (h : ∀ a, EndsSemi (f a)) :
    EndsSemi (L >>= f) := by
  rintro ts w r ⟨v, mid, h1, h2⟩
  obtain ⟨p, rfl, _⟩ := hL.loc h1
  obtain ⟨p', rfl⟩ := h v _ _ _ h2
  exact ⟨p ++ p', by simp⟩

theorem EndsSemi.map {L : Lang α} {v : α → β} (h : EndsSemi L) :
    EndsSemi (L >>= fun a => (pure (v a) : Lang β)) := by
  rintro ts w r ⟨_, mid, h1, rfl, rfl⟩
  exact h _ _ _ h1

theorem EndsSemi.alt {L M : Lang β} (h : EndsSemi L) (h' : EndsSemi M) : EndsSemi (L <|> M) := by
  rintro ts w r (h1 | h1)
  · exact h _ _ _ h1
  · exact h' _ _ _ h1

theorem semi_kw {t : Str} (h : Kw [";"] t) : t = [';'] := by
  obtain ⟨k, hk, e⟩ := h
  rw [List.mem_singleton] at hk; subst hk
  rcases e with rfl | rfl <;> rfl

theorem EndsSemi.kw : EndsSemi (kw [";"]) := by
  rintro ts w r ⟨t, m, ⟨rfl, ht⟩, _, rfl⟩
  exact ⟨[], by rw [semi_kw ht]; rfl⟩

theorem EndsSemi.body : EndsSemi Body := by
  intro ts v r h
  induction h with
  | stop h => exact EndsSemi.kw _ _ _ h
  | @plain t ts r _ _ _ ih => obtain ⟨p, rfl⟩ := ih; exact ⟨t :: p, by simp⟩
  | @block b inner e ts r _ _ _ _ ih => obtain ⟨p, rfl⟩ := ih; exact ⟨b :: inner ++ e :: p, by simp⟩

theorem EndsSemi.other {ks : List String} : EndsSemi (other ks) := by
  unfold Spec.other
  exact .bind fun _ => .map .body

theorem EndsSemi.createTable {d : Rdbms} {item : Lang Item} {opts : Lang Unit} [Loc item]
    [Loc opts] : EndsSemi (createTable d item opts) := by
  unfold Spec.createTable
  exact .bind fun _ => .bind fun _ => .bind fun _ => .bind fun _ => .bind fun _ => .bind fun _ =>
    .bind fun _ => .map .kw

theorem EndsSemi.stmt (isNum : Str → Bool) (d : Rdbms) : EndsSemi (stmtOf isNum d) := by
  cases d
  · exact .bind fun _ => .bind fun _ => .alt .createTable .other
  · exact .bind fun _ => .alt .createTable .other
  · exact .bind fun _ => .alt .createTable .other
  · exact .bind fun _ => .bind fun _ => .alt .createTable .other

/-- A script is empty or ends with a semicolon. -/
theorem script_last {isNum : Str → Bool} {d : Rdbms} {ts : List Str} {ss : List Stmt}
    (h : script isNum d ts ss) : ts = [] ∨ ts.getLast? = some [';'] := by
  induction h with
  | nil => exact .inl rfl
  | cons h1 _ ih =>
    obtain ⟨p, rfl⟩ := EndsSemi.stmt isNum d _ _ _ h1
    right
    rcases ih with rfl | ih
    · simp
    · rw [List.getLast?_append, ih]; rfl

/-- The first token of a script is CREATE. -/
theorem script_first {isNum : Str → Bool} {d : Rdbms} {t : Str} {ts : List Str} {ss : List Stmt}
    (h : script isNum d (t :: ts) ss) : Kw ["CREATE"] t := by
  cases h with
  | @cons _ s mid ss h _ =>
    have : ∃ u m w r, kw ["CREATE"] (t :: ts) u m ∧ w = s ∧ r = mid := by
      cases d <;> obtain ⟨u, m, h1, _⟩ := h <;> exact ⟨u, m, _, _, h1, rfl, rfl⟩
    obtain ⟨_, _, _, _, ⟨_, _, ⟨e, h1⟩, _⟩, _⟩ := this
    cases e
    exact h1

/-! ### Skipped statements -/

theorem strip_id {ts : List Str} (h : ∀ t ∈ ts, t ≠ nl) : strip ts = ts :=
  List.filter_eq_self.2 fun t ht => decide_eq_true (h t ht)

theorem not_nl_of_strip {ts : List Str} : ∀ t ∈ strip ts, t ≠ nl := fun _ ht =>
  of_decide_eq_true (List.mem_filter.1 ht).2

/-- A statement that is skipped leaves no trace. -/
theorem validates_other {isNum : Str → Bool} (hN : NumOK isNum) {d : Rdbms} {O : List Str}
    (hg : ∀ t ∈ O, Good t) (hn : ∀ t ∈ O, t ≠ nl) (h : stmtOf isNum d O .other []) :
    Validates isNum d O [] := by
  have hs : script isNum d (strip O) [.other] := by
    rw [strip_id hn]; exact .cons h .nil
  obtain ⟨o, hv⟩ := (validates_iff hN hg).2 ⟨_, hs⟩
  have := validates_scriptE hN hg hv hs
  obtain ⟨os, h1, h2⟩ := this
  cases h1 with
  | cons h3 h4 =>
    cases h4
    have h3 : _ = [] := h3
    rw [h2, h3] at hv
    exact hv

theorem sameOutcome_of_validates [CaseMap] {isNum : Str → Bool} {d : Rdbms} {a b : List Char} {A B : List Str}
    (ha : Lexes d a A) (hb : Lexes d b B)
    (hv : ∀ o, Validates isNum d A o ↔ Validates isNum d B o)
    (hr : ∀ x, (∃ l, Rejects isNum d A ⟨l, x⟩) ↔ ∃ l, Rejects isNum d B ⟨l, x⟩) :
    SameOutcome isNum d a b := by
  have half : ∀ {a b : List Char} {A B : List Str}, Lexes d a A → Lexes d b B →
      (∀ o, Validates isNum d A o ↔ Validates isNum d B o) →
      (∀ x, (∃ l, Rejects isNum d A ⟨l, x⟩) ↔ ∃ l, Rejects isNum d B ⟨l, x⟩) →
      (∀ r, Returns isNum a d (r, none) → Returns isNum b d (r, none)) ∧
      (∀ r x, (∃ l, Returns isNum a d (r, some ⟨l, x⟩)) →
        ∃ l, Returns isNum b d (r, some ⟨l, x⟩)) := by
    intro a b A B ha hb hv hr
    constructor
    · intro r h
      obtain ⟨t, o, h1, h2, h3⟩ := returns_ok_iff.1 h
      cases Lexes.unique ha h1
      exact returns_ok_iff.2 ⟨B, o, hb, (hv o).1 h2, h3⟩
    · rintro r x ⟨l, h⟩
      obtain ⟨h0, h1 | ⟨t, h1, h2⟩⟩ := returns_err_iff.1 h
      · exact (lex_not_both ha h1).elim
      · cases Lexes.unique ha h1
        obtain ⟨l', h3⟩ := (hr x).1 ⟨l, h2⟩
        exact ⟨l', returns_err_iff.2 ⟨h0, .inr ⟨B, hb, h3⟩⟩⟩
  have h1 := half ha hb hv hr
  have h2 := half hb ha (fun o => (hv o).symm) (fun x => (hr x).symm)
  have hh : ∀ {a b : List Char}, (∀ r, Returns isNum a d (r, none) → Returns isNum b d (r, none)) →
      (∀ r x, (∃ l, Returns isNum a d (r, some ⟨l, x⟩)) → ∃ l, Returns isNum b d (r, some ⟨l, x⟩)) →
      Hangs isNum b d → Hangs isNum a d := by
    intro a b h1 h2 hb
    rcases returns_or_hangs isNum a d with ⟨⟨r, e⟩, h⟩ | h
    · cases e with
      | none => exact (not_returns_and_hangs (h1 r h) hb).elim
      | some e =>
        obtain ⟨l, h⟩ := h2 r e.near ⟨e.line, h⟩
        exact (not_returns_and_hangs h hb).elim
    · exact h
  exact ⟨fun r => ⟨h1.1 r, h2.1 r⟩, fun r x => ⟨h1.2 r x, h2.2 r x⟩,
    ⟨hh h2.1 h2.2, hh h1.1 h1.2⟩⟩

/-- After an accepted text, validation of the whole is validation of the rest. -/
theorem concat_iff {isNum : Str → Bool} {d : Rdbms} {A B T oa : List Str}
    (h : Validates isNum d A oa) (hT : strip T = strip A ++ strip B) :
    (∀ o, Validates isNum d T o ↔ ∃ ob, o = oa ++ ob ∧ Validates isNum d B ob) ∧
    (∀ x, (∃ l, Rejects isNum d T ⟨l, x⟩) ↔ ∃ l, Rejects isNum d B ⟨l, x⟩) := by
  obtain ⟨v1, v2, v3, v4⟩ := validates_concat h hT
  refine ⟨fun o => ⟨v3 o, ?_⟩, fun x => ⟨?_, ?_⟩⟩
  · rintro ⟨ob, rfl, h⟩; exact v1 ob h
  · rintro ⟨l, h⟩; exact v4 l x h
  · rintro ⟨l, h⟩; exact v2 l x h

/-- Removing a skipped statement changes nothing. -/
theorem sameOutcome_skip [CaseMap] {isNum : Str → Bool} (hN : NumOK isNum) {d : Rdbms} {a b : List Char}
    {TA TB A O B : List Str} {ss : List Stmt} (ha : Lexes d a TA) (hb : Lexes d b TB)
    (hA : strip TA = A ++ O ++ B) (hB : strip TB = A ++ B) (hs : script isNum d A ss)
    (ho : stmtOf isNum d O .other []) : SameOutcome isNum d a b := by
  have hg : ∀ t ∈ A ++ O ++ B, Good t ∧ t ≠ nl := by
    rw [← hA]; exact fun t ht => ⟨strip_good (Lexes.good ha) t ht, not_nl_of_strip t ht⟩
  have gA : ∀ t ∈ A, Good t ∧ t ≠ nl := fun t ht => hg t (by simp [ht])
  have gO : ∀ t ∈ O, Good t ∧ t ≠ nl := fun t ht => hg t (by simp [ht])
  have gB : ∀ t ∈ B, Good t ∧ t ≠ nl := fun t ht => hg t (by simp [ht])
  have sA := strip_id fun t ht => (gA t ht).2
  have sO := strip_id fun t ht => (gO t ht).2
  have sB := strip_id fun t ht => (gB t ht).2
  obtain ⟨oa, hva⟩ := (validates_iff hN (fun t ht => (gA t ht).1)).2 ⟨ss, by rw [sA]; exact hs⟩
  have hvo := validates_other hN (fun t ht => (gO t ht).1) (fun t ht => (gO t ht).2) ho
  obtain ⟨p1, p2⟩ := concat_iff (T := TA) (B := O ++ B) hva
    (by rw [hA, strip_append, sA, sO, sB, List.append_assoc])
  obtain ⟨q1, q2⟩ := concat_iff (T := O ++ B) (B := B) hvo (by rw [strip_append])
  obtain ⟨r1, r2⟩ := concat_iff (T := TB) (B := B) hva (by rw [hB, sA, sB])
  refine sameOutcome_of_validates ha hb (fun o => ?_) (fun x => ?_)
  · rw [p1, r1]
    constructor
    · rintro ⟨ob, rfl, h⟩
      obtain ⟨ob', e, h⟩ := (q1 ob).1 h
      exact ⟨ob', by rw [e]; rfl, h⟩
    · rintro ⟨ob, rfl, h⟩
      exact ⟨ob, rfl, (q1 ob).2 ⟨ob, rfl, h⟩⟩
  · rw [p2, r2, q2]

/-- Kinds of statements that are skipped. -/
def skippedKinds : Rdbms → List String
  | .postgres => Spec.Postgres.otherKinds
  | .mysql => Spec.Mysql.otherKinds
  | _ => Spec.Sqlite.otherKinds

theorem other_intro {isNum : Str → Bool} {d : Rdbms} {c k : Str} {body r : List Str}
    (hc : Kw ["CREATE"] c) (hk : Kw (skippedKinds d) k) (hb : Body body () r) :
    stmtOf isNum d (c :: k :: body) .other r := by
  have ho : ∀ {ks}, Kw ks k → other ks (k :: body) .other r := fun h =>
    ⟨(), body, kw_intro h, (), r, hb, rfl, rfl⟩
  have hq : ¬ Kw ["TEMP", "TEMPORARY"] k ∨ (d = .postgres ∨ d = .mysql) := by
    cases d with
    | postgres => exact .inr (.inl rfl)
    | mysql => exact .inr (.inr rfl)
    | _ =>
      left
      have := forall_kw (P := fun t => isKw ["TEMP", "TEMPORARY"] t = false)
        (ks := Spec.Sqlite.otherKinds) (by decide) (isKw_kw.2 hk)
      intro h
      rw [isKw_kw.2 h] at this; cases this
  cases d with
  | postgres => exact ⟨(), _, kw_intro hc, .inr (ho hk)⟩
  | mysql => exact ⟨(), _, kw_intro hc, .inr (ho hk)⟩
  | _ =>
    rcases hq with hq | hq | hq
    · exact ⟨(), _, kw_intro hc, false, _, optWord_none (notAt_cons hq), .inr (ho hk)⟩
    · cases hq
    · cases hq

end DDL

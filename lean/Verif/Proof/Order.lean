import Verif.Proof.Follow
/-
C55: the constraints of a column in another order.
-/

namespace DDL
open Spec Conv

set_option synthInstance.maxSize 4000
set_option synthInstance.maxHeartbeats 400000

/-! ### Constraints followed by other constraints -/

/-- Words that follow the constraints of a column. -/
abbrev lastWords : List String := [",", ")"]

/-- `t` can follow the constraint `p` without becoming a part of it. -/
def After (d : Rdbms) (p : Phrase) (t : Str) : Prop :=
  match d with
  | .postgres => True
  | .mysql =>
    (∀ e, p.con = .check e → p.text.length = e.length + 1 → ¬ Kw ["NOT"] t) ∧
    (p.con = .unique → p.text.length = 1 → ¬ Kw ["KEY"] t)
  | _ => ∀ r, p.con = .references r → ¬ Kw ["NOT"] t

theorem kwOf {ks ks' : List String} {m ts : List Str} {u : Unit} (h : kw ks ts u m)
    (hk : ∀ k ∈ ks, k ∈ ks') : at_ ks' ts () ts := by
  obtain ⟨t, _, ⟨rfl, h⟩, _, rfl⟩ := h
  exact ⟨rfl, _, _, rfl, Kw.mono hk h⟩

theorem sqlite_after {isNum : Str → Bool} {p : Phrase} {r r' x : List Str} {t : Str}
    (h : Spec.Sqlite.colCon isNum (p.text ++ r) p.con r) (e : r' = t :: x)
    (hW : Kw (Spec.Sqlite.colConFirst ++ lastWords) t) (ha : After .sqlite p t) :
    Spec.Sqlite.colCon isNum (p.text ++ r') p.con r' := by
  rcases h with h | h | h | h | h | h | h | h | h
  · exact .inl (fol_at h (same_of e hW (by decide)))
  · exact .inr (.inl (fol_at h (same_of e hW (by decide))))
  · exact .inr (.inr (.inl (fol_at h (same_of e hW (by decide)))))
  · exact .inr (.inr (.inr (.inl (fol_at h (same_of e hW (by decide))))))
  · exact .inr (.inr (.inr (.inr (.inl (fol_at h (same_of e hW (by decide)))))))
  · exact .inr (.inr (.inr (.inr (.inr (.inl (fol_at h (same_of e hW (by decide))))))))
  · obtain ⟨rf, m, h1, u, m', h2, e1, e2⟩ := h
    refine .inr (.inr (.inr (.inr (.inr (.inr (.inl ?_))))))
    refine fol_at (r := r) ⟨rf, m, h1, u, m', h2, e1, e2⟩ (same_but e hW (ha rf e1) (by decide))
  · exact .inr (.inr (.inr (.inr (.inr (.inr (.inr (.inl (fol_at h (same_of e hW (by decide))))))))))
  · exact .inr (.inr (.inr (.inr (.inr (.inr (.inr (.inr ((fol_at h (same_of e hW (by decide)))))))))))

theorem sqlite_first {isNum : Str → Bool} {ts r : List Str} {c : ColCon} (h : Spec.Sqlite.colCon isNum ts c r) :
    at_ Spec.Sqlite.colConFirst ts () ts := by
  rcases h with h | h | h | h | h | h | h | h | h
  · obtain ⟨_, _, h, _⟩ := h; exact kwOf h (by decide)
  · obtain ⟨_, _, h, _⟩ := h; exact kwOf h (by decide)
  · obtain ⟨_, _, h, _⟩ := h; exact kwOf h (by decide)
  · obtain ⟨_, _, h, _⟩ := h; exact kwOf h (by decide)
  · obtain ⟨_, _, h, _⟩ := h; exact kwOf h (by decide)
  · obtain ⟨_, _, h, _⟩ := h; exact kwOf h (by decide)
  · obtain ⟨_, _, ⟨_, _, h, _⟩, _⟩ := h; exact kwOf h (by decide)
  · obtain ⟨_, _, h, _⟩ := h; exact kwOf h (by decide)
  · obtain ⟨_, _, h, _⟩ := h; exact kwOf h (by decide)

theorem postgres_after {isNum : Str → Bool} {p : Phrase} {r r' x : List Str} {t : Str}
    (h : Spec.Postgres.colCon isNum (p.text ++ r) p.con r) (e : r' = t :: x)
    (hW : Kw (Spec.Postgres.colConFirst ++ lastWords) t) :
    Spec.Postgres.colCon isNum (p.text ++ r') p.con r' := by
  rcases h with h | h | h | h | h | h | h | h
  · exact .inl (fol_at h (same_of e hW (by decide)))
  · exact .inr (.inl (fol_at h (same_of e hW (by decide))))
  · exact .inr (.inr (.inl (fol_at h (same_of e hW (by decide)))))
  · exact .inr (.inr (.inr (.inl (fol_at h (same_of e hW (by decide))))))
  · exact .inr (.inr (.inr (.inr (.inl (fol_at h (same_of e hW (by decide)))))))
  · exact .inr (.inr (.inr (.inr (.inr (.inl (fol_at h (same_of e hW (by decide))))))))
  · exact .inr (.inr (.inr (.inr (.inr (.inr (.inl (fol_at h (same_of e hW (by decide)))))))))
  · exact .inr (.inr (.inr (.inr (.inr (.inr (.inr ((fol_at h (same_of e hW (by decide))))))))))

theorem postgres_first {isNum : Str → Bool} {ts r : List Str} {c : ColCon} (h : Spec.Postgres.colCon isNum ts c r) :
    at_ Spec.Postgres.colConFirst ts () ts := by
  rcases h with h | h | h | h | h | h | h | h
  · obtain ⟨_, _, h, _⟩ := h; exact kwOf h (by decide)
  · obtain ⟨_, _, h, _⟩ := h; exact kwOf h (by decide)
  · obtain ⟨_, _, h, _⟩ := h; exact kwOf h (by decide)
  · obtain ⟨_, _, h, _⟩ := h; exact kwOf h (by decide)
  · obtain ⟨_, _, ⟨_, _, h, _⟩, _⟩ := h; exact kwOf h (by decide)
  · obtain ⟨_, _, h, _⟩ := h; exact kwOf h (by decide)
  · obtain ⟨_, _, ⟨_, _, h, _⟩, _⟩ := h; exact kwOf h (by decide)
  · obtain ⟨_, _, h, _⟩ := h; exact kwOf h (by decide)

theorem mysql_after {isNum : Str → Bool} {p : Phrase} {r r' x : List Str} {t : Str}
    (h : Spec.Mysql.colCon isNum (p.text ++ r) p.con r) (e : r' = t :: x)
    (hW : Kw (Spec.Mysql.colConFirst ++ lastWords) t) (ha : After .mysql p t) :
    Spec.Mysql.colCon isNum (p.text ++ r') p.con r' := by
  rcases h with h | h | h | h | h | h | h | h | h | h | h | h | h | h | h | h | h | h | h | h | h
  · exact .inl (fol_at h (same_of e hW (by decide)))
  · exact .inr (.inl (fol_at h (same_of e hW (by decide))))
  · exact .inr (.inr (.inl (fol_at h (same_of e hW (by decide)))))
  · exact .inr (.inr (.inr (.inl (fol_at h (same_of e hW (by decide))))))
  · refine .inr (.inr (.inr (.inr (.inl ?_))))
    obtain ⟨_, m, h1, b, m', h2, e1, e2⟩ := h
    subst e2
    rcases h2 with ⟨_, m2, h2, rfl, rfl⟩ | ⟨_, m2, h2, rfl, rfl⟩
    · obtain ⟨_, _, rfl, g1⟩ := LocE.locE h2
      obtain ⟨_, _, e', g2⟩ := LocE.locE h1
      rw [← List.append_assoc] at e'
      rw [List.append_cancel_right e', List.append_assoc]
      exact ⟨_, _, g2 _, true, _, .inl ⟨_, _, g1 _, rfl, rfl⟩, e1, rfl⟩
    · obtain ⟨rfl, _⟩ := h2
      obtain ⟨t0, _, ⟨e', hk⟩, _, rfl⟩ := h1
      have e' : p.text = [t0] := List.append_cancel_right (bs := r) e'
      rw [e']
      refine ⟨_, _, kw_intro hk, false, _, .inr ⟨(), _, ⟨rfl, ?_⟩, rfl, rfl⟩, e1, rfl⟩
      rintro _ _ e2 h
      rw [e] at e2; cases e2
      exact ha.2 e1 (by rw [e']; rfl) h
  · refine .inr (.inr (.inr (.inr (.inr (.inl ?_)))))
    obtain ⟨ex, _, ⟨_, m1, h1, _, m2, h2, b, m3, h3, b', m4, h4, rfl, rfl⟩, e1, rfl⟩ := h
    rcases h3 with ⟨_, m5, h3, rfl, rfl⟩ | ⟨_, m5, h3, rfl, rfl⟩
    · obtain ⟨_, _, h, _, _, h', _, _, h'', _, _, h3, e3, e4⟩ :=
        fol_at (L := do kw ["CHECK"]; let e ← parens; kw ["NOT"]; let _ ← optWord ["ENFORCED"]; return ColCon.check e)
          ⟨_, _, h1, _, _, h2, _, _, h3, _, _, h4, e1, rfl⟩ (same_of e hW (by decide))
      exact ⟨_, _, ⟨_, _, h, _, _, h', _, _, .inl ⟨_, _, h'', rfl, rfl⟩, _, _, h3, rfl, rfl⟩, e3, e4⟩
    · obtain ⟨rfl, hn⟩ := h3
      rcases h4 with ⟨_, m5, h4, rfl, rfl⟩ | ⟨_, m5, h4, rfl, rfl⟩
      · obtain ⟨p4, hp4, rfl, g4⟩ := LocE.locE h4
        obtain ⟨p2, _, rfl, g2⟩ := LocE.locE h2
        obtain ⟨p1, _, e', g1⟩ := LocE.locE h1
        rw [← List.append_assoc, ← List.append_assoc] at e'
        rw [List.append_cancel_right e', List.append_assoc, List.append_assoc]
        refine ⟨_, _, ⟨_, _, g1 _, _, _, g2 _, false, _, .inr ⟨(), _, ⟨rfl, ?_⟩, rfl, rfl⟩, true, _,
          .inl ⟨_, _, g4 _, rfl, rfl⟩, rfl, rfl⟩, e1, rfl⟩
        intro u z ez hu
        cases p4 with
        | nil => exact hp4 rfl
        | cons => cases ez; exact hn _ _ rfl hu
      · obtain ⟨rfl, hn'⟩ := h4
        obtain ⟨i, hi, rfl, rfl⟩ := h2
        obtain ⟨t0, _, ⟨e', hk⟩, _, rfl⟩ := h1
        have e' : p.text = t0 :: (['('] :: i ++ [[')']]) := List.append_cancel_right (bs := r) e'
        rw [e']
        have nt : ∀ {ks : List String}, ¬ Kw ks t → notAt ks r' () r' := fun h =>
          ⟨rfl, fun _ _ e2 => by rw [e] at e2; cases e2; exact h⟩
        refine ⟨_, _, ⟨_, _, kw_intro hk, _, _, ⟨i, hi, rfl, rfl⟩, false, _, .inr ⟨(), _, nt ?_, rfl, rfl⟩, false, _,
          .inr ⟨(), _, nt (kw_disj hW (by decide)), rfl, rfl⟩, rfl, rfl⟩, e1, rfl⟩
        exact ha.1 _ e1 (by rw [e']; rfl)
  · exact .inr (.inr (.inr (.inr (.inr (.inr (.inl (fol_at h (same_of e hW (by decide)))))))))
  · exact .inr (.inr (.inr (.inr (.inr (.inr (.inr (.inl (fol_at h (same_of e hW (by decide))))))))))
  · exact .inr (.inr (.inr (.inr (.inr (.inr (.inr (.inr (.inl (fol_at h (same_of e hW (by decide)))))))))))
  · exact .inr (.inr (.inr (.inr (.inr (.inr (.inr (.inr (.inr (.inl (fol_at h (same_of e hW (by decide))))))))))))
  · exact .inr (.inr (.inr (.inr (.inr (.inr (.inr (.inr (.inr (.inr (.inl (fol_at h (same_of e hW (by decide)))))))))))))
  · exact .inr (.inr (.inr (.inr (.inr (.inr (.inr (.inr (.inr (.inr (.inr (.inl (fol_at h (same_of e hW (by decide))))))))))))))
  · exact .inr (.inr (.inr (.inr (.inr (.inr (.inr (.inr (.inr (.inr (.inr (.inr (.inl (fol_at h (same_of e hW (by decide)))))))))))))))
  · exact .inr (.inr (.inr (.inr (.inr (.inr (.inr (.inr (.inr (.inr (.inr (.inr (.inr (.inl (fol_at h (same_of e hW (by decide))))))))))))))))
  · exact .inr (.inr (.inr (.inr (.inr (.inr (.inr (.inr (.inr (.inr (.inr (.inr (.inr (.inr (.inl (fol_at h (same_of e hW (by decide)))))))))))))))))
  · exact .inr (.inr (.inr (.inr (.inr (.inr (.inr (.inr (.inr (.inr (.inr (.inr (.inr (.inr (.inr (.inl (fol_at h (same_of e hW (by decide))))))))))))))))))
  · exact .inr (.inr (.inr (.inr (.inr (.inr (.inr (.inr (.inr (.inr (.inr (.inr (.inr (.inr (.inr (.inr (.inl (fol_at h (same_of e hW (by decide)))))))))))))))))))
  · exact .inr (.inr (.inr (.inr (.inr (.inr (.inr (.inr (.inr (.inr (.inr (.inr (.inr (.inr (.inr (.inr (.inr (.inl (fol_at h (same_of e hW (by decide))))))))))))))))))))
  · exact .inr (.inr (.inr (.inr (.inr (.inr (.inr (.inr (.inr (.inr (.inr (.inr (.inr (.inr (.inr (.inr (.inr (.inr (.inl (fol_at h (same_of e hW (by decide)))))))))))))))))))))
  · exact .inr (.inr (.inr (.inr (.inr (.inr (.inr (.inr (.inr (.inr (.inr (.inr (.inr (.inr (.inr (.inr (.inr (.inr (.inr (.inl (fol_at h (same_of e hW (by decide))))))))))))))))))))))
  · exact .inr (.inr (.inr (.inr (.inr (.inr (.inr (.inr (.inr (.inr (.inr (.inr (.inr (.inr (.inr (.inr (.inr (.inr (.inr (.inr ((fol_at h (same_of e hW (by decide)))))))))))))))))))))))

theorem mysql_first {isNum : Str → Bool} {ts r : List Str} {c : ColCon} (h : Spec.Mysql.colCon isNum ts c r) :
    at_ Spec.Mysql.colConFirst ts () ts := by
  rcases h with h | h | h | h | h | h | h | h | h | h | h | h | h | h | h | h | h | h | h | h | h
  · obtain ⟨_, _, h, _⟩ := h; exact kwOf h (by decide)
  · obtain ⟨_, _, h, _⟩ := h; exact kwOf h (by decide)
  · obtain ⟨_, _, h, _⟩ := h; exact kwOf h (by decide)
  · obtain ⟨_, _, h, _⟩ := h; exact kwOf h (by decide)
  · obtain ⟨_, _, h, _⟩ := h; exact kwOf h (by decide)
  · obtain ⟨_, _, ⟨_, _, h, _⟩, _⟩ := h; exact kwOf h (by decide)
  · obtain ⟨_, _, h, _⟩ := h; exact kwOf h (by decide)
  · obtain ⟨_, _, h, _⟩ := h; exact kwOf h (by decide)
  · obtain ⟨_, _, ⟨_, _, h, _⟩, _⟩ := h; exact kwOf h (by decide)
  · obtain ⟨_, _, h, _⟩ := h; exact kwOf h (by decide)
  · obtain ⟨_, _, h, _⟩ := h; exact kwOf h (by decide)
  · obtain ⟨_, _, h, _⟩ := h; exact kwOf h (by decide)
  · obtain ⟨_, _, h, _⟩ := h; exact kwOf h (by decide)
  · obtain ⟨_, _, h, _⟩ := h; exact kwOf h (by decide)
  · obtain ⟨_, _, h, _⟩ := h; exact kwOf h (by decide)
  · obtain ⟨_, _, h, _⟩ := h; exact kwOf h (by decide)
  · obtain ⟨_, _, h, _⟩ := h; exact kwOf h (by decide)
  · obtain ⟨_, _, h, _⟩ := h; exact kwOf h (by decide)
  · obtain ⟨_, _, h, _⟩ := h; exact kwOf h (by decide)
  · obtain ⟨_, _, h, _⟩ := h; exact kwOf h (by decide)
  · obtain ⟨_, _, h, _⟩ := h; exact kwOf h (by decide)

theorem colCon_after {isNum : Str → Bool} {d : Rdbms} {p : Phrase} {r r' x : List Str} {t : Str}
    (h : colConOf isNum d (p.text ++ r) p.con r) (e : r' = t :: x)
    (hW : Kw (colConFirstOf d ++ lastWords) t) (ha : After d p t) : colConOf isNum d (p.text ++ r') p.con r' := by
  cases d with
  | postgres => exact postgres_after h e hW
  | mysql => exact mysql_after h e hW ha
  | sqlite => exact sqlite_after h e hW ha
  | other => exact sqlite_after h e hW ha

theorem colCon_starts {isNum : Str → Bool} {d : Rdbms} {ts r : List Str} {c : ColCon} (h : colConOf isNum d ts c r) :
    at_ (colConFirstOf d) ts () ts := by
  cases d with
  | postgres => exact postgres_first h
  | mysql => exact mysql_first h
  | sqlite => exact sqlite_first h
  | other => exact sqlite_first h

theorem reads_first {isNum : Str → Bool} {d : Rdbms} {p : Phrase} (h : p.Reads isNum d) :
    ∃ t x, p.text = t :: x ∧ Kw (colConFirstOf d) t := by
  obtain ⟨r, h⟩ := h
  have hl := (cons_colCon isNum d _ _ _ h).2
  obtain ⟨_, t, x, e, ht⟩ := colCon_starts h
  match hp : p.text, e with
  | [], _ => rw [hp] at hl; simp at hl
  | a :: y, e => cases e; exact ⟨_, _, rfl, ht⟩

theorem after_last {d : Rdbms} {p : Phrase} {t : Str} (h : Kw lastWords t) : After d p t := by
  cases d with
  | postgres => trivial
  | mysql => exact ⟨fun _ _ _ => kw_disj h (by decide), fun _ _ => kw_disj h (by decide)⟩
  | sqlite => exact fun _ _ => kw_disj h (by decide)
  | other => exact fun _ _ => kw_disj h (by decide)

theorem after_next {d : Rdbms} {p q : Phrase} {t : Str} {x : List Str} (hq : q.text = t :: x) (h : ¬ Absorbs d p q) :
    After d p t := by
  cases d with
  | postgres => trivial
  | mysql => exact ⟨fun e h1 h2 h3 => h (.inl ⟨e, h1, h2, t, x, hq, h3⟩),
      fun h1 h2 h3 => h (.inr ⟨h1, h2, t, x, hq, h3⟩)⟩
  | sqlite => exact fun r h1 h3 => h ⟨r, h1, t, x, hq, h3⟩
  | other => exact fun r h1 h3 => h ⟨r, h1, t, x, hq, h3⟩

/-- Constraints that keep apart are read one after the other. -/
theorem phrases_read {isNum : Str → Bool} {d : Rdbms} {t : Str} {x : List Str} (ht : Kw lastWords t) :
    ∀ {ps : List Phrase}, (∀ p ∈ ps, p.Reads isNum d) → NoneAbsorbs d ps →
      Many (colConFirstOf d) (colConOf isNum d) (phrasesText ps ++ t :: x) (ps.map Phrase.con) (t :: x)
  | [], _, _ => .nil (notAt_cons (kw_disj ht (by cases d <;> decide)))
  | p :: ps, hr, ha => by
    have hp := hr p (List.mem_cons_self ..)
    obtain ⟨t1, x1, e1, h1⟩ := reads_first hp
    have hm := phrases_read (x := x) ht (ps := ps) (fun q hq => hr q (List.mem_cons_of_mem _ hq))
      (by cases ps with | nil => trivial | cons => exact ha.2)
    have h2 : colConOf isNum d (p.text ++ (phrasesText ps ++ t :: x)) p.con (phrasesText ps ++ t :: x) := by
      obtain ⟨r, hp⟩ := hp
      cases ps with
      | nil => exact colCon_after hp rfl (Kw.mono (by simp) ht) (after_last ht)
      | cons q qs =>
        obtain ⟨t2, x2, e2, h2⟩ := reads_first (hr q (by simp))
        have e3 : phrasesText (q :: qs) ++ t :: x = t2 :: (x2 ++ (phrasesText qs ++ t :: x)) := by
          simp [phrasesText, e2]
        exact colCon_after hp e3 (Kw.mono (by simp +contextual) h2) (after_next e2 ha.1)
    have e4 : phrasesText (p :: ps) ++ t :: x = p.text ++ (phrasesText ps ++ t :: x) := by simp [phrasesText]
    rw [e4]
    exact .cons ⟨rfl, t1, x1 ++ (phrasesText ps ++ t :: x), by rw [e1]; rfl, h1⟩ h2 hm

/-! ### Statements -/

theorem nameDialect_eq (d : Rdbms) : nameDialect d = vd d := by cases d <;> rfl

/-- The end of a CREATE TABLE statement. -/
def tableEnd (isNum : Str → Bool) (d : Rdbms) : Lang Unit := do
  kw [")"]
  (match d with
    | .postgres => Options Spec.Postgres.option
    | .mysql => Options (Spec.Mysql.option isNum)
    | _ => Spec.Sqlite.options)
  kw [";"]

theorem table_intro {isNum : Str → Bool} {d : Rdbms} {ts items m r : List Str} {v : Bool × QName} {is : List Item}
    {u : Unit} (h1 : tableHead d ts v items) (h2 : Sep (itemOf isNum d) items is m) (h3 : tableEnd isNum d m u r) :
    stmtOf isNum d ts (.table ⟨v.1, v.2, is⟩) r := by
  cases d with
  | postgres =>
    obtain ⟨_, _, a1, _, _, ⟨rfl, rfl⟩, _, _, a2, _, _, a3, _, _, a4, _, _, a5, rfl, rfl⟩ := h1
    obtain ⟨_, _, b1, _, _, b2, b3⟩ := h3
    exact ⟨_, _, a1, .inl ⟨_, _, a2, _, _, a3, _, _, a4, _, _, a5, _, _, h2, _, _, b1, _, _, b2, _, _, b3, rfl, rfl⟩⟩
  | mysql =>
    obtain ⟨_, _, a1, _, _, ⟨rfl, rfl⟩, _, _, a2, _, _, a3, _, _, a4, _, _, a5, rfl, rfl⟩ := h1
    obtain ⟨_, _, b1, _, _, b2, b3⟩ := h3
    exact ⟨_, _, a1, .inl ⟨_, _, a2, _, _, a3, _, _, a4, _, _, a5, _, _, h2, _, _, b1, _, _, b2, _, _, b3, rfl, rfl⟩⟩
  | sqlite =>
    obtain ⟨_, _, a1, _, _, a0, _, _, a2, _, _, a3, _, _, a4, _, _, a5, rfl, rfl⟩ := h1
    obtain ⟨_, _, b1, _, _, b2, b3⟩ := h3
    exact ⟨_, _, a1, _, _, a0, .inl ⟨_, _, a2, _, _, a3, _, _, a4, _, _, a5, _, _, h2, _, _, b1, _, _, b2, _, _, b3, rfl, rfl⟩⟩
  | other =>
    obtain ⟨_, _, a1, _, _, a0, _, _, a2, _, _, a3, _, _, a4, _, _, a5, rfl, rfl⟩ := h1
    obtain ⟨_, _, b1, _, _, b2, b3⟩ := h3
    exact ⟨_, _, a1, _, _, a0, .inl ⟨_, _, a2, _, _, a3, _, _, a4, _, _, a5, _, _, h2, _, _, b1, _, _, b2, _, _, b3, rfl, rfl⟩⟩

/-! ### One reading -/

theorem Det.bind {L : Lang α} {f : α → Lang β} (h : Det L) (hs : Suff L) (hf : ∀ a, Det (f a)) : Det (L >>= f) := by
  rintro ts hg v r v' r' ⟨a, m, h1, h2⟩ ⟨a', m', h1', h2'⟩
  obtain ⟨rfl, rfl⟩ := h ts hg _ _ _ _ h1 h1'
  exact hf a _ (good_suffix hg (hs _ _ _ h1)) _ _ _ _ h2 h2'

theorem Det.pure (v : β) : Det (pure v : Lang β) := by
  rintro ts _ _ _ _ _ ⟨rfl, rfl⟩ ⟨rfl, rfl⟩; exact ⟨rfl, rfl⟩

theorem Det.tok (P : Str → Prop) : Det (tok P) := by
  rintro ts _ v r v' r' ⟨rfl, _⟩ ⟨e, _⟩; cases e; exact ⟨rfl, rfl⟩

theorem Det.kw (ks : List String) : Det (kw ks) := (Det.tok _).bind (.tok _) fun _ => .pure _

theorem Det.notAt (ks : List String) : Det (notAt ks) := by
  rintro ts _ v r v' r' ⟨rfl, _⟩ ⟨rfl, _⟩; exact ⟨rfl, rfl⟩

theorem Det.optWord (ks : List String) : Det (optWord ks) := by
  rintro ts hg v r v' r' (h | h) (h' | h')
  · exact ((Det.kw ks).bind (.kw _) fun _ => .pure true) ts hg _ _ _ _ h h'
  · obtain ⟨_, _, ⟨t, m, ⟨rfl, h⟩, _⟩, _⟩ := h
    obtain ⟨_, _, h', _⟩ := h'
    exact absurd h (h'.2 _ _ rfl)
  · obtain ⟨_, _, ⟨t, m, ⟨rfl, h'⟩, _⟩, _⟩ := h'
    obtain ⟨_, _, h, _⟩ := h
    exact absurd h' (h.2 _ _ rfl)
  · exact ((Det.notAt ks).bind (.notAt _) fun _ => .pure false) ts hg _ _ _ _ h h'

theorem det_tableHead (d : Rdbms) : Det (tableHead d) := by
  have hi : Det ifNotExists := det_of_impls ifNotExists_impl
  have hq : ∀ d, Det (qname d) := fun d => det_of_impls fun n => qname_impl n d
  have : ∀ d', Det (do kw ["TABLE"]; let ine ← ifNotExists; let n ← qname d'; kw ["("]; return (ine, n) : Lang (Bool × QName)) :=
    fun d' => (Det.kw _).bind (.kw _) fun _ => hi.bind .ifNotExists fun _ => (hq _).bind (.qname _) fun _ =>
      (Det.kw _).bind (.kw _) fun _ => .pure _
  cases d with
  | postgres => exact (Det.kw _).bind (.kw _) fun _ => (Det.pure _).bind (.pure _) fun _ => this _
  | mysql => exact (Det.kw _).bind (.kw _) fun _ => (Det.pure _).bind (.pure _) fun _ => this _
  | sqlite => exact (Det.kw _).bind (.kw _) fun _ => (Det.optWord _).bind (.optWord _) fun _ => this _
  | other => exact (Det.kw _).bind (.kw _) fun _ => (Det.optWord _).bind (.optWord _) fun _ => this _

/-- A statement that starts with the head of a CREATE TABLE statement. -/
theorem table_inv {isNum : Str → Bool} {d : Rdbms} {ts items r : List Str} {v : Bool × QName} {s : Stmt}
    (hg : ∀ t ∈ ts, Good t) (h1 : tableHead d ts v items) (h : stmtOf isNum d ts s r) :
    ∃ is m u, s = .table ⟨v.1, v.2, is⟩ ∧ Sep (itemOf isNum d) items is m ∧ tableEnd isNum d m u r := by
  have no : ∀ (ks : List String) (ts m r : List Str) (u : Unit) (s : Stmt), (∀ t ∈ kwList ["TABLE"], ¬ Kw ks t) →
      kw ["TABLE"] ts u m → ¬ other ks ts s r := by
    rintro ks ts m r u s hk ⟨t, _, ⟨rfl, h1⟩, _⟩ ⟨_, _, h, _⟩
    exact kw_disj h1 hk (kw_inv h).1
  cases d with
  | postgres =>
    have h1' := h1
    obtain ⟨_, _, a1, _, _, ⟨rfl, rfl⟩, _, _, a2, _⟩ := h1'
    obtain ⟨_, _, b1, h | h⟩ := h
    · obtain ⟨_, _, c2, _, _, c3, _, _, c4, _, _, c5, is, m, h2, _, _, d1, _, _, d2, _, _, d3, rfl, rfl⟩ := h
      obtain ⟨rfl, rfl⟩ := det_tableHead _ ts hg _ _ _ _ h1
        ⟨_, _, b1, _, _, ⟨rfl, rfl⟩, _, _, c2, _, _, c3, _, _, c4, _, _, c5, rfl, rfl⟩
      exact ⟨is, m, (), rfl, h2, _, _, d1, _, _, d2, d3⟩
    · obtain ⟨_, rfl⟩ := Det.kw _ ts hg _ _ _ _ a1 b1
      exact absurd h (no _ _ _ _ _ _ (by decide) a2)
  | mysql =>
    have h1' := h1
    obtain ⟨_, _, a1, _, _, ⟨rfl, rfl⟩, _, _, a2, _⟩ := h1'
    obtain ⟨_, _, b1, h | h⟩ := h
    · obtain ⟨_, _, c2, _, _, c3, _, _, c4, _, _, c5, is, m, h2, _, _, d1, _, _, d2, _, _, d3, rfl, rfl⟩ := h
      obtain ⟨rfl, rfl⟩ := det_tableHead _ ts hg _ _ _ _ h1
        ⟨_, _, b1, _, _, ⟨rfl, rfl⟩, _, _, c2, _, _, c3, _, _, c4, _, _, c5, rfl, rfl⟩
      exact ⟨is, m, (), rfl, h2, _, _, d1, _, _, d2, d3⟩
    · obtain ⟨_, rfl⟩ := Det.kw _ ts hg _ _ _ _ a1 b1
      exact absurd h (no _ _ _ _ _ _ (by decide) a2)
  | sqlite =>
    have h1' := h1
    obtain ⟨_, _, a1, _, _, a0, _, _, a2, _⟩ := h1'
    obtain ⟨_, _, b1, _, _, b0, h | h⟩ := h
    · obtain ⟨_, _, c2, _, _, c3, _, _, c4, _, _, c5, is, m, h2, _, _, d1, _, _, d2, _, _, d3, rfl, rfl⟩ := h
      obtain ⟨rfl, rfl⟩ := det_tableHead .sqlite ts hg _ _ _ _ h1
        ⟨_, _, b1, _, _, b0, _, _, c2, _, _, c3, _, _, c4, _, _, c5, rfl, rfl⟩
      exact ⟨is, m, (), rfl, h2, _, _, d1, _, _, d2, d3⟩
    · obtain ⟨_, rfl⟩ := Det.kw _ ts hg _ _ _ _ a1 b1
      obtain ⟨_, rfl⟩ := Det.optWord _ _ (good_suffix hg ((Suff.kw _) _ _ _ a1)) _ _ _ _ a0 b0
      exact absurd h (no _ _ _ _ _ _ (by decide) a2)
  | other =>
    have h1' := h1
    obtain ⟨_, _, a1, _, _, a0, _, _, a2, _⟩ := h1'
    obtain ⟨_, _, b1, _, _, b0, h | h⟩ := h
    · obtain ⟨_, _, c2, _, _, c3, _, _, c4, _, _, c5, is, m, h2, _, _, d1, _, _, d2, _, _, d3, rfl, rfl⟩ := h
      obtain ⟨rfl, rfl⟩ := det_tableHead .other ts hg _ _ _ _ h1
        ⟨_, _, b1, _, _, b0, _, _, c2, _, _, c3, _, _, c4, _, _, c5, rfl, rfl⟩
      exact ⟨is, m, (), rfl, h2, _, _, d1, _, _, d2, d3⟩
    · obtain ⟨_, rfl⟩ := Det.kw _ ts hg _ _ _ _ a1 b1
      obtain ⟨_, rfl⟩ := Det.optWord _ _ (good_suffix hg ((Suff.kw _) _ _ _ a1)) _ _ _ _ a0 b0
      exact absurd h (no _ _ _ _ _ _ (by decide) a2)

instance (d : Rdbms) : LocE (tableHead d) := by
  cases d <;> (unfold tableHead; infer_instance)

/-- A column, from its parts. -/
theorem column_intro {isNum : Str → Bool} {d : Rdbms} {c : Str} {τ : TypeAst} {cn : ConName} {cs : List ColCon}
    {ty mid body r : List Str} (hc : Name (vd d) c) (h1 : typeLang d ty τ mid) (h2 : conNameLang d mid cn body)
    (h3 : colCons (colConFirstOf d) (colConOf isNum d) body cs r) :
    itemOf isNum d (c :: ty) (.column ⟨c, τ, cn, cs⟩) r := by
  cases d with
  | postgres => exact .inr ⟨_, _, ⟨rfl, hc⟩, _, _, h1, _, _, h2, _, _, h3, rfl, rfl⟩
  | mysql => exact .inr ⟨_, _, ⟨rfl, hc⟩, _, _, h1, _, _, h2, _, _, h3, rfl, rfl⟩
  | sqlite =>
    obtain ⟨_, _, h1, rfl, rfl⟩ := h1
    exact .inr ⟨_, _, ⟨rfl, hc⟩, _, _, h1, _, _, h2, _, _, h3, rfl, rfl⟩
  | other =>
    obtain ⟨_, _, h1, rfl, rfl⟩ := h1
    exact .inr ⟨_, _, ⟨rfl, hc⟩, _, _, h1, _, _, h2, _, _, h3, rfl, rfl⟩

/-- Entries depend only on the next token of what follows. -/
theorem entries_loc {L : Lang β} [hL : Loc L] {ts mid : List Str} (h : Entries L ts mid) :
    ∃ p, ts = p ++ mid ∧ ∀ mid', mid'.head? = mid.head? → Entries L (p ++ mid') mid' := by
  induction h with
  | nil => exact ⟨[], rfl, fun _ _ => .nil⟩
  | cons h1 hc _ ih =>
    obtain ⟨p', rfl, h4⟩ := ih
    obtain ⟨q, hq, rfl, h3⟩ := LocE.locE hc
    obtain ⟨p, rfl, h2⟩ := hL.loc h1
    refine ⟨p ++ (q ++ p'), by simp, fun r' hr => ?_⟩
    rw [List.append_assoc, List.append_assoc]
    exact .cons (h2 _ (head_append (head_append hr))) (h3 _) (h4 r' hr)

/-- The entries of a list after the first ones, and other entries in their place. -/
theorem sep_replace {L : Lang β} [hL : Loc L] (hd : Det L) (hs : Suff L) {ts mid r : List Str} {is : List β}
    (hg : ∀ t ∈ ts, Good t) (he : Entries L ts mid) (h : Sep L ts is r) :
    ∃ p pre is', ts = p ++ mid ∧ is = pre ++ is' ∧ Sep L mid is' r ∧
      ∀ mid' js r', mid'.head? = mid.head? → Sep L mid' js r' → Sep L (p ++ mid') (pre ++ js) r' := by
  induction he generalizing is with
  | nil => exact ⟨[], [], _, rfl, rfl, h, fun _ _ _ _ h => h⟩
  | @cons ts v mid mid' rest h1 hc _ ih =>
    have hg' := good_suffix hg (hs _ _ _ h1)
    cases h with
    | one h2 hn =>
      obtain ⟨rfl, rfl⟩ := hd _ hg _ _ _ _ h1 h2
      cases mid with
      | nil => obtain ⟨_, _, ⟨e, _⟩, _⟩ := hc; cases e
      | cons t x => exact absurd (kw_inv hc).1 (hn.2 t x rfl)
    | cons h2 hc' hs' =>
      obtain ⟨rfl, rfl⟩ := hd _ hg _ _ _ _ h1 h2
      cases mid with
      | nil => obtain ⟨_, _, ⟨e, _⟩, _⟩ := hc; cases e
      | cons t x =>
        obtain ⟨_, rfl⟩ := kw_inv hc
        obtain ⟨ht, rfl⟩ := kw_inv hc'
        obtain ⟨p, pre, is', rfl, rfl, h3, h4⟩ := ih (good_suffix hg' (List.suffix_cons _ _)) hs'
        obtain ⟨q, rfl, h5⟩ := hL.loc h1
        refine ⟨q ++ t :: p, v :: pre, is', by simp, rfl, h3, fun mid' js r' hh hs => ?_⟩
        have := h5 (t :: (p ++ mid')) rfl
        simp only [List.append_assoc, List.cons_append]
        exact .cons this (kw_intro ht) (h4 _ _ _ hh hs)

/-! ### Other constraints in a column -/

theorem type_after (d : Rdbms) : Fol (typeLang d) ["VARYING", "(", "WITH", "WITHOUT"] := by
  cases d with
  | postgres => exact Fol.mono (L := Spec.Postgres.type) inferInstance (by decide)
  | mysql => exact Fol.mono (L := Spec.Mysql.type) inferInstance (by decide)
  | sqlite => exact Fol.mono (L := do
      let t ← tok (Kw ["TEXT", "NUMERIC", "INTEGER", "REAL", "NONE"])
      return (⟨t, false, none⟩ : TypeAst)) inferInstance (by decide)
  | other => exact Fol.mono (L := do
      let t ← tok (Kw ["TEXT", "NUMERIC", "INTEGER", "REAL", "NONE"])
      return (⟨t, false, none⟩ : TypeAst)) inferInstance (by decide)

theorem conName_after {d : Rdbms} {mid body : List Str} {cn : ConName} (h : conNameLang d mid cn body) :
    ∃ p, mid = p ++ body ∧ ∀ body', Same ["CONSTRAINT"] body body' →
      (cn = .anonymous → at_ ["CHECK"] body' () body') → conNameLang d (p ++ body') cn body' := by
  have key : ∀ {d mid body}, conName d mid cn body → ∃ p, mid = p ++ body ∧ ∀ body', Same ["CONSTRAINT"] body body' →
      (cn = .anonymous → at_ ["CHECK"] body' () body') → conName d (p ++ body') cn body' := by
    intro d mid body h
    obtain ⟨p, e, h2⟩ := Fol.fol h
    exact ⟨p, e, fun b hs _ => h2 b hs⟩
  cases d with
  | postgres => exact key h
  | sqlite => exact key h
  | other => exact key h
  | mysql =>
    obtain ⟨o, m, h1, h2⟩ := h
    match o, h1, h2 with
    | none, h1, h2 =>
      obtain ⟨rfl, rfl⟩ := h2
      rcases h1 with ⟨_, _, _, _, _, _, e, _⟩ | ⟨_, _, h1, _, rfl⟩
      · cases e
      · obtain ⟨rfl, hn⟩ := h1
        refine ⟨[], rfl, fun b hs _ => ⟨none, b, .inr ⟨(), b, ⟨rfl, ?_⟩, rfl, rfl⟩, rfl, rfl⟩⟩
        rintro t x rfl
        rcases hs with hs | hs
        · cases body with
          | nil => simp at hs
          | cons t' r => simp at hs; subst hs; exact hn t r rfl
        · exact hs.2 _ _ rfl
    | some none, h1, h2 =>
      obtain ⟨rfl, rfl⟩ := h2
      rcases h1 with ⟨_, _, h1, _, _, h2, e, rfl⟩ | ⟨_, _, h1, e, _⟩
      · cases e
        rcases h2 with ⟨_, _, ⟨rfl, _⟩, _, rfl⟩ | ⟨_, _, _, _, _, _, e, _⟩
        · obtain ⟨t, _, ⟨rfl, hk⟩, _, rfl⟩ := h1
          exact ⟨[t], rfl, fun b _ ha => ⟨some none, b, .inl ⟨(), b, kw_intro hk, none, b, .inl ⟨(), b, ha rfl, rfl, rfl⟩, rfl, rfl⟩,
            rfl, rfl⟩⟩
        · cases e
      · cases e
    | some (some n), h1, h2 =>
      obtain ⟨rfl, rfl⟩ := h2
      rcases h1 with ⟨_, _, h1, _, _, h2, e, rfl⟩ | ⟨_, _, h1, e, _⟩
      · cases e
        rcases h2 with ⟨_, _, _, e, _⟩ | ⟨_, _, ⟨rfl, hn⟩, _, _, ⟨rfl, hname⟩, e, rfl⟩
        · cases e
        · cases e
          obtain ⟨t, _, ⟨rfl, hk⟩, _, rfl⟩ := h1
          exact ⟨[t, n], rfl, fun b _ _ => ⟨some (some n), b, .inl ⟨(), n :: b, kw_intro hk, some n, b,
            .inr ⟨(), _, ⟨rfl, fun t x e hk => by cases e; exact hn _ _ rfl hk⟩, n, b, ⟨rfl, hname⟩, rfl, rfl⟩, rfl, rfl⟩,
            rfl, rfl⟩⟩
      · cases e

/-- `CONSTRAINT` without a name stands in front of CHECK. -/
theorem anonymous_at {d : Rdbms} {mid body : List Str} (h : conNameLang d mid .anonymous body) :
    at_ ["CHECK"] body () body := by
  have no : ∀ {d}, ¬ conName d mid .anonymous body := by
    rintro d ⟨o, _, _, h⟩
    cases o <;> cases h.1
  cases d with
  | postgres => exact absurd h no
  | sqlite => exact absurd h no
  | other => exact absurd h no
  | mysql =>
    obtain ⟨o, m, h1, h2⟩ := h
    match o, h1, h2 with
    | none, h1, h2 => cases h2.1
    | some (some n), h1, h2 => cases h2.1
    | some none, h1, h2 =>
      obtain ⟨_, rfl⟩ := h2
      rcases h1 with ⟨_, _, h1, _, _, h2, e, rfl⟩ | ⟨_, _, h1, e, _⟩
      · cases e
        rcases h2 with ⟨_, _, ⟨rfl, h2⟩, _, rfl⟩ | ⟨_, _, _, _, _, _, e, _⟩
        · exact ⟨rfl, h2⟩
        · cases e
      · cases e

/-- The first token of constraints and what follows them. -/
theorem phrases_head {isNum : Str → Bool} {d : Rdbms} {t : Str} {x : List Str} (ht : Kw lastWords t) {ps : List Phrase}
    (hp : ∀ p ∈ ps, p.Reads isNum d) :
    ∃ t' x', phrasesText ps ++ t :: x = t' :: x' ∧ Kw (colConFirstOf d ++ lastWords) t' := by
  cases ps with
  | nil => exact ⟨t, x, rfl, Kw.mono (by simp) ht⟩
  | cons p ps =>
    obtain ⟨t2, x2, e2, h2⟩ := reads_first (hp p (by simp))
    exact ⟨t2, x2 ++ (phrasesText ps ++ t :: x), by simp [phrasesText, e2], Kw.mono (by simp +contextual) h2⟩

instance (isNum : Str → Bool) (d : Rdbms) : Loc (itemOf isNum d) := by
  cases d <;> simp only [itemOf] <;> infer_instance

/-- The same column with its constraints in another order. -/
theorem reorder {isNum : Str → Bool} (hN : NumOK isNum) {d : Rdbms} {A : List Str} (hg : ∀ t ∈ A, Good t)
    {ps qs : List Phrase} {t : Str} {x : List Str} (ht : Kw lastWords t) {c : Str} {τ : TypeAst} {cn : ConName}
    (hc : ColumnIn isNum d A c τ cn (phrasesText ps ++ t :: x)) (hp : ∀ p ∈ ps, p.Reads isNum d) (hperm : ps.Perm qs)
    (h1 : NoneAbsorbs d ps) (h2 : NoneAbsorbs d qs)
    (hcn : cn = .anonymous → at_ ["CHECK"] (phrasesText qs ++ t :: x) () (phrasesText qs ++ t :: x)) :
    ∃ pre, A = pre ++ (phrasesText ps ++ t :: x) ∧
      ColumnIn isNum d (pre ++ (phrasesText qs ++ t :: x)) c τ cn (phrasesText qs ++ t :: x) ∧
      ∀ ss, script isNum d A ss → ∃ sb b n is js se,
        ss = sb ++ .table ⟨b, n, is ++ .column ⟨c, τ, cn, ps.map Phrase.con⟩ :: js⟩ :: se ∧
        ((ps.map Phrase.con).map ColCon.kind).Nodup ∧
        script isNum d (pre ++ (phrasesText qs ++ t :: x))
          (sb ++ .table ⟨b, n, is ++ .column ⟨c, τ, cn, qs.map Phrase.con⟩ :: js⟩ :: se) := by
  have hq : ∀ q ∈ qs, q.Reads isNum d := fun q hq => hp q (hperm.mem_iff.2 hq)
  obtain ⟨before, sb, start, v, items, ty, mid, rfl, hb, hh, he, hn, hty, hcn'⟩ := hc
  rw [nameDialect_eq] at hn
  have hm1 := phrases_read (x := x) ht hp h1
  have hm2 := phrases_read (x := x) ht hq h2
  obtain ⟨t2, x2, e2, hk2⟩ := phrases_head (x := x) ht hq
  generalize eP : phrasesText ps ++ t :: x = P at *
  generalize eQ : phrasesText qs ++ t :: x = Q at *
  obtain ⟨p3, rfl, h3⟩ := conName_after hcn'
  have hcnQ := h3 Q (same_of e2 hk2 (by cases d <;> decide)) hcn
  obtain ⟨p4, rfl, h4⟩ := (type_after d).fol hty
  have htyQ := h4 (p3 ++ Q) (Same.append _ (same_of e2 hk2 (by cases d <;> decide)))
  obtain ⟨p5, rfl, h5⟩ := entries_loc he
  have heQ := h5 (c :: (p4 ++ (p3 ++ Q))) rfl
  obtain ⟨p6, hp6, rfl, h6⟩ := LocE.locE hh
  have hhQ := h6 (p5 ++ c :: (p4 ++ (p3 ++ Q)))
  refine ⟨before ++ (p6 ++ (p5 ++ c :: (p4 ++ p3))), by simp, ?_, ?_⟩
  · refine ⟨before, sb, _, v, _, _, _, ?_, hb, hhQ, heQ, by rw [nameDialect_eq]; exact hn, htyQ, hcnQ⟩
    simp
  · intro ss hs
    obtain ⟨sc, rfl, hs2⟩ := script_split hN hb hg hs
    have hgs : ∀ y ∈ p6 ++ (p5 ++ c :: (p4 ++ (p3 ++ P))), Good y := fun y hy => hg y (List.mem_append_right _ hy)
    clear hs
    unfold script at hs2
    generalize eS : p6 ++ (p5 ++ c :: (p4 ++ (p3 ++ P))) = start at *
    cases hs2 with
    | nil => exact absurd (List.append_eq_nil_iff.1 eS).1 hp6
    | @cons _ s r se h hrest =>
      obtain ⟨is, m, u, rfl, hsep, hend⟩ := table_inv hgs hh h
      have hgi : ∀ y ∈ p5 ++ c :: (p4 ++ (p3 ++ P)), Good y := fun y hy => hgs y (by rw [← eS]; exact List.mem_append_right _ hy)
      obtain ⟨p, pre, is', e, rfl, hsep2, hrep⟩ := sep_replace (det_item hN d) (suff_item isNum d) hgi he hsep
      cases List.append_cancel_right e
      have hgc : ∀ y ∈ c :: (p4 ++ (p3 ++ P)), Good y := fun y hy => hgi y (List.mem_append_right _ hy)
      -- the column itself
      have col : ∀ {i r'}, itemOf isNum d (c :: (p4 ++ (p3 ++ P))) i r' →
          i = .column ⟨c, τ, cn, ps.map Phrase.con⟩ ∧ r' = t :: x ∧ ((ps.map Phrase.con).map ColCon.kind).Nodup := by
        intro i r' hi
        obtain ⟨τ', mid', cn', body', cs', rfl, a1, a2, a3, a4⟩ := item_inv hn hi
        have g1 : ∀ y ∈ p4 ++ (p3 ++ P), Good y := fun y hy => hgc y (List.mem_cons_of_mem _ hy)
        obtain ⟨rfl, rfl⟩ := det_type d _ g1 _ _ _ _ hty a1
        have g2 := good_suffix g1 (suff_type d _ _ _ hty)
        obtain ⟨rfl, rfl⟩ := det_conName d _ g2 _ _ _ _ hcn' a2
        have g3 := good_suffix g2 (suff_conName d _ _ _ hcn')
        obtain ⟨rfl, rfl⟩ := det_many (det_colCon hN d) (fun _ _ _ h => (cons_colCon isNum d _ _ _ h).1) _ g3 _ _ _ _ hm1 a3
        exact ⟨rfl, rfl, a4⟩
      have new : ((ps.map Phrase.con).map ColCon.kind).Nodup →
          itemOf isNum d (c :: (p4 ++ (p3 ++ Q))) (.column ⟨c, τ, cn, qs.map Phrase.con⟩) (t :: x) := fun hd =>
        column_intro hn htyQ hcnQ ⟨hm2, ((hperm.map _).map _).nodup_iff.1 hd⟩
      have fin : ∀ js, Sep (itemOf isNum d) (c :: (p4 ++ (p3 ++ Q))) js m →
          script isNum d (before ++ (p6 ++ (p5 ++ c :: (p4 ++ p3))) ++ Q)
            (sb ++ .table ⟨v.1, v.2, pre ++ js⟩ :: se) := by
        intro js hjs
        have e : before ++ (p6 ++ (p5 ++ c :: (p4 ++ p3))) ++ Q = before ++ (p6 ++ (p5 ++ c :: (p4 ++ (p3 ++ Q)))) := by simp
        rw [e]
        exact Script.append hb (.cons (table_intro hhQ (hrep _ _ _ rfl hjs) hend) hrest)
      cases hsep2 with
      | one hi hno =>
        obtain ⟨rfl, rfl, hd⟩ := col hi
        exact ⟨sb, v.1, v.2, pre, [], se, rfl, hd, fin _ (.one (new hd) hno)⟩
      | cons hi hcm hs' =>
        obtain ⟨rfl, rfl, hd⟩ := col hi
        exact ⟨sb, v.1, v.2, pre, _, se, rfl, hd, fin _ (.cons (new hd) hcm hs')⟩

/-! ### The tables -/

theorem find_perm {f : ColCon → Option β} {k : String} (hf : ∀ c v, f c = some v → c.kind = k) {cs cs' : List ColCon}
    (h : cs.Perm cs') (hd : (cs.map ColCon.kind).Nodup) : cs.findSome? f = cs'.findSome? f := by
  induction h with
  | nil => rfl
  | cons a _ ih =>
    simp only [List.findSome?_cons]
    rw [ih (List.nodup_cons.1 hd).2]
  | swap a b l =>
    simp only [List.findSome?_cons]
    cases ha : f a with
    | none => cases f b <;> rfl
    | some v =>
      cases hb : f b with
      | none => rfl
      | some w =>
        have := hf _ _ ha
        have := hf _ _ hb
        simp_all
  | trans h1 _ ih1 ih2 => rw [ih1 hd, ih2 ((h1.map _).nodup_iff.1 hd)]

theorem any_perm {f : ColCon → Bool} {cs cs' : List ColCon} (h : cs.Perm cs') : cs.any f = cs'.any f := by
  rw [Bool.eq_iff_iff, List.any_eq_true, List.any_eq_true]
  constructor
  · rintro ⟨c, hc, hf⟩; exact ⟨c, h.mem_iff.1 hc, hf⟩
  · rintro ⟨c, hc, hf⟩; exact ⟨c, h.mem_iff.2 hc, hf⟩

theorem constraintVal_perm {isNum : Str → Bool} {d : Rdbms} {n : ConName} {cs cs' : List ColCon} (h : cs.Perm cs')
    (hd : (cs.map ColCon.kind).Nodup) : constraintVal isNum d n cs = constraintVal isNum d n cs' := by
  unfold constraintVal
  rw [any_perm h, any_perm h, any_perm h, any_perm h,
    find_perm (k := "DEFAULT") (by intro c v h; cases c <;> first | rfl | cases h) h hd,
    find_perm (k := "CHECK") (by intro c v h; cases c <;> first | rfl | cases h) h hd,
    find_perm (k := "COLLATE") (by intro c v h; cases c <;> first | rfl | cases h) h hd,
    find_perm (k := "REFERENCES") (by intro c v h; cases c <;> first | rfl | cases h) h hd]

theorem tablesVal_perm {isNum : Str → Bool} {d : Rdbms} {sb se : List Stmt} {b : Bool} {n : QName} {is js : List Item}
    {c : Str} {τ : TypeAst} {cn : ConName} {cs cs' : List ColCon} (h : cs.Perm cs') (hd : (cs.map ColCon.kind).Nodup) :
    tablesVal isNum d (sb ++ .table ⟨b, n, is ++ .column ⟨c, τ, cn, cs⟩ :: js⟩ :: se) =
      tablesVal isNum d (sb ++ .table ⟨b, n, is ++ .column ⟨c, τ, cn, cs'⟩ :: js⟩ :: se) := by
  unfold tablesVal
  simp only [List.filterMap_append, List.filterMap_cons]
  have : tableVal isNum d ⟨b, n, is ++ .column ⟨c, τ, cn, cs⟩ :: js⟩ =
      tableVal isNum d ⟨b, n, is ++ .column ⟨c, τ, cn, cs'⟩ :: js⟩ := by
    unfold tableVal
    simp only [List.filterMap_append, List.filterMap_cons, Item.column?, Item.primaryKey?, Item.unique?,
      Item.check?, Item.foreignKey?, columnVal, constraintVal_perm h hd]
  rw [this]

theorem faithful_perm {sb se : List Stmt} {b : Bool} {n : QName} {is js : List Item}
    {c : Str} {τ : TypeAst} {cn : ConName} {cs cs' : List ColCon} (h : cs.Perm cs')
    (hf : Faithful (sb ++ .table ⟨b, n, is ++ .column ⟨c, τ, cn, cs⟩ :: js⟩ :: se)) :
    Faithful (sb ++ .table ⟨b, n, is ++ .column ⟨c, τ, cn, cs'⟩ :: js⟩ :: se) := by
  intro t ht
  rcases List.mem_append.1 ht with ht | ht
  · exact hf t (List.mem_append_left _ ht)
  rcases List.mem_cons.1 ht with e | ht
  · cases e
    obtain ⟨h1, h2⟩ := hf _ (List.mem_append_right _ (List.mem_cons_self ..))
    refine ⟨fun i hi => ?_, fun i is' e => ?_⟩
    · rcases List.mem_append.1 hi with hi | hi
      · exact h1 i (List.mem_append_left _ hi)
      rcases List.mem_cons.1 hi with rfl | hi
      · obtain ⟨h3, h4⟩ := h1 _ (List.mem_append_right _ (List.mem_cons_self ..))
        exact ⟨fun r hr => h3 r (h.mem_iff.2 hr), h4⟩
      · exact h1 i (List.mem_append_right _ (List.mem_cons_of_mem _ hi))
    · cases is with
      | nil => cases e
      | cons a is =>
        have ea : a = .exclude .absent := (List.cons.inj e).1
        subst ea
        cases is with
        | nil => exact h2 _ _ rfl
        | cons a' is => exact h2 _ _ rfl
  · exact hf t (List.mem_append_right _ (List.mem_cons_of_mem _ ht))

end DDL

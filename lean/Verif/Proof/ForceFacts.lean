import Verif.Proof.ErrFacts
/-
Facts about the loop of ParseForce and about unknown dialects.
-/

namespace DDL
open Spec

theorem forceLoop_mono [CaseMap] (isNum : Str → Bool) {n m : Nat} (h : n ≤ m) (ddl : List Char)
    (ds : List Rdbms) : parseForceLoop isNum n ddl ds = .timeout ∨
      parseForceLoop isNum n ddl ds = parseForceLoop isNum m ddl ds := by
  induction ds with
  | nil => exact .inr rfl
  | cons d ds ih =>
    simp only [parseForceLoop]
    rcases parseN_mono isNum d h ddl with e | e
    · rw [e]; exact .inl rfl
    · rw [← e]
      cases parseN isNum n ddl d with
      | ok r => obtain ⟨r, e⟩ := r; cases e with
        | none => exact .inr rfl
        | some e => exact ih
      | _ => exact .inr rfl

theorem forceLoop_skip [CaseMap] {isNum : Str → Bool} {ddl : List Char} {pre ds : List Rdbms}
    (hpre : ∀ d ∈ pre, ∃ r e, Returns isNum ddl d (r, some e)) :
    ∃ n, ∀ m, n ≤ m → parseForceLoop isNum m ddl (pre ++ ds) = parseForceLoop isNum m ddl ds := by
  induction pre with
  | nil => exact ⟨0, fun _ _ => rfl⟩
  | cons d pre ih =>
    obtain ⟨r, e, n1, h1⟩ := hpre d (by simp)
    obtain ⟨n2, h2⟩ := ih (fun d hd => hpre d (by simp [hd]))
    refine ⟨n1 + n2, fun m hm => ?_⟩
    have : parseN isNum m ddl d = .ok (r, some e) := by
      rcases parseN_mono isNum d (by omega : n1 ≤ m) ddl with e' | e'
      · rw [h1] at e'; cases e'
      · rw [← e', h1]
    simp only [List.cons_append, parseForceLoop, this]
    exact h2 m (by omega)

theorem ForceReturns.unique [CaseMap] {isNum ddl r r'} (h : ForceReturns isNum ddl r)
    (h' : ForceReturns isNum ddl r') : r = r' := by
  obtain ⟨n, h⟩ := h
  obtain ⟨m, h'⟩ := h'
  unfold parseForceN at h h'
  rcases Nat.le_total n m with hnm | hnm
  · rcases forceLoop_mono isNum hnm ddl [.sqlite, .postgres, .mysql] with e | e
    · rw [h] at e; cases e
    · rw [h, h'] at e; cases e; rfl
  · rcases forceLoop_mono isNum hnm ddl [.sqlite, .postgres, .mysql] with e | e
    · rw [h'] at e; cases e
    · rw [h, h'] at e; cases e; rfl

theorem step2_other (t : Str) (c : Char) : Lex.step2 .other t c = Lex.step2 .sqlite t c := rfl

theorem step_other (m : Lex.Mode) (c : Char) : Lex.step .other m c = Lex.step .sqlite m c := by
  cases m <;> rfl

theorem scan_other (m : Lex.Mode) (cs : List Char) (l : Nat) (r : List Str) :
    Lex.scan .other m cs l r = Lex.scan .sqlite m cs l r := by
  induction cs generalizing m l r with
  | nil => rfl
  | cons c cs ih =>
    simp only [Lex.scan, step_other]
    cases Lex.step .sqlite m c with
    | go m' o => exact ih _ _ _
    | bad t => rfl

theorem lexes_other {ddl toks} : Lexes .other ddl toks ↔ Lexes .sqlite ddl toks := by
  rw [lexes_iff, lexes_iff, scan_other]

theorem lexFails_other {ddl e} : LexFails .other ddl e ↔ LexFails .sqlite ddl e := by
  rw [lexFails_iff, lexFails_iff, scan_other]

theorem filterMap_congr {f g : α → Option β} {l : List α} (h : ∀ x ∈ l, f x = g x) :
    l.filterMap f = l.filterMap g := by
  induction l with
  | nil => rfl
  | cons a l ih =>
    simp only [List.filterMap_cons, h a (by simp), ih (fun x hx => h x (by simp [hx]))]

end DDL

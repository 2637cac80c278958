import Verif.Proof.Lexer
/-
More fuel never changes the answer of the lexer.
-/

set_option synthInstance.maxSize 2000
set_option synthInstance.maxHeartbeats 200000

namespace DDL.Lex
open DDL

/-- `g` answers at least where `f` does, with the same answer. -/
class LLe (f g : LM α) : Prop where
  out : ∀ s, f s = .timeout ∨ f s = g s

instance (priority := low) LLe.refl (f : LM α) : LLe f f := ⟨fun _ => .inr rfl⟩

instance LLe.bind {p q : LM α} {f g : α → LM β} [h : LLe p q] [hf : ∀ a, LLe (f a) (g a)] :
    LLe (p >>= f) (q >>= g) := ⟨fun s => by
  simp only [bind_def]
  rcases h.out s with e | e
  · rw [e]; exact .inl rfl
  · rw [e]
    cases q s with
    | ok a s' => exact (hf a).out s'
    | fail e s' => exact .inr rfl
    | panic => exact .inr rfl
    | timeout => exact .inl rfl⟩

instance LLe.ite {c : Prop} [Decidable c] {p q p' q' : LM α} [h : LLe p p'] [h' : LLe q q'] :
    LLe (if c then p else q) (if c then p' else q') := by split <;> assumption

theorem LLe.zero {g : LM α} : LLe timeout g := ⟨fun _ => .inl rfl⟩

instance skipCommentLoop_le (n : Nat) : LLe (skipCommentLoop n) (skipCommentLoop (n + 1)) := by
  induction n with
  | zero => exact LLe.zero
  | succ n ih => unfold skipCommentLoop; infer_instance

instance skipComment_le (n : Nat) : LLe (skipComment n) (skipComment (n + 1)) := by
  unfold skipComment; infer_instance

instance skipMultiLoop_le (n : Nat) : LLe (skipMultiLoop n) (skipMultiLoop (n + 1)) := by
  induction n with
  | zero => exact LLe.zero
  | succ n ih => unfold skipMultiLoop; infer_instance

instance skipMultiLineComment_le (n : Nat) :
    LLe (skipMultiLineComment n) (skipMultiLineComment (n + 1)) := by
  unfold skipMultiLineComment; infer_instance

instance lexStringLoop_le (n : Nat) (q : Char) (str : Str) :
    LLe (lexStringLoop n q str) (lexStringLoop (n + 1) q str) := by
  induction n generalizing q str with
  | zero => exact LLe.zero
  | succ n ih =>
    unfold lexStringLoop
    have : ∀ c : Option Char, LLe (α := Str)
      (match c with
        | none => lexError
        | some c =>
          if c = '\n' then do
            incLine
            appendToken nl
            Lex.next
            lexStringLoop n q str
          else if c = q then do
            Lex.next
            return str ++ [c]
          else if isQuote c then do
            Lex.next
            let s ← lexStringLoop n c [c]
            Lex.next
            lexStringLoop n q (str ++ s)
          else do
            Lex.next
            lexStringLoop n q (str ++ [c]))
      (match c with
        | none => lexError
        | some c =>
          if c = '\n' then do
            incLine
            appendToken nl
            Lex.next
            lexStringLoop (n + 1) q str
          else if c = q then do
            Lex.next
            return str ++ [c]
          else if isQuote c then do
            Lex.next
            let s ← lexStringLoop (n + 1) c [c]
            Lex.next
            lexStringLoop (n + 1) q (str ++ s)
          else do
            Lex.next
            lexStringLoop (n + 1) q (str ++ [c])) := by
      intro c
      cases c with
      | none => exact LLe.refl _
      | some c => exact inferInstance
    infer_instance

instance lexString_le (n : Nat) (q : Char) : LLe (lexString n q) (lexString (n + 1) q) := by
  unfold lexString; infer_instance

instance lexQuote_le (n : Nat) (q : Char) (t : Str) : LLe (lexQuote n q t) (lexQuote (n + 1) q t) := by
  unfold lexQuote; infer_instance

instance lexBackQuote_le (d : Rdbms) (n : Nat) (t : Str) :
    LLe (lexBackQuote d n t) (lexBackQuote d (n + 1) t) := by
  unfold lexBackQuote; infer_instance

instance lexSharp_le (d : Rdbms) (n : Nat) (t : Str) :
    LLe (lexSharp d n t) (lexSharp d (n + 1) t) := by
  unfold lexSharp; infer_instance

instance lexHyphen_le (n : Nat) (t : Str) : LLe (lexHyphen n t) (lexHyphen (n + 1) t) := by
  unfold lexHyphen; infer_instance

instance lexSlash_le (n : Nat) (t : Str) : LLe (lexSlash n t) (lexSlash (n + 1) t) := by
  unfold lexSlash; infer_instance

instance phase1_le (n : Nat) (t : Str) : LLe (phase1 n t) (phase1 (n + 1) t) := by
  unfold phase1; infer_instance

instance phase2_le (d : Rdbms) (n : Nat) (c : Char) (t : Str) :
    LLe (phase2 d n c t) (phase2 d (n + 1) c t) := by
  unfold phase2; infer_instance

instance lexLoop_le (d : Rdbms) (n : Nat) (t : Str) : LLe (lexLoop d n t) (lexLoop d (n + 1) t) := by
  induction n generalizing t with
  | zero => exact LLe.zero
  | succ n ih =>
    unfold lexLoop
    have : ∀ (t : Str) (c : Option Char), LLe (α := Unit)
      (match c with
        | none => appendToken t
        | some c => do
          let t ← phase2 d n c t
          lexLoop d n t)
      (match c with
        | none => appendToken t
        | some c => do
          let t ← phase2 d (n + 1) c t
          lexLoop d (n + 1) t) := by
      intro t c
      cases c with
      | none => exact LLe.refl _
      | some c => exact inferInstance
    infer_instance

/-- More fuel never changes the answer of the lexer. -/
theorem lexN_step (d : Rdbms) (n : Nat) (ddl : List Char) :
    lexN d n ddl = .timeout ∨ lexN d n ddl = lexN d (n + 1) ddl := by
  unfold lexN
  rcases (lexLoop_le d n []).out (init ddl) with e | e
  · rw [e]; exact .inl rfl
  · rw [e]; exact .inr rfl

theorem lexN_mono (d : Rdbms) {n m : Nat} (h : n ≤ m) (ddl : List Char) :
    lexN d n ddl = .timeout ∨ lexN d n ddl = lexN d m ddl := by
  induction h with
  | refl => exact .inr rfl
  | step _ ih =>
    rcases ih with e | e
    · exact .inl e
    · rw [e]; exact lexN_step d _ ddl

/-- The lexer with any fuel: out of fuel, or the transducer's answer. -/
theorem lexN_scan (d : Rdbms) (n : Nat) (ddl : List Char) :
    lexN d n ddl = .timeout ∨ lexN d n ddl = scan d (.top []) ddl 1 [] := by
  have := lexN_mono d (Nat.le_add_right n (ddl.length + 1)) ddl
  rwa [lexN_eq_scan d (n + (ddl.length + 1)) ddl (by omega)] at this

end DDL.Lex

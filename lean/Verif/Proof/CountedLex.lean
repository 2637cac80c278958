import Verif.Model.Counted
import Verif.Proof.ViableSweep
/-
The counting lexer computes the same, and its work is linear in the characters it reads.
-/

namespace DDL

/-- Operations per character of the lexer. -/
def LRATE : Int := 20

/-- Bounds beyond the rate: on success where there is a character and at the end, and on failure where there is a
character and at the end. -/
structure LB where
  b : Int
  e : Int
  fb : Int
  fe : Int

/-- `g` computes the same as `f`, with at most `LRATE` operations for each character it reads, and `i` more. -/
structure LLin (f : LM α) (g : LT α) (i : LB) : Prop where
  same : ∀ s, (g s).1 = f s
  le : ∀ s a r, f s = .ok a r → r.rest.length ≤ s.rest.length
  b : ∀ s a r, s.rest ≠ [] → f s = .ok a r → ((g s).2 : Int) + LRATE * r.rest.length ≤ LRATE * s.rest.length + i.b
  e : ∀ s a r, s.rest = [] → f s = .ok a r → ((g s).2 : Int) ≤ i.e
  fb : ∀ s x r, s.rest ≠ [] → f s = .fail x r → ((g s).2 : Int) ≤ LRATE * s.rest.length + i.fb
  fe : ∀ s x r, s.rest = [] → f s = .fail x r → ((g s).2 : Int) ≤ i.fe

namespace LB
def seq (x y : LB) : LB := ⟨x.b + max y.b y.e, x.e + y.e, max x.fb (x.b + max y.fb y.fe), max x.fe (x.e + y.fe)⟩
def or (x y : LB) : LB := ⟨max x.b y.b, max x.e y.e, max x.fb y.fb, max x.fe y.fe⟩
def le (x y : LB) : Bool := decide (x.b ≤ y.b) && decide (x.e ≤ y.e) && decide (x.fb ≤ y.fb) && decide (x.fe ≤ y.fe)
/-- `x` at the end, `y` before it, after one operation. -/
def split (x y : LB) : LB := ⟨1 + y.b, 1 + x.e, 1 + y.fb, 1 + x.fe⟩
/-- One operation before. -/
def tick (y : LB) : LB := ⟨1 + y.b, 1 + y.e, 1 + y.fb, 1 + y.fe⟩
end LB

namespace LLin

theorem weaken {f : LM α} {g : LT α} {i j : LB} (h : LLin f g i) (hl : i.le j = true) : LLin f g j := by
  simp only [LB.le, Bool.and_eq_true, decide_eq_true_eq] at hl
  refine ⟨h.same, h.le, fun s a r hs e => ?_, fun s a r hs e => ?_, fun s x r hs e => ?_, fun s x r hs e => ?_⟩
  · have := h.b s a r hs e; omega
  · have := h.e s a r hs e; omega
  · have := h.fb s x r hs e; omega
  · have := h.fe s x r hs e; omega

theorem pure (a : α) : LLin (Pure.pure a) (Pure.pure a) ⟨0, 0, -100, -100⟩ := by
  refine ⟨fun s => rfl, ?_, ?_, ?_, ?_, ?_⟩
  · rintro s a r ⟨⟩; exact Nat.le_refl _
  · rintro s a r - ⟨⟩; show ((0 : Nat) : Int) + _ ≤ _; simp
  · rintro s a r - ⟨⟩; exact Int.le_refl _
  · rintro s x r - ⟨⟩
  · rintro s x r - ⟨⟩

theorem timeout : LLin (Lex.timeout : LM α) LexW.timeout i :=
  ⟨fun s => rfl, fun s a r h => (by cases h), fun s a r _ h => (by cases h), fun s a r _ h => (by cases h),
    fun s x r _ h => (by cases h), fun s x r _ h => (by cases h)⟩

theorem error : LLin (Lex.lexError : LM α) LexW.lexError ⟨-100, -100, 1, 1⟩ := by
  refine ⟨fun s => rfl, fun s a r h => (by cases h), fun s a r _ h => (by cases h), fun s a r _ h => (by cases h), ?_, ?_⟩
  · rintro s x r - -
    show ((1 : Nat) : Int) ≤ _
    simp only [LRATE]
    omega
  · rintro s x r - -
    exact Int.le_refl _

/-- One operation that reads nothing. -/
def Tick (f : LM α) (g : LT α) : Prop := ∀ s, ∃ a r, f s = .ok a r ∧ r.rest = s.rest ∧ g s = (.ok a r, 1)

theorem tchar : Tick Lex.char LexW.char := fun s => ⟨_, s, rfl, rfl, rfl⟩
theorem tisOutOfRange : Tick Lex.isOutOfRange LexW.isOutOfRange := fun s => ⟨_, s, rfl, rfl, rfl⟩
theorem tincLine : Tick Lex.incLine LexW.incLine := fun _ => ⟨_, _, rfl, rfl, rfl⟩
theorem tappendToken (t : Str) : Tick (Lex.appendToken t) (LexW.appendToken t) := fun s => by
  unfold LexW.appendToken Lex.appendToken
  split
  · exact ⟨_, _, rfl, rfl, rfl⟩
  · exact ⟨_, s, rfl, rfl, rfl⟩

theorem tick {f : LM α} {g : LT α} (h : Tick f g) : LLin f g ⟨1, 1, -100, -100⟩ := by
  refine ⟨fun s => ?_, fun s a r e => ?_, fun s a r _ e => ?_, fun s a r _ e => ?_, fun s x r _ e => ?_,
    fun s x r _ e => ?_⟩ <;>
    obtain ⟨a', r', k1, k2, k3⟩ := h s
  · rw [k1, k3]
  all_goals rw [k1] at e; cases e
  · rw [k2]; exact Nat.le_refl _
  · rw [k3, k2]; simp; omega
  · rw [k3]; simp

theorem tickBind {f : LM α} {g : LT α} {f' : α → LM β} {g' : α → LT β} {y : LB} (h : Tick f g)
    (h' : ∀ a, LLin (f' a) (g' a) y) : LLin (f >>= f') (g >>= g') y.tick := by
  have hf : ∀ s, ∃ a m, m.rest = s.rest ∧ (f >>= f') s = f' a m ∧ ((g >>= g') s).1 = (g' a m).1 ∧
      ((g >>= g') s).2 = 1 + (g' a m).2 := by
    intro s
    obtain ⟨a, m, e1, e2, e3⟩ := h s
    refine ⟨a, m, e2, ?_, ?_, ?_⟩
    · show LM.bind f f' s = _; unfold LM.bind; rw [e1]
    · show (LT.bind g g' s).1 = _; unfold LT.bind; rw [e3]
    · show (LT.bind g g' s).2 = _; unfold LT.bind; rw [e3]
  refine ⟨fun s => ?_, fun s b r e => ?_, fun s b r hs e => ?_, fun s b r hs e => ?_, fun s z r hs e => ?_,
    fun s z r hs e => ?_⟩ <;>
    obtain ⟨a, m, k0, k1, k2, k3⟩ := hf s
  · rw [k1, k2]; exact (h' a).same m
  all_goals rw [k1] at e
  · rw [← k0]; exact (h' a).le _ _ _ e
  all_goals rw [← k0] at hs
  · have := (h' a).b _ _ _ hs e; rw [k3, ← k0]; simp only [LB.tick]; omega
  · have := (h' a).e _ _ _ hs e; rw [k3]; simp only [LB.tick]; omega
  · have := (h' a).fb _ _ _ hs e; rw [k3, ← k0]; simp only [LB.tick]; omega
  · have := (h' a).fe _ _ _ hs e; rw [k3]; simp only [LB.tick]; omega

theorem next : LLin Lex.next LexW.next ⟨1 - LRATE, 1, -100, -100⟩ := by
  refine ⟨fun s => rfl, ?_, ?_, ?_, ?_, ?_⟩
  · rintro s a r ⟨⟩; simp
  · rintro s a r hs ⟨⟩
    have : 0 < s.rest.length := List.length_pos_iff.mpr hs
    show ((1 : Nat) : Int) + LRATE * (s.rest.tail.length : Nat) ≤ _
    simp only [List.length_tail, LRATE]
    omega
  · rintro s a r - ⟨⟩; exact Int.le_refl _
  · rintro s x r - ⟨⟩
  · rintro s x r - ⟨⟩

theorem bind_same {f : LM α} {g : LT α} {f' : α → LM β} {g' : α → LT β} (h : ∀ s, (g s).1 = f s)
    (h' : ∀ a s, (g' a s).1 = f' a s) (s : LS) : ((g >>= g') s).1 = (f >>= f') s := by
  show (LT.bind g g' s).1 = LM.bind f f' s
  unfold LT.bind LM.bind
  have e := h s
  cases hg : g s with
  | mk x k =>
    rw [hg] at e
    simp only at e
    rw [← e]
    cases x with
    | ok a m => exact h' a m
    | _ => rfl

theorem bind_cost {f : LM α} {g : LT α} {g' : α → LT β} (h : ∀ s, (g s).1 = f s) {s m : LS} {a : α}
    (hf : f s = .ok a m) : ((g >>= g') s).2 = (g s).2 + (g' a m).2 := by
  show (LT.bind g g' s).2 = _
  unfold LT.bind
  have e := h s
  rw [hf] at e
  cases hg : g s with
  | mk x k =>
    rw [hg] at e
    simp only at e
    subst e
    rfl

theorem bind_cost_fail {f : LM α} {g : LT α} {g' : α → LT β} (h : ∀ s, (g s).1 = f s) {s m : LS} {x : VErr}
    (hf : f s = .fail x m) : ((g >>= g') s).2 = (g s).2 := by
  show (LT.bind g g' s).2 = _
  unfold LT.bind
  have e := h s
  rw [hf] at e
  cases hg : g s with
  | mk x k =>
    rw [hg] at e
    simp only at e
    subst e
    rfl

theorem bind_ok {f : LM α} {f' : α → LM β} {s r : LS} {b : β} (h : (f >>= f') s = .ok b r) :
    ∃ a m, f s = .ok a m ∧ f' a m = .ok b r := by
  change LM.bind f f' s = _ at h
  unfold LM.bind at h
  cases hf : f s with
  | ok a m => rw [hf] at h; exact ⟨a, m, rfl, h⟩
  | _ => rw [hf] at h; cases h

theorem bind_fail {f : LM α} {f' : α → LM β} {s r : LS} {x : VErr} (h : (f >>= f') s = .fail x r) :
    f s = .fail x r ∨ ∃ a m, f s = .ok a m ∧ f' a m = .fail x r := by
  change LM.bind f f' s = _ at h
  unfold LM.bind at h
  cases hf : f s with
  | ok a m => rw [hf] at h; exact .inr ⟨a, m, rfl, h⟩
  | fail y m => rw [hf] at h; cases h; exact .inl rfl
  | _ => rw [hf] at h; cases h

theorem bind {f : LM α} {g : LT α} {f' : α → LM β} {g' : α → LT β} {x y : LB} (h : LLin f g x)
    (h' : ∀ a, LLin (f' a) (g' a) y) : LLin (f >>= f') (g >>= g') (x.seq y) := by
  refine ⟨bind_same h.same fun a => (h' a).same, fun s a r e => ?_, fun s a r hs e => ?_, fun s a r hs e => ?_,
    fun s z r hs e => ?_, fun s z r hs e => ?_⟩
  · obtain ⟨b, m, h1, h2⟩ := bind_ok e
    exact Nat.le_trans ((h' b).le _ _ _ h2) (h.le _ _ _ h1)
  · obtain ⟨b, m, h1, h2⟩ := bind_ok e
    rw [bind_cost h.same h1]
    have e1 := h.b _ _ _ hs h1
    have e3 := (h' b).le _ _ _ h2
    simp only [LB.seq]
    by_cases hm : m.rest = []
    · have e2 := (h' b).e _ _ _ hm h2
      rw [hm] at e1 e3
      simp only [List.length_nil] at e1 e3
      have : r.rest.length = 0 := by omega
      rw [this]
      omega
    · have e2 := (h' b).b _ _ _ hm h2
      omega
  · obtain ⟨b, m, h1, h2⟩ := bind_ok e
    rw [bind_cost h.same h1]
    have e1 := h.e _ _ _ hs h1
    have hm : m.rest = [] := by have := h.le _ _ _ h1; rw [hs] at this; simpa using this
    have e2 := (h' b).e _ _ _ hm h2
    simp only [LB.seq]
    omega
  · simp only [LB.seq]
    rcases bind_fail e with h1 | ⟨b, m, h1, h2⟩
    · rw [bind_cost_fail h.same h1]
      have := h.fb _ _ _ hs h1
      omega
    · rw [bind_cost h.same h1]
      have e1 := h.b _ _ _ hs h1
      by_cases hm : m.rest = []
      · have e2 := (h' b).fe _ _ _ hm h2
        rw [hm] at e1
        simp only [List.length_nil] at e1
        omega
      · have e2 := (h' b).fb _ _ _ hm h2
        omega
  · simp only [LB.seq]
    rcases bind_fail e with h1 | ⟨b, m, h1, h2⟩
    · rw [bind_cost_fail h.same h1]
      have := h.fe _ _ _ hs h1
      omega
    · rw [bind_cost h.same h1]
      have e1 := h.e _ _ _ hs h1
      have hm : m.rest = [] := by have := h.le _ _ _ h1; rw [hs] at this; simpa using this
      have e2 := (h' b).fe _ _ _ hm h2
      omega

/-- A test that tells whether the input has ended. -/
theorem atEnd {f : LM α} {g : LT α} {f1 : LM β} {g1 : LT β} {f' : α → LM β} {g' : α → LT β} {x y : LB}
    (h : ∀ s, ∃ a, f s = .ok a s ∧ g s = (.ok a s, 1) ∧
      (s.rest = [] → f' a = f1 ∧ g' a = g1) ∧ (s.rest ≠ [] → LLin (f' a) (g' a) y))
    (h1 : LLin f1 g1 x) : LLin (f >>= f') (g >>= g') (x.split y) := by
  have hf : ∀ s, ∃ a, (f >>= f') s = f' a s ∧ ((g >>= g') s).1 = (g' a s).1 ∧ ((g >>= g') s).2 = 1 + (g' a s).2 ∧
      (s.rest = [] → LLin (f' a) (g' a) x) ∧ (s.rest ≠ [] → LLin (f' a) (g' a) y) := by
    intro s
    obtain ⟨a, e1, e2, e3, e4⟩ := h s
    refine ⟨a, ?_, ?_, ?_, ?_, e4⟩
    · show LM.bind f f' s = _; unfold LM.bind; rw [e1]
    · show (LT.bind g g' s).1 = _; unfold LT.bind; rw [e2]
    · show (LT.bind g g' s).2 = _; unfold LT.bind; rw [e2]
    · intro hs; obtain ⟨a1, a2⟩ := e3 hs; rw [a1, a2]; exact h1
  refine ⟨fun s => ?_, fun s b r e => ?_, fun s b r hs e => ?_, fun s b r hs e => ?_, fun s z r hs e => ?_,
    fun s z r hs e => ?_⟩ <;>
    obtain ⟨a, k1, k2, k3, k4, k5⟩ := hf s
  · rw [k1, k2]
    by_cases hs : s.rest = []
    · exact (k4 hs).same s
    · exact (k5 hs).same s
  · rw [k1] at e
    by_cases hs : s.rest = []
    · exact (k4 hs).le _ _ _ e
    · exact (k5 hs).le _ _ _ e
  · rw [k1] at e
    have := (k5 hs).b _ _ _ hs e
    rw [k3]
    simp only [LB.split]
    omega
  · rw [k1] at e
    have := (k4 hs).e _ _ _ hs e
    rw [k3]
    simp only [LB.split]
    omega
  · rw [k1] at e
    rw [k3]
    simp only [LB.split]
    have := (k5 hs).fb _ _ _ hs e; omega
  · rw [k1] at e
    rw [k3]
    simp only [LB.split]
    have := (k4 hs).fe _ _ _ hs e; omega

theorem oob {f : Bool → LM α} {g : Bool → LT α} {x y : LB} (h1 : LLin (f true) (g true) x)
    (h2 : LLin (f false) (g false) y) :
    LLin (Lex.isOutOfRange >>= f) (LexW.isOutOfRange >>= g) (x.split y) := by
  refine atEnd (fun s => ⟨s.rest.isEmpty, rfl, rfl, fun hs => ?_, fun hs => ?_⟩) h1
  · rw [hs]; exact ⟨rfl, rfl⟩
  · have : s.rest.isEmpty = false := by simpa using hs
    rw [this]; exact h2

theorem charEnd {f : Option Char → LM α} {g : Option Char → LT α} {x y : LB} (h1 : LLin (f none) (g none) x)
    (h2 : ∀ c, LLin (f (some c)) (g (some c)) y) :
    LLin (Lex.char >>= f) (LexW.char >>= g) (x.split y) := by
  refine atEnd (fun s => ⟨s.rest.head?, rfl, rfl, fun hs => ?_, fun hs => ?_⟩) h1
  · rw [hs]; exact ⟨rfl, rfl⟩
  · cases hc : s.rest with
    | nil => exact absurd hc hs
    | cons c r => exact h2 c

theorem ite {c : Prop} [Decidable c] {f f' : LM α} {g g' : LT α} {x y : LB} (h : LLin f g x) (h' : LLin f' g' y) :
    LLin (if c then f else f') (if c then g else g') (x.or y) := by
  by_cases hc : c
  · rw [if_pos hc, if_pos hc]
    refine h.weaken ?_
    simp only [LB.le, LB.or, Bool.and_eq_true]
    refine ⟨⟨⟨decide_eq_true ?_, decide_eq_true ?_⟩, decide_eq_true ?_⟩, decide_eq_true ?_⟩ <;> omega
  · rw [if_neg hc, if_neg hc]
    refine h'.weaken ?_
    simp only [LB.le, LB.or, Bool.and_eq_true]
    refine ⟨⟨⟨decide_eq_true ?_, decide_eq_true ?_⟩, decide_eq_true ?_⟩, decide_eq_true ?_⟩ <;> omega

end LLin

/-- Extended after each definition below. -/
syntax "llin_lem" : tactic
macro_rules | `(tactic| llin_lem) => `(tactic| fail)

macro "llin_step" : tactic => `(tactic| first
  | with_reducible exact LLin.pure _
  | with_reducible exact LLin.error
  | with_reducible exact LLin.next
  | llin_lem
  | with_reducible apply LLin.ite
  | with_reducible apply LLin.tickBind LLin.tchar
  | with_reducible apply LLin.tickBind LLin.tincLine
  | with_reducible apply LLin.tickBind (LLin.tappendToken _)
  | with_reducible apply LLin.bind
  | intro _)

namespace LexW

theorem ite_lm (c : Prop) [Decidable c] (p q : LM α) (s : LS) : (if c then p else q) s = if c then p s else q s := by
  split <;> rfl
theorem ite_lt (c : Prop) [Decidable c] (p q : LT α) (s : LS) : (if c then p else q) s = if c then p s else q s := by
  split <;> rfl

theorem skipCommentLoop_l (n : Nat) : LLin (Lex.skipCommentLoop n) (skipCommentLoop n) ⟨5, 5, 5, 5⟩ := by
  induction n with
  | zero => exact .timeout
  | succ n ih =>
    unfold Lex.skipCommentLoop skipCommentLoop
    apply LLin.weaken
    case h =>
      apply LLin.oob
      · simp only [if_true]
        exact LLin.next
      · simp only [Bool.false_eq_true, if_false]
        repeat' (first | exact ih | llin_step)
    krfl
macro_rules | `(tactic| llin_lem) => `(tactic| with_reducible exact LexW.skipCommentLoop_l _)

theorem skipMultiLoop_l (n : Nat) : LLin (Lex.skipMultiLoop n) (skipMultiLoop n) ⟨5, 5, 5, 5⟩ := by
  induction n with
  | zero => exact .timeout
  | succ n ih =>
    unfold Lex.skipMultiLoop skipMultiLoop
    apply LLin.weaken
    case h =>
      apply LLin.oob
      · simp only [if_true]
        exact LLin.error
      · simp only [Bool.false_eq_true, if_false]
        repeat' (first | exact ih | llin_step)
    krfl
macro_rules | `(tactic| llin_lem) => `(tactic| with_reducible exact LexW.skipMultiLoop_l _)

theorem lexStringLoop_l (n : Nat) (q : Char) (str : Str) :
    LLin (Lex.lexStringLoop n q str) (lexStringLoop n q str) ⟨5, -50, 5, 5⟩ := by
  induction n generalizing q str with
  | zero => exact .timeout
  | succ n ih =>
    unfold Lex.lexStringLoop lexStringLoop
    apply LLin.weaken
    case h =>
      apply LLin.oob
      · simp only [if_true]
        exact LLin.error
      · simp only [Bool.false_eq_true, if_false]
        apply LLin.charEnd
        · exact LLin.error
        · intro c
          dsimp only
          repeat' (first | exact ih _ _ | llin_step)
    krfl
macro_rules | `(tactic| llin_lem) => `(tactic| with_reducible exact LexW.lexStringLoop_l _ _ _)

theorem skipComment_l (n : Nat) : LLin (Lex.skipComment n) (skipComment n) ⟨10 - LRATE, 10, 10, 10⟩ := by
  unfold Lex.skipComment skipComment
  apply LLin.weaken
  case h => repeat' llin_step
  krfl
macro_rules | `(tactic| llin_lem) => `(tactic| with_reducible exact LexW.skipComment_l _)

theorem skipMultiLineComment_l (n : Nat) :
    LLin (Lex.skipMultiLineComment n) (skipMultiLineComment n) ⟨10 - LRATE, 10, 10, 10⟩ := by
  unfold Lex.skipMultiLineComment skipMultiLineComment
  apply LLin.weaken
  case h => repeat' llin_step
  krfl
macro_rules | `(tactic| llin_lem) => `(tactic| with_reducible exact LexW.skipMultiLineComment_l _)

theorem lexString_l (n : Nat) (q : Char) : LLin (Lex.lexString n q) (lexString n q) ⟨10 - LRATE, 10, 10, 10⟩ := by
  unfold Lex.lexString lexString
  apply LLin.weaken
  case h => repeat' llin_step
  krfl
macro_rules | `(tactic| llin_lem) => `(tactic| with_reducible exact LexW.lexString_l _ _)

theorem lexHyphen_l (n : Nat) (t : Str) : LLin (Lex.lexHyphen n t) (lexHyphen n t) ⟨0, 20, 20, 20⟩ := by
  unfold Lex.lexHyphen lexHyphen
  apply LLin.weaken
  case h => repeat' llin_step
  krfl
macro_rules | `(tactic| llin_lem) => `(tactic| with_reducible exact LexW.lexHyphen_l _ _)

theorem lexSlash_l (n : Nat) (t : Str) : LLin (Lex.lexSlash n t) (lexSlash n t) ⟨0, 20, 20, 20⟩ := by
  unfold Lex.lexSlash lexSlash
  apply LLin.weaken
  case h => repeat' llin_step
  krfl
macro_rules | `(tactic| llin_lem) => `(tactic| with_reducible exact LexW.lexSlash_l _ _)

theorem lexAsterisk_l (t : Str) : LLin (Lex.lexAsterisk t) (lexAsterisk t) ⟨0, 20, 20, 20⟩ := by
  have key : ∀ s : LS, (lexAsterisk t s).1 = Lex.lexAsterisk t s ∧ (lexAsterisk t s).2 ≤ 3 ∧
      ∀ a r, Lex.lexAsterisk t s = .ok a r → r.rest = s.rest.tail := by
    intro s
    have h : ∀ c, s.rest.tail.head? = c →
        Lex.lexAsterisk t s = (if c = some '/' then Lex.lexError s else .ok (t ++ ['*']) { s with rest := s.rest.tail }) ∧
        lexAsterisk t s = (if c = some '/' then (Lex.lexError s, 3) else
          (.ok (t ++ ['*']) { s with rest := s.rest.tail }, 2)) := by
      rintro c rfl
      constructor
      · exact ite_lm (s.rest.tail.head? = some '/') (fun _ => Lex.lexError s) (Pure.pure (t ++ ['*'])) _
      · have := ite_lt (s.rest.tail.head? = some '/') (fun _ => lexError s) (Pure.pure (t ++ ['*']))
          { s with rest := s.rest.tail }
        refine (congrArg (fun z : Res LS Str × Nat => (z.1, 1 + (1 + z.2))) this).trans ?_
        split <;> rfl
    obtain ⟨h1, h2⟩ := h _ rfl
    rw [h1, h2]
    by_cases hc : s.rest.tail.head? = some '/'
    · rw [if_pos hc, if_pos hc]
      exact ⟨rfl, Nat.le_refl _, fun a r e => by cases e⟩
    · rw [if_neg hc, if_neg hc]
      exact ⟨rfl, Nat.le_succ 2, fun a r e => by cases e; rfl⟩
  refine ⟨fun s => (key s).1, fun s a r e => ?_, fun s a r hs e => ?_, fun s a r hs e => ?_, fun s x r hs e => ?_,
    fun s x r hs e => ?_⟩ <;>
    obtain ⟨k1, k2, k3⟩ := key s
  · rw [k3 _ _ e]; simp
  · rw [k3 _ _ e]
    have : 0 < s.rest.length := List.length_pos_iff.mpr hs
    simp only [List.length_tail, LRATE]
    omega
  · simp only; omega
  · simp only [LRATE]; omega
  · simp only; omega
macro_rules | `(tactic| llin_lem) => `(tactic| with_reducible exact LexW.lexAsterisk_l _)

theorem lexQuote_l (n : Nat) (q : Char) (t : Str) : LLin (Lex.lexQuote n q t) (lexQuote n q t) ⟨12 - LRATE, 20, 20, 20⟩ := by
  unfold Lex.lexQuote lexQuote
  apply LLin.weaken
  case h => repeat' llin_step
  krfl
macro_rules | `(tactic| llin_lem) => `(tactic| with_reducible exact LexW.lexQuote_l _ _ _)

theorem lexBackQuote_l (d : Rdbms) (n : Nat) (t : Str) :
    LLin (Lex.lexBackQuote d n t) (lexBackQuote d n t) ⟨12 - LRATE, 20, 20, 20⟩ := by
  unfold Lex.lexBackQuote lexBackQuote
  apply LLin.weaken
  case h => repeat' llin_step
  krfl
macro_rules | `(tactic| llin_lem) => `(tactic| with_reducible exact LexW.lexBackQuote_l _ _ _)

theorem lexSharp_l (d : Rdbms) (n : Nat) (t : Str) :
    LLin (Lex.lexSharp d n t) (lexSharp d n t) ⟨12 - LRATE, 20, 20, 20⟩ := by
  unfold Lex.lexSharp lexSharp
  apply LLin.weaken
  case h => repeat' llin_step
  krfl
macro_rules | `(tactic| llin_lem) => `(tactic| with_reducible exact LexW.lexSharp_l _ _ _)

theorem lexEOL_l (t : Str) : LLin (Lex.lexEOL t) (lexEOL t) ⟨12 - LRATE, 20, 20, 20⟩ := by
  unfold Lex.lexEOL lexEOL
  apply LLin.weaken
  case h => repeat' llin_step
  krfl
macro_rules | `(tactic| llin_lem) => `(tactic| with_reducible exact LexW.lexEOL_l _)

theorem lexSpace_l (t : Str) : LLin (Lex.lexSpace t) (lexSpace t) ⟨12 - LRATE, 20, 20, 20⟩ := by
  unfold Lex.lexSpace lexSpace
  apply LLin.weaken
  case h => repeat' llin_step
  krfl
macro_rules | `(tactic| llin_lem) => `(tactic| with_reducible exact LexW.lexSpace_l _)

theorem lexSymbol_l (c : Char) (t : Str) : LLin (Lex.lexSymbol c t) (lexSymbol c t) ⟨12 - LRATE, 20, 20, 20⟩ := by
  unfold Lex.lexSymbol lexSymbol
  apply LLin.weaken
  case h => repeat' llin_step
  krfl
macro_rules | `(tactic| llin_lem) => `(tactic| with_reducible exact LexW.lexSymbol_l _ _)

theorem phase1_l (n : Nat) (t : Str) : LLin (Lex.phase1 n t) (phase1 n t) ⟨1, 21, 21, 21⟩ := by
  unfold Lex.phase1 phase1
  apply LLin.weaken
  case h => repeat' llin_step
  krfl

theorem phase2_l (d : Rdbms) (n : Nat) (c : Char) (t : Str) :
    LLin (Lex.phase2 d n c t) (phase2 d n c t) ⟨12 - LRATE, 20, 20, 20⟩ := by
  unfold Lex.phase2 phase2
  apply LLin.weaken
  case h => repeat' llin_step
  krfl

theorem lexLoop_l (d : Rdbms) (n : Nat) (t : Str) : LLin (Lex.lexLoop d n t) (lexLoop d n t) ⟨4, 2, 30, 30⟩ := by
  induction n generalizing t with
  | zero => exact .timeout
  | succ n ih =>
    unfold Lex.lexLoop lexLoop
    apply LLin.weaken
    case h =>
      apply LLin.oob
      · simp only [if_true]
        exact LLin.tick (LLin.tappendToken _)
      · simp only [Bool.false_eq_true, if_false]
        apply LLin.bind
        · exact phase1_l _ _
        · intro t
          apply LLin.charEnd
          · exact LLin.tick (LLin.tappendToken _)
          · intro c
            dsimp only
            apply LLin.bind
            · exact phase2_l _ _ _ _
            · intro t
              exact ih _
    krfl

end LexW
end DDL

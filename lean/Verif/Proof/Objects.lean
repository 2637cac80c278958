import Verif.Model.Objects
/-
The object model (Model.Objects) refines the list model: every method of an object whose fields
are set up by `init` behaves like the function of Model.Lexer, Model.Validator or
Model.Converter on the unread part of the input.
-/

namespace DDL.Obj

/-- Same outcome, related states. -/
inductive Sim (R : σ → τ → Prop) : Res σ α → Res τ α → Prop
  | ok (a : α) {s : σ} {t : τ} (h : R s t) : Sim R (.ok a s) (.ok a t)
  | fail (e : VErr) {s : σ} {t : τ} (h : R s t) : Sim R (.fail e s) (.fail e t)
  | panic : Sim R .panic .panic
  | timeout : Sim R .timeout .timeout

theorem bind_ok {p : OM σ α} {f : α → OM σ β} (h : p l = .ok a l') : (p.bind f) l = f a l' := by
  unfold OM.bind
  rw [h]

theorem ifM_true {c : OM σ Bool} {p q : OM σ α} (h : c l = .ok true l') : ifM c p q l = p l' :=
  bind_ok (f := fun b => cond b p q) h

theorem ifM_false {c : OM σ Bool} {p q : OM σ α} (h : c l = .ok false l') :
    ifM c p q l = q l' :=
  bind_ok (f := fun b => cond b p q) h

theorem bind_assoc (p : OM σ α) (f : α → OM σ β) (g : β → OM σ γ) :
    (p.bind f).bind g = p.bind fun a => (f a).bind g := by
  funext l
  unfold OM.bind
  cases p l <;> rfl

theorem ifM_bind (c : OM σ Bool) (p q : OM σ α) (f : α → OM σ β) :
    (ifM c p q).bind f = ifM c (p.bind f) (q.bind f) := by
  show (c.bind _).bind f = c.bind _
  rw [bind_assoc]
  congr 1
  funext b
  cases b <;> rfl

theorem pure_bind (a : α) (f : α → OM σ β) : (OM.pure a).bind f = f a := rfl

/-- Position and size describe the unread part `rest` of `whole`. -/
structure At (whole : List α) (size i : Int) (rest : List α) : Prop where
  size_eq : size = whole.length
  nonneg : 0 ≤ i
  le : i ≤ size
  rest_eq : rest = whole.drop i.toNat

namespace At
variable {whole rest : List α} {size i : Int}

theorem start (l : List α) : At l l.length 0 l := ⟨rfl, by omega, by omega, by simp⟩

theorem oob_nil (h : At whole size i []) : i > size - 1 := by
  have h1 := h.size_eq
  have h2 := h.nonneg
  have h3 := List.drop_eq_nil_iff.1 h.rest_eq.symm
  omega

theorem oob_cons (h : At whole size i (x :: r)) : ¬ i > size - 1 := by
  have h1 := h.size_eq
  have h2 := h.nonneg
  have h3 : (whole.drop i.toNat).length = r.length + 1 := by rw [← h.rest_eq]; rfl
  rw [List.length_drop] at h3
  omega

theorem index_cons (h : At whole size i (x :: r)) : index whole i = some x := by
  have h2 := h.nonneg
  have h3 : (whole.drop i.toNat)[0]? = some x := by rw [← h.rest_eq]; rfl
  rw [List.getElem?_drop] at h3
  rw [index, if_neg (by omega)]
  exact h3

theorem step (h : At whole size i (x :: r)) : At whole size (i + 1) r := by
  have h1 := h.size_eq
  have h2 := h.nonneg
  have h3 := h.oob_cons
  refine ⟨h1, by omega, by omega, ?_⟩
  have h4 : (i + 1).toNat = i.toNat + 1 := by omega
  rw [h4, ← List.tail_drop, ← h.rest_eq]
  rfl

theorem length_le (h : At whole size i rest) : rest.length ≤ whole.length := by
  rw [h.rest_eq, List.length_drop]; omega

end At

/-! ### lexer -/

namespace Lexer

/-- The lexer object and the list model of the lexer are at the same point. -/
structure R (d : Rdbms) (l : Lexer) (s : LS) : Prop where
  rdbms : l.rdbms = d
  pos : At l.ddlr l.size l.i s.rest
  line : l.line = s.line
  result : l.result = s.result

variable {d : Rdbms}

/-- Simulation from related states. -/
def SimM (d : Rdbms) (p : OM Lexer α) (q : LM α) : Prop :=
  ∀ l s, R d l s → Sim (R d) (p l) (q s)

theorem SimM.pure (a : α) : SimM d (OM.pure a) (LM.pure a) := fun _ _ h => .ok a h

theorem SimM.timeout : SimM d (Obj.timeout : OM Lexer α) (Lex.timeout : LM α) :=
  fun _ _ _ => .timeout

theorem sim_bind {p : OM Lexer α} {q : LM α} {f : α → OM Lexer β} {g : α → LM β}
    (hp : Sim (R d) (p l) (q s)) (hf : ∀ a, SimM d (f a) (g a)) :
    Sim (R d) ((p.bind f) l) ((LM.bind q g) s) := by
  unfold OM.bind LM.bind
  revert hp
  generalize p l = x
  generalize q s = y
  intro hp
  cases hp with
  | ok a h => exact hf a _ _ h
  | fail e h => exact .fail e h
  | panic => exact .panic
  | timeout => exact .timeout

theorem SimM.bind {p : OM Lexer α} {q : LM α} {f : α → OM Lexer β} {g : α → LM β}
    (hp : SimM d p q) (hf : ∀ a, SimM d (f a) (g a)) : SimM d (p.bind f) (LM.bind q g) :=
  fun l s h => sim_bind (hp l s h) hf

theorem outOfRange_nil {l : Lexer} (h : R d l ⟨[], n, r⟩) : l.outOfRange = true :=
  decide_eq_true h.pos.oob_nil

theorem outOfRange_cons {l : Lexer} (h : R d l ⟨c :: cs, n, r⟩) : l.outOfRange = false :=
  decide_eq_false h.pos.oob_cons

theorem char_nil {l : Lexer} (h : R d l ⟨[], n, r⟩) : char l = .ok EOF l := by
  rw [char, outOfRange_nil h, if_pos rfl]

theorem char_cons {l : Lexer} (h : R d l ⟨c :: cs, n, r⟩) : char l = .ok [c] l := by
  rw [char, outOfRange_cons h, if_neg (by decide), h.pos.index_cons]

theorem next_sim : SimM d next Lex.next := by
  intro l s h
  obtain ⟨rest, n, r⟩ := s
  cases rest with
  | nil =>
    have e : next l = .ok () l := by rw [next, outOfRange_nil h, if_pos rfl]
    rw [e]
    exact .ok () h
  | cons c cs =>
    have e : next l = .ok () { l with i := l.i + 1 } := by
      rw [next, outOfRange_cons h, if_neg (by decide), h.pos.index_cons]
    rw [e]
    exact .ok () ⟨h.rdbms, h.pos.step, h.line, h.result⟩

theorem appendToken_sim (t : Str) : SimM d (appendToken t) (Lex.appendToken t) := by
  intro l s h
  unfold appendToken Lex.appendToken
  by_cases ht : t ≠ []
  · rw [if_pos ht, if_pos ht]
    exact .ok () ⟨h.rdbms, h.pos, h.line, by show l.result ++ [t] = _; rw [h.result]⟩
  · rw [if_neg ht, if_neg ht]
    exact .ok () h

theorem incLine_sim : SimM d incLine Lex.incLine := fun l s h =>
  .ok () ⟨h.rdbms, h.pos, by show l.line + 1 = s.line + 1; rw [h.line], h.result⟩

theorem lexError_sim : SimM d (lexError : OM Lexer α) (Lex.lexError : LM α) := by
  intro l s h
  obtain ⟨rest, n, r⟩ := s
  have hl : l.line = n := h.line
  cases rest with
  | nil =>
    have e : (lexError : OM Lexer α) l = .fail ⟨l.line, EOF⟩ l := bind_ok (char_nil h)
    rw [e, hl]
    exact .fail _ h
  | cons c cs =>
    have e : (lexError : OM Lexer α) l = .fail ⟨l.line, [c]⟩ l := bind_ok (char_cons h)
    rw [e, hl]
    exact .fail _ h

/-- The test for the end of the input. -/
theorem oob_sim {p q : OM Lexer α} {p' q' : LM α} (hp : SimM d p p')
    (hq : ∀ c cs l n r, R d l ⟨c :: cs, n, r⟩ → Sim (R d) (q l) (q' ⟨c :: cs, n, r⟩)) :
    SimM d (ifM isOutOfRange p q)
      (LM.bind Lex.isOutOfRange fun b => if b = true then p' else q') := by
  intro l s h
  obtain ⟨rest, n, r⟩ := s
  cases rest with
  | nil =>
    have e : ifM isOutOfRange p q l = p l :=
      ifM_true (by rw [isOutOfRange, outOfRange_nil h])
    rw [e]
    exact hp l _ h
  | cons c cs =>
    have e : ifM isOutOfRange p q l = q l :=
      ifM_false (by rw [isOutOfRange, outOfRange_cons h])
    rw [e]
    exact hq c cs l n r h

theorem single_iff {k : String} {x : Char} (hk : S k = [x]) (c : Char) :
    [c] = S k ↔ some c = some x := by
  rw [hk]
  exact ⟨fun e => congrArg some (List.cons.inj e).1, fun e => by rw [Option.some.inj e]⟩

theorem ite_sim {P Q : Prop} [Decidable P] [Decidable Q] {p q : OM Lexer α} {p' q' : LM α}
    (h : P ↔ Q) (hp : P → Sim (R d) (p l) (p' s)) (hq : ¬ P → Sim (R d) (q l) (q' s)) :
    Sim (R d) ((if P then p else q) l) ((if Q then p' else q') s) := by
  by_cases hP : P
  · rw [if_pos hP, if_pos (h.1 hP)]; exact hp hP
  · rw [if_neg hP, if_neg (fun e => hP (h.2 e))]; exact hq hP

/-- The test for one character. -/
theorem charIs_sim {p q : OM Lexer α} {p' q' : LM α} {k : String} (x : Char) (hk : S k = [x])
    (hx : EOF ≠ [x]) (hp : SimM d p p') (hq : SimM d q q') :
    SimM d (ifM (charIs k) p q)
      (LM.bind Lex.char fun b => if b = some x then p' else q') := by
  intro l s h
  obtain ⟨rest, n, r⟩ := s
  cases rest with
  | nil =>
    have e : ifM (charIs k) p q l = q l := ifM_false (by
      rw [charIs, bind_ok (char_nil h), hk, decide_eq_false hx]; rfl)
    rw [e]
    exact hq l _ h
  | cons c cs =>
    show Sim _ _ ((if some c = some x then p' else q') _)
    by_cases hc : some c = some x
    · have e : ifM (charIs k) p q l = p l := ifM_true (by
        rw [charIs, bind_ok (char_cons h), decide_eq_true ((single_iff hk c).2 hc)]; rfl)
      rw [if_pos hc, e]
      exact hp l _ h
    · have e : ifM (charIs k) p q l = q l := ifM_false (by
        rw [charIs, bind_ok (char_cons h),
          decide_eq_false (fun e => hc ((single_iff hk c).1 e))]; rfl)
      rw [if_neg hc, e]
      exact hq l _ h

/-- Reading the current character inside the input. -/
theorem char_sim {f : Str → OM Lexer α} {g : Option Char → LM α} {l : Lexer}
    (h : R d l ⟨c :: cs, n, r⟩) (h1 : Sim (R d) (f [c] l) (g (some c) ⟨c :: cs, n, r⟩)) :
    Sim (R d) ((char.bind f) l) (LM.bind Lex.char g ⟨c :: cs, n, r⟩) := by
  rw [bind_ok (char_cons h)]
  exact h1

theorem skipCommentLoop_sim : ∀ n,
    SimM d ((skipCommentLoop n).bind fun _ => next) (Lex.skipCommentLoop n) := by
  intro n
  induction n with
  | zero => exact fun _ _ _ => .timeout
  | succ n ih =>
    rw [skipCommentLoop, ifM_bind, ifM_bind, bind_assoc, bind_assoc, pure_bind]
    refine oob_sim next_sim fun _ _ l _ _ h => ?_
    exact charIs_sim '\n' rfl (by decide)
      (SimM.bind incLine_sim fun _ => SimM.bind (appendToken_sim nl) fun _ => next_sim)
      (SimM.bind next_sim fun _ => ih) l _ h

theorem skipComment_sim (n : Nat) : SimM d (skipComment n) (Lex.skipComment n) :=
  SimM.bind next_sim fun _ => skipCommentLoop_sim n

theorem skipMultiLoop_sim : ∀ n, SimM d (skipMultiLoop n) (Lex.skipMultiLoop n) := by
  intro n
  induction n with
  | zero => exact SimM.timeout
  | succ n ih =>
    have hn : SimM d (next.bind fun _ => skipMultiLoop n)
        (LM.bind Lex.next fun _ => Lex.skipMultiLoop n) := SimM.bind next_sim fun _ => ih
    refine oob_sim lexError_sim fun c cs l k r h => char_sim h ?_
    refine ite_sim (single_iff rfl c) (fun _ => ?_) fun _ =>
      ite_sim (single_iff rfl c) (fun _ => ?_) fun _ =>
      ite_sim (single_iff rfl c) (fun _ => ?_) fun _ => ?_
    · exact (SimM.bind incLine_sim fun _ => SimM.bind (appendToken_sim nl) fun _ => hn) l _ h
    · exact (SimM.bind next_sim fun _ => charIs_sim '/' rfl (by decide) next_sim hn) l _ h
    · exact (SimM.bind next_sim fun _ => charIs_sim '*' rfl (by decide) hn hn) l _ h
    · exact hn l _ h

theorem skipMultiLineComment_sim (n : Nat) :
    SimM d (skipMultiLineComment n) (Lex.skipMultiLineComment n) :=
  SimM.bind next_sim fun _ => skipMultiLoop_sim n

/-- One round of a string loop, for the closing quote `q` and the other two quotes. -/
theorem stringLoop_step {f : Str → OM Lexer Str} {n : Nat} {q x y : Char} {str : Str}
    {fx fy : OM Lexer Str}
    (hq : (q = '"' ∧ x = '\'' ∧ y = '`') ∨ (q = '\'' ∧ x = '"' ∧ y = '`') ∨
      (q = '`' ∧ x = '"' ∧ y = '\''))
    (hf : ∀ str, SimM d (f str) (Lex.lexStringLoop n q str))
    (hx : SimM d fx (Lex.lexStringLoop n x [x])) (hy : SimM d fy (Lex.lexStringLoop n y [y])) :
    SimM d
      (ifM isOutOfRange lexError
        (char.bind fun c =>
          if c = S "\n" then
            incLine.bind fun _ => (appendToken (S "\n")).bind fun _ =>
            next.bind fun _ => f str
          else if c = [q] then next.bind fun _ => OM.pure (str ++ c)
          else if c = [x] then
            next.bind fun _ => fx.bind fun s => next.bind fun _ => f (str ++ s)
          else if c = [y] then
            next.bind fun _ => fy.bind fun s => next.bind fun _ => f (str ++ s)
          else next.bind fun _ => f (str ++ c)))
      (Lex.lexStringLoop (n + 1) q str) := by
  have hquote : ∀ c, Lex.isQuote c = true ↔ c = q ∨ c = x ∨ c = y := by
    intro c
    unfold Lex.isQuote
    rcases hq with ⟨rfl, rfl, rfl⟩ | ⟨rfl, rfl, rfl⟩ | ⟨rfl, rfl, rfl⟩ <;>
      simp only [Bool.or_eq_true, beq_iff_eq] <;> grind
  refine oob_sim lexError_sim fun c cs l k r h => char_sim h ?_
  have hs : ∀ x : Char, [c] = [x] ↔ c = x := fun x =>
    ⟨fun e => (List.cons.inj e).1, fun e => by rw [e]⟩
  refine ite_sim (hs '\n') (fun _ => ?_) fun _ => ite_sim (hs q) (fun _ => ?_) fun h2 => ?_
  · exact (SimM.bind incLine_sim fun _ => SimM.bind (appendToken_sim nl) fun _ =>
      SimM.bind next_sim fun _ => hf str) l _ h
  · exact (SimM.bind next_sim fun _ => SimM.pure _) l _ h
  · by_cases h3 : c = x
    · subst h3
      rw [if_pos rfl, if_pos ((hquote _).2 (.inr (.inl rfl)))]
      exact (SimM.bind next_sim fun _ => SimM.bind hx fun s => SimM.bind next_sim fun _ =>
        hf (str ++ s)) l _ h
    · rw [if_neg (fun e => h3 ((hs x).1 e))]
      by_cases h4 : c = y
      · subst h4
        rw [if_pos rfl, if_pos ((hquote _).2 (.inr (.inr rfl)))]
        exact (SimM.bind next_sim fun _ => SimM.bind hy fun s => SimM.bind next_sim fun _ =>
          hf (str ++ s)) l _ h
      · rw [if_neg (fun e => h4 ((hs y).1 e)), if_neg (fun e => ((hquote c).1 e).elim
          (fun e => h2 ((hs q).2 e)) (fun e => e.elim h3 h4))]
        exact (SimM.bind next_sim fun _ => hf (str ++ [c])) l _ h

theorem stringLoops_sim : ∀ n,
    (∀ str, SimM d (doubleLoop n str) (Lex.lexStringLoop n '"' str)) ∧
    (∀ str, SimM d (singleLoop n str) (Lex.lexStringLoop n '\'' str)) ∧
    (∀ str, SimM d (backLoop n str) (Lex.lexStringLoop n '`' str)) := by
  intro n
  induction n with
  | zero =>
    refine ⟨fun str => ?_, fun str => ?_, fun str => ?_⟩ <;>
      simp only [doubleLoop, singleLoop, backLoop, Lex.lexStringLoop] <;> exact SimM.timeout
  | succ n ih =>
    obtain ⟨h1, h2, h3⟩ := ih
    refine ⟨fun str => ?_, fun str => ?_, fun str => ?_⟩
    · rw [doubleLoop]
      exact stringLoop_step (.inl ⟨rfl, rfl, rfl⟩) h1 (h2 _) (h3 _)
    · rw [singleLoop]
      exact stringLoop_step (.inr (.inl ⟨rfl, rfl, rfl⟩)) h2 (h1 _) (h3 _)
    · rw [backLoop]
      exact stringLoop_step (.inr (.inr ⟨rfl, rfl, rfl⟩)) h3 (h1 _) (h2 _)

/-! The functions below are only called with the current character in front. -/

theorem lexHyphen_sim (n : Nat) (token : Str) {l : Lexer} (h : R d l ⟨'-' :: cs, k, r⟩) :
    Sim (R d) (lexHyphen n token l) (Lex.lexHyphen n token ⟨'-' :: cs, k, r⟩) := by
  rw [lexHyphen, bind_ok (char_cons h)]
  exact (SimM.bind next_sim fun _ => charIs_sim '-' rfl (by decide)
    (SimM.bind (appendToken_sim _) fun _ => SimM.bind (skipComment_sim n) fun _ => SimM.pure _)
    (SimM.pure _)) l _ h

theorem lexSlash_sim (n : Nat) (token : Str) {l : Lexer} (h : R d l ⟨'/' :: cs, k, r⟩) :
    Sim (R d) (lexSlash n token l) (Lex.lexSlash n token ⟨'/' :: cs, k, r⟩) := by
  rw [lexSlash, bind_ok (char_cons h)]
  exact (SimM.bind next_sim fun _ => charIs_sim '*' rfl (by decide)
    (SimM.bind (appendToken_sim _) fun _ => SimM.bind (skipMultiLineComment_sim n) fun _ =>
      SimM.pure _)
    (SimM.pure _)) l _ h

theorem next_cons {l : Lexer} (h : R d l ⟨c :: cs, k, r⟩) :
    next l = .ok () { l with i := l.i + 1 } := by
  rw [next, outOfRange_cons h, if_neg (by decide), h.pos.index_cons]

theorem lexAsterisk_sim (token : Str) {l : Lexer} (h : R d l ⟨'*' :: cs, k, r⟩) :
    Sim (R d) (lexAsterisk token l) (Lex.lexAsterisk token ⟨'*' :: cs, k, r⟩) := by
  have h' : R d { l with i := l.i + 1 } ⟨cs, k, r⟩ := ⟨h.rdbms, h.pos.step, h.line, h.result⟩
  rw [lexAsterisk, bind_ok (char_cons h), if_pos (by decide), bind_ok (next_cons h)]
  cases cs with
  | nil =>
    rw [ifM_false (l' := { l with i := l.i + 1 }) (by rw [charIs, bind_ok (char_nil h')]; rfl)]
    exact .ok _ h'
  | cons c cs =>
    by_cases hc : c = '/'
    · subst hc
      rw [ifM_true (l' := { l with i := l.i + 1 }) (by
        rw [charIs, bind_ok (char_cons h')]; rfl)]
      rw [bind_ok (a := ()) (l' := l) (by
        show Res.ok () { l with i := l.i + 1 - 1 } = _
        rw [Int.add_sub_cancel])]
      exact lexError_sim l _ h
    · rw [ifM_false (l' := { l with i := l.i + 1 }) (by
        rw [charIs, bind_ok (char_cons h'),
          decide_eq_false (fun e => hc (Option.some.inj ((single_iff rfl c).1 e)))]
        rfl)]
      have e : Lex.lexAsterisk token ⟨'*' :: c :: cs, k, r⟩ =
          .ok (token ++ ['*']) ⟨c :: cs, k, r⟩ :=
        congrFun (if_neg (fun e => hc (Option.some.inj e)) :
          (if some c = some '/' then (fun _ => Lex.lexError ⟨'*' :: c :: cs, k, r⟩)
            else LM.pure (token ++ ['*']) : LM Str) = _) _
      rw [e]
      exact .ok _ h'

theorem first_sim (n : Nat) (token : Str) {l : Lexer} (h : R d l ⟨c :: cs, k, r⟩) :
    Sim (R d) (first n token l) (Lex.phase1 n token ⟨c :: cs, k, r⟩) := by
  rw [first, Lex.phase1]
  refine char_sim h ?_
  refine ite_sim (single_iff rfl c) (fun e => ?_) fun _ =>
      ite_sim (single_iff rfl c) (fun e => ?_) fun _ =>
      ite_sim (single_iff rfl c) (fun e => ?_) fun _ => ?_
  · cases (List.cons.inj e).1
    exact lexHyphen_sim n token h
  · cases (List.cons.inj e).1
    exact lexSlash_sim n token h
  · cases (List.cons.inj e).1
    exact lexAsterisk_sim token h
  · exact .ok _ h

theorem rdbms_bind {l : Lexer} (h : R d l s) (f : Rdbms → OM Lexer α) :
    (rdbmsOf.bind f) l = f d l := by
  rw [bind_ok (a := d) (l' := l) (by rw [rdbmsOf, h.rdbms])]

theorem quote_sim (token : Str) {f : OM Lexer Str} (hf : SimM d f (Lex.lexString n q)) :
    SimM d ((appendToken token).bind fun _ => f.bind fun str =>
      (appendToken str).bind fun _ => OM.pure []) (Lex.lexQuote n q token) :=
  SimM.bind (appendToken_sim _) fun _ => SimM.bind hf fun _ =>
    SimM.bind (appendToken_sim _) fun _ => SimM.pure _

theorem second_sim (n : Nat) (token : Str) {l : Lexer} (h : R d l ⟨c :: cs, k, r⟩) :
    Sim (R d) (second n token l) (Lex.phase2 d n c token ⟨c :: cs, k, r⟩) := by
  have hs : ∀ x : Char, [c] = [x] ↔ c = x := fun x =>
    ⟨fun e => (List.cons.inj e).1, fun e => by rw [e]⟩
  obtain ⟨hd, hq, hb⟩ := stringLoops_sim (d := d) n
  rw [second, bind_ok (char_cons h), Lex.phase2]
  refine ite_sim (hs '"') (fun e => ?_) fun _ => ite_sim (hs '\'') (fun e => ?_) fun _ =>
    ite_sim (hs '`') (fun e => ?_) fun _ => ite_sim (hs '#') (fun e => ?_) fun _ =>
    ite_sim (or_congr (hs ' ') (hs '\t')) (fun e => ?_) fun _ =>
    ite_sim (hs '\n') (fun e => ?_) fun _ =>
    ite_sim ?_ (fun e => ?_) fun _ => ite_sim (hs _) (fun e => ?_) fun _ => ?_
  · rw [lexDoubleQuote, bind_ok (char_cons h), if_pos e]
    exact quote_sim token (SimM.bind next_sim fun _ => hd _) l _ h
  · rw [lexSingleQuote, bind_ok (char_cons h), if_pos e]
    exact quote_sim token (SimM.bind next_sim fun _ => hq _) l _ h
  · rw [lexBackQuote, rdbms_bind h, Lex.lexBackQuote]
    refine ite_sim Iff.rfl (fun _ => lexError_sim l _ h) fun _ => ?_
    rw [bind_ok (char_cons h), if_pos e]
    exact quote_sim token (SimM.bind next_sim fun _ => hb _) l _ h
  · rw [lexSharp, bind_ok (char_cons h), if_pos e, rdbms_bind h, Lex.lexSharp]
    refine ite_sim Iff.rfl (fun _ => ?_) fun _ => ?_
    · exact (SimM.bind (appendToken_sim _) fun _ => SimM.bind (skipComment_sim n) fun _ =>
        SimM.pure _) l _ h
    · rw [(hs '#').1 e] at h ⊢
      exact (SimM.bind next_sim fun _ => SimM.pure _) l _ h
  · rw [lexSpace, bind_ok (char_cons h), if_pos e]
    exact (SimM.bind (appendToken_sim _) fun _ => SimM.bind next_sim fun _ => SimM.pure _) l _ h
  · rw [lexEOL, bind_ok (char_cons h), if_pos e]
    rw [(hs '\n').1 e] at h ⊢
    exact (SimM.bind incLine_sim fun _ => SimM.bind (appendToken_sim _) fun _ =>
      SimM.bind (appendToken_sim nl) fun _ => SimM.bind next_sim fun _ => SimM.pure _) l _ h
  · unfold Lex.isSymbol
    simp only [Bool.or_eq_true, beq_iff_eq, or_assoc]
    exact or_congr (hs '(') (or_congr (hs ')') (or_congr (hs ',') (or_congr (hs '.') (hs ';'))))
  · rw [lexSymbol, bind_ok (char_cons h), if_pos e]
    exact (SimM.bind (appendToken_sim _) fun _ => SimM.bind (appendToken_sim _) fun _ =>
      SimM.bind next_sim fun _ => SimM.pure _) l _ h
  · exact lexError_sim l _ h
  · exact (SimM.bind next_sim fun _ => SimM.pure _) l _ h

theorem lex_sim : ∀ n token, SimM d (lex n token) (Lex.lexLoop d n token) := by
  intro n
  induction n with
  | zero => exact fun _ => SimM.timeout
  | succ n ih =>
    intro token l s h
    obtain ⟨rest, k, r⟩ := s
    cases rest with
    | nil =>
      rw [lex, ifM_false (l' := l) (by
        rw [inRange, decide_eq_false (by have := h.pos.oob_nil; omega)])]
      exact appendToken_sim token l _ h
    | cons c cs =>
      rw [lex, ifM_true (l' := l) (by
        rw [inRange, decide_eq_true (by have := h.pos.oob_cons; omega)])]
      refine sim_bind (p := first n token) (q := Lex.phase1 n token) (first_sim n token h)
        fun token l s h => ?_
      obtain ⟨rest, k, r⟩ := s
      cases rest with
      | nil =>
        rw [ifM_true (l' := l) (by rw [isOutOfRange, outOfRange_nil h])]
        exact appendToken_sim token l _ h
      | cons c cs =>
        rw [ifM_false (l' := l) (by rw [isOutOfRange, outOfRange_cons h])]
        exact sim_bind (p := second n token) (q := Lex.phase2 d n c token) (second_sim n token h)
          ih

/-- `Lex` on any object is `Lex` of the list model; the object keeps its dialect. -/
theorem Lex_eq (n : Nat) (ddl : List Char) (l : Lexer) :
    match Lex n ddl l with
    | .ok ts l' => DDL.Lex.lexN l.rdbms n ddl = .ok ts ∧ l'.rdbms = l.rdbms
    | .fail e l' => DDL.Lex.lexN l.rdbms n ddl = .err e ∧ l'.rdbms = l.rdbms
    | .panic => DDL.Lex.lexN l.rdbms n ddl = .panic
    | .timeout => DDL.Lex.lexN l.rdbms n ddl = .timeout := by
  have h : R l.rdbms (init ddl l) (DDL.Lex.init ddl) := ⟨rfl, At.start ddl, rfl, rfl⟩
  have hs := lex_sim (d := l.rdbms) n [] _ _ h
  unfold Lex DDL.Lex.lexN
  revert hs
  generalize lex n [] (init ddl l) = x
  generalize DDL.Lex.lexLoop l.rdbms n [] (DDL.Lex.init ddl) = y
  intro hs
  cases hs with
  | ok a h => exact ⟨by rw [h.result], h.rdbms⟩
  | fail e h => exact ⟨rfl, h.rdbms⟩
  | panic => rfl
  | timeout => rfl

end Lexer

/-! ### validator -/

namespace Validator

/-- The validator object and the list model of the validator are at the same point. -/
structure R (v : Validator) (s : VS) : Prop where
  pos : At v.tokens v.size v.i s.rest
  line : v.line = s.line
  result : v.result = s.result

theorem outOfRange_eq {v : Validator} {s : VS} (h : R v s) : v.outOfRange = s.rest.isEmpty := by
  obtain ⟨rest, n, r⟩ := s
  cases rest with
  | nil => exact decide_eq_true h.pos.oob_nil
  | cons c cs => exact decide_eq_false h.pos.oob_cons

theorem token_eq {v : Validator} {s : VS} (h : R v s) : v.token = some s.token := by
  obtain ⟨rest, n, r⟩ := s
  rw [token, outOfRange_eq h]
  cases rest with
  | nil => rfl
  | cons c cs =>
    rw [if_neg (by simp)]
    exact h.pos.index_cons

theorem nextLoop_eq : ∀ (rest : List Str) (n : Nat) (v : Validator) (x : Str) (l : Nat)
    (r : List Str), rest.length < n → R v ⟨x :: rest, l, r⟩ →
    ∃ v', nextLoop n v = some v' ∧ R v' ⟨(VS.skipNl rest l).1, (VS.skipNl rest l).2, r⟩ := by
  intro rest
  induction rest with
  | nil =>
    intro n v x l r hn h
    cases n with
    | zero => omega
    | succ n =>
      have h' : R { v with i := v.i + 1 } ⟨[], l, r⟩ := ⟨h.pos.step, h.line, h.result⟩
      refine ⟨_, ?_, h'⟩
      rw [nextLoop]
      exact if_pos (outOfRange_eq h')
  | cons y rest ih =>
    intro n v x l r hn h
    cases n with
    | zero => omega
    | succ n =>
      have h' : R { v with i := v.i + 1 } ⟨y :: rest, l, r⟩ := ⟨h.pos.step, h.line, h.result⟩
      have hoob : ¬ ({ v with i := v.i + 1 } : Validator).outOfRange = true := by
        rw [outOfRange_eq h']; exact Bool.false_ne_true
      have htok := token_eq h'
      rw [nextLoop]
      dsimp only
      rw [if_neg hoob, htok]
      dsimp only
      unfold VS.skipNl
      by_cases hy : y = nl
      · rw [if_pos (show VS.token ⟨y :: rest, l, r⟩ = S "\n" from hy), if_pos hy]
        refine ih n _ y (l + 1) r (Nat.lt_of_succ_lt_succ hn) ⟨h'.pos, ?_, h'.result⟩
        show v.line + 1 = l + 1
        rw [h.line]
      · rw [if_neg (show ¬ VS.token ⟨y :: rest, l, r⟩ = S "\n" from hy), if_neg hy]
        exact ⟨_, rfl, h'⟩

theorem next_eq {v : Validator} {s : VS} (h : R v s) :
    ∃ v', v.next = some (s.token, v') ∧ R v' s.next := by
  obtain ⟨rest, n, r⟩ := s
  cases rest with
  | nil =>
    refine ⟨v, ?_, h⟩
    rw [next, outOfRange_eq h]
    rfl
  | cons x rest =>
    obtain ⟨v', e, h'⟩ := nextLoop_eq rest v.tokens.length v x n r h.pos.length_le h
    refine ⟨v', ?_, h'⟩
    rw [next, outOfRange_eq h, token_eq h, e]
    rfl

theorem set_R {v : Validator} {s : VS} (h : R v s) (t : Str) : R (v.set t) (s.set t) :=
  ⟨h.pos, h.line, by show v.result ++ [t] = s.result ++ [t]; rw [h.result]⟩

theorem run_sim (p : Prog α) : ∀ v s, R v s → Sim R (run p v) (DDL.run p s) := by
  induction p with
  | ret a => exact fun v s h => .ok a h
  | token k ih =>
    intro v s h
    rw [run, token_eq h]
    exact ih _ v s h
  | oob k ih =>
    intro v s h
    rw [run, outOfRange_eq h]
    exact ih _ v s h
  | head k ih =>
    intro v s h
    rw [run, token_eq h, DDL.run]
    cases hs : s.token with
    | nil => exact .panic
    | cons c cs => exact ih _ v s h
  | adv b k ih =>
    intro v s h
    obtain ⟨v', e, h'⟩ := next_eq h
    cases b with
    | true =>
      rw [run, e]
      exact ih _ _ (set_R h' _)
    | false =>
      rw [run, e]
      exact ih _ _ h'
  | emit t k ih => exact fun v s h => ih _ _ (set_R h t)
  | fail =>
    intro v s h
    rw [run, token_eq h, h.line]
    exact .fail _ h
  | timeout => exact fun v s h => .timeout

theorem init_R (tokens : List Str) (v : Validator) :
    ∃ v', v.init tokens = some v' ∧ R v' (VS.init tokens) := by
  have h : R { v with tokens := tokens, size := tokens.length, i := 0, line := 1, result := [] }
      ⟨tokens, 1, []⟩ := ⟨At.start tokens, rfl, rfl⟩
  rw [init, token_eq h]
  dsimp only
  unfold VS.init
  dsimp only
  by_cases hn : VS.token ⟨tokens, 1, []⟩ = nl
  · rw [if_pos hn, if_pos (show _ = S "\n" from hn)]
    obtain ⟨v', e, h'⟩ := next_eq h
    exact ⟨v', by rw [e]; rfl, h'⟩
  · rw [if_neg hn, if_neg (show ¬ _ = S "\n" from hn)]
    exact ⟨_, rfl, h⟩

/-- `Validate` on any object is `Validate` of the list model. -/
theorem Validate_eq (isNum : Str → Bool) (d : Rdbms) (n : Nat) (tokens : List Str)
    (v : Validator) :
    match Validate isNum d n tokens v with
    | .ok ts _ => validateN isNum d n tokens = .ok ts
    | .fail e _ => validateN isNum d n tokens = .err e
    | .panic => validateN isNum d n tokens = .panic
    | .timeout => validateN isNum d n tokens = .timeout := by
  obtain ⟨v', e, h⟩ := init_R tokens v
  have hs := run_sim (validateProg isNum d n) v' _ h
  unfold Validate validateN
  rw [e]
  dsimp only
  revert hs
  generalize run (validateProg isNum d n) v' = x
  generalize DDL.run (validateProg isNum d n) (VS.init tokens) = y
  intro hs
  cases hs with
  | ok a h => show _ = Outcome.ok _; rw [h.result]
  | fail e h => rfl
  | panic => rfl
  | timeout => rfl

end Validator

/-! ### converter -/

namespace Converter

/-- The converter object is at the given unread tokens; `acc` are the tables made so far. -/
structure R (d : Rdbms) (acc : List Table) (c : Converter) (rest : List Str) : Prop where
  rdbms : c.rdbms = d
  pos : At c.tokens c.size c.i rest
  result : c.result = acc

/-- Same outcome, related states. -/
inductive CSim (d : Rdbms) (acc : List Table) : Res Converter α → CRes α → Prop
  | ok (a : α) {c : Converter} {rest : List Str} (h : R d acc c rest) :
      CSim d acc (.ok a c) (.ok a rest)
  | panic : CSim d acc .panic .panic
  | timeout : CSim d acc .timeout .timeout

variable {d : Rdbms} {acc : List Table}

/-- Simulation from related states. -/
def SimM (d : Rdbms) (acc : List Table) (p : OM Converter α) (q : CM α) : Prop :=
  ∀ c rest, R d acc c rest → CSim d acc (p c) (q rest)

theorem SimM.pure (a : α) : SimM d acc (OM.pure a) (CM.pure a) := fun _ _ h => .ok a h

theorem SimM.timeout : SimM d acc (Obj.timeout : OM Converter α) (C.timeout : CM α) :=
  fun _ _ _ => .timeout

theorem SimM.bind {p : OM Converter α} {q : CM α} {f : α → OM Converter β} {g : α → CM β}
    (hp : SimM d acc p q) (hf : ∀ a, SimM d acc (f a) (g a)) :
    SimM d acc (p.bind f) (CM.bind q g) := by
  intro c rest h
  have hs := hp c rest h
  unfold OM.bind CM.bind
  revert hs
  generalize p c = x
  generalize q rest = y
  intro hs
  cases hs with
  | ok a h => exact hf a _ _ h
  | panic => exact .panic
  | timeout => exact .timeout

theorem SimM.ite {P : OM Converter Bool} {Q : CM Bool} {p q : OM Converter α} {p' q' : CM α}
    (h : SimM d acc P Q) (hp : SimM d acc p p') (hq : SimM d acc q q') :
    SimM d acc (ifM P p q) (C.ifM Q p' q') := by
  refine SimM.bind h fun b => ?_
  cases b
  · exact hq
  · exact hp

theorem outOfRange_eq {c : Converter} (h : R d acc c rest) : c.outOfRange = rest.isEmpty := by
  cases rest with
  | nil => exact decide_eq_true h.pos.oob_nil
  | cons x xs => exact decide_eq_false h.pos.oob_cons

theorem token_eq {c : Converter} (h : R d acc c rest) : token c = .ok (C.tok rest) c := by
  rw [token, outOfRange_eq h]
  cases rest with
  | nil => rfl
  | cons x xs =>
    rw [if_neg (by simp), h.pos.index_cons]
    rfl

theorem token_sim : SimM d acc token C.token := by
  intro c rest h
  rw [token_eq h]
  exact .ok _ h

theorem isOutOfRange_sim : SimM d acc isOutOfRange C.isOutOfRange := by
  intro c rest h
  rw [isOutOfRange, outOfRange_eq h]
  exact .ok _ h

theorem nextN_eq : ∀ (rest : List Str) (n : Nat) (c : Converter), rest.length < n →
    R d acc c rest →
    ∃ c', nextN n c = .ok (C.tok rest) c' ∧ R d acc c' (C.nextRest rest) := by
  intro rest
  induction rest with
  | nil =>
    intro n c hn h
    cases n with
    | zero => omega
    | succ n =>
      refine ⟨c, ?_, h⟩
      rw [nextN, ifM_true (by rw [isOutOfRange, outOfRange_eq h]; rfl)]
      rfl
  | cons x rest ih =>
    intro n c hn h
    cases n with
    | zero => omega
    | succ n =>
      have h' : R d acc { c with i := c.i + 1 } rest := ⟨h.rdbms, h.pos.step, h.result⟩
      rw [nextN, ifM_false (by rw [isOutOfRange, outOfRange_eq h]; rfl), bind_ok (token_eq h),
        bind_ok (show inc c = .ok () { c with i := c.i + 1 } from rfl)]
      show ∃ c', (if x = S "," then _ else _ : OM Converter Str) _ = Res.ok x c' ∧ _
      by_cases hx : x = S ","
      · rw [if_pos hx, bind_ok (token_eq h')]
        unfold C.nextRest
        by_cases hy : C.tok rest = S ","
        · rw [if_pos hy, if_pos ⟨hx, hy⟩, hx, ← hy]
          exact ih n _ (Nat.lt_of_succ_lt_succ hn) h'
        · rw [if_neg hy, if_neg (fun e => hy e.2)]
          exact ⟨_, rfl, h'⟩
      · rw [if_neg hx]
        unfold C.nextRest
        rw [if_neg (fun e => hx e.1)]
        exact ⟨_, rfl, h'⟩

theorem next_sim : SimM d acc next C.next := by
  intro c rest h
  obtain ⟨c', e, h'⟩ := nextN_eq rest (c.tokens.length + 1) c
    (Nat.lt_succ_of_le h.pos.length_le) h
  rw [next, e]
  exact .ok _ h'

theorem skip_sim : SimM d acc skip C.skip := SimM.bind next_sim fun _ => SimM.pure ()

theorem matchToken_sim (ks : List String) : SimM d acc (matchToken ks) (C.matchToken ks) :=
  SimM.bind token_sim fun t => SimM.pure (isKw ks t)

/-- `if c.matchToken(ks..) { p } else { q }`. -/
theorem SimM.kw {ks : List String} {p q : OM Converter α} {p' q' : CM α}
    (hp : SimM d acc p p') (hq : SimM d acc q q') :
    SimM d acc (ifM (matchToken ks) p q) (C.ifM (C.matchToken ks) p' q') :=
  SimM.ite (matchToken_sim ks) hp hq

theorem headChar_sim (t : Str) : SimM d acc (headChar t) (C.headChar t) := by
  intro c rest h
  cases t with
  | nil => exact .panic
  | cons x xs => exact .ok x h

theorem inner_sim (t : Str) : SimM d acc (inner t) (C.inner t) := by
  intro c rest h
  unfold inner C.inner
  by_cases ht : t.length < 2
  · rw [if_pos ht, if_pos ht]; exact .panic
  · rw [if_neg ht, if_neg ht]; exact .ok _ h

theorem SimM.rdbms {f : Rdbms → OM Converter α} {q : CM α} (h : SimM d acc (f d) q) :
    SimM d acc (rdbmsOf.bind f) q := by
  intro c rest hc
  rw [bind_ok (a := d) (l' := c) (by rw [rdbmsOf, hc.rdbms])]
  exact h c rest hc

theorem convertName_sim : SimM d acc convertName (C.convertName d) := by
  refine SimM.bind next_sim fun t => ?_
  show SimM d acc (OM.bind (OM.bind _ _) _) _
  rw [bind_assoc]
  refine SimM.bind (headChar_sim t) fun x => ?_
  rw [bind_assoc]
  refine SimM.rdbms ?_
  rw [pure_bind]
  show SimM d acc (cond (C.isIdentifier d x) _ _) _
  cases C.isIdentifier d x
  · exact SimM.pure t
  · exact inner_sim t

theorem convertTableName_sim : SimM d acc convertTableName (C.convertTableName d) :=
  SimM.bind convertName_sim fun _ => SimM.kw
    (SimM.bind skip_sim fun _ => SimM.bind convertName_sim fun _ => SimM.pure _) (SimM.pure _)

theorem convertTypeDigit_sim : SimM d acc convertTypeDigit C.convertTypeDigit :=
  SimM.kw
    (SimM.bind skip_sim fun _ => SimM.bind next_sim fun _ =>
      SimM.bind (SimM.kw (SimM.bind skip_sim fun _ => SimM.bind next_sim fun _ => SimM.pure _)
        (SimM.pure _)) fun _ => SimM.bind skip_sim fun _ => SimM.pure _)
    (SimM.pure _)

/-- converter.go:220-229: `VARYING` is looked at before it is skipped. -/
theorem varying_sim [CaseMap] (t : Str) : SimM d acc
    ((if upStr t = S "BIT" then OM.pure (S "VARBIT")
      else if upStr t = S "CHARACTER" then OM.pure (S "VARCHAR")
      else token.bind fun v => OM.pure (upStr t ++ S " " ++ upStr v)).bind fun name =>
     skip.bind fun _ => OM.pure name)
    (C.next.bind fun v => CM.pure (C.varyingName (upStr t) v)) := by
  intro c rest h
  obtain ⟨c', e, h'⟩ := nextN_eq rest (c.tokens.length + 1) c
    (Nat.lt_succ_of_le h.pos.length_le) h
  have hsk : ∀ name : Str, (skip.bind fun _ => OM.pure name) c = .ok name c' := by
    intro name
    rw [skip, bind_assoc]
    rw [bind_ok (show next c = .ok (C.tok rest) c' from e)]
    rfl
  show CSim d acc _ (.ok (C.varyingName (upStr t) (C.tok rest)) (C.nextRest rest))
  unfold C.varyingName
  by_cases h1 : upStr t = S "BIT"
  · rw [if_pos h1, if_pos h1, pure_bind, hsk]
    exact .ok _ h'
  · rw [if_neg h1, if_neg h1]
    by_cases h2 : upStr t = S "CHARACTER"
    · rw [if_pos h2, if_pos h2, pure_bind, hsk]
      exact .ok _ h'
    · rw [if_neg h2, if_neg h2, bind_assoc, bind_ok (token_eq h), pure_bind, hsk]
      exact .ok _ h'

theorem convertDateType_sim [CaseMap] : SimM d acc convertDateType C.convertDateType :=
  SimM.bind next_sim fun t =>
    SimM.bind (SimM.kw (varying_sim t) (SimM.pure _)) fun _ =>
    SimM.bind convertTypeDigit_sim fun _ => SimM.pure _

theorem convertExprAux_sim : ∀ n, SimM d acc (convertExprAux n) (C.convertExprAux n) := by
  intro n
  induction n with
  | zero => exact SimM.timeout
  | succ n ih =>
    exact SimM.kw (SimM.pure _) (SimM.kw
      (SimM.bind next_sim fun _ => SimM.bind ih fun _ => SimM.bind next_sim fun _ =>
        SimM.bind ih fun _ => SimM.pure _)
      (SimM.bind next_sim fun _ => SimM.bind ih fun _ => SimM.pure _))

theorem convertExpr_sim (n : Nat) : SimM d acc (convertExpr n) (C.convertExpr n) :=
  SimM.bind next_sim fun _ => SimM.bind (convertExprAux_sim n) fun _ =>
    SimM.bind next_sim fun _ => SimM.pure _

theorem convertLiteralValue_sim [CaseMap] (isNum : Str → Bool) :
    SimM d acc (convertLiteralValue isNum) (C.convertLiteralValue isNum d) := by
  refine SimM.bind next_sim fun t => ?_
  by_cases hn : isNum t = true
  · rw [if_pos hn, hn]
    exact SimM.pure _
  · rw [if_neg hn, (Bool.not_eq_true _).mp hn]
    show SimM d acc (OM.bind (OM.bind _ _) _) _
    rw [bind_assoc]
    refine SimM.bind (headChar_sim t) fun x => ?_
    rw [bind_assoc]
    refine SimM.rdbms ?_
    rw [pure_bind]
    show SimM d acc (cond (C.isStringValue d x) _ _) _
    cases C.isStringValue d x
    · show SimM d acc (if _ then _ else _) (CM.pure (if _ then _ else _))
      by_cases h1 : upStr t = S "NULL"
      · rw [if_pos h1, if_pos h1]; exact SimM.pure _
      · rw [if_neg h1, if_neg h1]
        by_cases h2 : upStr t = S "TRUE"
        · rw [if_pos h2, if_pos h2]; exact SimM.pure _
        · rw [if_neg h2, if_neg h2]
          by_cases h3 : upStr t = S "FALSE"
          · rw [if_pos h3, if_pos h3]; exact SimM.pure _
          · rw [if_neg h3, if_neg h3]; exact SimM.pure _
    · exact SimM.bind (inner_sim t) fun _ => SimM.pure _

theorem convertDefaultValue_sim [CaseMap] (isNum : Str → Bool) (n : Nat) :
    SimM d acc (convertDefaultValue isNum n) (C.convertDefaultValue isNum d n) :=
  SimM.kw (SimM.bind (convertExpr_sim n) fun _ => SimM.pure _) (convertLiteralValue_sim isNum)

theorem columnNamesLoop_sim : ∀ n ls,
    SimM d acc (columnNamesLoop n ls) (C.columnNamesLoop n ls) := by
  intro n
  induction n with
  | zero => exact fun _ => SimM.timeout
  | succ n ih =>
    exact fun ls => SimM.kw (SimM.pure _) (SimM.kw (SimM.bind skip_sim fun _ => ih _)
      (SimM.bind token_sim fun _ => SimM.bind skip_sim fun _ => ih _))

theorem columnNames_sim (n : Nat) : SimM d acc (convertCommaSeparatedColumnNames n)
    (C.convertCommaSeparatedColumnNames n) :=
  SimM.bind skip_sim fun _ => SimM.bind (columnNamesLoop_sim n []) fun _ =>
    SimM.bind skip_sim fun _ => SimM.pure _

theorem convertReference_sim (n : Nat) :
    SimM d acc (convertReference n) (C.convertReference d n) :=
  SimM.bind skip_sim fun _ => SimM.bind convertName_sim fun _ =>
    SimM.kw (SimM.bind (columnNames_sim n) fun _ => SimM.pure _) (SimM.pure _)

theorem convertConstraintAux_sim [CaseMap] (isNum : Str → Bool) : ∀ n con,
    SimM d acc (convertConstraintAux isNum n con) (C.convertConstraintAux isNum d n con) := by
  intro n
  induction n with
  | zero => exact fun _ => SimM.timeout
  | succ n ih =>
    intro con
    exact SimM.kw (SimM.pure _) <|
      SimM.kw (SimM.bind skip_sim fun _ => SimM.bind skip_sim fun _ => ih _) <|
      SimM.kw (SimM.bind skip_sim fun _ => ih _) <|
      SimM.kw (SimM.bind skip_sim fun _ => SimM.bind skip_sim fun _ => ih _) <|
      SimM.kw (SimM.bind skip_sim fun _ => ih _) <|
      SimM.kw (SimM.bind skip_sim fun _ =>
        SimM.bind (convertDefaultValue_sim isNum n) fun _ => ih _) <|
      SimM.kw (SimM.bind skip_sim fun _ => SimM.bind (convertExpr_sim n) fun _ => ih _) <|
      SimM.kw (SimM.bind skip_sim fun _ => SimM.bind convertName_sim fun _ => ih _) <|
      SimM.kw (SimM.bind (convertReference_sim n) fun _ => ih _) (SimM.pure _)

theorem convertConstraint_sim [CaseMap] (isNum : Str → Bool) (n : Nat) :
    SimM d acc (convertConstraint isNum n) (C.convertConstraint isNum d n) :=
  SimM.bind (SimM.kw (SimM.bind skip_sim fun _ => SimM.kw (SimM.pure _) convertName_sim)
    (SimM.pure _)) fun _ => convertConstraintAux_sim isNum n _

theorem convertColumnDefinition_sim [CaseMap] (isNum : Str → Bool) (n : Nat) :
    SimM d acc (convertColumnDefinition isNum n) (C.convertColumnDefinition isNum d n) :=
  SimM.bind convertName_sim fun _ => SimM.bind convertDateType_sim fun _ =>
    SimM.bind (convertConstraint_sim isNum n) fun _ => SimM.pure _

theorem convertTableConstraint_sim (n : Nat) (tc : TableConstraint) :
    SimM d acc (convertTableConstraint n tc) (C.convertTableConstraint d n tc) :=
  SimM.bind (SimM.kw (SimM.bind skip_sim fun _ => SimM.kw (SimM.pure _) convertName_sim)
    (SimM.pure _)) fun _ =>
  SimM.kw (SimM.bind skip_sim fun _ => SimM.bind skip_sim fun _ =>
    SimM.bind (columnNames_sim n) fun _ => SimM.pure _) <|
  SimM.kw (SimM.bind skip_sim fun _ => SimM.bind (columnNames_sim n) fun _ => SimM.pure _) <|
  SimM.kw (SimM.bind skip_sim fun _ => SimM.bind (convertExpr_sim n) fun _ => SimM.pure _) <|
  SimM.kw (SimM.bind skip_sim fun _ => SimM.bind skip_sim fun _ =>
    SimM.bind (columnNames_sim n) fun _ => SimM.bind (convertReference_sim n) fun _ =>
    SimM.pure _) (SimM.pure _)

theorem tableDefinitionLoop_sim [CaseMap] (isNum : Str → Bool) : ∀ n cols tc,
    SimM d acc (tableDefinitionLoop isNum n cols tc) (C.tableDefinitionLoop isNum d n cols tc) := by
  intro n
  induction n with
  | zero => exact fun _ _ => SimM.timeout
  | succ n ih =>
    intro cols tc
    exact SimM.kw (SimM.pure _) (SimM.bind
      (SimM.kw (SimM.bind (convertTableConstraint_sim (n + 1) tc) fun _ => SimM.pure _)
        (SimM.bind (convertColumnDefinition_sim isNum (n + 1)) fun _ => SimM.pure _))
      fun ct => SimM.kw (SimM.pure _) (SimM.bind skip_sim fun _ => ih _ _))

theorem convertTableDefinition_sim [CaseMap] (isNum : Str → Bool) (n : Nat) :
    SimM d acc (convertTableDefinition isNum n) (C.convertTableDefinition isNum d n) :=
  SimM.bind skip_sim fun _ => SimM.bind (tableDefinitionLoop_sim isNum n [] {}) fun _ =>
    SimM.bind skip_sim fun _ => SimM.pure _

/-- converter.go:150-154: the test `c.size > c.i` changes nothing. -/
theorem semicolon_sim : SimM d acc
    (ifM inRange (ifM (matchToken [";"]) skip (OM.pure ())) (OM.pure ()))
    (C.ifM (C.matchToken [";"]) C.skip (CM.pure ())) := by
  intro c rest h
  cases rest with
  | nil =>
    rw [ifM_false (l' := c) (by
      rw [inRange, decide_eq_false (by have := h.pos.oob_nil; omega)])]
    exact .ok () h
  | cons x xs =>
    rw [ifM_true (l' := c) (by
      rw [inRange, decide_eq_true (by have := h.pos.oob_cons; omega)])]
    exact SimM.kw skip_sim (SimM.pure ()) c _ h

theorem convertTable_sim [CaseMap] (isNum : Str → Bool) (n : Nat) :
    SimM d acc (convertTable isNum n) (C.convertTable isNum d n) :=
  SimM.bind skip_sim fun _ => SimM.bind skip_sim fun _ =>
  SimM.bind (SimM.kw (SimM.bind skip_sim fun _ => SimM.bind skip_sim fun _ =>
    SimM.bind skip_sim fun _ => SimM.pure _) (SimM.pure _)) fun _ =>
  SimM.bind convertTableName_sim fun _ =>
  SimM.bind (convertTableDefinition_sim isNum n) fun _ =>
  SimM.bind semicolon_sim fun _ => SimM.pure _

/-- `convert`: the tables are collected in the object instead of an argument. -/
theorem convert_sim [CaseMap] (isNum : Str → Bool) : ∀ n acc (c : Converter) rest, R d acc c rest →
    match convert isNum n c, C.convert isNum d n acc rest with
    | .ok _ c', .ok ts _ => c'.result = ts ∧ c'.rdbms = d
    | .panic, .panic => True
    | .timeout, .timeout => True
    | _, _ => False := by
  intro n
  induction n with
  | zero => exact fun _ _ _ _ => trivial
  | succ n ih =>
    intro acc c rest h
    cases rest with
    | nil =>
      rw [convert, ifM_true (l' := c) (by rw [isOutOfRange, outOfRange_eq h]; rfl)]
      exact ⟨h.result, h.rdbms⟩
    | cons x xs =>
      rw [convert, ifM_false (l' := c) (by rw [isOutOfRange, outOfRange_eq h]; rfl)]
      have e : C.convert isNum d (n + 1) acc (x :: xs) =
          ((C.convertTable isNum d (n + 1)).bind fun t => C.convert isNum d n (acc ++ [t]))
            (x :: xs) := rfl
      rw [e]
      have hs := convertTable_sim (d := d) (acc := acc) isNum (n + 1) c (x :: xs) h
      unfold OM.bind CM.bind
      revert hs
      generalize convertTable isNum (n + 1) c = a
      generalize C.convertTable isNum d (n + 1) (x :: xs) = b
      intro hs
      cases hs with
      | ok t h =>
        refine ih (acc ++ [t]) _ _ ⟨h.rdbms, h.pos, ?_⟩
        show _ ++ [t] = _
        rw [h.result]
      | panic => trivial
      | timeout => trivial

/-- `Convert` on any object is `Convert` of the list model; the object keeps its dialect. -/
theorem Convert_eq [CaseMap] (isNum : Str → Bool) (n : Nat) (tokens : List Str) (c : Converter) :
    match Convert isNum n tokens c with
    | .ok ts c' => convertN isNum c.rdbms n tokens = .ok ts ∧ c'.rdbms = c.rdbms
    | .fail _ _ => False
    | .panic => convertN isNum c.rdbms n tokens = .panic
    | .timeout => convertN isNum c.rdbms n tokens = .timeout := by
  have hs := convert_sim (d := c.rdbms) isNum n [] (init tokens c) tokens
    ⟨rfl, At.start tokens, rfl⟩
  unfold Convert convertN
  revert hs
  generalize convert isNum n (init tokens c) = x
  generalize C.convert isNum c.rdbms n [] tokens = y
  intro hs
  cases x <;> cases y <;> first | exact hs.elim | rfl | skip
  exact ⟨by rw [hs.1], hs.2⟩

end Converter

/-- The parser made of the three Go objects is the parser of the list model. -/
theorem parseN_eq [CaseMap] (isNum : Str → Bool) (n : Nat) (ddl : List Char) (d : Rdbms) :
    parseN isNum n ddl d = DDL.parseN isNum n ddl d := by
  unfold parseN DDL.parseN
  have h1 := Lexer.Lex_eq n ddl (Lexer.new d)
  revert h1
  generalize (Lexer.new d).Lex n ddl = x
  cases x with
  | fail e l => intro h1; rw [show DDL.Lex.lexN d n ddl = _ from h1.1]
  | panic => intro h1; rw [show DDL.Lex.lexN d n ddl = _ from h1]
  | timeout => intro h1; rw [show DDL.Lex.lexN d n ddl = _ from h1]
  | ok tokens l =>
    intro h1
    rw [show DDL.Lex.lexN d n ddl = _ from h1.1]
    dsimp only
    have h2 := Validator.Validate_eq isNum d n tokens Validator.new
    revert h2
    generalize Validator.new.Validate isNum d n tokens = y
    cases y with
    | fail e l => intro h2; dsimp only at h2; rw [h2]
    | panic => intro h2; dsimp only at h2; rw [h2]
    | timeout => intro h2; dsimp only at h2; rw [h2]
    | ok vts v =>
      intro h2
      dsimp only at h2
      rw [h2]
      dsimp only
      have h3 := Converter.Convert_eq isNum n vts (Converter.new d)
      revert h3
      generalize (Converter.new d).Convert isNum n vts = z
      cases z with
      | fail e l => intro h3; exact h3.elim
      | panic => intro h3; rw [show convertN isNum d n vts = _ from h3]
      | timeout => intro h3; rw [show convertN isNum d n vts = _ from h3]
      | ok ts c => intro h3; rw [show convertN isNum d n vts = _ from h3.1]

end DDL.Obj

import Verif.Proof.GoBase
import Verif.Proof.Lexer
/-
The methods of the lexer, from their syntax trees: what they do is what the model says.
-/

set_option linter.unusedSectionVars false

namespace DDL.Src
open DDL Lex

/-- The fields of a lexer that has read `p` of the text and has `rest` to read. -/
def encL (d : Rdbms) (p rest : List Char) (line : Nat) (res : List Str) : State :=
  [(.rdbms, .rdbms d), (.ddlr, .runes (p ++ rest)), (.size, .int (p ++ rest).length), (.i, .int p.length),
    (.line, .int line), (.result, .strs res)]

section
variable (d : Rdbms) (p rest : List Char) (line : Nat) (res : List Str)

theorem encL_rdbms : look .rdbms (encL d p rest line res) = some (.rdbms d) := rfl
theorem encL_ddlr : look .ddlr (encL d p rest line res) = some (.runes (p ++ rest)) := rfl
theorem encL_size : look .size (encL d p rest line res) = some (.int (p ++ rest).length) := rfl
theorem encL_i : look .i (encL d p rest line res) = some (.int p.length) := rfl
theorem encL_line : look .line (encL d p rest line res) = some (.int line) := rfl
theorem encL_result : look .result (encL d p rest line res) = some (.strs res) := rfl
theorem encL_setLine : upd .line (.int (line + 1)) (encL d p rest line res) = some (encL d p rest (line + 1) res) := rfl
theorem encL_setResult (r : List Str) : upd .result (.strs r) (encL d p rest line res) = some (encL d p rest line r) := rfl
theorem encL_inc (c : Char) : upd .i (.int (p.length + 1)) (encL d p (c :: rest) line res) = some (encL d (p ++ [c]) rest line res) := by
  simp [encL, upd]
theorem encL_dec (c : Char) : upd .i (.int ((p ++ [c]).length - 1)) (encL d (p ++ [c]) rest line res) =
    some (encL d p (c :: rest) line res) := by
  simp [encL, upd]

variable [CaseMap] (isNum : Str → Bool)

theorem go_lx_isOutOfRange : go isNum .lx_isOutOfRange [] (encL d p rest line res) = .ok (.bool rest.isEmpty) [] (encL d p rest line res) := by
  rw [go_def isNum _ Tree.lx_isOutOfRange rfl _ _ _ rfl]
  simp only [Tree.lx_isOutOfRange]
  go_simp [encL_i, encL_size]
  congr 2
  cases rest with
  | nil => simp; omega
  | cons c r => simp; omega

theorem go_lx_char_nil : go isNum .lx_char [] (encL d p [] line res) = .ok (.str EOF) [] (encL d p [] line res) := by
  rw [go_def isNum _ Tree.lx_char rfl _ _ _ rfl]
  simp only [Tree.lx_char]
  go_simp [go_lx_isOutOfRange, List.isEmpty_nil]
  rfl

theorem go_lx_char (c : Char) : go isNum .lx_char [] (encL d p (c :: rest) line res) = .ok (.str [c]) [] (encL d p (c :: rest) line res) := by
  rw [go_def isNum _ Tree.lx_char rfl _ _ _ rfl]
  simp only [Tree.lx_char]
  go_simp [go_lx_isOutOfRange, List.isEmpty_cons, encL_ddlr, encL_i]
  simp only [Val.index]
  rw [if_neg (by omega)]
  simp only [Int.toNat_natCast, List.getElem?_append_right, Nat.le_refl, Nat.sub_self, List.getElem?_cons_zero]
  go_simp

theorem go_lx_next_nil : go isNum .lx_next [] (encL d p [] line res) = .ok (.str EOF) [] (encL d p [] line res) := by
  rw [go_def isNum _ Tree.lx_next rfl _ _ _ rfl]
  simp only [Tree.lx_next]
  go_simp [go_lx_isOutOfRange, List.isEmpty_nil]
  rfl

theorem go_lx_next (c : Char) : go isNum .lx_next [] (encL d p (c :: rest) line res) = .ok (.str [c]) [] (encL d (p ++ [c]) rest line res) := by
  rw [go_def isNum _ Tree.lx_next rfl _ _ _ rfl]
  simp only [Tree.lx_next]
  go_simp [go_lx_isOutOfRange, List.isEmpty_cons, go_lx_char, encL_i, encL_inc]

theorem go_lx_appendToken (t : Str) : go isNum .lx_appendToken [.str t] (encL d p rest line res) =
    .ok (.tuple []) [] (encL d p rest line (res ++ flush t)) := by
  rw [go_def isNum _ Tree.lx_appendToken rfl _ _ _ rfl]
  simp only [Tree.lx_appendToken]
  go_simp
  cases t with
  | nil =>
    rw [decide_eq_true (by rfl)]
    go_simp
    simp [flush]
  | cons c t =>
    rw [decide_eq_false (by exact fun h => nomatch h)]
    go_simp [encL_result, encL_setResult]
    simp [flush]

theorem go_lx_lexError_nil : go isNum .lx_lexError [] (encL d p [] line res) = .ok (.err line EOF) [] (encL d p [] line res) := by
  rw [go_def isNum _ Tree.lx_lexError rfl _ _ _ rfl]
  simp only [Tree.lx_lexError]
  go_simp [encL_line, go_lx_char_nil, go_NewValidateError]

theorem go_lx_lexError (c : Char) : go isNum .lx_lexError [] (encL d p (c :: rest) line res) =
    .ok (.err line [c]) [] (encL d p (c :: rest) line res) := by
  rw [go_def isNum _ Tree.lx_lexError rfl _ _ _ rfl]
  simp only [Tree.lx_lexError]
  go_simp [encL_line, go_lx_char, go_NewValidateError]

theorem go_lx_init (ddl : Str) (a b c e f : Val) : go isNum .lx_init [.str ddl]
    [(.rdbms, .rdbms d), (.ddlr, a), (.size, b), (.i, c), (.line, e), (.result, f)] =
    .ok (.tuple []) [] (encL d [] ddl 1 []) := by
  rw [go_def isNum _ Tree.lx_init rfl _ _ _ rfl]
  simp only [Tree.lx_init]
  go_simp
  rfl

theorem chr (a b : Char) : decide ([a] = [b]) = decide (a = b) := by simp
theorem eof_ne (b : Char) : decide (EOF = [b]) = false := decide_eq_false fun h => absurd (congrArg List.length h) (by show ¬ (5 = 1); decide)

theorem S_1 : S "-" = ['-'] := rfl
theorem S_2 : S "/" = ['/'] := rfl
theorem S_3 : S "*" = ['*'] := rfl
theorem S_4 : S "\"" = ['"'] := rfl
theorem S_5 : S "'" = ['\''] := rfl
theorem S_6 : S "`" = ['`'] := rfl
theorem S_7 : S "#" = ['#'] := rfl
theorem S_8 : S " " = [' '] := rfl
theorem S_9 : S "\t" = ['\t'] := rfl
theorem S_10 : S "\n" = ['\n'] := rfl
theorem S_11 : S "(" = ['('] := rfl
theorem S_12 : S ")" = [')'] := rfl
theorem S_13 : S "," = [','] := rfl
theorem S_14 : S "." = ['.'] := rfl
theorem S_15 : S ";" = [';'] := rfl
theorem S_16 : S "　" = [Char.ofNat 0x3000] := rfl
theorem S_17 : S "" = [] := rfl
theorem flush_one (c : Char) : flush [c] = [[c]] := rfl

/-- Symbolic execution of the lexer. -/
macro "lx_simp" "[" ls:Lean.Parser.Tactic.simpLemma,* "]" : tactic => `(tactic| go_simp [chr, eof_ne, S_1, S_2, S_3, S_4, S_5, S_6,
  S_7, S_8, S_9, S_10, S_11, S_12, S_13, S_14, S_15, S_16, S_17, encL_rdbms, encL_size, encL_i, encL_line, encL_result, encL_setLine,
  encL_dec, go_lx_isOutOfRange, List.isEmpty_nil, List.isEmpty_cons, go_lx_char_nil, go_lx_char, go_lx_next_nil, go_lx_next,
  go_lx_appendToken, go_lx_lexError_nil, go_lx_lexError, decide_true, decide_false, flush_one, Char.reduceEq, $ls,*])

/-! ### loops -/

/-- The first part of a statement. -/
def Stmt.one : Stmt → Stmt
  | .seq a _ => a
  | a => a

/-- The rest of a statement. -/
def Stmt.two : Stmt → Stmt
  | .seq _ b => b
  | a => a

theorem ex_loopOf (L : Stmt) (c : Expr) (b : Stmt) (h : L = .loop c b) (vs : Locals) (s : State) :
    exe isNum L vs s = (eval isNum (go isNum) c vs s).into fun v vs s =>
    branch v (fun vs s => (exe isNum b vs s).into fun r vs s => r.again (exe isNum L) vs s) (Act.pure .next) vs s := by
  subst h
  exact ex_loop ..

/-- The loop of `skipComment`. -/
def scLoop : Stmt := Tree.lx_skipComment.body.two.one
/-- What comes after it. -/
def scRest : Stmt := Tree.lx_skipComment.body.two.two
/-- The loop of `skipMultiLineComment`. -/
def smLoop : Stmt := Tree.lx_skipMultiLineComment.body.two.two.one
def smRest : Stmt := Tree.lx_skipMultiLineComment.body.two.two.two

theorem loop_skipComment (n : Nat) : ∀ (p rest : List Char) (line : Nat) (res : List Str) (s' : LS) (vs : Locals),
    skipCommentLoop n ⟨rest, line, res⟩ = .ok () s' →
    ∃ p', exe isNum (.seq scLoop scRest) vs (encL d p rest line res) =
      .ok (.ret (.tuple [])) vs (encL d p' s'.rest s'.line s'.result) := by
  induction n with
  | zero => intro p rest line res s' vs h; exact nomatch h
  | succ n ih =>
    intro p rest line res s' vs h
    rw [ex_seq, ex_loopOf isNum scLoop _ _ rfl]
    cases rest with
    | nil =>
      rw [skipCommentLoop_nil] at h
      obtain rfl : _ = s' := by injection h
      lx_simp []
      simp only [scRest, Tree.lx_skipComment, Stmt.two]
      lx_simp []
      exact ⟨_, rfl⟩
    | cons c r =>
      rw [skipCommentLoop_cons] at h
      by_cases hc : c = '\n'
      · rw [if_pos hc] at h
        obtain rfl : _ = s' := by injection h
        lx_simp [hc]
        simp only [scRest, Tree.lx_skipComment, Stmt.two]
        lx_simp []
        exact ⟨_, rfl⟩
      · rw [if_neg hc] at h
        obtain ⟨p', h'⟩ := ih (p ++ [c]) r line res s' vs h
        rw [ex_seq] at h'
        lx_simp [hc]
        exact ⟨p', h'⟩

theorem go_lx_skipComment {n : Nat} {s' : LS} (h : skipComment n ⟨rest, line, res⟩ = .ok () s') :
    ∃ p', go isNum .lx_skipComment [] (encL d p rest line res) =
      .ok (.tuple []) [] (encL d p' s'.rest s'.line s'.result) := by
  rw [go_def isNum _ Tree.lx_skipComment rfl _ _ _ rfl]
  have hb : Tree.lx_skipComment.body = .seq _ (.seq scLoop scRest) := rfl
  have h : skipCommentLoop n ⟨rest.tail, line, res⟩ = .ok () s' := h
  rw [hb]
  cases rest with
  | nil =>
    obtain ⟨p', h'⟩ := loop_skipComment d isNum n p [] line res s' [] h
    rw [ex_seq] at h'
    lx_simp []
    rw [h']
    exact ⟨p', rfl⟩
  | cons c r =>
    obtain ⟨p', h'⟩ := loop_skipComment d isNum n (p ++ [c]) r line res s' [] h
    rw [ex_seq] at h'
    lx_simp []
    rw [h']
    exact ⟨p', rfl⟩

/-- The end of a function that returns an error or nil. -/
def EndsE (d : Rdbms) (r : Res LS α) (o : Out Ctl) : Prop :=
  match r with
  | .ok _ s => ∃ p vs, o = .ok (.ret .nil) vs (encL d p s.rest s.line s.result)
  | .fail e s => ∃ p vs, o = .ok (.ret (.err e.line e.near)) vs (encL d p s.rest s.line s.result)
  | _ => True

/-- An answer: an error or nil. -/
def AnsE (d : Rdbms) (r : Res LS α) (o : Ret) : Prop :=
  match r with
  | .ok _ s => ∃ p, o = .ok .nil [] (encL d p s.rest s.line s.result)
  | .fail e s => ∃ p, o = .ok (.err e.line e.near) [] (encL d p s.rest s.line s.result)
  | _ => True

theorem EndsE.ans {d : Rdbms} {r : Res LS α} {o : Out Ctl} (h : EndsE d r o) : AnsE d r (finish [] o) := by
  cases r with
  | ok a s => obtain ⟨p, vs, rfl⟩ := h; exact ⟨p, rfl⟩
  | fail e s => obtain ⟨p, vs, rfl⟩ := h; exact ⟨p, rfl⟩
  | _ => trivial

theorem go_skipMulti : go isNum .lx_skipMultiLineComment [] (encL d p rest line res) =
    finish [] (exe isNum (.seq smLoop smRest) [(.c, .str [])] (encL d (p ++ rest.take 1) rest.tail line res)) := by
  rw [go_def isNum _ Tree.lx_skipMultiLineComment rfl _ _ _ rfl]
  have hb : Tree.lx_skipMultiLineComment.body = .seq _ (.seq _ (.seq smLoop smRest)) := rfl
  rw [hb]
  cases rest with
  | nil =>
    rw [List.take_nil, List.append_nil, List.tail_nil]
    lx_simp []
    rfl
  | cons c r =>
    rw [List.take_succ_cons, List.take_zero, List.tail_cons]
    lx_simp []
    rfl

theorem loop_skipMulti (n : Nat) : ∀ (p rest : List Char) (line : Nat) (res : List Str) (v : Val),
    EndsE d (skipMultiLoop n ⟨rest, line, res⟩) (exe isNum (.seq smLoop smRest) [(.c, v)] (encL d p rest line res)) := by
  induction n with
  | zero => intro p rest line res v; trivial
  | succ n ih =>
    intro p rest line res v
    rw [ex_seq, ex_loopOf isNum smLoop _ _ rfl]
    cases rest with
    | nil =>
      rw [skipMultiLoop_nil]
      lx_simp []
      simp only [smRest, Tree.lx_skipMultiLineComment, Stmt.two]
      lx_simp []
      exact ⟨_, _, rfl⟩
    | cons c r =>
      rw [skipMultiLoop_cons]
      by_cases hc : c = '\n'
      · rw [if_pos hc]
        have := ih (p ++ [c]) r (line + 1) (res ++ [nl]) (.str [c])
        rw [ex_seq] at this
        subst hc
        lx_simp []
        exact this
      by_cases h1 : c = '*'
      · rw [if_neg hc, if_pos h1]
        subst h1
        cases r with
        | nil =>
          have := ih (p ++ ['*']) [] line res (.str ['*'])
          rw [ex_seq] at this
          lx_simp [hc]
          exact this
        | cons a r =>
          by_cases ha : a = '/'
          · subst ha
            lx_simp [hc]
            exact ⟨_, _, rfl⟩
          · have := ih (p ++ ['*'] ++ [a]) r line res (.str ['*'])
            rw [ex_seq] at this
            lx_simp [hc, ha]
            rw [if_neg (by simpa using ha)]
            exact this
      by_cases h2 : c = '/'
      · rw [if_neg hc, if_neg h1, if_pos h2]
        subst h2
        cases r with
        | nil =>
          have := ih (p ++ ['/']) [] line res (.str ['/'])
          rw [ex_seq] at this
          lx_simp [hc, h1]
          exact this
        | cons a r =>
          by_cases ha : a = '*'
          · subst ha
            have := ih (p ++ ['/'] ++ ['*']) r line res (.str [])
            lx_simp [hc, h1]
            rw [go_skipMulti]
            revert this
            simp only [List.tail_cons, List.take_succ_cons, List.take_zero]
            generalize exe isNum (.seq smLoop smRest) _ _ = o
            cases skipMultiLoop n ⟨r, line, res⟩ with
            | ok b s => rintro ⟨p, vs, rfl⟩; exact ⟨_, _, rfl⟩
            | fail e s => rintro ⟨p, vs, rfl⟩; exact ⟨_, _, rfl⟩
            | _ => exact fun _ => trivial
          · have := ih (p ++ ['/'] ++ [a]) r line res (.str ['/'])
            rw [ex_seq] at this
            lx_simp [hc, h1, ha]
            exact this
      · rw [if_neg hc, if_neg h1, if_neg h2]
        have := ih (p ++ [c]) r line res (.str [c])
        rw [ex_seq] at this
        lx_simp [hc, h1, h2]
        exact this

theorem go_lx_skipMulti (n : Nat) : AnsE d (skipMultiLineComment n ⟨rest, line, res⟩)
    (go isNum .lx_skipMultiLineComment [] (encL d p rest line res)) := by
  rw [go_skipMulti]
  exact (loop_skipMulti d isNum n (p ++ rest.take 1) rest.tail line res (.str [])).ans

/-! ### strings -/

/-- The loops of the three string functions. -/
def dqLoop : Stmt := Tree.lx_lexStringDoubleQuote.body.two.two.two.one
def sqLoop : Stmt := Tree.lx_lexStringSingleQuote.body.two.two.two.one
def bqLoop : Stmt := Tree.lx_lexStringBackQuote.body.two.two.two.one
/-- What comes after the loop, in all three. -/
def strRest : Stmt := Tree.lx_lexStringDoubleQuote.body.two.two.two.two

/-- The function and the loop for a quote. -/
inductive Quote : Char → Fn → Stmt → Prop
  | dq : Quote '"' .lx_lexStringDoubleQuote dqLoop
  | sq : Quote '\'' .lx_lexStringSingleQuote sqLoop
  | bq : Quote '`' .lx_lexStringBackQuote bqLoop

theorem go_quote {q : Char} {f : Fn} {L : Stmt} (h : Quote q f L) : go isNum f [] (encL d p rest line res) =
    finish [] (exe isNum (.seq L strRest) [(.c, .str []), (.str, .str [q])] (encL d (p ++ rest.take 1) rest.tail line res)) := by
  cases h with
  | dq =>
    rw [go_def isNum _ Tree.lx_lexStringDoubleQuote rfl _ _ _ rfl]
    have hb : Tree.lx_lexStringDoubleQuote.body = .seq _ (.seq _ (.seq _ (.seq dqLoop strRest))) := rfl
    rw [hb]
    cases rest with
    | nil => rw [List.take_nil, List.append_nil, List.tail_nil]; lx_simp []; rfl
    | cons c r => rw [List.take_succ_cons, List.take_zero, List.tail_cons]; lx_simp []; rfl
  | sq =>
    rw [go_def isNum _ Tree.lx_lexStringSingleQuote rfl _ _ _ rfl]
    have hb : Tree.lx_lexStringSingleQuote.body = .seq _ (.seq _ (.seq _ (.seq sqLoop strRest))) := rfl
    rw [hb]
    cases rest with
    | nil => rw [List.take_nil, List.append_nil, List.tail_nil]; lx_simp []; rfl
    | cons c r => rw [List.take_succ_cons, List.take_zero, List.tail_cons]; lx_simp []; rfl
  | bq =>
    rw [go_def isNum _ Tree.lx_lexStringBackQuote rfl _ _ _ rfl]
    have hb : Tree.lx_lexStringBackQuote.body = .seq _ (.seq _ (.seq _ (.seq bqLoop strRest))) := rfl
    rw [hb]
    cases rest with
    | nil => rw [List.take_nil, List.append_nil, List.tail_nil]; lx_simp []; rfl
    | cons c r => rw [List.take_succ_cons, List.take_zero, List.tail_cons]; lx_simp []; rfl

/-- The end of a function that returns a string and an error. -/
def EndsS (d : Rdbms) (r : Res LS Str) (o : Out Ctl) : Prop :=
  match r with
  | .ok t s => ∃ p vs, o = .ok (.ret (.tuple [.str t, .nil])) vs (encL d p s.rest s.line s.result)
  | .fail e s => ∃ p vs w, o = .ok (.ret (.tuple [.str w, .err e.line e.near])) vs (encL d p s.rest s.line s.result)
  | _ => True

/-- An answer: a string and an error. -/
def AnsS (d : Rdbms) (r : Res LS Str) (o : Ret) : Prop :=
  match r with
  | .ok t s => ∃ p, o = .ok (.tuple [.str t, .nil]) [] (encL d p s.rest s.line s.result)
  | .fail e s => ∃ p w, o = .ok (.tuple [.str w, .err e.line e.near]) [] (encL d p s.rest s.line s.result)
  | _ => True

theorem EndsS.ans {d : Rdbms} {r : Res LS Str} {o : Out Ctl} (h : EndsS d r o) : AnsS d r (finish [] o) := by
  cases r with
  | ok a s => obtain ⟨p, vs, rfl⟩ := h; exact ⟨p, rfl⟩
  | fail e s => obtain ⟨p, vs, w, rfl⟩ := h; exact ⟨p, w, rfl⟩
  | _ => trivial

/-- What is claimed about the loops. -/
def LoopS (n : Nat) : Prop := ∀ {q : Char} {f : Fn} {L : Stmt}, Quote q f L →
  ∀ (p rest : List Char) (line : Nat) (res : List Str) (v : Val) (str : Str),
    EndsS d (lexStringLoop n q str ⟨rest, line, res⟩)
      (exe isNum (.seq L strRest) [(.c, v), (.str, .str str)] (encL d p rest line res))

/-- One round of the loop. -/
macro "lx_enter" : tactic => `(tactic| (rw [ex_seq]; first | rw [ex_loopOf _ dqLoop _ _ rfl] | rw [ex_loopOf _ sqLoop _ _ rfl] |
  rw [ex_loopOf _ bqLoop _ _ rfl]))

theorem loop_string_nil {n : Nat} {q : Char} {f : Fn} {L : Stmt} (h : Quote q f L) (v : Val) (str : Str) :
    EndsS d (lexStringLoop (n + 1) q str ⟨[], line, res⟩)
      (exe isNum (.seq L strRest) [(.c, v), (.str, .str str)] (encL d p [] line res)) := by
  rw [lexStringLoop_nil]
  cases h <;>
  · lx_enter
    lx_simp []
    simp only [strRest, Tree.lx_lexStringDoubleQuote, Stmt.two]
    lx_simp []
    exact ⟨_, _, _, rfl⟩

theorem loop_string_newline {n : Nat} (ih : LoopS d isNum n) {q : Char} {f : Fn} {L : Stmt} (h : Quote q f L) (v : Val) (str : Str) :
    EndsS d (lexStringLoop (n + 1) q str ⟨'\n' :: rest, line, res⟩)
      (exe isNum (.seq L strRest) [(.c, v), (.str, .str str)] (encL d p ('\n' :: rest) line res)) := by
  rw [lexStringLoop_cons, if_pos rfl]
  have := ih h (p ++ ['\n']) rest (line + 1) (res ++ [nl]) (.str ['\n']) str
  rw [ex_seq] at this
  cases h <;>
  · lx_enter
    lx_simp []
    exact this

theorem loop_string_close {n : Nat} {q : Char} {f : Fn} {L : Stmt} (h : Quote q f L) (v : Val) (str : Str) :
    EndsS d (lexStringLoop (n + 1) q str ⟨q :: rest, line, res⟩)
      (exe isNum (.seq L strRest) [(.c, v), (.str, .str str)] (encL d p (q :: rest) line res)) := by
  have hq : q ≠ '\n' := by cases h <;> decide
  rw [lexStringLoop_cons, if_neg hq, if_pos rfl]
  cases h <;>
  · lx_enter
    lx_simp [hq]
    exact ⟨_, _, rfl⟩

theorem loop_string_char {n : Nat} (ih : LoopS d isNum n) {q : Char} {f : Fn} {L : Stmt} (h : Quote q f L) (v : Val) (str : Str)
    {c : Char} (hc : c ≠ '\n') (h1 : c ≠ '"') (h2 : c ≠ '\'') (h3 : c ≠ '`') :
    EndsS d (lexStringLoop (n + 1) q str ⟨c :: rest, line, res⟩)
      (exe isNum (.seq L strRest) [(.c, v), (.str, .str str)] (encL d p (c :: rest) line res)) := by
  have hq : c ≠ q := by cases h <;> assumption
  have hi : isQuote c = false := by simp [isQuote, h1, h2, h3]
  rw [lexStringLoop_cons, if_neg hc, if_neg hq, hi]
  have := ih h (p ++ [c]) rest line res (.str [c]) (str ++ [c])
  rw [ex_seq] at this
  cases h <;>
  · lx_enter
    lx_simp [hc, h1, h2, h3]
    exact this

theorem loop_string_quote {n : Nat} (ih : LoopS d isNum n) {q : Char} {f : Fn} {L : Stmt} (h : Quote q f L) (v : Val) (str : Str)
    {q' : Char} {f' : Fn} {L' : Stmt} (h' : Quote q' f' L') (hq : q' ≠ q) :
    EndsS d (lexStringLoop (n + 1) q str ⟨q' :: rest, line, res⟩)
      (exe isNum (.seq L strRest) [(.c, v), (.str, .str str)] (encL d p (q' :: rest) line res)) := by
  have hc : q' ≠ '\n' := by cases h' <;> decide
  have hi : isQuote q' = true := by cases h' <;> rfl
  rw [lexStringLoop_cons, if_neg hc, if_neg hq, hi]
  simp only [if_true]
  have hg : AnsS d (lexStringLoop n q' [q'] ⟨rest, line, res⟩) (go isNum f' [] (encL d p (q' :: rest) line res)) := by
    rw [go_quote d p (q' :: rest) line res isNum h']
    exact (ih h' (p ++ [q']) rest line res (.str []) [q']).ans
  revert hg
  cases lexStringLoop n q' [q'] ⟨rest, line, res⟩ with
  | ok a s1 =>
    rintro ⟨p1, hg⟩
    obtain ⟨r1, l1, res1⟩ := s1
    cases r1 with
    | nil =>
      have := ih h p1 [] l1 res1 (.str [q']) (str ++ a)
      rw [ex_seq] at this
      cases h <;> cases h' <;> first | exact absurd rfl hq |
      · lx_enter
        lx_simp [hc, hg]
        exact this
    | cons a1 r1 =>
      have := ih h (p1 ++ [a1]) r1 l1 res1 (.str [q']) (str ++ a)
      rw [ex_seq] at this
      cases h <;> cases h' <;> first | exact absurd rfl hq |
      · lx_enter
        lx_simp [hc, hg]
        exact this
  | fail e s1 =>
    rintro ⟨p1, w, hg⟩
    cases h <;> cases h' <;> first | exact absurd rfl hq |
    · lx_enter
      lx_simp [hc, hg]
      exact ⟨_, _, _, rfl⟩
  | _ => exact fun _ => trivial

theorem loop_string (n : Nat) : LoopS d isNum n := by
  induction n with
  | zero => intro q f L h p rest line res v str; trivial
  | succ n ih =>
    intro q f L h p rest line res v str
    cases rest with
    | nil => exact loop_string_nil d p line res isNum h v str
    | cons c r =>
      by_cases hc : c = '\n'
      · subst hc; exact loop_string_newline d p r line res isNum ih h v str
      by_cases hq : c = q
      · subst hq; exact loop_string_close d p r line res isNum h v str
      by_cases h1 : c = '"'
      · subst h1; exact loop_string_quote d p r line res isNum ih h v str .dq hq
      by_cases h2 : c = '\''
      · subst h2; exact loop_string_quote d p r line res isNum ih h v str .sq hq
      by_cases h3 : c = '`'
      · subst h3; exact loop_string_quote d p r line res isNum ih h v str .bq hq
      exact loop_string_char d p r line res isNum ih h v str hc h1 h2 h3

theorem go_lx_lexString (n : Nat) {q : Char} {f : Fn} {L : Stmt} (h : Quote q f L) :
    AnsS d (lexString n q ⟨rest, line, res⟩) (go isNum f [] (encL d p rest line res)) := by
  rw [go_quote d p rest line res isNum h]
  exact (loop_string d isNum n h (p ++ rest.take 1) rest.tail line res (.str []) [q]).ans

/-! ### tokens -/

/-- An answer: an error or nil, and the new value of `*token`. -/
def AnsT (d : Rdbms) (r : Res LS Str) (o : Ret) : Prop :=
  match r with
  | .ok t s => ∃ p, o = .ok .nil [.str t] (encL d p s.rest s.line s.result)
  | .fail e s => ∃ p w, o = .ok (.err e.line e.near) [w] (encL d p s.rest s.line s.result)
  | _ => True

/-- An answer: the new value of `*token`. -/
def AnsU (d : Rdbms) (r : Res LS Str) (o : Ret) : Prop :=
  match r with
  | .ok t s => ∃ p, o = .ok (.tuple []) [.str t] (encL d p s.rest s.line s.result)
  | .fail _ _ => False
  | _ => True

theorem skipComment_ne_fail (n : Nat) : ∀ (rest : List Char) (line : Nat) (res : List Str) (e : VErr) (s : LS),
    skipCommentLoop n ⟨rest, line, res⟩ ≠ .fail e s := by
  induction n with
  | zero => intro rest line res e s h; exact nomatch h
  | succ n ih =>
    intro rest line res e s
    cases rest with
    | nil => rw [skipCommentLoop_nil]; exact fun h => nomatch h
    | cons c r =>
      rw [skipCommentLoop_cons]
      split
      · exact fun h => nomatch h
      · exact fun h => ih _ _ _ _ _ h

variable (n : Nat) (token : Str)

/-- The model, on a text with a first character. -/
macro "lx_model" "[" ls:Lean.Parser.Tactic.simpLemma,* "]" : tactic => `(tactic| simp only [bind_def, Lex.next, List.tail_cons, char, List.head?_cons,
  Option.some.injEq, if_true, if_false, ite_def, appendToken_def, pure_def, $ls,*])

theorem go_lx_lexHyphen : AnsT d (lexHyphen n token ⟨'-' :: rest, line, res⟩)
    (go isNum .lx_lexHyphen [.str token] (encL d p ('-' :: rest) line res)) := by
  rw [go_def isNum _ Tree.lx_lexHyphen rfl _ _ _ rfl]
  simp only [Tree.lx_lexHyphen]
  cases rest with
  | nil => lx_simp []; exact ⟨_, rfl⟩
  | cons c r =>
    by_cases hc : c = '-'
    · subst hc
      lx_model [lexHyphen]
      lx_simp []
      cases h : skipComment n ⟨'-' :: r, line, res ++ flush token⟩ with
      | ok a s =>
        obtain ⟨p', h'⟩ := go_lx_skipComment d (p ++ ['-']) _ _ _ isNum h
        lx_simp [h']
        exact ⟨_, rfl⟩
      | fail e s => exact absurd h (fun h => skipComment_ne_fail _ _ _ _ _ _ h)
      | _ => trivial
    · lx_model [lexHyphen, hc]
      lx_simp [hc]
      exact ⟨_, rfl⟩

theorem go_lx_lexSlash : AnsT d (lexSlash n token ⟨'/' :: rest, line, res⟩)
    (go isNum .lx_lexSlash [.str token] (encL d p ('/' :: rest) line res)) := by
  rw [go_def isNum _ Tree.lx_lexSlash rfl _ _ _ rfl]
  simp only [Tree.lx_lexSlash]
  cases rest with
  | nil => lx_simp []; exact ⟨_, rfl⟩
  | cons c r =>
    by_cases hc : c = '*'
    · subst hc
      lx_model [lexSlash]
      lx_simp []
      have hs := go_lx_skipMulti d (p ++ ['/']) ('*' :: r) line (res ++ flush token) isNum n
      revert hs
      cases skipMultiLineComment n ⟨'*' :: r, line, res ++ flush token⟩ with
      | ok a s =>
        rintro ⟨p', h'⟩
        lx_simp [h']
        exact ⟨_, rfl⟩
      | fail e s =>
        rintro ⟨p', h'⟩
        lx_simp [h']
        exact ⟨_, _, rfl⟩
      | _ => exact fun _ => trivial
    · lx_model [lexSlash, hc]
      lx_simp [hc]
      exact ⟨_, rfl⟩

theorem go_lx_lexAsterisk : AnsT d (lexAsterisk token ⟨'*' :: rest, line, res⟩)
    (go isNum .lx_lexAsterisk [.str token] (encL d p ('*' :: rest) line res)) := by
  rw [go_def isNum _ Tree.lx_lexAsterisk rfl _ _ _ rfl]
  simp only [Tree.lx_lexAsterisk]
  cases rest with
  | nil => lx_simp []; exact ⟨_, rfl⟩
  | cons c r =>
    by_cases hc : c = '/'
    · subst hc
      lx_model [lexAsterisk]
      lx_simp []
      exact ⟨_, _, rfl⟩
    · have hm : lexAsterisk token ⟨'*' :: c :: r, line, res⟩ = .ok (token ++ ['*']) ⟨c :: r, line, res⟩ :=
        congrFun (if_neg (c := some c = some '/') (by simpa using hc)) _
      rw [hm]
      lx_simp [hc]
      exact ⟨_, rfl⟩

theorem go_lx_lexDoubleQuote : AnsT d (lexQuote n '"' token ⟨'"' :: rest, line, res⟩)
    (go isNum .lx_lexDoubleQuote [.str token] (encL d p ('"' :: rest) line res)) := by
  rw [go_def isNum _ Tree.lx_lexDoubleQuote rfl _ _ _ rfl]
  simp only [Tree.lx_lexDoubleQuote]
  lx_model [lexQuote]
  lx_simp []
  have hs := go_lx_lexString d p ('"' :: rest) line (res ++ flush token) isNum n .dq
  revert hs
  cases lexString n '"' ⟨'"' :: rest, line, res ++ flush token⟩ with
  | ok a s => rintro ⟨p', h'⟩; lx_simp [h']; exact ⟨_, rfl⟩
  | fail e s => rintro ⟨p', w, h'⟩; lx_simp [h']; exact ⟨_, _, rfl⟩
  | _ => exact fun _ => trivial

theorem go_lx_lexSingleQuote : AnsT d (lexQuote n '\'' token ⟨'\'' :: rest, line, res⟩)
    (go isNum .lx_lexSingleQuote [.str token] (encL d p ('\'' :: rest) line res)) := by
  rw [go_def isNum _ Tree.lx_lexSingleQuote rfl _ _ _ rfl]
  simp only [Tree.lx_lexSingleQuote]
  lx_model [lexQuote]
  lx_simp []
  have hs := go_lx_lexString d p ('\'' :: rest) line (res ++ flush token) isNum n .sq
  revert hs
  cases lexString n '\'' ⟨'\'' :: rest, line, res ++ flush token⟩ with
  | ok a s => rintro ⟨p', h'⟩; lx_simp [h']; exact ⟨_, rfl⟩
  | fail e s => rintro ⟨p', w, h'⟩; lx_simp [h']; exact ⟨_, _, rfl⟩
  | _ => exact fun _ => trivial

theorem go_lx_lexBackQuote : AnsT d (lexBackQuote d n token ⟨'`' :: rest, line, res⟩)
    (go isNum .lx_lexBackQuote [.str token] (encL d p ('`' :: rest) line res)) := by
  rw [go_def isNum _ Tree.lx_lexBackQuote rfl _ _ _ rfl]
  simp only [Tree.lx_lexBackQuote]
  by_cases hd : d = .postgres
  · lx_model [lexBackQuote, hd]
    lx_simp [hd]
    exact ⟨_, _, rfl⟩
  · lx_model [lexBackQuote, hd, lexQuote]
    lx_simp [hd]
    have hs := go_lx_lexString d p ('`' :: rest) line (res ++ flush token) isNum n .bq
    revert hs
    cases lexString n '`' ⟨'`' :: rest, line, res ++ flush token⟩ with
    | ok a s => rintro ⟨p', h'⟩; lx_simp [h']; exact ⟨_, rfl⟩
    | fail e s => rintro ⟨p', w, h'⟩; lx_simp [h']; exact ⟨_, _, rfl⟩
    | _ => exact fun _ => trivial

theorem go_lx_lexSharp : AnsU d (lexSharp d n token ⟨'#' :: rest, line, res⟩)
    (go isNum .lx_lexSharp [.str token] (encL d p ('#' :: rest) line res)) := by
  rw [go_def isNum _ Tree.lx_lexSharp rfl _ _ _ rfl]
  simp only [Tree.lx_lexSharp]
  by_cases hd : d = .mysql
  · lx_model [lexSharp, hd]
    lx_simp [hd]
    cases h : skipComment n ⟨'#' :: rest, line, res ++ flush token⟩ with
    | ok a s =>
      obtain ⟨p', h'⟩ := go_lx_skipComment .mysql p _ _ _ isNum h
      lx_simp [h']
      exact ⟨_, rfl⟩
    | fail e s => exact absurd h (fun h => skipComment_ne_fail _ _ _ _ _ _ h)
    | _ => trivial
  · lx_model [lexSharp, hd]
    lx_simp [hd]
    exact ⟨_, rfl⟩

theorem go_lx_lexEOL : AnsU d (lexEOL token ⟨'\n' :: rest, line, res⟩)
    (go isNum .lx_lexEOL [.str token] (encL d p ('\n' :: rest) line res)) := by
  rw [go_def isNum _ Tree.lx_lexEOL rfl _ _ _ rfl]
  simp only [Tree.lx_lexEOL]
  rw [lexEOL_def]
  lx_simp []
  exact ⟨_, rfl⟩

theorem go_lx_lexSpace {c : Char} (hc : c = ' ' ∨ c = '\t') : AnsU d (lexSpace token ⟨c :: rest, line, res⟩)
    (go isNum .lx_lexSpace [.str token] (encL d p (c :: rest) line res)) := by
  rw [go_def isNum _ Tree.lx_lexSpace rfl _ _ _ rfl]
  simp only [Tree.lx_lexSpace]
  rw [lexSpace_def]
  rcases hc with rfl | rfl <;>
  · lx_simp []
    exact ⟨_, rfl⟩

theorem go_lx_lexSymbol {c : Char} (hc : isSymbol c = true) : AnsU d (lexSymbol c token ⟨c :: rest, line, res⟩)
    (go isNum .lx_lexSymbol [.str token] (encL d p (c :: rest) line res)) := by
  rw [go_def isNum _ Tree.lx_lexSymbol rfl _ _ _ rfl]
  simp only [Tree.lx_lexSymbol]
  rw [lexSymbol_def]
  have hc : c = '(' ∨ c = ')' ∨ c = ',' ∨ c = '.' ∨ c = ';' := by simpa [isSymbol, or_assoc] using hc
  rcases hc with rfl | rfl | rfl | rfl | rfl <;>
  · lx_simp []
    exact ⟨_, rfl⟩

/-! ### the main loop -/

/-- The loop of `lex`, and its parts. -/
def lxLoop : Stmt := Tree.lx_lex.body.two.one
def lxRest : Stmt := Tree.lx_lex.body.two.two
def Stmt.inner : Stmt → Stmt
  | .loop _ (.block b) => b
  | a => a
def chain1 : Stmt := lxLoop.inner.two.one
def chain2 : Stmt := lxLoop.inner.two.two.two.two

/-- A statement that may return an error, and otherwise changes `token`. -/
def Goes (d : Rdbms) (v : Val) (r : Res LS Str) (o : Out Ctl) : Prop :=
  match r with
  | .ok t s => ∃ p, o = .ok .next [(.c, v), (.token, .str t)] (encL d p s.rest s.line s.result)
  | .fail e s => ∃ p vs, o = .ok (.ret (.err e.line e.near)) vs (encL d p s.rest s.line s.result)
  | _ => True

theorem go_chain1 (c : Char) : Goes d (.str [c]) (phase1 n token ⟨c :: rest, line, res⟩)
    (exe isNum chain1 [(.c, .str [c]), (.token, .str token)] (encL d p (c :: rest) line res)) := by
  simp only [chain1, lxLoop, Tree.lx_lex, Stmt.two, Stmt.one, Stmt.inner]
  by_cases h1 : c = '-'
  · subst h1
    lx_model [phase1]
    have hs := go_lx_lexHyphen d p rest line res isNum n token
    revert hs
    cases lexHyphen n token ⟨'-' :: rest, line, res⟩ with
    | ok t s => rintro ⟨p', h'⟩; lx_simp [h']; exact ⟨_, rfl⟩
    | fail e s => rintro ⟨p', w, h'⟩; lx_simp [h']; exact ⟨_, _, rfl⟩
    | _ => exact fun _ => trivial
  by_cases h2 : c = '/'
  · subst h2
    lx_model [phase1, h1]
    have hs := go_lx_lexSlash d p rest line res isNum n token
    revert hs
    cases lexSlash n token ⟨'/' :: rest, line, res⟩ with
    | ok t s => rintro ⟨p', h'⟩; lx_simp [h']; exact ⟨_, rfl⟩
    | fail e s => rintro ⟨p', w, h'⟩; lx_simp [h']; exact ⟨_, _, rfl⟩
    | _ => exact fun _ => trivial
  by_cases h3 : c = '*'
  · subst h3
    lx_model [phase1, h1, h2]
    have hs := go_lx_lexAsterisk d p rest line res isNum token
    revert hs
    cases lexAsterisk token ⟨'*' :: rest, line, res⟩ with
    | ok t s => rintro ⟨p', h'⟩; lx_simp [h']; exact ⟨_, rfl⟩
    | fail e s => rintro ⟨p', w, h'⟩; lx_simp [h']; exact ⟨_, _, rfl⟩
    | _ => exact fun _ => trivial
  lx_model [phase1, h1, h2, h3]
  lx_simp [h1, h2, h3]
  exact ⟨_, rfl⟩

theorem go_chain2 (c : Char) : Goes d (.str [c]) (phase2 d n c token ⟨c :: rest, line, res⟩)
    (exe isNum chain2 [(.c, .str [c]), (.token, .str token)] (encL d p (c :: rest) line res)) := by
  simp only [chain2, lxLoop, Tree.lx_lex, Stmt.two, Stmt.one, Stmt.inner]
  unfold phase2
  by_cases h1 : c = '"'
  · subst h1
    have hs := go_lx_lexDoubleQuote d p rest line res isNum n token
    rw [if_pos rfl]
    revert hs
    cases lexQuote n '"' token ⟨'"' :: rest, line, res⟩ with
    | ok t s => rintro ⟨p', h'⟩; lx_simp [h']; exact ⟨_, rfl⟩
    | fail e s => rintro ⟨p', w, h'⟩; lx_simp [h']; exact ⟨_, _, rfl⟩
    | _ => exact fun _ => trivial
  by_cases h2 : c = '\''
  · subst h2
    have hs := go_lx_lexSingleQuote d p rest line res isNum n token
    rw [if_neg h1, if_pos rfl]
    revert hs
    cases lexQuote n '\'' token ⟨'\'' :: rest, line, res⟩ with
    | ok t s => rintro ⟨p', h'⟩; lx_simp [h']; exact ⟨_, rfl⟩
    | fail e s => rintro ⟨p', w, h'⟩; lx_simp [h']; exact ⟨_, _, rfl⟩
    | _ => exact fun _ => trivial
  by_cases h3 : c = '`'
  · subst h3
    have hs := go_lx_lexBackQuote d p rest line res isNum n token
    rw [if_neg h1, if_neg h2, if_pos rfl]
    revert hs
    cases lexBackQuote d n token ⟨'`' :: rest, line, res⟩ with
    | ok t s => rintro ⟨p', h'⟩; lx_simp [h']; exact ⟨_, rfl⟩
    | fail e s => rintro ⟨p', w, h'⟩; lx_simp [h']; exact ⟨_, _, rfl⟩
    | _ => exact fun _ => trivial
  by_cases h4 : c = '#'
  · subst h4
    have hs := go_lx_lexSharp d p rest line res isNum n token
    rw [if_neg h1, if_neg h2, if_neg h3, if_pos rfl]
    revert hs
    cases lexSharp d n token ⟨'#' :: rest, line, res⟩ with
    | ok t s => rintro ⟨p', h'⟩; lx_simp [h']; exact ⟨_, rfl⟩
    | fail e s => exact False.elim
    | _ => exact fun _ => trivial
  by_cases h5 : c = ' ' ∨ c = '\t'
  · have hs := go_lx_lexSpace d p rest line res isNum token h5
    rw [if_neg h1, if_neg h2, if_neg h3, if_neg h4, if_pos h5]
    rw [lexSpace_def] at hs ⊢
    obtain ⟨p', h'⟩ := hs
    rcases h5 with rfl | rfl <;>
    · lx_simp [h']
      exact ⟨_, rfl⟩
  have h5' : c ≠ ' ' ∧ c ≠ '\t' := not_or.mp h5
  by_cases h6 : c = '\n'
  · subst h6
    have hs := go_lx_lexEOL d p rest line res isNum token
    rw [if_neg h1, if_neg h2, if_neg h3, if_neg h4, if_neg h5, if_pos rfl]
    rw [lexEOL_def] at hs ⊢
    obtain ⟨p', h'⟩ := hs
    lx_simp [h']
    exact ⟨_, rfl⟩
  by_cases h7 : isSymbol c = true
  · have hs := go_lx_lexSymbol d p rest line res isNum token h7
    rw [if_neg h1, if_neg h2, if_neg h3, if_neg h4, if_neg h5, if_neg h6, if_pos h7]
    rw [lexSymbol_def] at hs ⊢
    obtain ⟨p', h'⟩ := hs
    have hc : c = '(' ∨ c = ')' ∨ c = ',' ∨ c = '.' ∨ c = ';' := by simpa [isSymbol, or_assoc] using h7
    rcases hc with rfl | rfl | rfl | rfl | rfl <;>
    · lx_simp [h']
      exact ⟨_, rfl⟩
  have h7' : c ≠ '(' ∧ c ≠ ')' ∧ c ≠ ',' ∧ c ≠ '.' ∧ c ≠ ';' := by simpa [isSymbol, and_assoc] using h7
  obtain ⟨g1, g2, g3, g4, g5⟩ := h7'
  rw [if_neg h1, if_neg h2, if_neg h3, if_neg h4, if_neg h5, if_neg h6, if_neg h7]
  by_cases h8 : c = Char.ofNat 0x3000
  · rw [if_pos h8]
    subst h8
    lx_simp []
    exact ⟨_, _, rfl⟩
  · rw [if_neg h8]
    lx_simp [h1, h2, h3, h4, h5'.1, h5'.2, h6, g1, g2, g3, g4, g5, h8]
    exact ⟨_, rfl⟩

theorem more_nil (p : List Char) : decide ((((p ++ []).length : Nat) : Int) > p.length) = false := by simp
theorem more_cons (p : List Char) (c : Char) (r : List Char) : decide ((((p ++ c :: r).length : Nat) : Int) > p.length) = true := by
  simp
  omega

theorem loop_lex (n : Nat) : ∀ (p rest : List Char) (line : Nat) (res : List Str) (token : Str),
    EndsE d (lexLoop d n token ⟨rest, line, res⟩) (exe isNum (.seq lxLoop lxRest) [(.token, .str token)] (encL d p rest line res)) := by
  induction n with
  | zero => intro p rest line res token; trivial
  | succ n ih =>
    intro p rest line res token
    rw [ex_seq, ex_loopOf isNum lxLoop _ (.block (.seq _ (.seq chain1 (.seq _ (.seq _ chain2))))) rfl]
    cases rest with
    | nil =>
      unfold lexLoop
      simp only [bind_def, isOutOfRange, ite_def, List.isEmpty_nil, if_true, appendToken_def]
      lx_simp [more_nil]
      simp only [lxRest, Tree.lx_lex, Stmt.two]
      lx_simp []
      exact ⟨_, _, rfl⟩
    | cons c r =>
      unfold lexLoop
      simp only [bind_def, isOutOfRange, ite_def, List.isEmpty_cons, if_false, Bool.false_eq_true]
      lx_simp [more_cons]
      have hs := go_chain1 d p r line res isNum n token c
      revert hs
      cases phase1 n token ⟨c :: r, line, res⟩ with
      | ok t s =>
        rintro ⟨p', h'⟩
        obtain ⟨r1, l1, res1⟩ := s
        cases r1 with
        | nil =>
          lx_simp [h']
          simp only [lxRest, Tree.lx_lex, Stmt.two]
          lx_model [List.head?_nil]
          lx_simp []
          exact ⟨_, _, rfl⟩
        | cons c1 r1 =>
          lx_model []
          lx_simp [h']
          have hs := go_chain2 d p' r1 l1 res1 isNum n t c1
          revert hs
          cases phase2 d n c1 t ⟨c1 :: r1, l1, res1⟩ with
          | ok t s =>
            rintro ⟨p', h'⟩
            lx_simp [h']
            have := ih p' s.rest s.line s.result t
            rw [ex_seq] at this
            exact this
          | fail e s =>
            rintro ⟨p', vs, h'⟩
            lx_simp [h']
            exact ⟨_, _, rfl⟩
          | _ => exact fun _ => trivial
      | fail e s =>
        rintro ⟨p', vs, h'⟩
        lx_simp [h']
        exact ⟨_, _, rfl⟩
      | _ => exact fun _ => trivial

theorem go_lx_lex : AnsE d (lexLoop d n [] ⟨rest, line, res⟩) (go isNum .lx_lex [] (encL d p rest line res)) := by
  rw [go_def isNum _ Tree.lx_lex rfl _ _ _ rfl]
  have hb : Tree.lx_lex.body = .seq _ (.seq lxLoop lxRest) := rfl
  rw [hb]
  have := (loop_lex d isNum n p rest line res []).ans
  rw [ex_seq] at this
  lx_simp []
  exact this

/-- `Lex`: lexer.go:62-68. -/
theorem go_lx_Lex (ddl : Str) (a b c e f : Val) :
    match lexN d n ddl with
    | .ok ts => ∃ s, go isNum .lx_Lex [.str ddl] [(.rdbms, .rdbms d), (.ddlr, a), (.size, b), (.i, c), (.line, e), (.result, f)] =
      .ok (.tuple [.strs ts, .nil]) [] s
    | .err er => ∃ s, go isNum .lx_Lex [.str ddl] [(.rdbms, .rdbms d), (.ddlr, a), (.size, b), (.i, c), (.line, e), (.result, f)] =
      .ok (.tuple [.strs [], .err er.line er.near]) [] s
    | _ => True := by
  rw [go_def isNum _ Tree.lx_Lex rfl _ _ _ rfl]
  simp only [Tree.lx_Lex]
  have hs := go_lx_lex d [] ddl 1 [] isNum n
  lx_simp [go_lx_init]
  unfold lexN Lex.init
  revert hs
  cases lexLoop d n [] ⟨ddl, 1, []⟩ with
  | ok t s => rintro ⟨p', h'⟩; lx_simp [h']; exact ⟨_, rfl⟩
  | fail e s => rintro ⟨p', h'⟩; lx_simp [h']; exact ⟨_, rfl⟩
  | _ => exact fun _ => trivial

end
end DDL.Src

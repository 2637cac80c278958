import Verif.Proof.AlikeParse
/-
The lexer does not look at the letter case: it commutes with every map of characters that keeps
the special characters apart from the others.
-/

namespace DDL.Lex
open DDL

/-- The characters the lexer looks at. -/
def special : List Char :=
  ['"', '\'', '`', '#', ' ', '\t', '\n', '(', ')', ',', '.', ';', '-', '/', '*', Char.ofNat 0x3000]

/-- `f` keeps special characters apart. -/
def Keeps (f : Char → Char) : Prop := ∀ q ∈ special, ∀ c, f c = q ↔ c = q

/-- The mode after mapping what was read. -/
def Mode.map (f : Char → Char) : Mode → Mode
  | .top t => .top (t.map f)
  | .p2 t => .p2 (t.map f)
  | .hyphen t => .hyphen (t.map f)
  | .slash t => .slash (t.map f)
  | .star t => .star (t.map f)
  | .line => .line
  | .sharp => .sharp
  | .block => .block
  | .blockStar => .blockStar
  | .blockSlash => .blockSlash
  | .str q st acc => .str q st (acc.map f)
  | .drop q st acc => .drop q st (acc.map f)

/-- Quotes on the stack are quotes. -/
def Mode.Good : Mode → Prop
  | .str q st _ => isQuote q = true ∧ ∀ x ∈ st, isQuote x = true
  | .drop q st _ => isQuote q = true ∧ ∀ x ∈ st, isQuote x = true
  | _ => True

def Step.map (f : Char → Char) : Step → Step
  | .go m o => .go (m.map f) (o.map (·.map f))
  | .bad t => .bad t

def Out.map (f : Char → Char) : Out → Out
  | .ok ts => .ok (ts.map (·.map f))
  | o => o

theorem flush_map (f : Char → Char) (tok : Str) : flush (tok.map f) = (flush tok).map (·.map f) := by
  unfold flush
  cases tok <;> simp

theorem isQuote_special {q : Char} (h : isQuote q = true) : q ∈ special := by
  unfold isQuote at h
  simp only [Bool.or_eq_true, beq_iff_eq] at h
  rcases h with (rfl | rfl) | rfl <;> decide

theorem isSymbol_special {q : Char} (h : isSymbol q = true) : q ∈ special := by
  unfold isSymbol at h
  simp only [Bool.or_eq_true, beq_iff_eq] at h
  revert h
  simp only [or_imp]
  (repeat' apply And.intro) <;> (rintro rfl; decide)

section
variable {f : Char → Char} (hf : Keeps f)
include hf

theorem Keeps.quote (c : Char) : isQuote (f c) = isQuote c := by
  rw [Bool.eq_iff_iff]
  constructor
  · intro h
    have := (hf _ (isQuote_special h) c).1 rfl
    rwa [this]
  · intro h
    have := (hf _ (isQuote_special h) c).2 rfl
    rwa [this]

theorem Keeps.symbol (c : Char) : isSymbol (f c) = isSymbol c := by
  rw [Bool.eq_iff_iff]
  constructor
  · intro h
    have := (hf _ (isSymbol_special h) c).1 rfl
    rwa [this]
  · intro h
    have := (hf _ (isSymbol_special h) c).2 rfl
    rwa [this]

theorem Keeps.fix {q : Char} (h : q ∈ special) : f q = q := (hf q h q).2 rfl

theorem step2_map (d : Rdbms) (tok : Str) (c : Char) :
    step2 d (tok.map f) (f c) = (step2 d tok c).map f := by
  have k1 := hf '"' (by decide) c
  have k2 := hf '\'' (by decide) c
  have k3 := hf '`' (by decide) c
  have k4 := hf '#' (by decide) c
  have k5 := hf ' ' (by decide) c
  have k6 := hf '\t' (by decide) c
  have k7 := hf '\n' (by decide) c
  have k8 := hf (Char.ofNat 0x3000) (by decide) c
  have f1 := Keeps.fix hf (q := '"') (by decide)
  have f2 := Keeps.fix hf (q := '\'') (by decide)
  have f3 := Keeps.fix hf (q := '`') (by decide)
  have f4 := Keeps.fix hf (q := '#') (by decide)
  have f7 := Keeps.fix hf (q := '\n') (by decide)
  have f8 := Keeps.fix hf (q := Char.ofNat 0x3000) (by decide)
  unfold step2
  simp only [k1, k2, k3, k4, k5, k6, k7, k8, Keeps.symbol hf, flush_map]
  repeat' split
  all_goals simp [Step.map, Mode.map, f1, f2, f3, f4, f7, nl]
  next h => subst h; exact f8

theorem step_map (d : Rdbms) (m : Mode) (hm : m.Good) (c : Char) :
    step d (m.map f) (f c) = (step d m c).map f := by
  have k1 := hf '-' (by decide) c
  have k2 := hf '/' (by decide) c
  have k3 := hf '*' (by decide) c
  have k4 := hf '\n' (by decide) c
  have f1 := Keeps.fix hf (q := '-') (by decide)
  have f2 := Keeps.fix hf (q := '/') (by decide)
  have f3 := Keeps.fix hf (q := '*') (by decide)
  have f4 := Keeps.fix hf (q := '\n') (by decide)
  have s1 : ∀ tok, step2 d (tok.map f ++ ['-']) (f c) = (step2 d (tok ++ ['-']) c).map f := by
    intro tok; rw [← step2_map hf]; simp [f1]
  have s2 : ∀ tok, step2 d (tok.map f ++ ['/']) (f c) = (step2 d (tok ++ ['/']) c).map f := by
    intro tok; rw [← step2_map hf]; simp [f2]
  have s3 : ∀ tok, step2 d (tok.map f ++ ['*']) (f c) = (step2 d (tok ++ ['*']) c).map f := by
    intro tok; rw [← step2_map hf]; simp [f3]
  cases m <;> simp only [step, Mode.map, k1, k2, k3, k4, s1, s2, s3, step2_map hf, flush_map,
    Keeps.quote hf]
  case str q st acc =>
    have kq := hf q (isQuote_special hm.1) c
    simp only [kq]
    repeat' split
    · simp [Step.map, Mode.map, f4, nl]
    · next h =>
      subst h
      have := kq.2 rfl
      rw [this]
      cases st <;> simp [Step.map, Mode.map, close, this]
    · next h =>
      have := Keeps.fix hf (isQuote_special h)
      rw [this]
      simp [Step.map, Mode.map, this]
    · simp [Step.map, Mode.map]
  all_goals repeat' split
  all_goals simp [Step.map, Mode.map, f4, nl]

omit hf in
theorem step2_good (d : Rdbms) (tok : Str) (c : Char) {m' : Mode} {o : List Str}
    (h : step2 d tok c = .go m' o) : m'.Good := by
  unfold step2 at h
  repeat' split at h
  all_goals first | cases h | (injection h with h _; subst h)
  all_goals simp [Mode.Good, isQuote]

omit hf in
theorem step_good (d : Rdbms) (m : Mode) (hm : m.Good) (c : Char) {m' : Mode} {o : List Str}
    (h : step d m c = .go m' o) : m'.Good := by
  cases m
  case str q st acc =>
    simp only [step] at h
    repeat' split at h
    · injection h with h _; subst h; exact hm
    · injection h with h _; subst h
      cases st with
      | nil => trivial
      | cons x st => exact ⟨hm.2 x (List.mem_cons_self ..), fun y hy => hm.2 y (List.mem_cons_of_mem _ hy)⟩
    · next hq =>
      injection h with h _; subst h
      refine ⟨hq, fun y hy => ?_⟩
      rcases List.mem_cons.1 hy with rfl | hy
      · exact hm.1
      · exact hm.2 y hy
    · injection h with h _; subst h; exact hm
  case drop q st acc =>
    simp only [step] at h
    injection h with h _; subst h; exact hm
  all_goals
    simp only [step] at h
    repeat' split at h
    all_goals first
      | exact step2_good _ _ _ h
      | (injection h with h _; subst h; trivial)
      | cases h

theorem final_map (m : Mode) : final (m.map f) = (final m).map (·.map (·.map f)) := by
  have f1 := Keeps.fix hf (q := '-') (by decide)
  have f2 := Keeps.fix hf (q := '/') (by decide)
  have f3 := Keeps.fix hf (q := '*') (by decide)
  have s : ∀ (tok : Str) (c : Char), f c = c → tok.map f ++ [c] = (tok ++ [c]).map f := by
    intro tok c h; simp [h]
  cases m <;> simp only [final, Mode.map, Option.map, flush_map, s _ _ f1, s _ _ f2, s _ _ f3]
  all_goals rfl

theorem nls_map (o : List Str) : nls (o.map (·.map f)) = nls o := by
  have key : ∀ t : Str, t.map f = nl ↔ t = nl := by
    intro t
    constructor
    · intro h
      cases t with
      | nil => cases h
      | cons c r =>
        cases r with
        | nil =>
          have := (List.cons.inj h).1
          rw [(hf '\n' (by decide) c).1 this]; rfl
        | cons b r => exact absurd (congrArg List.length h) (by simp [nl])
    · rintro rfl
      show [f '\n'] = _
      rw [Keeps.fix hf (by decide)]; rfl
  induction o with
  | nil => rfl
  | cons t o ih =>
    unfold nls at ih ⊢
    rw [List.map_cons, List.count_cons, List.count_cons, ih]
    congr 1
    simp only [beq_iff_eq, key t]

theorem scan_map (d : Rdbms) (m : Mode) (hm : m.Good) (cs : List Char) (l : Nat) (r : List Str) :
    scan d (m.map f) (cs.map f) l (r.map (·.map f)) = (scan d m cs l r).map f := by
  induction cs generalizing m l r with
  | nil =>
    simp only [scan, List.map_nil, final_map hf]
    cases final m with
    | none => rfl
    | some o => simp [Out.map]
  | cons c cs ih =>
    simp only [scan, List.map_cons, step_map hf d m hm]
    cases h : step d m c with
    | bad t => rfl
    | go m' o =>
      simp only [Step.map, nls_map hf]
      rw [← List.map_append]
      exact ih m' (step_good d m hm c h) _ _

end

theorem keeps_upC : Keeps upC := by
  intro q hq c
  apply upC_fix
  revert q
  decide

end DDL.Lex

namespace DDL
open Spec

theorem lexes_upper {d : Rdbms} {ddl : List Char} {toks : List Str} (h : Lexes d ddl toks) :
    Lexes d (ddl.map upC) (toks.map toUpper) := by
  rw [lexes_iff] at h ⊢
  have := Lex.scan_map Lex.keeps_upC d (.top []) trivial ddl 1 []
  rw [h] at this
  exact this

theorem lexFails_upper {d : Rdbms} {ddl : List Char} {e : VErr} (h : LexFails d ddl e) :
    LexFails d (ddl.map upC) e := by
  rw [lexFails_iff] at h ⊢
  have := Lex.scan_map Lex.keeps_upC d (.top []) trivial ddl 1 []
  rw [h] at this
  exact this

theorem lexFails_case {d : Rdbms} {ddl ddl' : List Char} (h : ddl.map upC = ddl'.map upC) {e : VErr}
    (hl : LexFails d ddl e) : LexFails d ddl' e := by
  rcases lexes_or_fails d ddl' with ⟨t, h'⟩ | ⟨e', h'⟩
  · have h1 := lexes_upper h'
    have h2 := lexFails_upper hl
    rw [h] at h2
    exact (lex_not_both h1 h2).elim
  · have h1 := lexFails_upper h'
    have h2 := lexFails_upper hl
    rw [h] at h2
    rw [LexFails.unique h2 h1]; exact h'

theorem lexes_case {d : Rdbms} {ddl ddl' : List Char} (h : ddl.map upC = ddl'.map upC)
    {toks : List Str} (hl : Lexes d ddl toks) :
    ∃ toks', Lexes d ddl' toks' ∧ toks.map toUpper = toks'.map toUpper := by
  rcases lexes_or_fails d ddl' with ⟨t, h'⟩ | ⟨e', h'⟩
  · refine ⟨t, h', ?_⟩
    have h1 := lexes_upper h'
    have h2 := lexes_upper hl
    rw [h] at h2
    exact Lexes.unique h2 h1
  · exact (lex_not_both hl (lexFails_case h.symm h')).elim

theorem each_of_map {f : α → β} {xs ys : List α} (h : xs.map f = ys.map f) :
    Each (fun a b => f a = f b ∧ a ∈ xs ∧ b ∈ ys) xs ys := by
  have key : ∀ (X Y : List α) (xs ys : List α), xs.map f = ys.map f → (∀ a ∈ xs, a ∈ X) →
      (∀ b ∈ ys, b ∈ Y) → Each (fun a b => f a = f b ∧ a ∈ X ∧ b ∈ Y) xs ys := by
    intro X Y xs
    induction xs with
    | nil =>
      intro ys h _ _
      cases ys with
      | nil => exact .nil
      | cons => cases h
    | cons a xs ih =>
      intro ys h hX hY
      cases ys with
      | nil => cases h
      | cons b ys =>
        obtain ⟨h1, h2⟩ := List.cons.inj h
        exact .cons ⟨h1, hX a (List.mem_cons_self ..), hY b (List.mem_cons_self ..)⟩
          (ih ys h2 (fun x hx => hX x (List.mem_cons_of_mem _ hx))
            fun x hx => hY x (List.mem_cons_of_mem _ hx))
  exact key xs ys xs ys h (fun _ h => h) fun _ h => h

theorem Each.imp {R Q : α → β → Prop} (h : ∀ a b, R a b → Q a b) {xs : List α} {ys : List β}
    (hs : Each R xs ys) : Each Q xs ys := by
  induction hs with
  | nil => exact .nil
  | cons h1 _ ih => exact .cons (h _ _ h1) ih

theorem takeWhile_upC (t : Str) : (toUpper t).takeWhile isDig = toUpper (t.takeWhile isDig) := by
  induction t with
  | nil => rfl
  | cons c r ih =>
    show List.takeWhile isDig (upC c :: toUpper r) = _
    rw [List.takeWhile_cons, List.takeWhile_cons, isDig_upC]
    cases isDig c
    · rfl
    · simp only [if_true, ih]; rfl

theorem dropWhile_upC (t : Str) : (toUpper t).dropWhile isDig = toUpper (t.dropWhile isDig) := by
  induction t with
  | nil => rfl
  | cons c r ih =>
    show List.dropWhile isDig (upC c :: toUpper r) = _
    rw [List.dropWhile_cons, List.dropWhile_cons, isDig_upC]
    cases isDig c
    · rfl
    · simp only [if_true, ih]

theorem simpleNum_upC (t : Str) : simpleNum (toUpper t) = simpleNum t := by
  unfold simpleNum
  rw [splitSign_upC]
  simp only
  rw [takeWhile_upC, dropWhile_upC]
  have he : ∀ x : Str, (toUpper x).isEmpty = x.isEmpty := by intro x; cases x <;> rfl
  generalize (splitSign t).2.takeWhile isDig = ip
  generalize (splitSign t).2.dropWhile isDig = r
  cases r with
  | nil => simp only [he]; rfl
  | cons c r =>
    show (match upC c :: toUpper r with | [] => _ | '.' :: f => _ | _ => _) = _
    by_cases hc : c = '.'
    · subst hc
      show ((!(toUpper ip).isEmpty || !(toUpper r).isEmpty) && (toUpper r).all isDig) =
        ((!ip.isEmpty || !r.isEmpty) && r.all isDig)
      rw [he, he, show (toUpper r).all isDig = r.all isDig from all_map_upC isDig_upC r]
    · have hc' : upC c ≠ '.' := fun h => hc ((upC_fix (by decide)).1 h)
      split
      · next h => cases h
      · next h => exact absurd (List.cons.inj h).1 hc'
      · split
        · next h => cases h
        · next h => exact absurd (List.cons.inj h).1 hc
        · rfl

/-! ### Mixed case -/

theorem rejects_first {isNum : Str → Bool} {d : Rdbms} {toks : List Str} {t : Str} {r : List Str}
    (hn : noNewlines toks = t :: r) (ht : ¬ Kw ["CREATE"] t) :
    ∃ l, Rejects isNum d toks ⟨l, t⟩ := by
  obtain ⟨pre, h1, h2, h3, h4, h5, h6⟩ := init_spec toks
  rw [noNewlines_eq, ← h6] at hn
  cases hr : (VS.init toks).rest with
  | nil => rw [hr] at hn; cases hn
  | cons x rest =>
    have hx : x ≠ nl := by
      rintro rfl; rw [hr] at h3; exact h3 rfl
    rw [hr, strip_cons _ _ hx] at hn
    obtain ⟨rfl, -⟩ := List.cons.inj hn
    refine ⟨(VS.init toks).line, 1, ?_⟩
    have hk := isKw_not.2 ht
    have htok : (VS.init toks).token = x := by unfold VS.token; rw [hr]; rfl
    have hv : run (V.validateToken false ["CREATE"]) (VS.init toks) =
        .fail ⟨(VS.init toks).line, x⟩ (VS.init toks) := by
      show run (cond (VS.init toks).rest.isEmpty _ _) _ = _
      rw [hr]
      show run (cond (isKw ["CREATE"] (VS.init toks).token) _ _) _ = _
      rw [htok, hk]
      show Res.fail ⟨_, _⟩ _ = _
      rw [htok]
    have hp : ∃ k, run (validateProg isNum d 1) (VS.init toks) =
        run ((V.validateToken false ["CREATE"]).bind k) (VS.init toks) := by
      cases d <;> refine ⟨?_, ?_⟩
      case sqlite.refine_2 | other.refine_2 =>
        show run (cond (VS.init toks).rest.isEmpty _ (Prog.bind (Prog.bind _ _) _)) _ = _
        rw [hr, Prog.bind_assoc]; rfl
      case postgres.refine_2 =>
        show run (cond (VS.init toks).rest.isEmpty _ (Prog.bind (Prog.bind _ _) _)) _ = _
        rw [hr, Prog.bind_assoc]; rfl
      case mysql.refine_2 =>
        show run (cond (VS.init toks).rest.isEmpty _ (Prog.bind (Prog.bind _ _) _)) _ = _
        rw [hr, Prog.bind_assoc]; rfl
    obtain ⟨k, hp⟩ := hp
    unfold validateN
    rw [hp, run_bind, hv]

end DDL

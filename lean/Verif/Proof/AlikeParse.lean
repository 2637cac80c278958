import Verif.Proof.AlikeConv
/-
`Parse` on texts with corresponding tokens, and two ways in which tokens correspond: up to letter
case, and up to the choice of names.
-/

namespace DDL
open Spec

theorem AlikeV.other {isNum : Str → Bool} {T : Str → Str → Prop} (h : AlikeV .other isNum T) :
    AlikeV .sqlite isNum T :=
  ⟨h.eof, h.lit, h.kw, h.up, h.nl, h.num, h.int, h.nil, h.head, h.plain, h.short⟩

theorem validateProg_alike {d : Rdbms} {isNum : Str → Bool} {T : Str → Str → Prop}
    (hT : AlikeV d isNum T) (n : Nat) :
    PSim T (validateProg isNum d n) (validateProg isNum d n) := by
  cases d with
  | sqlite => exact Sqlite.validate_alike hT n
  | postgres => exact Postgres.validate_alike hT n
  | mysql => exact Mysql.validate_alike hT n
  | other => exact Sqlite.validate_alike hT.other n

theorem init_rel {d : Rdbms} {isNum : Str → Bool} {T : Str → Str → Prop} (hT : AlikeV d isNum T)
    {ts ts' : List Str} (h : Each T ts ts') : VRel T (VS.init ts) (VS.init ts') := by
  have h0 : VRel T ⟨ts, 1, []⟩ ⟨ts', 1, []⟩ := ⟨h, rfl, .nil⟩
  have ht := hT.nl _ _ (h0.token hT.eof)
  unfold VS.init
  by_cases e : VS.token ⟨ts, 1, []⟩ = nl
  · simp only [if_pos e, if_pos (ht.1 e)]; exact h0.next hT.nl
  · simp only [if_neg e, if_neg fun x => e (ht.2 x)]; exact h0

/-- Corresponding outcomes of `Validate` and `Convert`. -/
inductive OutRel (T : Str → Str → Prop) (R : α → α → Prop) : Outcome α → Outcome α → Prop
  | ok (h : R a b) : OutRel T R (.ok a) (.ok b)
  | err (hl : e.line = e'.line) (hn : T e.near e'.near) : OutRel T R (.err e) (.err e')
  | panic : OutRel T R .panic .panic
  | timeout : OutRel T R .timeout .timeout

theorem validateN_alike {d : Rdbms} {isNum : Str → Bool} {T : Str → Str → Prop}
    (hT : AlikeV d isNum T) {ts ts' : List Str} (h : Each T ts ts') (n : Nat) :
    OutRel T (Each T) (validateN isNum d n ts) (validateN isNum d n ts') := by
  have := validateProg_alike hT n _ _ (init_rel hT h)
  unfold validateN
  revert this
  generalize run _ (VS.init ts) = x; generalize run _ (VS.init ts') = y
  intro h
  cases h with
  | ok h => exact .ok h.result
  | fail hl hn => exact .err hl hn
  | panic => exact .panic
  | timeout => exact .timeout

theorem convertN_alike [CaseMap] {d : Rdbms} {isNum : Str → Bool} {T : Str → Str → Prop}
    (hT : AlikeV d isNum T) (hU : UpAlike T) {ts ts' : List Str} (h : Each T ts ts') (n : Nat) :
    OutRel T (Each (TableRel d T CaseMap.up)) (convertN isNum d n ts) (convertN isNum d n ts') := by
  have := CSim.convert hT hU n .nil _ _ h
  unfold convertN
  revert this
  generalize C.convert isNum d n [] ts = x; generalize C.convert isNum d n [] ts' = y
  intro h
  cases h with
  | ok h => exact .ok h
  | panic => exact .panic
  | timeout => exact .timeout

theorem OutRel.of_ok {T : Str → Str → Prop} {R : α → α → Prop} {a : α} {x y : Outcome α}
    (h : OutRel T R x y) (hx : x = .ok a) : ∃ b, y = .ok b ∧ R a b := by
  cases h with
  | ok h => cases hx; exact ⟨_, rfl, h⟩
  | err | panic | timeout => cases hx

theorem OutRel.of_err {T : Str → Str → Prop} {R : α → α → Prop} {e : VErr} {x y : Outcome α}
    (h : OutRel T R x y) (hx : x = .err e) : ∃ e', y = .err e' ∧ e'.line = e.line ∧ T e.near e'.near := by
  cases h with
  | err hl hn => cases hx; exact ⟨_, rfl, hl.symm, hn⟩
  | ok | panic | timeout => cases hx

theorem Each.flip {R : α → β → Prop} {as : List α} {bs : List β} (h : Each R as bs) :
    Each (fun b a => R a b) bs as := by
  induction h with
  | nil => exact .nil
  | cons h _ ih => exact .cons h ih

theorem AlikeV.flip {d : Rdbms} {isNum : Str → Bool} {T : Str → Str → Prop} (h : AlikeV d isNum T) :
    AlikeV d isNum (fun b a => T a b) where
  eof := h.eof
  lit := h.lit
  kw k hk _ _ ht := (h.kw k hk _ _ ht).symm
  up k hk _ _ ht := (h.up k hk _ _ ht).symm
  nl _ _ ht := (h.nl _ _ ht).symm
  num _ _ ht := (h.num _ _ ht).symm
  int _ _ ht := (h.int _ _ ht).symm
  nil _ _ ht := (h.nil _ _ ht).symm
  head _ _ _ _ ht q hq := (h.head _ _ _ _ ht q hq).symm
  plain _ _ ht := (h.plain _ _ ht).symm
  short q hq _ _ ht := (h.short q hq _ _ ht).symm

theorem tables_alike [CaseMap] {d : Rdbms} {isNum : Str → Bool} {T : Str → Str → Prop} (hT : AlikeV d isNum T) (hU : UpAlike T)
    {ddl ddl' : List Char} {toks toks' : List Str} (hl : Lexes d ddl toks)
    (hl' : Lexes d ddl' toks') (h : Each T toks toks') {tbs : List Table}
    (hr : Returns isNum ddl d (tbs, none)) :
    ∃ tbs', Returns isNum ddl' d (tbs', none) ∧ Each (TableRel d T CaseMap.up) tbs tbs' := by
  obtain ⟨toks1, out, h1, ⟨n, h2⟩, m, h3⟩ := returns_ok_iff.1 hr
  cases Lexes.unique hl h1
  obtain ⟨out', h2', ho⟩ := (validateN_alike hT h n).of_ok h2
  obtain ⟨tbs', h3', ht⟩ := (convertN_alike hT hU ho m).of_ok h3
  exact ⟨tbs', returns_ok_iff.2 ⟨_, _, hl', ⟨n, h2'⟩, m, h3'⟩, ht⟩

theorem error_alike [CaseMap] {d : Rdbms} {isNum : Str → Bool} {T : Str → Str → Prop} (hT : AlikeV d isNum T)
    {ddl ddl' : List Char} {toks toks' : List Str} (hl : Lexes d ddl toks)
    (hl' : Lexes d ddl' toks') (h : Each T toks toks') {e : VErr} {x : List Table}
    (hr : Returns isNum ddl d (x, some e)) :
    ∃ e', Returns isNum ddl' d ([], some e') ∧ e'.line = e.line ∧ T e.near e'.near := by
  obtain ⟨_, h1 | ⟨toks1, h1, n, h2⟩⟩ := returns_err_iff.1 hr
  · exact (lex_not_both hl h1).elim
  · cases Lexes.unique hl h1
    obtain ⟨e', h2', he⟩ := (validateN_alike hT h n).of_err h2
    exact ⟨e', returns_err_iff.2 ⟨rfl, .inr ⟨_, hl', n, h2'⟩⟩, he⟩

theorem hangs_alike [CaseMap] {d : Rdbms} {isNum : Str → Bool} {T : Str → Str → Prop} (hT : AlikeV d isNum T) (hU : UpAlike T)
    {ddl ddl' : List Char} {toks toks' : List Str} (hl : Lexes d ddl toks)
    (hl' : Lexes d ddl' toks') (h : Each T toks toks') (hr : Hangs isNum ddl d) :
    Hangs isNum ddl' d := by
  rcases returns_or_hangs isNum ddl' d with ⟨⟨tbs, e⟩, h'⟩ | h'
  · cases e with
    | none =>
      obtain ⟨_, h1, _⟩ := tables_alike hT.flip hU.flip hl' hl (Each.flip h) h'
      exact (not_returns_and_hangs h1 hr).elim
    | some e =>
      obtain ⟨_, h1, _⟩ := error_alike hT.flip hl' hl (Each.flip h) h'
      exact (not_returns_and_hangs h1 hr).elim
  · exact h'

theorem corresponding [CaseMap] {d : Rdbms} {isNum : Str → Bool} {T : Str → Str → Prop} (hT : AlikeV d isNum T) (hU : UpAlike T)
    {ddl ddl' : List Char} {toks toks' : List Str} (hl : Lexes d ddl toks)
    (hl' : Lexes d ddl' toks') (h : Each T toks toks') : Corresponding isNum d T ddl ddl' where
  tables _ hr := tables_alike hT hU hl hl' h hr
  error _ hr := error_alike hT hl hl' h hr
  hangs := ⟨hangs_alike hT hU hl hl' h, hangs_alike hT.flip hU.flip hl' hl (Each.flip h)⟩

/-! ### Letter case -/

theorem upper_eq (t : Str) : upper t = toUpper t := (toUpper_eq t).symm

theorem toUpper_fix {t : Str} (h : ∀ c ∈ t, c.isLower = false) : toUpper t = t := by
  unfold toUpper
  conv => rhs; rw [← List.map_id t]
  refine List.map_congr_left fun c hc => ?_
  have := h c hc
  unfold upC
  rw [if_neg]; · rfl
  intro hx
  have : c.isLower = true := by
    simp only [Char.isLower, Bool.and_eq_true, decide_eq_true_eq]
    exact hx
  rw [h c hc] at this; cases this

theorem toLower_fix {t : Str} (h : ∀ c ∈ t, c.isUpper = false) : toLower t = t := by
  unfold toLower
  conv => rhs; rw [← List.map_id t]
  refine List.map_congr_left fun c hc => ?_
  unfold lowC
  rw [if_neg]; · rfl
  intro hx
  have : c.isUpper = true := by
    simp only [Char.isUpper, decide_eq_true_eq]
    exact hx
  rw [h c hc] at this; cases this

theorem isKw_one {k : String} {t : Str} : isKw [k] t = true ↔ t = toUpper (S k) ∨ t = toLower (S k) := by
  rw [isKw_kw, toUpper_eq, toLower_eq]
  simp only [Kw, List.mem_singleton, exists_eq_left]

theorem isKw_oneCase {k : String} {t : Str} (hu : toUpper t = toUpper (S k)) (h : OneCase t) :
    isKw [k] t = true := by
  rw [isKw_one]
  rcases h with h | h
  · left; rw [← hu, toUpper_fix h]
  · right; rw [← toLower_toUpper, ← hu, toLower_toUpper, toLower_fix h]

theorem isKw_toUpper {k : String} {t : Str} (h : isKw [k] t = true) : toUpper t = toUpper (S k) := by
  rcases isKw_one.1 h with rfl | rfl
  · exact toUpper_toUpper _
  · exact toUpper_toLower _

theorem grammarWords_upper (d : Rdbms) : ∀ w ∈ grammarWords d, toUpper (S w) = S w := by
  cases d <;> decide +kernel

theorem upC_fix {q : Char} (hq : ¬ (65 ≤ q.toNat ∧ q.toNat ≤ 90) ∧ ¬ (97 ≤ q.toNat ∧ q.toNat ≤ 122))
    {c : Char} : upC c = q ↔ c = q := by
  constructor
  · intro h
    have := congrArg Char.toNat h
    rw [upC_nat] at this
    apply toNat_inj
    split at this <;> omega
  · rintro rfl
    apply toNat_inj
    rw [upC_nat]
    split <;> omega

theorem isDig_upC (c : Char) : isDig (upC c) = isDig c := by
  rw [Bool.eq_iff_iff]
  simp only [isDig, Bool.and_eq_true, decide_eq_true_eq]
  show 48 ≤ _ ∧ _ ≤ 57 ↔ 48 ≤ _ ∧ _ ≤ 57
  rw [upC_nat]
  split <;> omega

theorem isAlpha__upC (c : Char) : isAlpha_ (upC c) = isAlpha_ c := by
  have e : (upC c == '_') = (c == '_') := by
    rw [Bool.eq_iff_iff, beq_iff_eq, beq_iff_eq]; exact upC_fix (by decide)
  unfold isAlpha_
  rw [e]
  congr 1
  rw [Bool.eq_iff_iff]
  simp only [Bool.or_eq_true, Bool.and_eq_true, decide_eq_true_eq]
  show (97 ≤ _ ∧ _ ≤ 122) ∨ (65 ≤ _ ∧ _ ≤ 90) ↔ (97 ≤ _ ∧ _ ≤ 122) ∨ (65 ≤ _ ∧ _ ≤ 90)
  rw [upC_nat]
  split <;> omega

theorem all_map_upC {p : Char → Bool} (hp : ∀ c, p (upC c) = p c) (t : Str) :
    (t.map upC).all p = t.all p := by
  rw [List.all_map]; congr 1; funext c; exact hp c

theorem matchIdent_upC (t : Str) : matchIdent (toUpper t) = matchIdent t := by
  cases t with
  | nil => rfl
  | cons c r =>
    show (isAlpha_ (upC c) && (r.map upC).all _) = (isAlpha_ c && r.all _)
    rw [isAlpha__upC, all_map_upC]
    intro c; simp only [isAlpha__upC, isDig_upC]

theorem digits_upC {t : Str} (h : t.all isDig = true) : t.map upC = t := by
  conv => rhs; rw [← List.map_id t]
  refine List.map_congr_left fun c hc => ?_
  have := List.all_eq_true.1 h c hc
  simp only [isDig, Bool.and_eq_true, decide_eq_true_eq] at this
  have h' : 48 ≤ c.toNat ∧ c.toNat ≤ 57 := this
  apply toNat_inj
  rw [upC_nat, if_neg (by omega)]; rfl

theorem splitSign_upC (t : Str) : splitSign (toUpper t) = ((splitSign t).1, toUpper (splitSign t).2) := by
  have hm : ∀ c, upC c = '-' ↔ c = '-' := fun c => upC_fix (by decide)
  have hp : ∀ c, upC c = '+' ↔ c = '+' := fun c => upC_fix (by decide)
  cases t with
  | nil => rfl
  | cons c r =>
    show splitSign (upC c :: toUpper r) = _
    by_cases h1 : c = '-'
    · subst h1; rfl
    by_cases h2 : c = '+'
    · subst h2; rfl
    have e1 : splitSign (c :: r) = (false, c :: r) := by
      unfold splitSign
      split
      · rename_i h; cases h; exact absurd rfl h1
      · rename_i h; cases h; exact absurd rfl h2
      · rfl
    have e2 : splitSign (upC c :: toUpper r) = (false, upC c :: toUpper r) := by
      unfold splitSign
      split
      · rename_i h
        have h := (List.cons.inj h).1
        exact absurd ((hm c).1 h) h1
      · rename_i h
        have h := (List.cons.inj h).1
        exact absurd ((hp c).1 h) h2
      · rfl
    rw [e1, e2]; rfl

theorem atoi_upC (t : Str) : atoi (toUpper t) = atoi t := by
  unfold atoi
  rw [splitSign_upC]
  simp only
  generalize (splitSign t).1 = b
  generalize (splitSign t).2 = ds
  have e1 : (toUpper ds).isEmpty = ds.isEmpty := by cases ds <;> rfl
  have e2 : (toUpper ds).all isDig = ds.all isDig := all_map_upC isDig_upC ds
  rw [e1, e2]
  cases h : ds.all isDig with
  | false => simp
  | true => rw [show toUpper ds = ds from digits_upC h]

theorem plainName_upC (d : Rdbms) (t : Str) : V.plainName d (toUpper t) = V.plainName d t := by
  unfold V.plainName
  rw [matchIdent_upC, toUpper_toUpper]

theorem quote_fix {q : Char} (h : q ∈ ['"', '\'', '`']) {c : Char} : upC c = q ↔ c = q := by
  apply upC_fix
  simp only [List.mem_cons, List.not_mem_nil, or_false] at h
  rcases h with rfl | rfl | rfl <;> decide

theorem recased_alike {isNum : Str → Bool} {d : Rdbms}
    (hnum : ∀ t t', upper t = upper t' → isNum t = isNum t') : AlikeV d isNum (Recased d) where
  eof := ⟨rfl, .inl rfl⟩
  lit _ _ := ⟨rfl, .inl rfl⟩
  kw k hk t t' h := by
    obtain ⟨hu, h⟩ := h
    rcases h with rfl | h
    · rfl
    have hu' := hu
    rw [upper_eq, upper_eq] at hu'
    rw [Bool.eq_iff_iff]
    constructor
    · intro hx
      have := isKw_toUpper hx
      exact isKw_oneCase (hu' ▸ this) (h ⟨k, hk, by rw [upper_eq, this, grammarWords_upper d k hk]⟩).2
    · intro hx
      have := isKw_toUpper hx
      exact isKw_oneCase (hu' ▸ this)
        (h ⟨k, hk, by rw [upper_eq, hu', this, grammarWords_upper d k hk]⟩).1
  up k hk t t' h := by rw [← upper_eq, ← upper_eq, h.1]
  nl t t' h := by
    have hu := h.1
    rw [upper_eq, upper_eq] at hu
    have e : ∀ t, toUpper t = nl ↔ t = nl := by
      intro t
      constructor
      · intro h
        cases t with
        | nil => cases h
        | cons c r =>
          cases r with
          | nil =>
            have := (List.cons.inj h).1
            rw [(upC_fix (q := '\n') (by decide)).1 this]; rfl
          | cons b r => exact absurd (congrArg List.length h) (by simp [toUpper, nl])
      · rintro rfl; decide
    rw [← e t, ← e t', hu]
  num t t' h := hnum _ _ h.1
  int t t' h := by
    have hu := h.1
    rw [upper_eq, upper_eq] at hu
    rw [← atoi_upC, hu, atoi_upC]
  nil t t' h := by
    have hu := congrArg List.length h.1
    simp only [upper, List.length_map] at hu
    rw [← List.length_eq_zero_iff, ← List.length_eq_zero_iff, hu]
  head c r c' r' h q hq := by
    have hu := h.1
    rw [upper_eq, upper_eq] at hu
    have := (List.cons.inj hu).1
    rw [← quote_fix hq, ← quote_fix hq (c := c'), this]
  plain t t' h := by
    have hu := h.1
    rw [upper_eq, upper_eq] at hu
    rw [← plainName_upC, hu, plainName_upC]
  short q hq r r' h := by
    have hu := congrArg List.length h.1
    simp only [upper, List.length_map, List.length_cons, Nat.add_right_cancel_iff] at hu
    rw [← List.length_eq_zero_iff, ← List.length_eq_zero_iff, hu]

/-- Tokens that are the same up to the letter case of ASCII letters have the same upper case. -/
theorem up_of_upper [CaseMap] {t t' : Str} (h : upper t = upper t') : t.map CaseMap.up = t'.map CaseMap.up := by
  rw [upper_eq, upper_eq] at h
  have e : ∀ t : Str, (toUpper t).map CaseMap.up = t.map CaseMap.up := fun t => by
    unfold toUpper
    rw [List.map_map]
    refine List.map_congr_left fun c _ => ?_
    show CaseMap.up (upC c) = CaseMap.up c
    by_cases hc : upC c = c
    · rw [hc]
    · have hl : c.toNat < 128 ∧ (upC c).toNat < 128 := by
        unfold upC at hc ⊢
        split
        · rename_i h
          have h1 : 'a'.toNat = 97 := by decide
          have h2 : 'z'.toNat = 122 := by decide
          have := upC_nat c
          unfold upC at this
          rw [if_pos h] at this
          rw [this]
          constructor <;> (try split) <;> omega
        · rename_i h; rw [if_neg h] at hc; exact absurd rfl hc
      rw [CaseMap.up_ascii _ hl.1, CaseMap.up_ascii _ hl.2, upC_upC]
  rw [← e t, h, e t']

theorem recased_up [CaseMap] {d : Rdbms} : UpAlike (Recased d) := fun k _ t t' h => by
  unfold upStr
  rw [up_of_upper h.1]

/-! ### Results that correspond up to letter case -/

section
variable {d : Rdbms} {T : Str → Str → Prop} (hT : ∀ t t', T t t' → upper t = upper t')
include hT

theorem upper_each {xs ys : List Str} (h : Each T xs ys) : xs.map upper = ys.map upper := by
  induction h with
  | nil => rfl
  | cons h _ ih => rw [List.map_cons, List.map_cons, hT _ _ h, ih]

theorem upper_text {x y : Str} (h : TextRel T x y) : upper x = upper y := by
  obtain ⟨ts, ts', h, rfl, rfl⟩ := h
  have := upper_each hT h
  simp only [upper, List.map_flatten]
  exact congrArg List.flatten this

omit hT in
theorem upper_content (t : Str) : upper (content t) = content (upper t) := by
  simp only [upper, content, List.map_dropLast, List.map_tail]

omit hT in
theorem upper_nameVal (d : Rdbms) (t : Str) : upper (nameVal d t) = nameVal d (upper t) := by
  cases t with
  | nil => rfl
  | cons c r =>
    have hq : ∀ q ∈ identQuotes d, q ∈ ['"', '\'', '`'] := by cases d <;> decide
    have e : upC c ∈ identQuotes d ↔ c ∈ identQuotes d := by
      constructor
      · intro h
        have h' := (quote_fix (hq _ h)).1 rfl
        exact h' ▸ h
      · intro h
        have h' := (quote_fix (hq _ h)).2 (rfl : c = c)
        rw [h']; exact h
    have eu : upper (c :: r) = upC c :: upper r := by rw [upper_eq, upper_eq]; rfl
    rw [eu]
    show upper (if c ∈ identQuotes d then _ else _) = if upC c ∈ identQuotes d then _ else _
    by_cases h : c ∈ identQuotes d
    · rw [if_pos h, if_pos (e.2 h), upper_content, eu]
    · rw [if_neg h, if_neg fun x => h (e.1 x), eu]

theorem upper_name {x y : Str} (h : NameRel d T x y) : upper x = upper y := by
  rcases h with ⟨rfl, rfl⟩ | ⟨t, t', h, rfl, rfl⟩
  · rfl
  · rw [upper_nameVal, upper_nameVal, hT _ _ h]

theorem upper_typeName [CaseMap] {x y : Str} (h : TypeNameRel T CaseMap.up x y) : upper x = upper y := by
  rcases h with ⟨rfl, _⟩ | ⟨t, t', h, ⟨rfl, rfl⟩ | ⟨rfl, rfl⟩⟩
  · rfl
  · rw [up_of_upper (hT _ _ h)]
  · rw [up_of_upper (hT _ _ h)]

theorem upper_default {x y : DefaultVal} (h : DefaultRel T x y) : upperDefault x = upperDefault y := by
  cases h with
  | nil => rfl
  | bool => rfl
  | num h => simp only [upperDefault, hT _ _ h]
  | str h _ => simp only [upperDefault, upper_content, hT _ _ h]
  | text h => simp only [upperDefault, upper_text hT h]

theorem upper_ref {x y : Reference} (h : RefRel d T x y) : upperRef x = upperRef y := by
  obtain ⟨a, c⟩ := x
  obtain ⟨a', c'⟩ := y
  obtain ⟨h1, h2⟩ := h
  simp only [upperRef, upper_name hT h1]
  cases h2 with
  | none => rfl
  | some h => simp only [Option.map_some, upper_each hT h]

theorem upper_con {x y : Constraint} (h : ConRel d T x y) : upperCon x = upperCon y := by
  obtain ⟨h1, h2, h3, h4, h5, h6, h7, h8, h9⟩ := h
  simp only [upperCon, upper_name hT h1, h2, h3, h4, h5, upper_default hT h6, upper_text hT h7,
    upper_name hT h8, upper_ref hT h9]

theorem upper_col [CaseMap] {x y : Column} (h : ColRel d T CaseMap.up x y) : upperCol x = upperCol y := by
  obtain ⟨h1, ⟨h2, h3, h4⟩, h5⟩ := h
  simp only [upperCol, upper_name hT h1, upper_typeName hT h2, h3, h4, upper_con hT h5]

omit hT in
theorem map_each {R : α → α → Prop} {f : α → β} (hf : ∀ a b, R a b → f a = f b) {xs ys : List α}
    (h : Each R xs ys) : xs.map f = ys.map f := by
  induction h with
  | nil => rfl
  | cons h _ ih => rw [List.map_cons, List.map_cons, hf _ _ h, ih]

theorem upper_table [CaseMap] {x y : Table} (h : TableRel d T CaseMap.up x y) : upperTable x = upperTable y := by
  obtain ⟨h1, h2, h3, h4, ⟨h5, h6, h7, h8⟩⟩ := h
  have e5 := map_each (f := fun k : PrimaryKey => (⟨upper k.name, k.columnNames.map upper⟩ : PrimaryKey))
    (fun a b h => by simp only [upper_name hT h.name, upper_each hT h.columnNames]) h5
  have e6 := map_each (f := fun k : Unique => (⟨upper k.name, k.columnNames.map upper⟩ : Unique))
    (fun a b h => by simp only [upper_name hT h.name, upper_each hT h.columnNames]) h6
  have e7 := map_each (f := fun k : Check => (⟨upper k.name, upper k.expr⟩ : Check))
    (fun a b h => by simp only [upper_name hT h.name, upper_text hT h.expr]) h7
  have e8 := map_each (f := fun k : ForeignKey =>
      (⟨upper k.name, k.columnNames.map upper, upperRef k.references⟩ : ForeignKey))
    (fun a b h => by
      simp only [upper_name hT h.name, upper_each hT h.columnNames, upper_ref hT h.references]) h8
  have e4 := map_each (f := upperCol) (fun _ _ => upper_col hT) h4
  unfold upperTable
  rw [upper_name hT h1, upper_name hT h2, h3, e4, e5, e6, e7, e8]

theorem upper_tables [CaseMap] {xs ys : List Table} (h : Each (TableRel d T CaseMap.up) xs ys) :
    xs.map upperTable = ys.map upperTable := map_each (f := upperTable) (fun _ _ => upper_table hT) h

end

/-! ### Renaming -/

theorem _root_.DDL.Spec.Ordinary.ident {isNum d t} (h : Ordinary isNum d t) : matchIdent t = true :=
  (matchIdent_iff t).2 h.name.1

theorem _root_.DDL.Spec.Ordinary.kw {isNum d t} (h : Ordinary isNum d t) {k : String} (hk : k ∈ grammarWords d) :
    isKw [k] t = false := by
  cases hx : isKw [k] t with
  | false => rfl
  | true =>
    have := isKw_toUpper hx
    rw [grammarWords_upper d k hk] at this
    exact absurd (by rw [upper_eq]; exact this) (h.word k hk)

theorem _root_.DDL.Spec.Ordinary.atoi {isNum d t} (h : Ordinary isNum d t) : atoi t = (0, false) := by
  have hi := h.ident
  cases t with
  | nil => cases hi
  | cons c r =>
    have hc : isAlpha_ c = true := by
      have : (isAlpha_ c && r.all _) = true := hi
      rw [Bool.and_eq_true] at this; exact this.1
    have hm : c ≠ '-' := by rintro rfl; revert hc; decide
    have hp : c ≠ '+' := by rintro rfl; revert hc; decide
    have hd : isDig c = false := by
      cases hd : isDig c with
      | false => rfl
      | true =>
        simp only [isDig, Bool.and_eq_true, decide_eq_true_eq] at hd
        have hd : 48 ≤ c.toNat ∧ c.toNat ≤ 57 := hd
        simp only [isAlpha_, Bool.or_eq_true, Bool.and_eq_true, decide_eq_true_eq, beq_iff_eq] at hc
        have hc : ((97 ≤ c.toNat ∧ c.toNat ≤ 122) ∨ (65 ≤ c.toNat ∧ c.toNat ≤ 90)) ∨ c = '_' := hc
        rcases hc with hc | rfl
        · omega
        · revert hd; decide
    have e1 : splitSign (c :: r) = (false, c :: r) := by
      unfold splitSign
      split
      · rename_i h; cases h; exact absurd rfl hm
      · rename_i h; cases h; exact absurd rfl hp
      · rfl
    unfold DDL.atoi
    rw [e1]
    simp [hd]

theorem _root_.DDL.Spec.Ordinary.head {isNum d c r} (h : Ordinary isNum d (c :: r)) {q : Char}
    (hq : q ∈ ['"', '\'', '`']) : c ≠ q := by
  have hi : (isAlpha_ c && r.all _) = true := h.ident
  rw [Bool.and_eq_true] at hi
  rintro rfl
  simp only [List.mem_cons, List.not_mem_nil, or_false] at hq
  rcases hq with rfl | rfl | rfl <;> exact absurd hi.1 (by decide)

theorem renamed_alike {isNum : Str → Bool} {d : Rdbms} {T : Str → Str → Prop} (he : T EOF EOF)
    (hl : ∀ k ∈ grammarWords d, T (S k) (S k))
    (h : ∀ t t', T t t' → t = t' ∨ (Ordinary isNum d t ∧ Ordinary isNum d t')) :
    AlikeV d isNum T where
  eof := he
  lit := hl
  kw k hk t t' ht := by
    rcases h _ _ ht with rfl | ⟨h1, h2⟩
    · rfl
    · rw [h1.kw hk, h2.kw hk]
  up k hk t t' ht := by
    rcases h _ _ ht with rfl | ⟨h1, h2⟩
    · rfl
    · rw [← upper_eq, ← upper_eq]
      exact ⟨fun x => absurd x (h1.word k hk), fun x => absurd x (h2.word k hk)⟩
  nl t t' ht := by
    rcases h _ _ ht with rfl | ⟨h1, h2⟩
    · rfl
    · constructor
      · rintro rfl; exact absurd h1.ident (by decide)
      · rintro rfl; exact absurd h2.ident (by decide)
  num t t' ht := by
    rcases h _ _ ht with rfl | ⟨h1, h2⟩
    · rfl
    · rw [h1.number, h2.number]
  int t t' ht := by
    rcases h _ _ ht with rfl | ⟨h1, h2⟩
    · rfl
    · rw [h1.atoi, h2.atoi]
  nil t t' ht := by
    rcases h _ _ ht with rfl | ⟨h1, h2⟩
    · rfl
    · constructor
      · rintro rfl; exact absurd h1.ident (by decide)
      · rintro rfl; exact absurd h2.ident (by decide)
  head c r c' r' ht q hq := by
    rcases h _ _ ht with e | ⟨h1, h2⟩
    · cases e; rfl
    · exact ⟨fun x => absurd x (h1.head hq), fun x => absurd x (h2.head hq)⟩
  plain t t' ht := by
    rcases h _ _ ht with rfl | ⟨h1, h2⟩
    · rfl
    · rw [(plainName_iff d t).2 h1.name, (plainName_iff d t').2 h2.name]
  short q hq r r' ht := by
    rcases h _ _ ht with e | ⟨h1, h2⟩
    · cases e; rfl
    · exact absurd rfl (h1.head hq)

theorem renaming_alike {isNum : Str → Bool} {d : Rdbms} {ρ : Str → Str} (h : Renaming isNum d ρ) :
    AlikeV d isNum (fun t t' => t' = ρ t) := by
  refine renamed_alike (isNum := isNum) ?_ ?_ ?_
  · refine ((h EOF).2 fun ho => ?_).symm
    exact absurd ho.ident (by decide)
  · intro k hk
    refine ((h (S k)).2 fun ho => ?_).symm
    refine ho.word k hk ?_
    rw [upper_eq, grammarWords_upper d k hk]
  · rintro t _ rfl
    by_cases ho : Ordinary isNum d t
    · exact .inr ⟨ho, (h t).1 ho⟩
    · exact .inl ((h t).2 ho).symm

theorem ident_small {t : Str} (h : matchIdent t = true) : ∀ c ∈ t, c.toNat < 128 := by
  have ha : ∀ c, isAlpha_ c = true → c.toNat < 128 := fun c hc => by
    simp only [isAlpha_, Bool.or_eq_true, Bool.and_eq_true, decide_eq_true_eq, beq_iff_eq] at hc
    have hc : ((97 ≤ c.toNat ∧ c.toNat ≤ 122) ∨ (65 ≤ c.toNat ∧ c.toNat ≤ 90)) ∨ c = '_' := hc
    rcases hc with hc | rfl
    · omega
    · decide
  have hd : ∀ c, isDig c = true → c.toNat < 128 := fun c hd => by
    simp only [isDig, Bool.and_eq_true, decide_eq_true_eq] at hd
    have hd : 48 ≤ c.toNat ∧ c.toNat ≤ 57 := hd
    omega
  cases t with
  | nil => intro c hc; cases hc
  | cons a r =>
    have : (isAlpha_ a && r.all _) = true := h
    rw [Bool.and_eq_true, List.all_eq_true] at this
    intro c hc
    rcases List.mem_cons.1 hc with rfl | hc
    · exact ha _ this.1
    · rcases Bool.or_eq_true_iff.1 (this.2 c hc) with h | h
      · exact ha _ h
      · exact hd _ h

theorem renaming_up [CaseMap] {isNum : Str → Bool} {d : Rdbms} {ρ : Str → Str} (h : Renaming isNum d ρ) :
    UpAlike (fun t t' => t' = ρ t) := by
  rintro k hk t _ rfl
  by_cases ho : Ordinary isNum d t
  · have ho' := (h t).1 ho
    have hk : k ∈ grammarWords d := by revert k; cases d <;> decide +kernel
    rw [upStr_small (ident_small ho.ident), upStr_small (ident_small ho'.ident), ← upper_eq, ← upper_eq]
    exact ⟨fun x => absurd x (ho.word k hk), fun x => absurd x (ho'.word k hk)⟩
  · rw [(h t).2 ho]

end DDL

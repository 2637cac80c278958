import Verif.Proof.PostgresImpl
import Verif.Model.Mysql
/-
The MySQL validator implements the MySQL grammar.
-/

namespace DDL
open V Spec

theorem Impl.of_runA {p p' : Prog Unit} {L : Lang β} {E : β → List Str → Prop} {ts : List Str}
    (h : runA p ts = runA p' ts) (hp : Impl p' L E ts) : Impl p L E ts := by
  unfold Impl at *
  rw [h]; exact hp

theorem Impls.of_runA {n : Nat} {p p' : Prog Unit} {L : Lang β} {E : β → List Str → Prop}
    (h : ∀ ts, runA p ts = runA p' ts) (hp : Impls n p' L E) : Impls n p L E :=
  fun ts hts => (hp ts hts).of_runA (h ts)

theorem isKw_cons {k : String} {ks : List String} {t : Str} :
    isKw (k :: ks) t = (isKw [k] t || isKw ks t) := by
  rw [Bool.eq_iff_iff]
  simp only [Bool.or_eq_true, isKw_kw, Kw]
  constructor
  · rintro ⟨x, hx, h⟩
    rcases List.mem_cons.1 hx with rfl | hx
    · exact .inl ⟨_, by simp, h⟩
    · exact .inr ⟨x, hx, h⟩
  · rintro (⟨x, hx, h⟩ | ⟨x, hx, h⟩)
    · simp at hx; subst hx; exact ⟨x, by simp, h⟩
    · exact ⟨x, by simp [hx], h⟩

theorem runA_split (k : String) (ks : List String) (q : Prog Unit) (ts : List Str) :
    runA (validateToken false (k :: ks) >>= fun _ => q) ts =
      runA (ifM (matchToken [k]) (validateToken false [k] >>= fun _ => q)
        (validateToken false ks >>= fun _ => q)) ts := by
  rw [runA_if, runA_seq, runA_seq, runA_seq]
  cases ts with
  | nil => simp [runA_validateToken, ResA.andThen]
  | cons t r =>
    simp only [runA_validateToken, List.headD_cons]
    rw [isKw_cons]
    cases h : isKw [k] t <;> cases h' : isKw ks t <;> simp

/-- One program for several alternatives which differ in the first keyword. -/
theorem Impls.split {n : Nat} {k : String} {ks : List String} {q : Prog Unit} {f : Unit → Lang β}
    {M : Lang β} {E : β → List Str → Prop} (hM : NotFirst [k] M) (h1 : Impls n q (f ()) E)
    (h2 : Impls n (validateToken false ks >>= fun _ => q) M E) :
    Impls n (validateToken false (k :: ks) >>= fun _ => q) ((Spec.kw [k] >>= f) <|> M) E :=
  Impls.of_runA (runA_split k ks q)
    (Impls.alt (.kw fun _ ht => isKw_mem.2 ht) hM (Impls.kwF h1) h2)

theorem Impls.ret_bind {n : Nat} {p : Prog Unit} {L : Lang β} {E : β → List Str → Prop}
    (h : Impls n p L E) : Impls n (p >>= fun _ => .ret ()) L E := by
  have e : (p >>= fun _ => Prog.ret ()) = p := Prog.bind_ret p
  rwa [e]

/-- `if matchToken(ks) { next(); p } else { q }` -/
theorem Impls.altNx {n : Nat} {ks : List String} {p q : Prog Unit}
    {f : Unit → Lang β} {B : Lang β} {E : β → List Str → Prop}
    (heof : isKw ks EOF = false) (hB : NotFirst ks B)
    (hp : Impls n p (f ()) E) (hq : Impls n q B E) :
    Impls n (ifM (matchToken ks) (next false >>= fun _ => p) q) ((Spec.kw ks >>= f) <|> B) E := by
  have : ifM (matchToken ks) (next false >>= fun _ => p) q = ifM (matchTokenNext false ks) p q :=
    (ifM_next false ks p q).symm
  rw [this]
  exact Impls.altNextK heof hB hp hq

namespace MysqlImpl

theorem string_impl (n : Nat) :
    Impls n (Mysql.validateStringValue false) (Spec.string .mysql) nilE := by
  intro ts hts
  refine (Impl.tok_of (set := false) ?_ ?_ ?_ hts.2).conseq fun _ _ h => h.2.2
  · rintro rfl
    refine ⟨[], ?_⟩
    simp [Mysql.validateStringValue, runA, EOF_cons]
    rfl
  · rintro t r rfl ⟨c, s, rfl, hc⟩
    have : isStringValue .mysql c = true := (isStringValue_iff .mysql c).2 hc
    simp [Mysql.validateStringValue, runA, this, runA_next]
  · rintro t r rfl h
    cases t with
    | nil => exact absurd rfl (hts.2 [] (by simp)).1
    | cons c s =>
      have : isStringValue .mysql c = false := by
        cases hc : isStringValue .mysql c with
        | false => rfl
        | true => exact absurd ⟨c, s, rfl, (isStringValue_iff .mysql c).1 hc⟩ h
      exact ⟨_, by simp [Mysql.validateStringValue, runA, this, syntaxError]; rfl⟩

/-- An optional name: left out before one of `ks`. -/
theorem nameUnless_impl (n : Nat) (ks : List String) (heof : isKw ks EOF = false) (set : Bool) :
    Impls n (ifM (matchToken ks) (.ret ()) (validateName .mysql set)) (Spec.Mysql.nameUnless ks)
      (fun i o => match i with
        | none => o = []
        | some m => NameTok .mysql m ∧ o = keep set m) := by
  intro ts hts
  unfold Spec.Mysql.nameUnless
  refine Impl.opt heof (.at fun t ht => isKw_mem.2 ht) (fun hk => ?_) (fun _ => ?_)
  · refine Impl.congr (L' := pure none) (fun v r => ?_) (.ret rfl)
    constructor
    · rintro ⟨_, _, h, h'⟩
      obtain ⟨rfl, _⟩ := (at_iff heof).1 h
      exact h'
    · exact fun h => ⟨(), ts, (at_iff heof).2 ⟨rfl, hk⟩, h⟩
  · refine Impls.last (name_impl n .mysql set) (fun m o ⟨h1, h2, h3⟩ => .ret ?_) ts hts
    exact ⟨⟨h1, h2⟩, by simpa using h3⟩

theorem nameUnless_implF (n : Nat) (ks : List String) (heof : isKw ks EOF = false) :
    Impls n (ifM (matchToken ks) (.ret ()) (validateName .mysql false))
      (Spec.Mysql.nameUnless ks) nilE :=
  (nameUnless_impl n ks heof false).conseq fun i o h => by
    cases i with
    | none => exact h
    | some m => exact h.2

theorem conName_impl (n : Nat) (ks : List String) (heof : isKw ks EOF = false) :
    Impls n (ifM (matchTokenNext true ["CONSTRAINT"])
      (ifM (matchToken ks) (.ret ()) (validateName .mysql true)) (.ret ()))
      (Spec.Mysql.conName ks) (conNameE .mysql) := by
  refine (Impls.optKw (E := fun b o => match b with
      | none => o = []
      | some none => ∃ c, isKw ["CONSTRAINT"] c = true ∧ o = [c]
      | some (some b) => ∃ c, isKw ["CONSTRAINT"] c = true ∧ NameTok .mysql b ∧ o = [c, b])
      (by decide) (fun t ht => ?_) rfl).last ?_
  · refine (nameUnless_impl n ks heof true).conseq fun b o h => ?_
    cases b with
    | none => cases h; exact ⟨t, ht, rfl⟩
    | some b => obtain ⟨h1, rfl⟩ := h; exact ⟨t, ht, h1, rfl⟩
  · intro b o h
    match b, h with
    | none, h => cases h; exact .ret rfl
    | some none, h => exact .ret (by simpa [conNameE] using h)
    | some (some b), h => exact .ret (by simpa [conNameE] using h)

/-- Emission of an index key. -/
def keyE (set : Bool) (k : KeyPart) (o : List Str) : Prop :=
  (∀ n, k = .col n → NameTok .mysql n) ∧ o = keepAll set (KeyPart.toks k)

theorem keyPart_impl (n : Nat) (set : Bool) :
    Impls n (do
      ifM (matchToken ["("])
        (validateExpr n false)
        (do validateName .mysql set
            validateTypeDigitN false)
      skipToken false ["ASC", "DESC"]) Spec.Mysql.keyPart (keyE set) := by
  refine Impls.bind (E1 := keyE set) ?_ fun k o hk =>
    Impls.lastF (Impls.optWordF (by decide)) (by simpa using hk)
  intro ts hts
  refine Impl.alt (by first_) (.tok fun t ht => not_name (by decide) ht) (fun hk => ?_)
    (fun _ => ?_)
  · refine Impl.congr (L' := do let _ ← parens; return KeyPart.expr) (fun v r => ?_)
      (Impls.lastF (parens_implF n) ⟨by simp, by simp [keepAll, KeyPart.toks]⟩ ts hts)
    constructor
    · rintro ⟨_, _, h, h'⟩
      obtain ⟨rfl, _⟩ := (at_iff (by decide)).1 h
      exact h'
    · exact fun h => ⟨(), ts, (at_iff (by decide)).2 ⟨rfl, hk⟩, h⟩
  · refine Impls.bind (name_impl n .mysql set) (fun m o ⟨h1, h2, h3⟩ => ?_) ts hts
    refine Impls.lastF (digitN_implF n) ⟨?_, ?_⟩
    · intro m' hm'
      cases hm'
      exact ⟨h1, h2⟩
    · simp [h3, KeyPart.toks, keepAll_one]

theorem keys_eq (set : Bool) (n : Nat) :
    Mysql.validateIndexKeysAux set (n + 1) = ((do
      ifM (matchToken ["("])
        (validateExpr (n + 1) false)
        (do validateName .mysql set
            validateTypeDigitN false)
      skipToken false ["ASC", "DESC"]) >>= fun _ =>
      ifM (matchTokenNext set [","]) (Mysql.validateIndexKeysAux set n) (.ret ())) := by
  rw [Mysql.validateIndexKeysAux]
  simp only [Prog.bind_eq, Prog.bind_assoc]

theorem keys_impl (n : Nat) :
    Impls n (Mysql.validateIndexKeysAux true n) (Sep Spec.Mysql.keyPart) (keysE .mysql) := by
  refine (sep_impl (item := fun n => do
      ifM (matchToken ["("])
        (validateExpr n false)
        (do validateName .mysql true
            validateTypeDigitN false)
      skipToken false ["ASC", "DESC"]) (keys_eq true) (fun n => keyPart_impl n true) n).conseq ?_
  rintro ks o ⟨hne, os, hos, rfl⟩
  have key : (∀ n, KeyPart.col n ∈ ks → NameTok .mysql n) ∧ os = ks.map KeyPart.toks := by
    clear hne
    induction hos with
    | nil => simp
    | cons h hs ih =>
      obtain ⟨h1, rfl⟩ := h
      refine ⟨?_, ?_⟩
      · intro n hn
        rcases List.mem_cons.1 hn with hn | hn
        · exact h1 n hn.symm
        · exact ih.1 n hn
      · rw [List.map_cons, ← ih.2]; rfl
  exact ⟨⟨hne, key.1⟩, by rw [key.2]⟩

theorem keys_implF (n : Nat) :
    Impls n (Mysql.validateIndexKeysAux false n) (Sep Spec.Mysql.keyPart) nilE :=
  sep_implF (item := fun n => do
      ifM (matchToken ["("])
        (validateExpr n false)
        (do validateName .mysql false
            validateTypeDigitN false)
      skipToken false ["ASC", "DESC"]) (keys_eq false)
    (fun n => (keyPart_impl n false).conseq fun _ _ h => h.2) n

theorem keyList_impl (n : Nat) :
    Impls n (Mysql.validateIndexKeys n true) Spec.Mysql.keyList (keyListE .mysql) := by
  refine Impls.kwT fun l hl => (keys_impl n).bind fun ks o ⟨h1, h2⟩ => ?_
  refine (Impls.kw n true _).last fun _ o' ⟨r, hr, ho⟩ => .ret ?_
  subst ho h2
  exact ⟨h1, by simp [isKw_lpar.1 hl, isKw_rpar.1 hr]⟩

theorem keyList_implF (n : Nat) :
    Impls n (Mysql.validateIndexKeys n false) Spec.Mysql.keyList (fun _ o => o = [[')']]) := by
  refine Impls.kwF ((keys_implF n).bindF fun ks => ?_)
  refine (Impls.kw n true _).last fun _ o' ⟨r, hr, ho⟩ => .ret ?_
  subst ho
  simp [isKw_rpar.1 hr]

theorem type_impl (n : Nat) : Impls n Mysql.validateColumnType Spec.Mysql.type typeE := by
  intro ts hts
  have special : ∀ {ks : List String}, (∀ t ∈ kwList ks,
      isKw (Spec.Mysql.typesN ++ Spec.Mysql.typesPS ++ Spec.Mysql.typesTime) t = true) →
      NotFirst ks (do
        let n ← tok fun t => Kw dataTypeMysql t ∧
          ¬ Kw (Spec.Mysql.typesN ++ Spec.Mysql.typesPS ++ Spec.Mysql.typesTime) t
        return (⟨n, false, none⟩ : TypeAst) : Lang TypeAst) := by
    intro ks h
    refine NotFirst.tok fun t ht => ?_
    cases hk : isKw ks t with
    | false => rfl
    | true => exact absurd (isKw_kw.1 (forall_kw h hk)) ht.2
  have typeN : ∀ {ks : List String}, (∀ t ∈ kwList ks, TypeWord t) → ∀ t r, ts = t :: r →
      isKw ks t = true →
      Impl (validateTypeDigitN true) (do let g ← digitN; return (⟨t, false, g⟩ : TypeAst))
        (fun w o => typeE w (keep true t ++ o)) r := by
    intro ks hks t r e ht
    refine Impls.last (digitN_impl n) (fun g og hg => .ret ?_) r (hts.suffix ⟨[t], e.symm⟩)
    simpa using typeE_of ht hks hg
  refine Impl.congr (L' :=
    (do let n ← tok (Kw ["VARCHAR", "CHAR", "BINARY", "VARBINARY", "BLOB", "TEXT"])
        let g ← digitN; return ⟨n, false, g⟩) <|>
    (do let n ← tok (Kw Spec.Mysql.typesPS); let g ← digitPS; return ⟨n, false, g⟩) <|>
    (do let n ← tok (Kw ["BIT", "TINYINT", "SMALLINT", "MEDIUMINT", "INT", "INTEGER", "BIGINT"])
        let g ← digitN; return ⟨n, false, g⟩) <|>
    (do let n ← tok (Kw Spec.Mysql.typesTime); let g ← digitN; Spec.Mysql.zone
        return ⟨n, false, g⟩) <|>
    (do let n ← tok fun t => Kw dataTypeMysql t ∧
          ¬ Kw (Spec.Mysql.typesN ++ Spec.Mysql.typesPS ++ Spec.Mysql.typesTime) t
        return ⟨n, false, none⟩)) (fun v r => ?_) ?_
  · have hN : ∀ t, Kw Spec.Mysql.typesN t ↔
        Kw ["VARCHAR", "CHAR", "BINARY", "VARBINARY", "BLOB", "TEXT"] t ∨
        Kw ["BIT", "TINYINT", "SMALLINT", "MEDIUMINT", "INT", "INTEGER", "BIGINT"] t := by
      intro t
      simp only [← isKw_kw]
      constructor
      · intro h
        exact forall_kw (P := fun t => isKw ["VARCHAR", "CHAR", "BINARY", "VARBINARY", "BLOB", "TEXT"] t = true ∨
          isKw ["BIT", "TINYINT", "SMALLINT", "MEDIUMINT", "INT", "INTEGER", "BIGINT"] t = true)
          (by decide) h
      · rintro (h | h)
        · exact forall_kw (P := fun t => isKw _ t = true) (by decide) h
        · exact forall_kw (P := fun t => isKw _ t = true) (by decide) h
    constructor
    · rintro (⟨t, m, ⟨h1, h2⟩, h3⟩ | h | h | h)
      · rcases (hN t).1 h2 with h2 | h2
        · exact .inl ⟨t, m, ⟨h1, h2⟩, h3⟩
        · exact .inr (.inr (.inl ⟨t, m, ⟨h1, h2⟩, h3⟩))
      · exact .inr (.inl h)
      · exact .inr (.inr (.inr (.inl h)))
      · exact .inr (.inr (.inr (.inr h)))
    · rintro (⟨t, m, ⟨h1, h2⟩, h3⟩ | h | ⟨t, m, ⟨h1, h2⟩, h3⟩ | h | h)
      · exact .inl ⟨t, m, ⟨h1, (hN t).2 (.inl h2)⟩, h3⟩
      · exact .inr (.inl h)
      · exact .inl ⟨t, m, ⟨h1, (hN t).2 (.inr h2)⟩, h3⟩
      · exact .inr (.inr (.inl h))
      · exact .inr (.inr (.inr h))
  · unfold Mysql.validateColumnType
    refine Impl.altNext (by decide) ?_ hts.2 (fun t r e ht _ => typeN (by decide) t r e ht)
      (fun hk1 => ?_)
    · notfirst; exact special (by decide)
    refine Impl.altNext (by decide) ?_ hts.2 (fun t r e ht _ => ?_) (fun hk2 => ?_)
    · notfirst; exact special (by decide)
    · refine Impls.last (digitPS_impl n) (fun g og hg => .ret ?_) r (hts.suffix ⟨[t], e.symm⟩)
      simpa using typeE_of ht (by decide) hg
    refine Impl.altNext (by decide) ?_ hts.2 (fun t r e ht _ => typeN (by decide) t r e ht)
      (fun hk3 => ?_)
    · notfirst; exact special (by decide)
    refine Impl.altNext (by decide) ?_ hts.2 (fun t r e ht _ => ?_) (fun hk4 => ?_)
    · notfirst; exact special (by decide)
    · refine Impls.bind (digitN_impl n) (fun g og hg => ?_) r (hts.suffix ⟨[t], e.symm⟩)
      refine Impls.lastF (zone_impl n) ?_
      simpa using typeE_of ht (by decide) hg
    exact type_word (by decide +kernel) hts
      (isKw_append (isKw_append (isKw_append hk1 hk3) hk2) hk4)

theorem check_impl (n : Nat) {f : List Str → β} {E : β → List Str → Prop}
    (hE : ∀ e o, checkE e o → E (f e) o) :
    Impls n (Mysql.validateConstraintCheck n)
      (do let e ← Spec.Mysql.check; return f e) E := by
  unfold Spec.Mysql.check
  simp only [Lang.bind_assoc, Lang.pure_bind]
  refine Impls.kwT fun t ht => ?_
  refine (parens_implT n).bind fun e o ⟨h1, h2⟩ => ?_
  refine Impls.bindF (Impls.optWordF (by decide)) fun _ => ?_
  refine Impls.lastF (Impls.optWordF (by decide)) (hE _ _ ⟨t, ht, h1, ?_⟩)
  simp [h2]

theorem default_impl {isNum : Str → Bool} (hN : NumOK isNum) (n : Nat) :
    Impls n (Mysql.validateConstraintDefault isNum n)
      (do kw ["DEFAULT"]
          (do at_ ["("]; let e ← parens; return ColCon.default (.expr e)) <|>
          (do notAt ["("]; let t ← literal isNum .mysql
              let _ ← optKw ["ON"] (do
                kw ["UPDATE"]; kw ["CURRENT_TIME", "CURRENT_DATE", "CURRENT_TIMESTAMP"])
              return ColCon.default (.lit t)))
      (colConE isNum .mysql) := by
  refine Impls.kwT fun t ht => ?_
  intro ts hts
  refine Impl.opt (by decide) (by first_) (fun hk => ?_) (fun _ => ?_)
  · refine Impl.congr (L' := do let e ← parens; return ColCon.default (.expr e)) (fun v r => ?_)
      (Impls.last (parens_implT n) (fun e o ⟨h1, h2⟩ => .ret ?_) ts hts)
    · constructor
      · rintro ⟨_, _, h, h'⟩
        obtain ⟨rfl, _⟩ := (at_iff (by decide)).1 h
        exact h'
      · exact fun h => ⟨(), ts, (at_iff (by decide)).2 ⟨rfl, hk⟩, h⟩
    · exact ⟨t, o, ht, ⟨h1, h2⟩, by simp⟩
  · rename_i hk
    refine Impl.bind (literal_impl hN n .mysql true ts hts)
      (fun l o rest ⟨h1, h2, h3⟩ hl hr => ?_)
    refine Impls.lastF (Impls.optKwF (by decide) (Impls.kwF (Impls.kwLast n _))) ?_ rest
      (hts.suffix hr)
    refine ⟨t, o, ht, ⟨⟨h1, h2⟩, ?_, by simpa using h3⟩, by simp⟩
    rintro rfl
    obtain ⟨rfl, _⟩ := hl
    simp [isKw_lpar.2] at hk

theorem primaryKey_impl (isNum : Str → Bool) (n : Nat) :
    Impls n Mysql.validateConstraintPrimaryKey
      ((do kw ["KEY"]; return ColCon.primaryKey false) <|>
       (do kw ["PRIMARY"]; kw ["KEY"]; return ColCon.primaryKey false))
      (colConE isNum .mysql) := by
  unfold Mysql.validateConstraintPrimaryKey
  intro ts hts
  refine Impl.alt (by first_) (by notfirst) (fun hk => ?_) (fun _ => ?_)
  · refine Impl.emit (Impl.emit (Impl.of_runA (p' := validateToken false ["KEY"]) ?_ ?_))
    · cases ts with
      | nil => simp [isKw, EOF_cons] at hk; exact absurd hk (by decide)
      | cons t r =>
        simp only [List.headD_cons] at hk
        show runA (next false) (t :: r) = _
        simp [runA_next, runA_validateToken, hk]
    · exact Impls.lastF (Impls.kwLast n _)
        ⟨S "PRIMARY", S "KEY", [], by decide, by decide, rfl, rfl⟩ ts hts
  · refine Impls.kwT (fun p hp => ?_) ts hts
    refine (Impls.kw n true _).last fun _ o ⟨k, hk, ho⟩ => .ret ?_
    subst ho
    exact ⟨p, k, [], hp, hk, rfl, rfl⟩

theorem generated_impl (isNum : Str → Bool) (n : Nat) :
    Impls n (Mysql.validateConstraintGenerated n)
      ((do kw ["GENERATED"]; kw ["ALWAYS"]; kw ["AS"]; let _ ← parens
           return ColCon.other "GENERATED") <|>
       (do kw ["AS"]; let _ ← parens; return ColCon.other "GENERATED")) (colConE isNum .mysql) := by
  unfold Mysql.validateConstraintGenerated
  rw [ifM_bind]
  refine Impls.altNextK (by decide) (by notfirst) (Impls.kwF (Impls.kwF ?_)) (Impls.kwF ?_)
  all_goals exact Impls.lastF (parens_implF n) rfl

theorem vis_eq (n : Nat) {L : Lang β} {E : β → List Str → Prop} {ks : List String}
    (heof : isKw ks EOF = false)
    (h : Impls n (validateToken false ks >>= fun _ => .ret ()) L E) :
    Impls n (ifM (matchTokenNext false ks) (.ret ()) syntaxError) L E := by
  refine Impls.of_runA (fun ts => ?_) h
  rw [runA_seq, ifM_next, runA_if]
  cases ts with
  | nil => simp [runA_validateToken, heof, ResA.andThen, syntaxError, runA]
  | cons t r =>
    cases hk : isKw ks t <;> simp [runA_validateToken, hk, ResA.andThen, syntaxError, runA]

theorem vis_impl (isNum : Str → Bool) (n : Nat) :
    Impls n (ifM (matchTokenNext false ["VISIBLE", "INVISIBLE", "VIRTUAL", "STORED"]) (.ret ())
        syntaxError)
      ((do kw ["VISIBLE"]; return .other "VISIBLE") <|>
       (do kw ["INVISIBLE"]; return .other "INVISIBLE") <|>
       (do kw ["VIRTUAL"]; return .other "VIRTUAL") <|>
       (do kw ["STORED"]; return .other "STORED")) (colConE isNum .mysql) := by
  refine vis_eq n (by decide) ?_
  refine Impls.split (by notfirst) (Impls.ret rfl) ?_
  refine Impls.split (by notfirst) (Impls.ret rfl) ?_
  refine Impls.split (by notfirst) (Impls.ret rfl) ?_
  exact Impls.kwF (Impls.ret rfl)

theorem refClauses_impl (n : Nat) :
    Impls n (validateConstraintReferencesAux n) Spec.refClauses nilE := DDL.refClauses_impl n

theorem name_ne_comma {d : Rdbms} {t : Str} (h : Name d t) : t ≠ S "," := by
  rintro rfl
  rcases h with ⟨c, r, h, hc⟩ | ⟨⟨c, r, h, hc, _⟩, _⟩
  · obtain ⟨rfl, _⟩ := List.cons.inj (show ',' :: [] = c :: r from h)
    cases d <;> revert hc <;> decide
  · obtain ⟨rfl, _⟩ := List.cons.inj (show ',' :: [] = c :: r from h)
    revert hc; decide

theorem colCon_impl {isNum : Str → Bool} (hN : NumOK isNum) (n : Nat) :
    Impls n (Mysql.validateColumnConstraint isNum n) (Spec.Mysql.colCon isNum)
      (colConE isNum .mysql) := by
  unfold Mysql.validateColumnConstraint Spec.Mysql.colCon
  rw [← Lang.alt_assoc]
  refine Impls.alt (by first_) (by notfirst) (primaryKey_impl isNum n) ?_
  refine Impls.alt (by first_) (by notfirst) ?_ ?_
  · refine Impls.kwT fun a ha => (Impls.kw n true _).last fun _ o ⟨b, hb, ho⟩ => .ret ?_
    subst ho
    exact ⟨a, b, ha, hb, rfl⟩
  refine Impls.alt (by first_) (by notfirst) (Impls.lastF (Impls.kwLast n _) rfl) ?_
  refine Impls.alt (by first_) (by notfirst) ?_ ?_
  · exact Impls.kwT fun a ha => Impls.lastF (Impls.optWordF (by decide)) ⟨a, ha, rfl⟩
  refine Impls.alt (by first_) (by notfirst) (check_impl n fun e o h => h) ?_
  refine Impls.alt (by first_) (by notfirst) (default_impl hN n) ?_
  refine Impls.alt (by first_) (by notfirst) ?_ ?_
  · refine Impls.kwT fun t ht => (name_impl n .mysql true).last fun c o ⟨h1, h2, h3⟩ => .ret ?_
    exact ⟨t, ht, h2, (name_ne_comma h1), by simp [h3]⟩
  refine Impls.alt (by first_) (by notfirst)
    (colRef_impl (refClauses_impl n) fun r o h => h) ?_
  rw [← Lang.alt_assoc]
  refine Impls.alt (by first_) (by notfirst) (generated_impl isNum n) ?_
  refine Impls.alt (by first_) (by notfirst)
    (Impls.kwF (Impls.lastF (string_impl n) rfl)) ?_
  refine Impls.alt (by first_) (by notfirst)
    (Impls.kwF (Impls.lastF (Impls.kwLast n _) rfl)) ?_
  rw [← Lang.alt_assoc]
  refine Impls.alt (by first_) (by notfirst) ?_ ?_
  · refine Impls.split (by notfirst) ?_ (Impls.kwF ?_)
    all_goals exact Impls.bindF (Impls.optWordF (by decide)) fun _ => Impls.lastF (string_impl n) rfl
  refine Impls.alt (by first_) (by notfirst)
    (Impls.kwF (Impls.lastF (Impls.kwLast n _) rfl)) ?_
  refine Impls.alt (by first_) (by notfirst) ?_ (vis_impl isNum n)
  refine (Impls.kw n true _).last fun _ o ⟨b, hb, ho⟩ => .ret ?_
  subst ho
  exact ⟨b, hb, rfl⟩

theorem suff_check : Suff Spec.Mysql.check := by
  unfold Spec.Mysql.check; suff

theorem suff_nameUnless (ks : List String) : Suff (Spec.Mysql.nameUnless ks) := by
  unfold Spec.Mysql.nameUnless; suff

theorem suff_keyList : Suff Spec.Mysql.keyList := by
  have := Suff.digitN
  unfold Spec.Mysql.keyList Spec.Mysql.keyPart; suff

theorem suff_indexType : Suff Spec.Mysql.indexType := by
  unfold Spec.Mysql.indexType; suff

theorem suff_indexOptions (isNum : Str → Bool) : Suff (Spec.Mysql.indexOptions isNum) := by
  unfold Spec.Mysql.indexOptions; suff

theorem suff_conName (ks : List String) : Suff (Spec.Mysql.conName ks) := by
  unfold Spec.Mysql.conName; suff

theorem suff_type : Suff Spec.Mysql.type := by
  have := Suff.digitN
  have := Suff.digitPS
  unfold Spec.Mysql.type Spec.Mysql.zone; suff

theorem cons_colCon (isNum : Str → Bool) : Cons (Spec.Mysql.colCon isNum) := by
  have := Suff.qname .mysql
  have := Suff.refClauses
  unfold Spec.Mysql.colCon Spec.colRef Spec.Mysql.check
  simp only [Lang.bind_assoc]
  repeat' apply Cons.alt
  all_goals (apply Cons.kw_bind; suff)

/-- Kinds of column constraints. -/
def kinds : List String :=
  ["PRIMARY", "NULL", "UNIQUE", "CHECK", "DEFAULT", "COLLATE", "REFERENCES", "GENERATED",
   "COMMENT", "COLUMN_FORMAT", "ENGINE_ATTRIBUTE", "SECONDARY_ENGINE_ATTRIBUTE", "STORAGE",
   "AUTO_INCREMENT", "VISIBLE", "INVISIBLE", "VIRTUAL", "STORED"]

theorem keyIs_colCon (isNum : Str → Bool) :
    KeyIs Mysql.constraintKey S kinds (Spec.Mysql.colCon isNum) := by
  unfold Spec.Mysql.colCon
  refine .alt (.leaf "PRIMARY" (by decide) (by first_) (by val)) ?_
  refine .alt (.leaf "PRIMARY" (by decide) (by first_) (by val)) ?_
  refine .alt (.leaf "NULL" (by decide) (by first_) (by val)) ?_
  refine .alt (.leaf "NULL" (by decide) (by first_) (by val)) ?_
  refine .alt (.leaf "UNIQUE" (by decide) (by first_) (by val)) ?_
  refine .alt (.leaf "CHECK" (by decide) (by first_) (by val)) ?_
  refine .alt (.leaf "DEFAULT" (by decide) (by first_) (by val)) ?_
  refine .alt (.leaf "COLLATE" (by decide) (by first_) (by val)) ?_
  refine .alt (.leaf "REFERENCES" (by decide) (by first_) (by val)) ?_
  refine .alt (.leaf "GENERATED" (by decide) (by first_) (by val)) ?_
  refine .alt (.leaf "GENERATED" (by decide) (by first_) (by val)) ?_
  refine .alt (.leaf "COMMENT" (by decide) (by first_) (by val)) ?_
  refine .alt (.leaf "COLUMN_FORMAT" (by decide) (by first_) (by val)) ?_
  refine .alt (.leaf "ENGINE_ATTRIBUTE" (by decide) (by first_) (by val)) ?_
  refine .alt (.leaf "SECONDARY_ENGINE_ATTRIBUTE" (by decide) (by first_) (by val)) ?_
  refine .alt (.leaf "STORAGE" (by decide) (by first_) (by val)) ?_
  refine .alt (.leaf "AUTO_INCREMENT" (by decide) (by first_) (by val)) ?_
  refine .alt (.leaf "VISIBLE" (by decide) (by first_) (by val)) ?_
  refine .alt (.leaf "INVISIBLE" (by decide) (by first_) (by val)) ?_
  refine .alt (.leaf "VIRTUAL" (by decide) (by first_) (by val)) ?_
  exact .leaf "STORED" (by decide) (by first_) (by val)

theorem colCons_impl {isNum : Str → Bool} (hN : NumOK isNum) (n : Nat) :
    Impls n (columnConstraintsAux Mysql.columnConstraintKinds Mysql.constraintKey
        (Mysql.validateColumnConstraint isNum) n [])
      (colCons Spec.Mysql.colConFirst (Spec.Mysql.colCon isNum))
      (manyE (colConE isNum .mysql)) := by
  have := DDL.colCons_impl (kindWords := Spec.Mysql.colConFirst) (by decide) (colCon_impl hN)
    (cons_colCon isNum) (keyIs_colCon isNum) (by decide) n [] (by simp)
  simp only [List.map_nil, List.not_mem_nil, not_false_eq_true, implies_true, and_true] at this
  exact this

theorem column_impl {isNum : Str → Bool} (hN : NumOK isNum) (n : Nat) :
    Impls n (do
      validateName .mysql true
      Mysql.validateColumnType
      Mysql.validateColumnConstraints isNum n) (Spec.Mysql.column isNum)
      (itemE isNum .mysql) :=
  DDL.column_impl (type_impl n) (conName_impl n ["CHECK"] (by decide)) (colCons_impl hN n)

theorem indexType_impl (n : Nat) : Impls n Mysql.optIndexType Spec.Mysql.indexType nilE := by
  unfold Mysql.optIndexType Spec.Mysql.indexType optKw
  refine Impls.lastN (f := fun _ => ()) ?_
  intro ts hts
  refine Impl.opt (by decide) (by first_) (fun _ => ?_) (fun _ => .ret rfl)
  exact (Impls.kwF (Impls.lastN (f := some) (Impls.kwLast n _))) ts hts

theorem runA_usingNext (ks : List String) (heof : isKw ks EOF = false) (q r : Prog Unit)
    (ts : List Str) :
    runA (ifM (matchToken ks) (validateToken false ks >>= fun _ => q) r) ts =
      runA (ifM (matchTokenNext false ks) q r) ts := by
  rw [ifM_next, runA_if, runA_if, runA_seq]
  cases ts with
  | nil => simp [heof]
  | cons t ts =>
    cases hk : isKw ks t <;> simp [hk, runA_validateToken, ResA.andThen, runA]

theorem altNextK' {n : Nat} {ks : List String} {p q : Prog Unit} {f : Unit → Lang β} {B : Lang β}
    {ts : List Str} (hts : Ok (n + 1) ts) (heof : isKw ks EOF = false) (hB : NotFirst ks B)
    (hp : Impls n p (f ()) nilE) (hq : isKw ks (hd ts) = false → Impl q B nilE ts) :
    Impl (ifM (matchTokenNext false ks) p q) ((Spec.kw ks >>= f) <|> B) nilE ts := by
  rw [Lang.kw_bind]
  refine Impl.altNext heof hB hts.2 (fun t r e _ _ => ?_) hq
  subst e
  exact (hp r hts.tail).conseq fun _ _ h => h

theorem indexOptions_impl {isNum : Str → Bool} (hN : NumOK isNum) (n : Nat) :
    Impls n (Mysql.validateIndexOption isNum n) (Spec.Mysql.indexOptions isNum) nilE := by
  refine Impls.lastN (f := fun _ => ()) ?_
  induction n with
  | zero => intro ts hts; exact absurd hts.1 (by omega)
  | succ n ih =>
    intro ts hts
    refine Impl.loop (by decide) (by first_) fun M hM => ?_
    rw [← hM] at ih
    clear hM
    have ih' : ∀ a, Impls n (Mysql.validateIndexOption isNum n)
        (M >>= fun as => (pure (a :: as) : Lang (List Unit))) nilE :=
      fun a => Impls.lastN ih
    rw [Mysql.validateIndexOption]
    have hassoc : (Mysql.validateIndexType >>= fun _ => Mysql.validateIndexOption isNum n) =
        (validateToken false ["USING"] >>= fun _ => validateToken false ["BTREE", "HASH"] >>= fun _ =>
          Mysql.validateIndexOption isNum n) := by
      simp only [Mysql.validateIndexType, Prog.bind_eq, Prog.bind_assoc]
    rw [hassoc]
    have using_ := fun ts => runA_usingNext ["USING"] (by decide)
      (validateToken false ["BTREE", "HASH"] >>= fun _ => Mysql.validateIndexOption isNum n)
      (ifM (matchTokenNext false ["WITH"])
        (do validateToken false ["PARSER"]
            validateName .mysql false
            Mysql.validateIndexOption isNum n) <|
      ifM (matchTokenNext false ["COMMENT"])
        (do Mysql.validateStringValue false
            Mysql.validateIndexOption isNum n) <|
      ifM (matchTokenNext false ["VISIBLE", "INVISIBLE"]) (Mysql.validateIndexOption isNum n) <|
      ifM (matchTokenNext false ["ENGINE_ATTRIBUTE", "SECONDARY_ENGINE_ATTRIBUTE"])
        (do skipToken false ["="]
            Mysql.validateStringValue false
            Mysql.validateIndexOption isNum n)
      (.ret ())) ts
    simp only [Lang.alt_bind, Lang.bind_assoc, Lang.alt_assoc, Lang.pure_bind]
    refine altNextK' hts (by decide) (by notfirst) ?_ (fun hk1 => ?_)
    · exact Impls.bindF (Impls.optWordF (by decide)) fun _ =>
        Impls.bindF (literal_implF hN n .mysql) fun _ => ih' ()
    refine Impl.of_runA (using_ ts) (altNextK' hts (by decide) (by notfirst) ?_ (fun hk2 => ?_))
    · exact Impls.kwF (ih' ())
    refine altNextK' hts (by decide) (by notfirst) ?_ (fun hk3 => ?_)
    · exact Impls.kwF (Impls.bindF (name_implF n .mysql) fun _ => ih' ())
    refine altNextK' hts (by decide) (by notfirst) ?_ (fun hk4 => ?_)
    · exact Impls.bindF (string_impl n) fun _ => ih' ()
    refine altNextK' hts (by decide) (by notfirst) (ih' ()) (fun hk5 => ?_)
    refine altNextK' hts (by decide) (by notfirst) ?_ (fun hk6 => ?_)
    · exact Impls.bindF (Impls.optWordF (by decide)) fun _ =>
        Impls.bindF (string_impl n) fun _ => ih' ()
    exact .notAt (by decide) (isKw_append hk1 (isKw_append hk2 (isKw_append hk3
      (isKw_append hk4 (isKw_append hk5 hk6))))) rfl

theorem indexName_impl (n : Nat) :
    Impls n (ifM (matchToken ["USING"]) (.ret ())
      (ifM (matchToken ["("]) (.ret ()) (validateName .mysql false)))
      (Spec.Mysql.nameUnless ["USING", "("]) nilE := by
  refine Impls.of_runA (fun ts => ?_) (nameUnless_implF n ["USING", "("] (by decide))
  rw [runA_if, runA_if, runA_if]
  have : isKw ["USING", "("] (hd ts) = (isKw ["USING"] (hd ts) || isKw ["("] (hd ts)) := isKw_cons
  rw [this]
  cases isKw ["USING"] (hd ts) <;> simp

theorem tableCon_impl {isNum : Str → Bool} (hN : NumOK isNum) (n : Nat) (c : ConName) :
    Impls n (Mysql.validateTableConstraintAux isNum n) (Spec.Mysql.tableCon isNum c)
      (fun i o => Item.conName i = c ∧ tableConE .mysql i o) := by
  unfold Mysql.validateTableConstraintAux Spec.Mysql.tableCon
  refine Impls.alt (by first_) (by notfirst) ?_ ?_
  · refine Impls.kwT fun p hp => Impls.kwT fun k hk => (indexType_impl n).bindF fun _ => ?_
    refine (keyList_impl n).bind fun cs oc h => ?_
    exact Impls.lastF (indexOptions_impl hN n) ⟨rfl, p, k, oc, hp, hk, h, by simp⟩
  refine Impls.alt (by first_) (by notfirst) ?_ ?_
  · refine Impls.kwT fun p hp => Impls.bindF (Impls.optWordF (by decide)) fun _ => ?_
    refine (nameUnless_implF n ["("] (by decide)).bindF fun _ => (indexType_impl n).bindF fun _ => ?_
    refine (keyList_impl n).bind fun cs oc h => ?_
    exact Impls.lastF (indexOptions_impl hN n) ⟨rfl, p, oc, hp, h, by simp⟩
  refine Impls.alt (by first_) (by notfirst) ?_ ?_
  · refine Impls.kwT fun t1 h1 => Impls.kwT fun t2 h2 => ?_
    refine (nameUnless_implF n ["("] (by decide)).bindF fun _ => ?_
    refine nameList_impl n .mysql fun cs oc hcs => ?_
    refine Impls.kwT fun t3 h3 => ?_
    refine (qname_impl n .mysql).bind fun q o ⟨h4, h5⟩ => ?_
    subst h5
    refine (keyList_impl n).bind fun c or hc => ?_
    refine Impls.lastF (refClauses_impl n)
      ⟨rfl, t1, t2, oc, _, h1, h2, hcs, ⟨t3, or, h3, h4, hc, rfl⟩, ?_⟩
    simp
  refine Impls.alt (by first_) (by notfirst) (check_impl n fun e o h => ⟨rfl, h⟩) ?_
  refine Impls.alt (by first_) (by notfirst) ?_ ?_
  · refine Impls.kwF ((indexName_impl n).bindF fun _ => (indexType_impl n).bindF fun _ => ?_)
    refine (keyList_implF n).bind fun cs oc h => ?_
    exact Impls.lastF (indexOptions_impl hN n) ⟨rfl, by simp [h, tableConE]⟩
  refine Impls.altNextLastK (by decide) ?_
  refine Impls.bindF (Impls.optWordF (by decide)) fun _ => ?_
  refine (nameUnless_impl n ["("] (by decide) true).bind fun i oi hi => ?_
  refine (keyList_implF n).bind fun cs oc h => ?_
  refine Impls.lastF (indexOptions_impl hN n) ⟨rfl, oi, ?_, by simp [h]⟩
  cases i with
  | none => exact hi
  | some m => exact ⟨hi.1, hi.2⟩

theorem item_impl {isNum : Str → Bool} (hN : NumOK isNum) (n : Nat) :
    Impls n (Mysql.validateColumnDefinition isNum n) (Spec.Mysql.item isNum)
      (itemE isNum .mysql) :=
  DDL.item_impl (by decide)
    (.tok fun t ht => not_name (by decide +kernel) ht)
    (conName_impl n ["PRIMARY", "UNIQUE", "FOREIGN", "CHECK"] (by decide)) (tableCon_impl hN n)
    (column_impl hN n)

theorem items_impl {isNum : Str → Bool} (hN : NumOK isNum) (n : Nat) :
    Impls n (Mysql.validateColumnDefinitions isNum n) (Sep (Spec.Mysql.item isNum))
      (sepE (itemE isNum .mysql)) :=
  sep_impl (fun _ => rfl) (item_impl hN) n

theorem tableNames_impl (n : Nat) :
    Impls n (Mysql.validateCommaSeparatedTableNames false n) (Sep (qname .mysql)) nilE :=
  sep_implF (fun _ => rfl) (fun n => qname_implF n .mysql) n

theorem optName_impl (n : Nat) :
    Impls n (do
      skipToken false ["="]
      validateName .mysql false)
      (do let _ ← optWord ["="]; let _ ← name .mysql; return () : Lang Unit) nilE :=
  Impls.bindF (Impls.optWordF (by decide)) fun _ => Impls.lastN (f := fun _ => ()) (name_implF n _)

theorem option_impl {isNum : Str → Bool} (hN : NumOK isNum) (n : Nat) :
    Impls n (Mysql.validateTableOption isNum n) (Spec.Mysql.option isNum) nilE := by
  unfold Mysql.validateTableOption Spec.Mysql.option
  refine Impls.altNx (by decide) (by
      notfirst; exact NotFirst.bind (.alt (NotFirst.kw (by decide)) (NotFirst.kw' (by decide))))
    (Impls.bindF (Impls.optWordF (by decide)) fun _ =>
      Impls.lastN (f := fun _ => ()) (literal_implF hN n _)) ?_
  refine Impls.altNx (by decide) (by
      notfirst; exact NotFirst.bind (.alt (NotFirst.kw (by decide)) (NotFirst.kw' (by decide))))
    (Impls.bindF (Impls.optWordF (by decide)) fun _ =>
      Impls.lastN (f := fun _ => ()) (string_impl n)) ?_
  refine Impls.alt ?_ (by notfirst) ?_ ?_
  · exact First.bind (.alt (First.kw (by decide)) (First.kw' (by decide)))
  · refine Impls.bindF ?_ fun _ => optName_impl n
    exact Impls.altNextK (by decide) (NotFirst.kw' (by decide)) (Impls.kwLast n _) (Impls.kwLast n _)
  refine Impls.altNx (by decide) (by notfirst)
    (Impls.bindF (Impls.optWordF (by decide)) fun _ => Impls.kwLast n _) ?_
  refine Impls.altNx (by decide) (by notfirst)
    (Impls.bindF (Impls.optWordF (by decide)) fun _ => Impls.kwLast n _) ?_
  refine Impls.alt (by first_) (by notfirst)
    (Impls.kwF (Impls.kwF (Impls.bindF (Impls.optWordF (by decide)) fun _ =>
      Impls.lastN (f := fun _ => ()) (literal_implF hN n _)))) ?_
  refine Impls.alt (by first_) (by notfirst)
    (Impls.kwF ((name_implF n _).bindF fun _ => Impls.lastN (f := fun _ => ())
      (Impls.optKwF (by decide) (Impls.kwLast n _)))) ?_
  refine Impls.alt (by first_) (by notfirst) (Impls.kwF ?_) ?_
  · refine Impls.bindF ?_ fun _ => optName_impl n
    refine Impls.altNextK (by decide) (NotFirst.kw' (by decide)) (Impls.kwLast n _) ?_
    exact vis_eq n (by decide) (Impls.ret_bind (Impls.kwLast n _))
  refine Impls.alt (by first_) (by notfirst) ?_ ?_
  · refine Impls.kwF (Impls.bindF (Impls.optWordF (by decide)) fun _ => Impls.kwF ?_)
    exact (tableNames_impl n).bindF fun _ => Impls.kwLast n _
  refine Impls.alt (by first_) (by notfirst)
    (Impls.kwF (Impls.bindF (Impls.optWordF (by decide)) fun _ => Impls.kwLast n _)) ?_
  exact Impls.altLast (by first_)
    (Impls.kwF (Impls.bindF (Impls.optWordF (by decide)) fun _ => Impls.kwLast n _))

theorem cons_option (isNum : Str → Bool) : Cons (Spec.Mysql.option isNum) := by
  have := Suff.qname .mysql
  unfold Spec.Mysql.option
  simp only [Lang.alt_bind, Lang.bind_assoc]
  repeat' apply Cons.alt
  all_goals (apply Cons.kw_bind; suff)

theorem options_impl {isNum : Str → Bool} (hN : NumOK isNum) (n : Nat) :
    Impls n (Mysql.validateTableOptions isNum n) (Options (Spec.Mysql.option isNum)) nilE :=
  DDL.options_impl (fun _ => rfl) (option_impl hN) (cons_option isNum) n

theorem createTable_impl {isNum : Str → Bool} (hN : NumOK isNum) (n : Nat) :
    Impls n (Mysql.validateCreateTable isNum n)
      (createTable .mysql (Spec.Mysql.item isNum) (Options (Spec.Mysql.option isNum)))
      (stmtE .mysql (itemE isNum .mysql)) :=
  DDL.createTable_impl (items_impl hN n) (options_impl hN n)

theorem stmt_impl {isNum : Str → Bool} (hN : NumOK isNum) (n : Nat) :
    Impls n (Mysql.validateDdl isNum n) (Spec.Mysql.stmt isNum)
      (stmtE .mysql (itemE isNum .mysql)) := by
  refine Impls.kwF ?_
  exact Impls.alt (by unfold createTable; first_) (by unfold other; notfirst)
    (createTable_impl hN n) (other_impl rfl)

theorem suff_item (isNum : Str → Bool) : Suff (Spec.Mysql.item isNum) := by
  have := Suff.nameList .mysql
  have := Suff.qname .mysql
  have := Suff.refClauses
  have := suff_nameUnless
  have h1 := suff_nameUnless ["("]
  have h2 := suff_nameUnless ["USING", "("]
  have := suff_keyList
  have := suff_indexType
  have := suff_indexOptions isNum
  have h3 := suff_conName ["PRIMARY", "UNIQUE", "FOREIGN", "CHECK"]
  have h4 := suff_conName ["CHECK"]
  have := suff_type
  have := suff_check
  have := (cons_colCon isNum).suff
  unfold Spec.Mysql.item Spec.Mysql.column colCons
  suff

theorem cons_stmt (isNum : Str → Bool) : Cons (Spec.Mysql.stmt isNum) := by
  refine Cons.kw_bind ?_
  exact Suff.alt (Suff.createTable (suff_item isNum) (Suff.options (cons_option isNum).suff))
    (Suff.other _)

/-- The MySQL validator implements the MySQL grammar. -/
theorem script_impl {isNum : Str → Bool} (hN : NumOK isNum) (n : Nat) :
    Impls n (Mysql.validate isNum n) (scriptL (Spec.Mysql.stmt isNum))
      (scriptE isNum .mysql) :=
  DDL.script_impl (fun _ => rfl) (stmt_impl hN) (cons_stmt isNum) n

end MysqlImpl
end DDL

import Verif.Proof.Generic
import Verif.Spec.Grammar
/-
What it means for a validator function to implement a phrase of the grammar, with rules for
the control structures used in the validators.
-/

namespace DDL
open V Spec

/-! ### Keywords -/

theorem upC_eq (c : Char) : upC c = c.toUpper := by
  unfold upC Char.toUpper
  by_cases h : 'a'.toNat ≤ c.toNat ∧ c.toNat ≤ 'z'.toNat
  · have h' : 'a'.val ≤ c.val ∧ c.val ≤ 'z'.val := h
    rw [if_pos h, dif_pos h']
    have a1 : 'z'.toNat = 122 := by decide
    have a2 : 'a'.toNat = 97 := by decide
    have hv : Nat.isValidChar (c.toNat - 32) := by left; omega
    apply Char.ext
    apply UInt32.toNat.inj
    have e : ('A'.val - 'a'.val).toNat = 4294967264 := by decide
    have e1 : (Char.ofNat (c.toNat - 32)).val.toNat = c.toNat - 32 := by
      unfold Char.ofNat
      rw [dif_pos hv]
      rfl
    rw [e1]
    simp only [UInt32.toNat_add, e]
    have a3 : c.val.toNat = c.toNat := rfl
    rw [a3]
    omega
  · have h' : ¬ ('a'.val ≤ c.val ∧ c.val ≤ 'z'.val) := h
    rw [if_neg h, dif_neg h']

theorem lowC_eq (c : Char) : lowC c = c.toLower := by
  unfold lowC Char.toLower
  by_cases h : 'A'.toNat ≤ c.toNat ∧ c.toNat ≤ 'Z'.toNat
  · have h' : 'A'.val ≤ c.val ∧ c.val ≤ 'Z'.val := h
    rw [if_pos h, dif_pos h']
    have a1 : 'Z'.toNat = 90 := by decide
    have a2 : 'A'.toNat = 65 := by decide
    have hv : Nat.isValidChar (c.toNat + 32) := by left; omega
    apply Char.ext
    apply UInt32.toNat.inj
    have e : ('a'.val - 'A'.val).toNat = 32 := by decide
    have e1 : (Char.ofNat (c.toNat + 32)).val.toNat = c.toNat + 32 := by
      unfold Char.ofNat
      rw [dif_pos hv]
      rfl
    rw [e1]
    simp only [UInt32.toNat_add, e]
    have a3 : c.val.toNat = c.toNat := rfl
    rw [a3]
    omega
  · have h' : ¬ ('A'.val ≤ c.val ∧ c.val ≤ 'Z'.val) := h
    rw [if_neg h, dif_neg h']

theorem toUpper_eq (s : Str) : toUpper s = s.map Char.toUpper := by
  unfold toUpper; rw [show upC = Char.toUpper from funext upC_eq]

theorem toLower_eq (s : Str) : toLower s = s.map Char.toLower := by
  unfold toLower; rw [show lowC = Char.toLower from funext lowC_eq]

/-- The spellings of the keywords. -/
def kwList (ks : List String) : List Str :=
  ks.map (fun k => toLower (S k)) ++ ks.map (fun k => toUpper (S k))

theorem isKw_mem {ks : List String} {t : Str} : isKw ks t = true ↔ t ∈ kwList ks := by
  simp only [isKw, contains, kwList, List.any_eq_true, beq_iff_eq]
  simp only [exists_eq_right]

theorem isKw_kw {ks : List String} {t : Str} : isKw ks t = true ↔ Kw ks t := by
  rw [isKw_mem, kwList, Kw]
  simp only [List.mem_append, List.mem_map, toUpper_eq, toLower_eq, S]
  constructor
  · rintro (⟨k, h, rfl⟩ | ⟨k, h, rfl⟩)
    · exact ⟨k, h, .inr rfl⟩
    · exact ⟨k, h, .inl rfl⟩
  · rintro ⟨k, h, (rfl | rfl)⟩
    · exact .inr ⟨k, h, rfl⟩
    · exact .inl ⟨k, h, rfl⟩

theorem isKw_not {ks : List String} {t : Str} : isKw ks t = false ↔ ¬ Kw ks t := by
  rw [← isKw_kw]; simp

/-- Check a property of all spellings of some keywords. -/
theorem forall_kw {ks : List String} {P : Str → Prop} (h : ∀ t ∈ kwList ks, P t) {t : Str}
    (ht : isKw ks t = true) : P t := h t (isKw_mem.1 ht)

/-! ### Tokens -/

/-- The current token. -/
abbrev hd (ts : List Str) : Str := ts.headD EOF

/-- What the lexer guarantees for every token: not empty, and quoted tokens have both quotes. -/
def Good (t : Str) : Prop :=
  t ≠ [] ∧ ∀ c r, t = c :: r → (c = '"' ∨ c = '\'' ∨ c = '`') → 2 ≤ t.length

/-- Tokens on which a function with fuel `n` must work. -/
def Ok (n : Nat) (ts : List Str) : Prop := ts.length < n ∧ ∀ t ∈ ts, Good t

theorem Ok.suffix {n : Nat} {ts r : List Str} (h : Ok n ts) (hs : r <:+ ts) : Ok n r :=
  ⟨Nat.lt_of_le_of_lt hs.length_le h.1, fun t ht => h.2 t (hs.subset ht)⟩

theorem Ok.tail {n : Nat} {t : Str} {r : List Str} (h : Ok (n + 1) (t :: r)) : Ok n r :=
  ⟨by have := h.1; simp at this; omega, fun x hx => h.2 x (by simp [hx])⟩

theorem Ok.mono {n m : Nat} {ts : List Str} (h : Ok n ts) (hnm : n ≤ m) : Ok m ts :=
  ⟨Nat.lt_of_lt_of_le h.1 hnm, h.2⟩

theorem Ok.of_lt {n : Nat} {ts r : List Str} (h : Ok (n + 1) ts) (hs : r <:+ ts)
    (hl : r.length < ts.length) : Ok n r :=
  ⟨by have := h.1; omega, fun t ht => h.2 t (hs.subset ht)⟩

theorem unclosed_suffix {ts r : List Str} (hs : r <:+ ts) (h : Unclosed r) : Unclosed ts := by
  obtain ⟨p, rfl⟩ := hs
  obtain ⟨a, b, rfl, h⟩ := h
  exact ⟨p ++ a, b, by simp, h⟩

/-- `[t]` if the token is kept. -/
def keep (set : Bool) (t : Str) : List Str := if set then [t] else []

@[simp] theorem keep_true (t : Str) : keep true t = [t] := rfl
@[simp] theorem keep_false (t : Str) : keep false t = [] := rfl

/-! ### `runA` on the building blocks -/

theorem runA_if (ks : List String) (p q : Prog α) (ts : List Str) :
    runA (ifM (matchToken ks) p q) ts = if isKw ks (hd ts) then runA p ts else runA q ts := by
  simp only [ifM, matchToken, Prog.bind, runA]
  cases isKw ks (ts.headD EOF) <;> rfl

theorem ifM_next (set : Bool) (ks : List String) (p q : Prog α) :
    ifM (matchTokenNext set ks) p q = ifM (matchToken ks) (.adv set p) q := by
  simp only [ifM, matchTokenNext, matchToken, Prog.bind]
  congr 1; funext t
  cases isKw ks t <;> rfl

theorem skipToken_eq (set : Bool) (ks : List String) :
    skipToken set ks = ifM (matchToken ks) (next set) (.ret ()) := by
  simp only [skipToken, ifM, matchTokenNext, matchToken, Prog.bind]
  congr 1; funext t
  cases isKw ks t <;> rfl

theorem runA_oob (p q : Prog α) (ts : List Str) :
    runA (ifM isOutOfRange p q) ts = if ts.isEmpty then runA p ts else runA q ts := by
  simp only [ifM, isOutOfRange, Prog.bind, runA]
  cases ts.isEmpty <;> rfl

theorem runA_adv (set : Bool) (p : Prog α) (ts : List Str) :
    runA (.adv set p) ts = (runA p ts.tail).pre (keep set (hd ts)) := rfl

theorem runA_next (set : Bool) (ts : List Str) :
    runA (next set) ts = .ok () ts.tail (keep set (hd ts)) := by
  simp [next, runA_adv, runA, ResA.pre]

theorem runA_validateToken (set : Bool) (ks : List String) (ts : List Str) :
    runA (validateToken set ks) ts =
      match ts with
      | [] => .fail []
      | t :: r => if isKw ks t then .ok () r (keep set t) else .fail (t :: r) := by
  simp only [validateToken, runA_oob, runA_if]
  cases ts with
  | nil => simp [syntaxError, runA]
  | cons t r => simp [runA_next, syntaxError, runA]

theorem runA_seq (p : Prog α) (f : α → Prog β) (ts : List Str) :
    runA (p >>= f) ts = (runA p ts).andThen (fun a r => runA (f a) r) := runA_bind p f ts

/-! ### Implementing a phrase -/

/-- `p`, run on the tokens `ts`, implements the phrase `L`: it accepts iff `ts` starts with an
`L`, then the reading of `ts` as an `L` is unique, and the kept tokens are related
to its meaning by `E`. It never panics, and runs forever only on an unclosed parenthesis. -/
def Impl (p : Prog Unit) (L : Lang β) (E : β → List Str → Prop) (ts : List Str) : Prop :=
  match runA p ts with
  | .ok _ rest out =>
      ∃ v, L ts v rest ∧ E v out ∧ ∀ v' rest', L ts v' rest' → v' = v ∧ rest' = rest
  | .fail _ => ∀ v rest, ¬ L ts v rest
  | .panic => False
  | .timeout => (∀ v rest, ¬ L ts v rest) ∧ Unclosed ts

/-- `Impl` on all inputs for which the fuel suffices. -/
def Impls (n : Nat) (p : Prog Unit) (L : Lang β) (E : β → List Str → Prop) : Prop :=
  ∀ ts, Ok n ts → Impl p L E ts

theorem Impl.congr {p : Prog Unit} {L L' : Lang β} {E : β → List Str → Prop} {ts : List Str}
    (h : ∀ v r, L ts v r ↔ L' ts v r) (hp : Impl p L' E ts) : Impl p L E ts := by
  simpa only [Impl, h] using hp

theorem Impl.conseq {p : Prog Unit} {L : Lang β} {E E' : β → List Str → Prop} {ts : List Str}
    (hp : Impl p L E ts) (h : ∀ v o, E v o → E' v o) : Impl p L E' ts := by
  unfold Impl at hp ⊢
  cases hr : runA p ts with
  | ok a rest out =>
    rw [hr] at hp
    obtain ⟨v, h1, h2, h3⟩ := hp
    exact ⟨v, h1, h _ _ h2, h3⟩
  | fail r => rw [hr] at hp; exact hp
  | panic => rw [hr] at hp; exact hp
  | timeout => rw [hr] at hp; exact hp

theorem Impls.conseq {n : Nat} {p : Prog Unit} {L : Lang β} {E E' : β → List Str → Prop}
    (hp : Impls n p L E) (h : ∀ v o, E v o → E' v o) : Impls n p L E' :=
  fun ts hts => (hp ts hts).conseq h

theorem Impl.ret {v : β} {E : β → List Str → Prop} {ts : List Str} (h : E v []) :
    Impl (.ret ()) (pure v : Lang β) E ts :=
  ⟨v, ⟨rfl, rfl⟩, h, fun _ _ h => h⟩

theorem Impls.ret {n : Nat} {v : β} {E : β → List Str → Prop} (h : E v []) :
    Impls n (.ret ()) (pure v : Lang β) E := fun _ _ => .ret h

theorem Impl.fail {L : Lang β} {E : β → List Str → Prop} {ts : List Str}
    (h : ∀ v r, ¬ L ts v r) : Impl syntaxError L E ts := h

/-- Sequence. The continuation may use that it works on a suffix. -/
theorem Impl.bind {p q : Prog Unit} {L : Lang α} {f : α → Lang β} {E1 : α → List Str → Prop}
    {E : β → List Str → Prop} {ts : List Str} (hp : Impl p L E1 ts)
    (hq : ∀ v o rest, E1 v o → L ts v rest → rest <:+ ts →
      Impl q (f v) (fun w o' => E w (o ++ o')) rest) :
    Impl (p >>= fun _ => q) (L >>= f) E ts := by
  unfold Impl at hp ⊢
  rw [runA_seq]
  cases hr : runA p ts with
  | ok a rest out =>
    rw [hr] at hp
    obtain ⟨v, h1, h2, h3⟩ := hp
    have hs := (runA_suffix p ts).1 _ _ _ hr
    have hq := hq v out rest h2 h1 hs
    unfold Impl at hq
    simp only [ResA.andThen]
    have key : ∀ w r, (L >>= f) ts w r → f v rest w r := by
      rintro w r ⟨v', mid, h, h'⟩
      obtain ⟨rfl, rfl⟩ := h3 _ _ h
      exact h'
    cases hr' : runA q rest with
    | ok b rest' out' =>
      rw [hr'] at hq
      obtain ⟨w, h4, h5, h6⟩ := hq
      exact ⟨w, ⟨v, rest, h1, h4⟩, h5, fun w' r' h => h6 _ _ (key _ _ h)⟩
    | fail r =>
      rw [hr'] at hq
      exact fun w r h => hq _ _ (key _ _ h)
    | panic => rw [hr'] at hq; exact hq
    | timeout =>
      rw [hr'] at hq
      exact ⟨fun w r h => hq.1 _ _ (key _ _ h), unclosed_suffix hs hq.2⟩
  | fail r =>
    rw [hr] at hp
    rintro w r ⟨v, mid, h, _⟩
    exact hp _ _ h
  | panic => rw [hr] at hp; exact hp
  | timeout =>
    rw [hr] at hp
    refine ⟨?_, hp.2⟩
    rintro w r ⟨v, mid, h, _⟩
    exact hp.1 _ _ h

theorem Impls.bind {n : Nat} {p q : Prog Unit} {L : Lang α} {f : α → Lang β}
    {E1 : α → List Str → Prop} {E : β → List Str → Prop} (hp : Impls n p L E1)
    (hq : ∀ v o, E1 v o → Impls n q (f v) (fun w o' => E w (o ++ o'))) :
    Impls n (p >>= fun _ => q) (L >>= f) E :=
  fun ts hts => (hp ts hts).bind fun v o rest hv _ hs => hq v o hv rest (hts.suffix hs)

theorem Lang.bind_pure (L : Lang α) (ts : List Str) (v : α) (r : List Str) :
    (L >>= fun a => (pure a : Lang α)) ts v r ↔ L ts v r := by
  constructor
  · rintro ⟨_, _, h, rfl, rfl⟩; exact h
  · exact fun h => ⟨_, _, h, rfl, rfl⟩

/-- Last function of a sequence, where the phrase still computes its meaning. -/
theorem Impl.last {p : Prog Unit} {L : Lang α} {f : α → Lang β} {E1 : α → List Str → Prop}
    {E : β → List Str → Prop} {ts : List Str} (hp : Impl p L E1 ts)
    (hq : ∀ v o rest, E1 v o → L ts v rest → Impl (.ret ()) (f v) (fun w o' => E w (o ++ o')) rest) :
    Impl p (L >>= f) E ts := by
  have := Impl.bind (q := .ret ()) hp (fun v o rest h hl _ => hq v o rest h hl)
  have e : (p >>= fun _ => Prog.ret ()) = p := by
    show p.bind .ret = p
    exact Prog.bind_ret p
  rwa [e] at this

theorem Impls.last {n : Nat} {p : Prog Unit} {L : Lang α} {f : α → Lang β}
    {E1 : α → List Str → Prop} {E : β → List Str → Prop} (hp : Impls n p L E1)
    (hq : ∀ v o, E1 v o → Impls n (.ret ()) (f v) (fun w o' => E w (o ++ o'))) :
    Impls n p (L >>= f) E := by
  have := Impls.bind (q := .ret ()) hp hq
  have e : (p >>= fun _ => Prog.ret ()) = p := by
    show p.bind .ret = p
    exact Prog.bind_ret p
  rwa [e] at this

theorem Impls.map {n : Nat} {p : Prog Unit} {L : Lang α} {f : α → β}
    {E : β → List Str → Prop} (hp : Impls n p L (fun v o => E (f v) o)) :
    Impls n p (L >>= fun v => (pure (f v) : Lang β)) E :=
  hp.last fun v o h => .ret (by simpa using h)

/-- Non-kept keyword, then the rest. -/
def kwE (set : Bool) (ks : List String) (_ : Unit) (o : List Str) : Prop :=
  ∃ t, isKw ks t = true ∧ o = keep set t

def tokE (set : Bool) (P : Str → Prop) (t : Str) (o : List Str) : Prop :=
  P t ∧ Good t ∧ o = keep set t

/-- Nothing kept. -/
def nilE (_ : α) (o : List Str) : Prop := o = []

theorem nilE.nil (v : α) : nilE v [] := rfl

/-- One token checked by `p`. -/
theorem Impl.tok_of {p : Prog Unit} {set : Bool} {P : Str → Prop} {ts : List Str}
    (h0 : ts = [] → ∃ r, runA p ts = .fail r)
    (h1 : ∀ t r, ts = t :: r → P t → runA p ts = .ok () r (keep set t))
    (h2 : ∀ t r, ts = t :: r → ¬ P t → ∃ r', runA p ts = .fail r')
    (hg : ∀ t ∈ ts, Good t) :
    Impl p (tok P) (tokE set P) ts := by
  unfold Impl
  cases ts with
  | nil =>
    obtain ⟨r, h⟩ := h0 rfl
    rw [h]
    rintro v r ⟨h, _⟩; cases h
  | cons t r =>
    by_cases hP : P t
    · rw [h1 t r rfl hP]
      refine ⟨t, ⟨rfl, hP⟩, ⟨hP, hg t (by simp), rfl⟩, ?_⟩
      rintro v' r' ⟨h, _⟩
      cases h; exact ⟨rfl, rfl⟩
    · obtain ⟨r', h⟩ := h2 t r rfl hP
      rw [h]
      rintro v r ⟨h, hv⟩
      cases h; exact hP hv

theorem Impls.tokKw (n : Nat) (set : Bool) (ks : List String) :
    Impls n (validateToken set ks) (tok (Kw ks)) (tokE set (Kw ks)) := by
  intro ts hts
  refine Impl.tok_of ?_ ?_ ?_ hts.2
  · rintro rfl; exact ⟨[], by rw [runA_validateToken]⟩
  · rintro t r rfl h; rw [runA_validateToken]; simp [isKw_kw.2 h]
  · rintro t r rfl h; rw [runA_validateToken]; simp [isKw_not.2 h]

theorem Impls.kw (n : Nat) (set : Bool) (ks : List String) :
    Impls n (validateToken set ks) (kw ks) (kwE set ks) :=
  (Impls.tokKw n set ks).last fun v o h => .ret ⟨v, isKw_kw.2 h.1, by simp [h.2.2]⟩

/-- A keyword that is not kept, then the rest. -/
theorem Impls.kwF {n : Nat} {ks : List String} {q : Prog Unit} {f : Unit → Lang β}
    {E : β → List Str → Prop} (hq : Impls n q (f ()) E) :
    Impls n (validateToken false ks >>= fun _ => q) (Spec.kw ks >>= f) E :=
  (Impls.kw n false ks).bind fun _ o ⟨t, _, ho⟩ => by subst ho; exact hq

/-- A keyword that is kept, then the rest. -/
theorem Impls.kwT {n : Nat} {ks : List String} {q : Prog Unit} {f : Unit → Lang β}
    {E : β → List Str → Prop}
    (hq : ∀ t, isKw ks t = true → Impls n q (f ()) (fun w o => E w (t :: o))) :
    Impls n (validateToken true ks >>= fun _ => q) (Spec.kw ks >>= f) E :=
  (Impls.kw n true ks).bind fun _ o ⟨t, ht, ho⟩ => by subst ho; exact hq t ht

/-- A function that keeps nothing, then the rest. -/
theorem Impls.bindF {n : Nat} {p q : Prog Unit} {L : Lang α} {f : α → Lang β}
    {E : β → List Str → Prop} (hp : Impls n p L nilE) (hq : ∀ v, Impls n q (f v) E) :
    Impls n (p >>= fun _ => q) (L >>= f) E :=
  hp.bind fun v o ho => by cases ho; exact hq v

theorem Impls.lastF {n : Nat} {p : Prog Unit} {L : Lang α} {v : β}
    {E : β → List Str → Prop} (hp : Impls n p L nilE) (h : E v []) :
    Impls n p (L >>= fun _ => (pure v : Lang β)) E :=
  hp.last fun _ o ho => by cases ho; exact .ret h

/-- A function that keeps nothing, in a phrase that keeps nothing. -/
theorem Impls.lastN {n : Nat} {p : Prog Unit} {L : Lang α} {f : α → β}
    (hp : Impls n p L nilE) : Impls n p (L >>= fun a => (pure (f a) : Lang β)) nilE :=
  hp.last fun _ o ho => by cases ho; exact .ret (nilE.nil _)

theorem Impls.kwLast (n : Nat) (ks : List String) :
    Impls n (validateToken false ks) (Spec.kw ks) nilE :=
  (Impls.kw n false ks).conseq fun _ _ ⟨_, _, h⟩ => h

/-! ### First tokens -/

/-- Every `L` starts with a token satisfying `P`. -/
def First (P : Str → Prop) (L : Lang β) : Prop :=
  ∀ ts v r, L ts v r → ∃ t r', ts = t :: r' ∧ P t

theorem First.tok {P Q : Str → Prop} {f : Str → Lang β} (h : ∀ t, Q t → P t) :
    First P (tok Q >>= f) := by
  rintro ts v r ⟨t, mid, ⟨rfl, hq⟩, _⟩
  exact ⟨t, mid, rfl, h t hq⟩

theorem First.tok' {P Q : Str → Prop} (h : ∀ t, Q t → P t) :
    First P (Spec.tok Q) := by
  rintro ts v r ⟨rfl, hq⟩
  exact ⟨v, r, rfl, h v hq⟩

theorem First.tokKw {P : Str → Prop} {ks : List String} {f : Str → Lang β}
    (h : ∀ t ∈ kwList ks, P t) : First P (Spec.tok (Kw ks) >>= f) :=
  First.tok fun _ ht => forall_kw h (isKw_kw.2 ht)

theorem First.kw' {P : Str → Prop} {ks : List String} (h : ∀ t ∈ kwList ks, P t) :
    First P (kw ks) := First.tok fun _ ht => forall_kw h (isKw_kw.2 ht)

theorem First.bind {P : Str → Prop} {L : Lang α} {f : α → Lang β} (h : First P L) :
    First P (L >>= f) := by
  rintro ts v r ⟨w, mid, h', _⟩
  exact h _ _ _ h'

theorem First.kw {P : Str → Prop} {ks : List String} {f : Unit → Lang β}
    (h : ∀ t ∈ kwList ks, P t) : First P (Spec.kw ks >>= f) := (First.kw' h).bind

theorem First.at {P : Str → Prop} {ks : List String} {f : Unit → Lang β}
    (h : ∀ t ∈ kwList ks, P t) : First P (at_ ks >>= f) := by
  rintro ts v r ⟨w, mid, ⟨_, t, r', rfl, ht⟩, _⟩
  exact ⟨t, r', rfl, forall_kw h (isKw_kw.2 ht)⟩

theorem First.alt {P : Str → Prop} {L M : Lang β} (hL : First P L) (hM : First P M) :
    First P (L <|> M) := by
  rintro ts v r (h | h)
  · exact hL _ _ _ h
  · exact hM _ _ _ h

theorem First.weaken {P Q : Str → Prop} {L : Lang β} (h : First P L) (hPQ : ∀ t, P t → Q t) :
    First Q L := by
  intro ts v r h'
  obtain ⟨t, r', e, hp⟩ := h _ _ _ h'
  exact ⟨t, r', e, hPQ t hp⟩

/-- No `L` starts with a keyword of `ks`. -/
def NotFirst (ks : List String) (L : Lang β) : Prop :=
  ∀ ts v r, L ts v r → isKw ks (hd ts) = false

theorem First.not {ks : List String} {L : Lang β} (h : First (fun t => isKw ks t = false) L) :
    NotFirst ks L := by
  intro ts v r h'
  obtain ⟨t, r', rfl, ht⟩ := h _ _ _ h'
  exact ht

theorem NotFirst.tok {ks : List String} {Q : Str → Prop} {f : Str → Lang β}
    (h : ∀ t, Q t → isKw ks t = false) : NotFirst ks (Spec.tok Q >>= f) := (First.tok h).not

theorem NotFirst.tok' {ks : List String} {Q : Str → Prop}
    (h : ∀ t, Q t → isKw ks t = false) : NotFirst ks (Spec.tok Q) := (First.tok' h).not

theorem NotFirst.tokKw {ks ks' : List String} {f : Str → Lang β}
    (h : ∀ t ∈ kwList ks', isKw ks t = false) : NotFirst ks (Spec.tok (Kw ks') >>= f) :=
  (First.tokKw h).not

theorem NotFirst.kw' {ks ks' : List String}
    (h : ∀ t ∈ kwList ks', isKw ks t = false) : NotFirst ks (kw ks') := (First.kw' h).not

theorem NotFirst.kw {ks ks' : List String} {f : Unit → Lang β}
    (h : ∀ t ∈ kwList ks', isKw ks t = false) : NotFirst ks (Spec.kw ks' >>= f) :=
  (First.kw h).not

theorem NotFirst.at {ks ks' : List String} {f : Unit → Lang β}
    (h : ∀ t ∈ kwList ks', isKw ks t = false) : NotFirst ks (at_ ks' >>= f) := (First.at h).not

theorem NotFirst.bind {ks : List String} {L : Lang α} {f : α → Lang β} (h : NotFirst ks L) :
    NotFirst ks (L >>= f) := by
  rintro ts v r ⟨w, mid, h', _⟩
  exact h _ _ _ h'

theorem NotFirst.alt {ks : List String} {L M : Lang β} (hL : NotFirst ks L)
    (hM : NotFirst ks M) : NotFirst ks (L <|> M) := by
  rintro ts v r (h | h)
  · exact hL _ _ _ h
  · exact hM _ _ _ h

/-- A phrase that needs a token other than `ks'` next does not start with `ks ⊆ ks'`. -/
theorem NotFirst.notAt {ks ks' : List String} {f : Unit → Lang β}
    (h : ∀ t ∈ kwList ks, isKw ks' t = true) (heof : isKw ks EOF = false) :
    NotFirst ks (notAt ks' >>= f) := by
  rintro ts v r ⟨w, mid, ⟨rfl, h'⟩, _⟩
  cases mid with
  | nil => exact heof
  | cons t r' =>
    cases hk : isKw ks t with
    | false => exact hk
    | true => exact absurd (isKw_kw.1 (forall_kw h hk)) (h' t r' rfl)

/-! ### Alternatives -/

/-- `if matchToken(ks) { p } else { q }` for two alternatives. -/
theorem Impl.alt {ks : List String} {p q : Prog Unit} {A B : Lang β} {E : β → List Str → Prop}
    {ts : List Str} (hA : First (fun t => isKw ks t = true) A)
    (hB : NotFirst ks B)
    (hp : isKw ks (hd ts) = true → Impl p A E ts)
    (hq : isKw ks (hd ts) = false → Impl q B E ts) :
    Impl (ifM (matchToken ks) p q) (A <|> B) E ts := by
  cases hk : isKw ks (hd ts) with
  | true =>
    refine Impl.congr (L' := A) ?_ ?_
    · intro v r
      constructor
      · rintro (h | h)
        · exact h
        · rw [hB _ _ _ h] at hk; cases hk
      · exact .inl
    · have := hp hk
      unfold Impl at this ⊢
      rw [runA_if, if_pos hk]; exact this
  | false =>
    refine Impl.congr (L' := B) ?_ ?_
    · intro v r
      constructor
      · rintro (h | h)
        · obtain ⟨t, r', rfl, ht⟩ := hA _ _ _ h
          rw [show hd (t :: r') = t from rfl, ht] at hk; cases hk
        · exact h
      · exact .inr
    · have := hq hk
      unfold Impl at this ⊢
      rw [runA_if, hk]; exact this

theorem Impls.alt {n : Nat} {ks : List String} {p q : Prog Unit} {A B : Lang β}
    {E : β → List Str → Prop} (hA : First (fun t => isKw ks t = true) A)
    (hB : NotFirst ks B) (hp : Impls n p A E) (hq : Impls n q B E) :
    Impls n (ifM (matchToken ks) p q) (A <|> B) E :=
  fun ts hts => Impl.alt hA hB (fun _ => hp ts hts) (fun _ => hq ts hts)

/-- Last alternative. -/
theorem Impls.altLast {n : Nat} {ks : List String} {p : Prog Unit} {A : Lang β}
    {E : β → List Str → Prop} (hA : First (fun t => isKw ks t = true) A) (hp : Impls n p A E) :
    Impls n (ifM (matchToken ks) p syntaxError) A E := by
  intro ts hts
  have := hp ts hts
  unfold Impl at this ⊢
  rw [runA_if]
  cases hk : isKw ks (hd ts) with
  | true => exact this
  | false =>
    intro v r h
    obtain ⟨t, r', rfl, ht⟩ := hA _ _ _ h
    rw [show hd (t :: r') = t from rfl, ht] at hk; cases hk

/-- Reading the matched keyword: `if matchTokenNext(set, ks) { p } ..`. -/
theorem Impl.adv {set : Bool} {ks : List String} {p : Prog Unit} {f : Str → Lang β}
    {E : β → List Str → Prop} {ts : List Str} (heof : isKw ks EOF = false)
    (hk : isKw ks (hd ts) = true) (hg : ∀ t ∈ ts, Good t)
    (hp : ∀ t r, ts = t :: r → isKw ks t = true → Good t →
      Impl p (f t) (fun w o => E w (keep set t ++ o)) r) :
    Impl (.adv set p) (tok (Kw ks) >>= f) E ts := by
  cases ts with
  | nil => simp [heof] at hk
  | cons t r =>
    have hk' : isKw ks t = true := hk
    have h := hp t r rfl hk' (hg t (by simp))
    unfold Impl at h ⊢
    rw [runA_adv]
    simp only [List.tail_cons, List.headD_cons]
    have key : ∀ w r', (tok (Kw ks) >>= f) (t :: r) w r' ↔ f t r w r' := by
      intro w r'
      constructor
      · rintro ⟨v, mid, ⟨h, _⟩, h'⟩
        cases h; exact h'
      · exact fun h => ⟨t, r, ⟨rfl, isKw_kw.1 hk'⟩, h⟩
    simp only [key]
    cases hr : runA p r with
    | ok a rest out => rw [hr] at h; exact h
    | fail r => rw [hr] at h; exact h
    | panic => rw [hr] at h; exact h
    | timeout =>
      rw [hr] at h
      exact ⟨h.1, unclosed_suffix ⟨[t], rfl⟩ h.2⟩

theorem Lang.kw_bind (ks : List String) (f : Unit → Lang β) :
    (Spec.kw ks >>= f) = (tok (Kw ks) >>= fun _ => f ()) := by
  funext ts w r
  apply propext
  constructor
  · rintro ⟨_, mid, ⟨t, mid', h, rfl, rfl⟩, h'⟩; exact ⟨t, _, h, h'⟩
  · rintro ⟨t, mid, h, h'⟩; exact ⟨(), mid, ⟨t, mid, h, rfl, rfl⟩, h'⟩

/-- `if matchTokenNext(set, ks) { p } else { q }` for two alternatives, the first starting with
the token read. -/
theorem Impl.altNext {set : Bool} {ks : List String} {p q : Prog Unit}
    {f : Str → Lang β} {B : Lang β} {E : β → List Str → Prop} {ts : List Str}
    (heof : isKw ks EOF = false) (hB : NotFirst ks B)
    (hg : ∀ t ∈ ts, Good t)
    (hp : ∀ t r, ts = t :: r → isKw ks t = true → Good t →
      Impl p (f t) (fun w o => E w (keep set t ++ o)) r)
    (hq : isKw ks (hd ts) = false → Impl q B E ts) :
    Impl (ifM (matchTokenNext set ks) p q) ((tok (Kw ks) >>= f) <|> B) E ts := by
  rw [ifM_next]
  refine Impl.alt (First.tok fun _ h => isKw_kw.2 h) hB (fun hk => ?_) hq
  exact Impl.adv heof hk hg hp

theorem Impls.altNext {n : Nat} {set : Bool} {ks : List String} {p q : Prog Unit}
    {f : Str → Lang β} {B : Lang β} {E : β → List Str → Prop}
    (heof : isKw ks EOF = false) (hB : NotFirst ks B)
    (hp : ∀ t, isKw ks t = true → Good t →
      Impls n p (f t) (fun w o => E w (keep set t ++ o)))
    (hq : Impls n q B E) :
    Impls n (ifM (matchTokenNext set ks) p q) ((tok (Kw ks) >>= f) <|> B) E :=
  fun ts hts => Impl.altNext heof hB hts.2
    (fun t r e hk hg => hp t hk hg r (hts.suffix ⟨[t], e.symm⟩)) (fun _ => hq ts hts)

theorem Impls.altNextK {n : Nat} {ks : List String} {p q : Prog Unit}
    {f : Unit → Lang β} {B : Lang β} {E : β → List Str → Prop}
    (heof : isKw ks EOF = false) (hB : NotFirst ks B)
    (hp : Impls n p (f ()) E) (hq : Impls n q B E) :
    Impls n (ifM (matchTokenNext false ks) p q) ((Spec.kw ks >>= f) <|> B) E := by
  rw [Lang.kw_bind]
  exact Impls.altNext heof hB (fun _ _ _ => hp) hq

/-- Last alternative, starting with the token read. -/
theorem Impls.altNextLastK {n : Nat} {ks : List String} {p : Prog Unit}
    {f : Unit → Lang β} {E : β → List Str → Prop} (heof : isKw ks EOF = false)
    (hp : Impls n p (f ()) E) :
    Impls n (ifM (matchTokenNext false ks) p syntaxError) (Spec.kw ks >>= f) E := by
  rw [Lang.kw_bind, ifM_next]
  intro ts hts
  have h : isKw ks (hd ts) = true → Impl (.adv false p) (tok (Kw ks) >>= fun _ => f ()) E ts :=
    fun hk => Impl.adv heof hk hts.2 fun t r e _ _ => hp r (hts.suffix ⟨[t], e.symm⟩)
  unfold Impl at h ⊢
  rw [runA_if]
  cases hk : isKw ks (hd ts) with
  | true => exact h hk
  | false =>
    rintro v r ⟨t, mid, ⟨rfl, ht⟩, _⟩
    rw [show hd (t :: mid) = t from rfl, isKw_kw.2 ht] at hk; cases hk

/-! ### Options -/

theorem notAt_nil {ks : List String} {u : Unit} : notAt ks [] u [] := ⟨rfl, fun _ _ h => by cases h⟩

theorem notAt_iff {ks : List String} {ts : List Str} {u : Unit} {r : List Str}
    (heof : isKw ks EOF = false) : notAt ks ts u r ↔ r = ts ∧ isKw ks (hd ts) = false := by
  constructor
  · rintro ⟨rfl, h⟩
    refine ⟨rfl, ?_⟩
    cases r with
    | nil => exact heof
    | cons t r => exact isKw_not.2 (h t r rfl)
  · rintro ⟨rfl, h⟩
    refine ⟨rfl, ?_⟩
    rintro t r' rfl
    exact isKw_not.1 h

theorem at_iff {ks : List String} {ts : List Str} {u : Unit} {r : List Str}
    (heof : isKw ks EOF = false) : at_ ks ts u r ↔ r = ts ∧ isKw ks (hd ts) = true := by
  constructor
  · rintro ⟨rfl, t, r', rfl, h⟩
    exact ⟨rfl, isKw_kw.2 h⟩
  · rintro ⟨rfl, h⟩
    cases r with
    | nil => simp [heof] at h
    | cons t r => exact ⟨rfl, t, r, rfl, isKw_kw.1 h⟩

/-- `A`, or nothing if no `ks` comes next. -/
theorem Impl.opt {ks : List String} {p q : Prog Unit} {A : Lang β} {f : Unit → Lang β}
    {E : β → List Str → Prop} {ts : List Str} (heof : isKw ks EOF = false)
    (hA : First (fun t => isKw ks t = true) A)
    (hp : isKw ks (hd ts) = true → Impl p A E ts)
    (hq : isKw ks (hd ts) = false → Impl q (f ()) E ts) :
    Impl (ifM (matchToken ks) p q) (A <|> (notAt ks >>= f)) E ts := by
  cases hk : isKw ks (hd ts) with
  | true =>
    refine Impl.congr (L' := A) ?_ ?_
    · intro v r
      constructor
      · rintro (h | ⟨_, _, h, _⟩)
        · exact h
        · rw [(((notAt_iff heof).1 h).2)] at hk; cases hk
      · exact .inl
    · have := hp hk
      unfold Impl at this ⊢
      rw [runA_if, if_pos hk]; exact this
  | false =>
    refine Impl.congr (L' := f ()) ?_ ?_
    · intro v r
      constructor
      · rintro (h | ⟨_, _, h, h'⟩)
        · obtain ⟨t, r', rfl, ht⟩ := hA _ _ _ h
          rw [show hd (t :: r') = t from rfl, ht] at hk; cases hk
        · obtain ⟨rfl, _⟩ := (notAt_iff heof).1 h; exact h'
      · exact fun h => .inr ⟨(), ts, (notAt_iff heof).2 ⟨rfl, hk⟩, h⟩
    · have := hq hk
      unfold Impl at this ⊢
      rw [runA_if, hk]; exact this

theorem Impls.opt {n : Nat} {ks : List String} {p q : Prog Unit} {A : Lang β}
    {f : Unit → Lang β} {E : β → List Str → Prop} (heof : isKw ks EOF = false)
    (hA : First (fun t => isKw ks t = true) A) (hp : Impls n p A E) (hq : Impls n q (f ()) E) :
    Impls n (ifM (matchToken ks) p q) (A <|> (notAt ks >>= f)) E :=
  fun ts hts => Impl.opt heof hA (fun _ => hp ts hts) (fun _ => hq ts hts)

theorem Impls.optKw {n : Nat} {set : Bool} {ks : List String} {p : Prog Unit}
    {L : Lang β} {E : Option β → List Str → Prop} (heof : isKw ks EOF = false)
    (hp : ∀ t, isKw ks t = true → Impls n p L (fun w o => E (some w) (keep set t ++ o)))
    (hq : E none []) :
    Impls n (ifM (matchTokenNext set ks) p (.ret ())) (optKw ks L) E := by
  intro ts hts
  rw [ifM_next]
  refine Impl.opt heof (First.tok fun _ h => isKw_kw.2 h).bind (fun hk => ?_) (fun _ => .ret hq)
  rw [Lang.kw_bind]
  exact Impl.adv heof hk hts.2 fun t r e hk _ => (hp t hk).map r (hts.suffix ⟨[t], e.symm⟩)

theorem Impls.optKwF {n : Nat} {ks : List String} {p : Prog Unit}
    {L : Lang β} (heof : isKw ks EOF = false) (hp : Impls n p L nilE) :
    Impls n (ifM (matchTokenNext false ks) p (.ret ())) (Spec.optKw ks L) nilE :=
  Impls.optKw heof (fun _ _ => hp) rfl

theorem Impls.optWord {n : Nat} {set : Bool} {ks : List String}
    {E : Bool → List Str → Prop} (heof : isKw ks EOF = false)
    (hp : ∀ t, isKw ks t = true → E true (keep set t)) (hq : E false []) :
    Impls n (skipToken set ks) (optWord ks) E := by
  intro ts hts
  rw [skipToken_eq]
  refine Impl.opt heof (First.tok fun _ h => isKw_kw.2 h).bind (fun hk => ?_) (fun _ => .ret hq)
  rw [Lang.kw_bind]
  exact Impl.adv heof hk hts.2 fun t r e hk _ => .ret (by simpa using hp t hk)

theorem Impls.optWordF {n : Nat} {ks : List String} (heof : isKw ks EOF = false) :
    Impls n (skipToken false ks) (Spec.optWord ks) nilE :=
  Impls.optWord heof (fun _ _ => rfl) rfl

end DDL

import Verif.Proof.Cost
import Lean.Elab.Tactic
/-
A validator stops only where the tokens read so far can no longer be completed: if it reports an
error, or does not return, then what it has read is the beginning of something it accepts.
-/

namespace DDL
open V Spec

/-- With enough fuel, `P` accepts and leaves `r`. -/
def Ev (P : Nat → Prog Unit) (ts r : List Str) : Prop :=
  ∃ N, ∀ n, N ≤ n → ∃ o, runA (P n) ts = .ok () r o

theorem Ev.bind {P Q : Nat → Prog Unit} {ts m r : List Str} (h : Ev P ts m) (h' : Ev Q m r) :
    Ev (fun n => (P n).bind fun _ => Q n) ts r := by
  obtain ⟨N, h⟩ := h
  obtain ⟨M, h'⟩ := h'
  refine ⟨max N M, fun n hn => ?_⟩
  obtain ⟨o, e⟩ := h n (by omega)
  obtain ⟨o', e'⟩ := h' n (by omega)
  exact ⟨o ++ o', by rw [runA_bind, e]; simp only [ResA.andThen, e', ResA.pre]⟩

theorem Ev.const {p : Prog Unit} {ts r o : List Str} (h : runA p ts = .ok () r o) : Ev (fun _ => p) ts r :=
  ⟨0, fun _ _ => ⟨o, h⟩⟩

theorem Ev.shift {P : Nat → Prog Unit} {ts r : List Str} (h : Ev (fun n => P (n + 1)) ts r) : Ev P ts r := by
  obtain ⟨N, h⟩ := h
  refine ⟨N + 1, fun n hn => ?_⟩
  obtain ⟨m, rfl⟩ : ∃ m, n = m + 1 := ⟨n - 1, by omega⟩
  exact h m (by omega)

theorem Ev.unshift {P : Nat → Prog Unit} {ts r : List Str} (h : Ev P ts r) : Ev (fun n => P (n + 1)) ts r := by
  obtain ⟨N, h⟩ := h
  exact ⟨N, fun n hn => h (n + 1) (by omega)⟩

theorem Ev.congr {P Q : Nat → Prog Unit} {ts r : List Str} (h : Ev P ts r)
    (e : ∀ n, runA (Q n) ts = runA (P n) ts) : Ev Q ts r := by
  obtain ⟨N, h⟩ := h
  exact ⟨N, fun n hn => by rw [e]; exact h n hn⟩

/-- A token used to complete a text: a word of letters, digits and `_`, a punctuation character, `=`, or the
empty string `''`. -/
def filler (t : Str) : Bool :=
  (!t.isEmpty && t.all fun c => c.isAlphanum || c == '_') || [S "(", S ")", S ",", S ";", S ".", S "=", S "''"].contains t

/-- What is known about a validator: whether it always reads something, how it can be satisfied, and in front of
which tokens it stops. -/
structure Info where
  ne : Bool
  d : Option (List Str)
  f : Str → Bool

/-- All tokens are good. -/
abbrev GoodL (ts : List Str) : Prop := ∀ t ∈ ts, Good t

/-- In `ts` a parenthesis is opened and never closed, and `P` accepts what comes before, a balanced text in
parentheses, and some completion. -/
def Open (P : Nat → Prog Unit) (i : Info) (ts : List Str) : Prop :=
  ∃ a b w, ts = a ++ ['('] :: b ∧ (∀ e r, Bal e → b ≠ e ++ [')'] :: r) ∧ (∀ t ∈ w, filler t = true) ∧
    ∀ e, Bal e → GoodL e → ∀ z, GoodL z → i.f (hd z) = true → Ev P (a ++ ['('] :: (e ++ [')'] :: (w ++ z))) z

theorem Open.ne {P : Nat → Prog Unit} {i : Info} {ts : List Str} (h : Open P i ts) : ts ≠ [] := by
  obtain ⟨a, b, w, rfl, _⟩ := h; simp

theorem Open.map {P Q : Nat → Prog Unit} {i j : Info} {ts : List Str} (h : Open P i ts)
    (hf : ∀ t, j.f t = true → i.f t = true)
    (go : ∀ x z, x ≠ [] → hd x = hd ts → Ev P x z → Ev Q x z) : Open Q j ts := by
  obtain ⟨a, b, w, rfl, h1, h2, h3⟩ := h
  refine ⟨a, b, w, rfl, h1, h2, fun e he hg z hz hfz => go _ _ (by simp) ?_ (h3 e he hg z hz (hf _ hfz))⟩
  cases a <;> rfl

/-- `p` is `P` with some fuel (at least `k`). -/
structure Via (k : Nat) (p : Prog Unit) (P : Nat → Prog Unit) (i : Info) : Prop where
  mono : ∀ ts r o, GoodL ts → runA p ts = .ok () r o → Ev P ts r
  stop : ∀ pre m o, GoodL (pre ++ m) → runA p (pre ++ m) = .ok () m o → pre ≠ [] →
    ∀ z, GoodL z → i.f (hd z) = true → Ev P (pre ++ z) z
  comp : ∀ pre m, GoodL (pre ++ m) → runA p (pre ++ m) = .fail m → pre ≠ [] →
    ∃ w, (∀ t ∈ w, filler t = true) ∧ ∀ z, GoodL z → i.f (hd z) = true → Ev P (pre ++ (w ++ z)) z
  hang : ∀ ts, GoodL ts → ts.length < k → runA p ts = .timeout → Open P i ts
  ne : i.ne = true → ∀ ts r o, GoodL ts → runA p ts = .ok () r o → r.length < ts.length
  dflt : ∀ d, i.d = some d → (∀ t ∈ d, filler t = true) ∧ ∀ z, GoodL z → i.f (hd z) = true → Ev P (d ++ z) z

theorem filler_good {t : Str} (h : filler t = true) : Good t := by
  unfold filler at h
  simp only [Bool.or_eq_true, Bool.and_eq_true] at h
  rcases h with ⟨h1, h2⟩ | h
  · have hne : t ≠ [] := by cases t <;> simp_all
    refine ⟨hne, ?_⟩
    rintro c r rfl hc
    simp only [List.all_cons, Bool.and_eq_true] at h2
    have := h2.1
    exfalso
    rcases hc with rfl | rfl | rfl <;> revert this <;> decide
  · simp only [List.contains_eq_mem, List.mem_cons, List.not_mem_nil, or_false, decide_eq_true_eq] at h
    rcases h with rfl | rfl | rfl | rfl | rfl | rfl | rfl <;>
      exact ⟨by decide, by rintro c r ⟨⟩ h; revert h; decide⟩

theorem goodL_append {a b : List Str} (h : GoodL a) (h' : GoodL b) : GoodL (a ++ b) := fun t ht => by
  rcases List.mem_append.1 ht with h1 | h1
  · exact h t h1
  · exact h' t h1

theorem goodL_filler {w : List Str} (h : ∀ t ∈ w, filler t = true) : GoodL w := fun t ht => filler_good (h t ht)

theorem goodL_right {a b : List Str} (h : GoodL (a ++ b)) : GoodL b := fun t ht => h t (by simp [ht])
theorem goodL_left {a b : List Str} (h : GoodL (a ++ b)) : GoodL a := fun t ht => h t (by simp [ht])

/-- A program looks only at what it reads and at the next token. -/
theorem runA_sameHead (p : Prog α) (pre : List Str) (t : Str) (r r' : List Str) (a : α) (o : List Str)
    (h : runA p (pre ++ t :: r) = .ok a (t :: r) o) : runA p (pre ++ t :: r') = .ok a (t :: r') o := by
  induction p generalizing pre o with
  | ret b =>
    simp only [runA, ResA.ok.injEq] at h ⊢
    obtain ⟨rfl, h, rfl⟩ := h
    have : pre = [] := by
      have := congrArg List.length h
      simp at this
      exact List.length_eq_zero_iff.1 (by simpa using this)
    subst this; simp
  | token k ih =>
    have e : (pre ++ t :: r).headD EOF = (pre ++ t :: r').headD EOF := by cases pre <;> rfl
    simp only [runA] at h ⊢
    rw [← e]; exact ih _ _ _ h
  | oob k ih =>
    have e : (pre ++ t :: r).isEmpty = (pre ++ t :: r').isEmpty := by cases pre <;> rfl
    simp only [runA] at h ⊢
    rw [← e]; exact ih _ _ _ h
  | head k ih =>
    have e : (pre ++ t :: r).headD EOF = (pre ++ t :: r').headD EOF := by cases pre <;> rfl
    simp only [runA] at h ⊢
    rw [← e]
    split at h
    · cases h
    · exact ih _ _ _ h
  | adv b k ih =>
    simp only [runA] at h ⊢
    obtain ⟨o2, h1, rfl⟩ := Cost.of_pre h
    cases pre with
    | nil =>
      have := ((runA_suffix k _).1 _ _ _ h1).length_le
      simp at this
      omega
    | cons x pre =>
      rw [List.cons_append, List.tail_cons] at h1 ⊢
      rw [ih _ _ h1]; rfl
  | emit x k ih =>
    simp only [runA] at h ⊢
    obtain ⟨o2, h1, rfl⟩ := Cost.of_pre h
    rw [ih _ _ h1]; rfl
  | fail => cases h
  | timeout => cases h

theorem runA_bind_fail {p q : Prog Unit} {ts r : List Str} (h : runA (p.bind fun _ => q) ts = .fail r) :
    runA p ts = .fail r ∨ ∃ m o, runA p ts = .ok () m o ∧ runA q m = .fail r := by
  rw [runA_bind] at h
  cases hr : runA p ts with
  | ok b m o1 =>
    rw [hr] at h
    refine .inr ⟨m, o1, rfl, ?_⟩
    replace h : (runA q m).pre o1 = .fail r := h
    cases hq : runA q m <;> rw [hq] at h <;> cases h
    rfl
  | fail r' => rw [hr] at h; cases h; exact .inl rfl
  | _ => rw [hr] at h; cases h

theorem runA_bind_timeout {p q : Prog Unit} {ts : List Str} (h : runA (p.bind fun _ => q) ts = .timeout) :
    runA p ts = .timeout ∨ ∃ m o, runA p ts = .ok () m o ∧ runA q m = .timeout := by
  rw [runA_bind] at h
  cases hr : runA p ts with
  | ok b m o1 =>
    rw [hr] at h
    refine .inr ⟨m, o1, rfl, ?_⟩
    replace h : (runA q m).pre o1 = .timeout := h
    cases hq : runA q m <;> rw [hq] at h <;> cases h
  | timeout => exact .inl rfl
  | _ => rw [hr] at h; cases h

namespace Via

variable {k : Nat} {p q : Prog Unit} {P Q : Nat → Prog Unit} {i j : Info}

/-- Information about `p; q`. -/
def seqI (i j : Info) : Info :=
  ⟨i.ne || j.ne, match i.d, j.d with | some a, some b => some (a ++ b) | _, _ => none,
   match j.d with | some (_ :: _) => j.f | _ => fun t => i.f t && j.f t⟩

/-- `p` stops in front of the shortest `q`. -/
def seqOk (i j : Info) : Bool :=
  match j.d with
  | none => false
  | some [] => true
  | some (h :: _) => j.ne && i.f h

theorem seqOk_follow {i j : Info} (ok : seqOk i j = true) :
    ∃ d, j.d = some d ∧ (d = [] ∨ j.ne = true) ∧ (∀ t, (seqI i j).f t = true → j.f t = true) ∧
      (d = [] → ∀ t, (seqI i j).f t = true → i.f t = true) ∧
      ∀ z, (seqI i j).f (hd z) = true → i.f (hd (d ++ z)) = true := by
  unfold seqOk at ok
  match hd : j.d, ok with
  | some [], _ =>
    refine ⟨[], rfl, .inl rfl, ?_, ?_, ?_⟩ <;> intros <;> simp_all [seqI]
  | some (h :: r), ok =>
    simp only [Bool.and_eq_true] at ok
    refine ⟨h :: r, rfl, .inr ok.1, ?_, ?_, ?_⟩
    · intro t; simp [seqI, hd]
    · rintro ⟨⟩
    · intro z _; exact ok.2

/-- The part of `p; q` where both have the same fuel, or `p` reads something. -/
theorem seqG {k' : Nat} (hp : Via k p P i) (hq : Via k' q Q j) (hk : k ≤ k' ∨ (i.ne = true ∧ k ≤ k' + 1))
    (ok : seqOk i j = true) :
    Via k (p.bind fun _ => q) (fun n => (P n).bind fun _ => Q n) (seqI i j) := by
  obtain ⟨d, hd, hne, hf, hf0, hfol⟩ := seqOk_follow ok
  obtain ⟨hdf, hdo⟩ := hq.dflt d hd
  -- `p` in front of `q`
  have front : ∀ {pre m m' : List Str} {o}, GoodL (pre ++ m) → runA p (pre ++ m) = .ok () m o →
      ∀ {x y}, m = x :: y → ∀ {y'}, m' = x :: y' → GoodL y' → Ev P (pre ++ m') m' := by
    rintro pre m m' o hg h x y rfl y' rfl hg'
    refine hp.mono _ _ _ ?_ (runA_sameHead p pre x y y' () o h)
    exact goodL_append (goodL_left hg) (fun t ht => by
      rcases List.mem_cons.1 ht with rfl | ht
      · exact hg _ (by simp)
      · exact hg' t ht)
  have suff : ∀ {ts m : List Str} {o}, runA p ts = .ok () m o → ∃ pre, ts = pre ++ m := fun h => by
    obtain ⟨pre, e⟩ := (runA_suffix p _).1 _ _ _ h; exact ⟨pre, e.symm⟩
  refine ⟨?_, ?_, ?_, ?_, ?_, ?_⟩
  · intro ts r o hg h
    obtain ⟨⟨⟩, m, o1, o2, h1, h2, rfl⟩ := Cost.of_bind h
    obtain ⟨pre, rfl⟩ := suff h1
    exact (hp.mono _ _ _ hg h1).bind (hq.mono _ _ _ (goodL_right hg) h2)
  · intro pre r o hg h hpre z hz hfz
    obtain ⟨⟨⟩, m, o1, o2, h1, h2, rfl⟩ := Cost.of_bind h
    obtain ⟨p1, e1⟩ := suff h1
    obtain ⟨p2, rfl⟩ := (runA_suffix q _).1 _ _ _ h2
    have e : pre = p1 ++ p2 := by
      have : pre ++ r = (p1 ++ p2) ++ r := by rw [e1]; simp
      exact List.append_cancel_right this
    subst e
    rw [List.append_assoc] at hg h1 ⊢
    cases p2 with
    | nil =>
      rcases hne with rfl | hne
      · simp only [List.append_nil, List.nil_append] at h1 hpre hg ⊢
        refine (hp.stop _ _ _ hg h1 hpre z hz (hf0 rfl _ hfz)).bind ?_
        have := hdo z hz (hf _ hfz)
        simpa using this
      · have := hq.ne hne _ _ _ (goodL_right hg) h2
        simp at this
    | cons x p2 =>
      refine (front hg h1 rfl rfl ?_).bind (hq.stop _ _ _ (goodL_right hg) h2 (by simp) z hz (hf _ hfz))
      exact goodL_append (fun t ht => hg t (by simp [ht])) hz
  · intro pre r hg h hpre
    rcases runA_bind_fail h with h1 | ⟨m, o, h1, h2⟩
    · obtain ⟨w, hw, hc⟩ := hp.comp _ _ hg h1 hpre
      refine ⟨w ++ d, ?_, fun z hz hfz => ?_⟩
      · intro t ht
        rcases List.mem_append.1 ht with ht | ht
        · exact hw t ht
        · exact hdf t ht
      · have e1 := hc (d ++ z) (goodL_append (goodL_filler hdf) hz) (hfol z hfz)
        rw [List.append_assoc]
        exact e1.bind (hdo z hz (hf _ hfz))
    · obtain ⟨p1, e1⟩ := suff h1
      obtain ⟨p2, rfl⟩ := (runA_suffix q _).2 _ h2
      have e : pre = p1 ++ p2 := by
        have : pre ++ r = (p1 ++ p2) ++ r := by rw [e1]; simp
        exact List.append_cancel_right this
      subst e
      rw [List.append_assoc] at hg h1
      cases p2 with
      | nil =>
        refine ⟨d, hdf, fun z hz hfz => ?_⟩
        simp only [List.append_nil, List.nil_append] at h1 hpre hg ⊢
        exact (hp.stop _ _ _ hg h1 hpre (d ++ z) (goodL_append (goodL_filler hdf) hz) (hfol z hfz)).bind
          (hdo z hz (hf _ hfz))
      | cons x p2 =>
        obtain ⟨w, hw, hc⟩ := hq.comp _ _ (goodL_right hg) h2 (by simp)
        refine ⟨w, hw, fun z hz hfz => ?_⟩
        rw [List.append_assoc]
        refine (front hg h1 rfl rfl ?_).bind (hc z hz (hf _ hfz))
        exact goodL_append (fun t ht => hg t (by simp [ht])) (goodL_append (goodL_filler hw) hz)
  · intro ts hg hk' h
    rcases runA_bind_timeout h with h1 | ⟨m, o, h1, h2⟩
    · obtain ⟨a, b, w, rfl, hu, hw, hc⟩ := hp.hang _ hg hk' h1
      refine ⟨a, b, w ++ d, rfl, hu, ?_, fun e he heg z hz hfz => ?_⟩
      · intro t ht
        rcases List.mem_append.1 ht with ht | ht
        · exact hw t ht
        · exact hdf t ht
      · have e1 := hc e he heg (d ++ z) (goodL_append (goodL_filler hdf) hz) (hfol z hfz)
        rw [List.append_assoc]
        exact e1.bind (hdo z hz (hf _ hfz))
    · obtain ⟨p1, rfl⟩ := suff h1
      have hl : m.length < k' := by
        rcases hk with hk | ⟨hi, hk⟩
        · simp only [List.length_append] at hk'; omega
        · have := hp.ne hi _ _ _ hg h1
          omega
      obtain ⟨a, b, w, rfl, hu, hw, hc⟩ := hq.hang _ (goodL_right hg) hl h2
      refine ⟨p1 ++ a, b, w, by simp, hu, hw, fun e he heg z hz hfz => ?_⟩
      rw [List.append_assoc]
      have hgm : GoodL (a ++ ['('] :: (e ++ [')'] :: (w ++ z))) := by
        have hc' : Good [')'] := filler_good (by decide)
        intro t ht
        simp only [List.mem_append, List.mem_cons] at ht
        rcases ht with h | h | h | h | h | h
        · exact hg t (by simp [h])
        · exact hg t (by simp [h])
        · exact heg t h
        · rw [h]; exact hc'
        · exact filler_good (hw t h)
        · exact hz t h
      refine Ev.bind ?_ (hc e he heg z hz (hf _ hfz))
      cases a with
      | nil => exact front hg h1 rfl rfl (fun t ht => hgm t (List.mem_cons_of_mem _ ht))
      | cons x a => exact front hg h1 rfl rfl (fun t ht => hgm t (List.mem_cons_of_mem _ ht))
  · intro hi ts r o hg h
    obtain ⟨⟨⟩, m, o1, o2, h1, h2, rfl⟩ := Cost.of_bind h
    obtain ⟨pre, rfl⟩ := suff h1
    have l2 := ((runA_suffix q _).1 _ _ _ h2).length_le
    simp only [seqI, Bool.or_eq_true] at hi
    rcases hi with hi | hi
    · have := hp.ne hi _ _ _ hg h1; omega
    · have := hq.ne hi _ _ _ (goodL_right hg) h2
      simp only [List.length_append]; omega
  · intro d' hd'
    simp only [seqI, hd] at hd'
    match hid : i.d with
    | none => rw [hid] at hd'; cases hd'
    | some a =>
      rw [hid] at hd'
      cases hd'
      obtain ⟨haf, hao⟩ := hp.dflt a hid
      refine ⟨?_, fun z hz hfz => ?_⟩
      · intro t ht
        rcases List.mem_append.1 ht with ht | ht
        · exact haf t ht
        · exact hdf t ht
      · rw [List.append_assoc]
        exact (hao (d ++ z) (goodL_append (goodL_filler hdf) hz) (hfol z hfz)).bind (hdo z hz (hf _ hfz))

theorem seq (hp : Via k p P i) (hq : Via k q Q j) (ok : seqOk i j = true) :
    Via k (p.bind fun _ => q) (fun n => (P n).bind fun _ => Q n) (seqI i j) :=
  seqG hp hq (.inl (Nat.le_refl _)) ok

theorem seqS (hp : Via (k + 1) p P i) (hq : Via k q Q j) (hi : i.ne = true) (ok : seqOk i j = true) :
    Via (k + 1) (p.bind fun _ => q) (fun n => (P n).bind fun _ => Q n) (seqI i j) :=
  seqG hp hq (.inr ⟨hi, Nat.le_refl _⟩) ok

theorem shift (h : Via k p (fun n => P (n + 1)) i) : Via k p P i :=
  ⟨fun a b c hg h' => (h.mono a b c hg h').shift,
   fun a b c hg h' hp z hz hf => (h.stop a b c hg h' hp z hz hf).shift,
   fun a b hg h' hp => by
     obtain ⟨w, hw, hc⟩ := h.comp a b hg h' hp
     exact ⟨w, hw, fun z hz hf => (hc z hz hf).shift⟩,
   fun a hg hk h' => (h.hang a hg hk h').map (fun _ e => e) fun _ _ _ _ e => e.shift,
   h.ne,
   fun d hd => ⟨(h.dflt d hd).1, fun z hz hf => ((h.dflt d hd).2 z hz hf).shift⟩⟩

theorem unshift (h : Via k p P i) : Via k p (fun n => P (n + 1)) i :=
  ⟨fun a b c hg h' => (h.mono a b c hg h').unshift,
   fun a b c hg h' hp z hz hf => (h.stop a b c hg h' hp z hz hf).unshift,
   fun a b hg h' hp => by
     obtain ⟨w, hw, hc⟩ := h.comp a b hg h' hp
     exact ⟨w, hw, fun z hz hf => (hc z hz hf).unshift⟩,
   fun a hg hk h' => (h.hang a hg hk h').map (fun _ e => e) fun _ _ _ _ e => e.unshift,
   h.ne,
   fun d hd => ⟨(h.dflt d hd).1, fun z hz hf => ((h.dflt d hd).2 z hz hf).unshift⟩⟩

theorem less {k' : Nat} (h : Via k p P i) (hk : k' ≤ k) : Via k' p P i :=
  { h with hang := fun a hg hl => h.hang a hg (by omega) }

/-- Weaker information. -/
theorem weaken (h : Via k p P i) (hne : j.ne = true → i.ne = true) (hd : ∀ d, j.d = some d → i.d = some d)
    (hf : ∀ t, j.f t = true → i.f t = true) : Via k p P j :=
  ⟨h.mono, fun a b c hg h' hp z hz hfz => h.stop a b c hg h' hp z hz (hf _ hfz),
   fun a b hg h' hp => by
     obtain ⟨w, hw, hc⟩ := h.comp a b hg h' hp
     exact ⟨w, hw, fun z hz hfz => hc z hz (hf _ hfz)⟩,
   fun a hg hk h' => (h.hang a hg hk h').map hf fun _ _ _ _ e => e,
   fun e => h.ne (hne e),
   fun d e => ⟨(h.dflt d (hd d e)).1, fun z hz hfz => (h.dflt d (hd d e)).2 z hz (hf _ hfz)⟩⟩

theorem congrP {p' : Prog Unit} {P' : Nat → Prog Unit} (h : Via k p P i) (e : ∀ ts, runA p' ts = runA p ts)
    (e' : ∀ n ts, runA (P' n) ts = runA (P n) ts) : Via k p' P' i := by
  refine ⟨?_, ?_, ?_, ?_, ?_, ?_⟩
  · intro a b c hg h'; rw [e] at h'; exact (h.mono a b c hg h').congr fun n => e' n _
  · intro a b c hg h' hp z hz hf; rw [e] at h'; exact (h.stop a b c hg h' hp z hz hf).congr fun n => e' n _
  · intro a b hg h' hp
    rw [e] at h'
    obtain ⟨w, hw, hc⟩ := h.comp a b hg h' hp
    exact ⟨w, hw, fun z hz hf => (hc z hz hf).congr fun n => e' n _⟩
  · intro a hg hk h'
    rw [e] at h'
    exact (h.hang a hg hk h').map (fun _ e => e) fun _ _ _ _ h => h.congr fun n => e' n _
  · intro hi a b c hg h'; rw [e] at h'; exact h.ne hi a b c hg h'
  · exact fun d hd => ⟨(h.dflt d hd).1, fun z hz hf => ((h.dflt d hd).2 z hz hf).congr fun n => e' n _⟩

/-- Information about a choice by the next token. -/
def altI (ks : List String) (i j : Info) : Info :=
  ⟨i.ne && j.ne,
   match i.d, j.d with
   | _, some [] => some []
   | some (a :: l), some (b :: l') => if isKw ks a then some (a :: l) else if isKw ks b then none else some (b :: l')
   | some (a :: l), none => if isKw ks a then some (a :: l) else none
   | _, some (b :: l) => if isKw ks b then none else some (b :: l)
   | _, none => none,
   match j.d with
   | some [] => fun t => i.f t && j.f t && !isKw ks t
   | _ => fun t => i.f t && j.f t⟩

theorem alt (ks : List String) (hp : Via k p P i) (hq : Via k q Q j) :
    Via k (ifM (matchToken ks) p q) (fun n => ifM (matchToken ks) (P n) (Q n)) (altI ks i j) := by
  have hfi : ∀ t, (altI ks i j).f t = true → i.f t = true ∧ j.f t = true := by
    intro t; unfold altI; split <;> simp <;> intros <;> simp_all
  have goP : ∀ {ts r}, isKw ks (hd ts) = true → Ev P ts r → Ev (fun n => ifM (matchToken ks) (P n) (Q n)) ts r :=
    fun hk h => h.congr fun n => by rw [runA_if, if_pos hk]
  have goQ : ∀ {ts r}, isKw ks (hd ts) = false → Ev Q ts r → Ev (fun n => ifM (matchToken ks) (P n) (Q n)) ts r :=
    fun hk h => h.congr fun n => by rw [runA_if, if_neg (by rw [hk]; decide)]
  have hhd : ∀ {a : List Str} (_ : a ≠ []) (b c : List Str), hd (a ++ b) = hd (a ++ c) := by
    intro a ha b c; cases a with | nil => exact absurd rfl ha | cons => rfl
  refine ⟨?_, ?_, ?_, ?_, ?_, ?_⟩
  · intro ts r o hg h
    rw [runA_if] at h
    by_cases hk : isKw ks (hd ts) = true
    · rw [if_pos hk] at h; exact goP hk (hp.mono _ _ _ hg h)
    · rw [if_neg hk] at h; exact goQ (by simpa using hk) (hq.mono _ _ _ hg h)
  · intro pre m o hg h hpre z hz hf
    rw [runA_if] at h
    by_cases hk : isKw ks (hd (pre ++ m)) = true
    · rw [if_pos hk] at h
      exact goP (by rw [hhd hpre z m]; exact hk) (hp.stop _ _ _ hg h hpre z hz (hfi _ hf).1)
    · rw [if_neg hk] at h
      exact goQ (by rw [hhd hpre z m]; simpa using hk) (hq.stop _ _ _ hg h hpre z hz (hfi _ hf).2)
  · intro pre m hg h hpre
    rw [runA_if] at h
    by_cases hk : isKw ks (hd (pre ++ m)) = true
    · rw [if_pos hk] at h
      obtain ⟨w, hw, hc⟩ := hp.comp _ _ hg h hpre
      exact ⟨w, hw, fun z hz hf => goP (by rw [hhd hpre (w ++ z) m]; exact hk) (hc z hz (hfi _ hf).1)⟩
    · rw [if_neg hk] at h
      obtain ⟨w, hw, hc⟩ := hq.comp _ _ hg h hpre
      exact ⟨w, hw, fun z hz hf => goQ (by rw [hhd hpre (w ++ z) m]; simpa using hk) (hc z hz (hfi _ hf).2)⟩
  · intro ts hg hl h
    rw [runA_if] at h
    by_cases hk : isKw ks (hd ts) = true
    · rw [if_pos hk] at h
      exact (hp.hang _ hg hl h).map (fun _ hf => (hfi _ hf).1) fun x z _ hx => goP (by rw [hx]; exact hk)
    · rw [if_neg hk] at h
      exact (hq.hang _ hg hl h).map (fun _ hf => (hfi _ hf).2) fun x z _ hx => goQ (by rw [hx]; simpa using hk)
  · intro hi ts r o hg h
    simp only [altI, Bool.and_eq_true] at hi
    rw [runA_if] at h
    split at h
    · exact hp.ne hi.1 _ _ _ hg h
    · exact hq.ne hi.2 _ _ _ hg h
  · intro d hd'
    have useP : ∀ a l, i.d = some (a :: l) → isKw ks a = true → (∀ t ∈ a :: l, filler t = true) ∧
        ∀ z, GoodL z → (altI ks i j).f (hd z) = true → Ev (fun n => ifM (matchToken ks) (P n) (Q n)) (a :: l ++ z) z :=
      fun a l e hk => ⟨(hp.dflt _ e).1, fun z hz hf => goP hk ((hp.dflt _ e).2 z hz (hfi _ hf).1)⟩
    have useQ : ∀ b l, j.d = some (b :: l) → isKw ks b = false → (∀ t ∈ b :: l, filler t = true) ∧
        ∀ z, GoodL z → (altI ks i j).f (hd z) = true → Ev (fun n => ifM (matchToken ks) (P n) (Q n)) (b :: l ++ z) z :=
      fun a l e hk => ⟨(hq.dflt _ e).1, fun z hz hf => goQ hk ((hq.dflt _ e).2 z hz (hfi _ hf).2)⟩
    unfold altI at hd'
    dsimp only at hd'
    split at hd'
    · rename_i e
      cases hd'
      refine ⟨by simp, fun z hz hf => ?_⟩
      refine goQ ?_ ?_
      · simp only [altI, e, Bool.and_eq_true, Bool.not_eq_true'] at hf
        exact hf.2
      · exact (hq.dflt _ e).2 z hz (hfi _ hf).2
    · rename_i a l b l' e1 e2
      split at hd'
      · rename_i hk; cases hd'; exact useP _ _ e1 hk
      · split at hd'
        · cases hd'
        · rename_i hk; cases hd'; exact useQ _ _ e2 (by simpa using hk)
    · rename_i a l e1 e2
      split at hd'
      · rename_i hk; cases hd'; exact useP _ _ e1 hk
      · cases hd'
    · rename_i b l _ e2 _
      split at hd'
      · cases hd'
      · rename_i hk; cases hd'; exact useQ _ _ e2 (by simpa using hk)
    · cases hd'

/-- Stop in front of the words `ks`. -/
theorem altStop (ks : List String) (hq : Via k q Q j) :
    Via k (ifM (matchToken ks) (.ret ()) q) (fun n => ifM (matchToken ks) (.ret ()) (Q n))
      ⟨false, some [], fun t => j.f t && isKw ks t⟩ := by
  have hhd : ∀ {a : List Str} (_ : a ≠ []) (b c : List Str), hd (a ++ b) = hd (a ++ c) := by
    intro a ha b c; cases a with | nil => exact absurd rfl ha | cons => rfl
  have goQ : ∀ {ts r}, isKw ks (hd ts) = false → Ev Q ts r →
      Ev (fun n => ifM (matchToken ks) (.ret ()) (Q n)) ts r :=
    fun hk h => h.congr fun n => by rw [runA_if, if_neg (by rw [hk]; decide)]
  have goR : ∀ {ts}, isKw ks (hd ts) = true → Ev (fun n => ifM (matchToken ks) (.ret ()) (Q n)) ts ts :=
    fun hk => ⟨0, fun n _ => ⟨[], by rw [runA_if, if_pos hk]; rfl⟩⟩
  refine ⟨?_, ?_, ?_, ?_, ?_, ?_⟩
  · intro ts r o hg h
    rw [runA_if] at h
    by_cases hk : isKw ks (hd ts) = true
    · rw [if_pos hk] at h; cases h; exact goR hk
    · rw [if_neg hk] at h; exact goQ (by simpa using hk) (hq.mono _ _ _ hg h)
  · intro pre m o hg h hpre z hz hf
    simp only [Bool.and_eq_true] at hf
    rw [runA_if] at h
    by_cases hk : isKw ks (hd (pre ++ m)) = true
    · rw [if_pos hk] at h
      simp only [runA, ResA.ok.injEq] at h
      exact absurd (by simpa using congrArg List.length h.2.1) (by simpa using hpre)
    · rw [if_neg hk] at h
      exact goQ (by rw [hhd hpre z m]; simpa using hk) (hq.stop _ _ _ hg h hpre z hz hf.1)
  · intro pre m hg h hpre
    rw [runA_if] at h
    by_cases hk : isKw ks (hd (pre ++ m)) = true
    · rw [if_pos hk] at h; cases h
    · rw [if_neg hk] at h
      obtain ⟨w, hw, hc⟩ := hq.comp _ _ hg h hpre
      refine ⟨w, hw, fun z hz hf => ?_⟩
      simp only [Bool.and_eq_true] at hf
      exact goQ (by rw [hhd hpre (w ++ z) m]; simpa using hk) (hc z hz hf.1)
  · intro ts hg hl h
    rw [runA_if] at h
    by_cases hk : isKw ks (hd ts) = true
    · rw [if_pos hk] at h; cases h
    · rw [if_neg hk] at h
      exact (hq.hang _ hg hl h).map (fun _ hf => by simp only [Bool.and_eq_true] at hf; exact hf.1)
        fun x z _ hx => goQ (by rw [hx]; simpa using hk)
  · rintro ⟨⟩
  · rintro d ⟨⟩
    refine ⟨by simp, fun z hz hf => ?_⟩
    simp only [Bool.and_eq_true] at hf
    exact goR hf.2

/-! ### Single tokens -/

/-- Information about one token. -/
def oneI (t : Str) : Info := ⟨true, some [t], fun _ => true⟩

theorem one {t0 : Str} (hf : filler t0 = true)
    (h1 : ∀ ts r o, GoodL ts → runA p ts = .ok () r o → ∃ t, ts = t :: r)
    (h2 : ∀ t r o, GoodL (t :: r) → runA p (t :: r) = .ok () r o → ∀ r', GoodL r' → ∃ o', runA p (t :: r') = .ok () r' o')
    (h3 : ∀ ts m, GoodL ts → runA p ts = .fail m → m = ts)
    (h4 : ∀ ts, GoodL ts → runA p ts ≠ .timeout)
    (h5 : ∀ z, GoodL z → ∃ o, runA p (t0 :: z) = .ok () z o) : Via k p (fun _ => p) (oneI t0) := by
  refine ⟨fun ts r o _ h => .const h, ?_, ?_, ?_, ?_, ?_⟩
  · intro pre m o hg h hpre z hz _
    obtain ⟨t, e⟩ := h1 _ _ _ hg h
    have : pre = [t] := by
      have : pre ++ m = [t] ++ m := e
      exact List.append_cancel_right this
    subst this
    obtain ⟨o', h'⟩ := h2 t m o hg h z hz
    exact .const h'
  · intro pre m hg h hpre
    have := h3 _ _ hg h
    exact absurd (by simpa using congrArg List.length this) (by simpa using hpre)
  · intro ts hg _ h; exact absurd h (h4 ts hg)
  · rintro - ts r o hg h
    obtain ⟨t, rfl⟩ := h1 _ _ _ hg h
    simp
  · rintro d ⟨⟩
    refine ⟨by simpa using hf, fun z hz _ => ?_⟩
    obtain ⟨o, h⟩ := h5 z hz
    exact .const h

/-- A program that accepts exactly the tokens in `A`. -/
theorem oneOf {t0 : Str} {A : Str → Bool} {set : Bool} (hf : filler t0 = true)
    (h : ∀ ts, GoodL ts → runA p ts = match ts with
      | [] => .fail []
      | t :: r => if A t then .ok () r (keep set t) else .fail (t :: r)) (h0 : A t0 = true) :
    Via k p (fun _ => p) (oneI t0) := by
  refine one hf ?_ ?_ ?_ ?_ ?_
  · intro ts r o hg e
    rw [h _ hg] at e
    cases ts with
    | nil => cases e
    | cons t ts =>
      dsimp only at e
      split at e <;> cases e
      exact ⟨t, rfl⟩
  · intro t r o hg e r' hr'
    rw [h _ hg] at e
    rw [h _ (fun x hx => by
      rcases List.mem_cons.1 hx with rfl | hx
      · exact hg _ (by simp)
      · exact hr' x hx)]
    dsimp only at e ⊢
    split at e
    · rename_i hA; rw [if_pos hA]; exact ⟨_, rfl⟩
    · cases e
  · intro ts m hg e
    rw [h _ hg] at e
    cases ts with
    | nil => cases e; rfl
    | cons t ts =>
      dsimp only at e
      split at e <;> cases e
      rfl
  · intro ts hg e
    rw [h _ hg] at e
    cases ts with
    | nil => cases e
    | cons t ts =>
      dsimp only at e
      split at e <;> cases e
  · intro z hz
    rw [h _ (fun x hx => by
      rcases List.mem_cons.1 hx with rfl | hx
      · exact filler_good hf
      · exact hz x hx)]
    dsimp only
    rw [if_pos h0]; exact ⟨_, rfl⟩

/-- Information about one of the words `ks`. -/
def tokI (ks : List String) : Info := oneI (S (ks.headD ""))

theorem tok (set : Bool) (ks : List String)
    (ok : (filler (S (ks.headD "")) && isKw ks (S (ks.headD ""))) = true) :
    Via k (validateToken set ks) (fun _ => validateToken set ks) (tokI ks) := by
  rw [Bool.and_eq_true] at ok
  exact oneOf (set := set) ok.1 (fun ts _ => runA_validateToken set ks ts) ok.2

/-- Information about nothing. -/
def retI : Info := ⟨false, some [], fun _ => true⟩

theorem ret : Via k (.ret ()) (fun _ => .ret ()) retI := by
  refine ⟨fun ts r o _ h => .const h, ?_, ?_, ?_, ?_, ?_⟩
  · intro pre m o _ h hpre
    simp only [runA, ResA.ok.injEq] at h
    exact absurd (by simpa using congrArg List.length h.2.1) (by simpa using hpre)
  · intro pre m _ h; cases h
  · intro ts _ _ h; cases h
  · rintro ⟨⟩
  · rintro d ⟨⟩
    exact ⟨by simp, fun z _ _ => .const (o := []) rfl⟩

/-- Information about an error. -/
def failI : Info := ⟨true, none, fun _ => true⟩

theorem fail : Via k syntaxError (fun _ => syntaxError) failI := by
  refine ⟨fun ts r o _ h => (by cases h), ?_, ?_, ?_, ?_, ?_⟩
  · intro pre m o _ h; cases h
  · intro pre m _ h hpre
    simp only [syntaxError, runA, ResA.fail.injEq] at h
    exact absurd (by simpa using congrArg List.length h) (by simpa using hpre)
  · intro ts _ _ h; cases h
  · intro _ ts r o _ h; cases h
  · rintro d ⟨⟩

theorem zero {P : Nat → Prog Unit} {i : Info} (hd : ∀ d, i.d = some d →
    (∀ t ∈ d, filler t = true) ∧ ∀ z, GoodL z → i.f (hd z) = true → Ev P (d ++ z) z) : Via 0 .timeout P i :=
  ⟨fun _ _ _ _ h => (by cases h), fun _ _ _ _ h => (by cases h), fun _ _ _ h => (by cases h),
   fun _ _ hl => (by omega), fun _ _ _ _ _ h => (by cases h), hd⟩

theorem next_eq (set : Bool) (ks : List String) (p q : Prog Unit) (ts : List Str) (he : isKw ks EOF = false) :
    runA (ifM (matchTokenNext set ks) p q) ts =
      runA (ifM (matchToken ks) ((validateToken set ks).bind fun _ => p) q) ts := by
  rw [ifM_next, runA_if, runA_if]
  by_cases h : isKw ks (hd ts) = true
  · rw [if_pos h, if_pos h, runA_adv, runA_bind, runA_validateToken]
    cases ts with
    | nil => rw [show hd [] = EOF from rfl, he] at h; cases h
    | cons t r => rw [show hd (t :: r) = t from rfl] at h; simp only [if_pos h]; rfl
  · rw [if_neg h, if_neg h]

/-- The check for `altNext`. -/
def nextOk (ks : List String) (i : Info) : Bool :=
  !isKw ks EOF && (filler (S (ks.headD "")) && isKw ks (S (ks.headD ""))) && seqOk (tokI ks) i

theorem altNext (set : Bool) (ks : List String) (hp : Via k p P i) (hq : Via k q Q j) (ok : nextOk ks i = true) :
    Via k (ifM (matchTokenNext set ks) p q) (fun n => ifM (matchTokenNext set ks) (P n) (Q n))
      (altI ks (seqI (tokI ks) i) j) := by
  simp only [nextOk, Bool.and_eq_true, Bool.not_eq_true'] at ok
  exact (alt ks (seq (tok set ks (by rw [ok.1.2.1, ok.1.2.2]; rfl)) hp ok.2) hq).congrP (fun ts => next_eq set ks p q ts ok.1.1)
    (fun n ts => next_eq set ks _ _ ts ok.1.1)

theorem altNextS (set : Bool) (ks : List String) (hp : Via k p P i) (hq : Via (k + 1) q Q j)
    (ok : nextOk ks i = true) :
    Via (k + 1) (ifM (matchTokenNext set ks) p q) (fun n => ifM (matchTokenNext set ks) (P n) (Q n))
      (altI ks (seqI (tokI ks) i) j) := by
  simp only [nextOk, Bool.and_eq_true, Bool.not_eq_true'] at ok
  exact (alt ks (seqS (tok set ks (by rw [ok.1.2.1, ok.1.2.2]; rfl)) hp rfl ok.2) hq).congrP (fun ts => next_eq set ks p q ts ok.1.1)
    (fun n ts => next_eq set ks _ _ ts ok.1.1)

theorem skip (set : Bool) (ks : List String) (ok : nextOk ks retI = true) :
    Via k (skipToken set ks) (fun _ => skipToken set ks) (altI ks (seqI (tokI ks) retI) retI) := by
  have e : skipToken set ks = ifM (matchTokenNext set ks) (.ret ()) (.ret ()) := by
    rw [skipToken_eq, ifM_next]; rfl
  rw [e]
  exact altNext set ks ret ret ok

end Via

/-! ### More rules -/

namespace Via

variable {k : Nat} {p q : Prog Unit} {P Q : Nat → Prog Unit} {i j : Info}

/-- A program that reads nothing and succeeds. -/
theorem quiet (h : ∀ ts, ∃ o, runA p ts = .ok () ts o) : Via k p (fun _ => p) retI := by
  have h' : ∀ ts r o, runA p ts = .ok () r o → r = ts := fun ts r o e => by
    obtain ⟨o', e'⟩ := h ts
    rw [e'] at e; cases e; rfl
  refine ⟨fun ts r o _ h => .const h, ?_, ?_, ?_, ?_, ?_⟩
  · intro pre m o _ e hpre
    exact absurd (by simpa using congrArg List.length (h' _ _ _ e)) (by simpa using hpre)
  · intro pre m _ e
    obtain ⟨o', e'⟩ := h (pre ++ m)
    rw [e'] at e; cases e
  · intro ts _ _ e
    obtain ⟨o', e'⟩ := h ts
    rw [e'] at e; cases e
  · rintro ⟨⟩
  · rintro d ⟨⟩
    refine ⟨by simp, fun z _ _ => ?_⟩
    obtain ⟨o', e'⟩ := h z
    exact .const e'

theorem set (t : Str) : Via k (V.set t) (fun _ => V.set t) retI := quiet fun _ => ⟨[t], rfl⟩

/-- `next` in front of a token that is there. -/
theorem altStep (set : Bool) (ks : List String) (hp : Via k p P i) (hq : Via k q Q j) (ok : nextOk ks i = true) :
    Via k (ifM (matchToken ks) ((next set).bind fun _ => p) q)
      (fun n => ifM (matchToken ks) ((next set).bind fun _ => P n) (Q n)) (altI ks (seqI (tokI ks) i) j) := by
  have e : ∀ p q : Prog Unit, ifM (matchToken ks) ((next set).bind fun _ => p) q = ifM (matchTokenNext set ks) p q :=
    fun p q => by rw [ifM_next]; rfl
  simp only [e]
  exact altNext set ks hp hq ok

theorem token {p : Str → Prog Unit} {P : Nat → Str → Prog Unit} (h : ∀ t, Via k (p t) (fun n => P n t) i) :
    Via k (.token p) (fun n => .token (P n)) i := by
  have e : ∀ p : Str → Prog Unit, ∀ ts, runA (.token p) ts = runA (p (hd ts)) ts := fun _ _ => rfl
  have hhd : ∀ {a : List Str} (_ : a ≠ []) (b c : List Str), hd (a ++ b) = hd (a ++ c) := by
    intro a ha b c; cases a with | nil => exact absurd rfl ha | cons => rfl
  refine ⟨?_, ?_, ?_, ?_, ?_, ?_⟩
  · intro ts r o hg h'; exact ((h _).mono _ _ _ hg h').congr fun n => e _ _
  · intro pre m o hg h' hpre z hz hf
    exact ((h _).stop _ _ _ hg h' hpre z hz hf).congr fun n => by rw [e, hhd hpre z m]
  · intro pre m hg h' hpre
    obtain ⟨w, hw, hc⟩ := (h _).comp _ _ hg h' hpre
    exact ⟨w, hw, fun z hz hf => (hc z hz hf).congr fun n => by rw [e, hhd hpre (w ++ z) m]⟩
  · intro ts hg hl h'
    exact ((h _).hang _ hg hl h').map (fun _ e => e) fun x z _ hx h => h.congr fun n => by rw [e, hx]
  · intro hi ts r o hg h'; exact (h _).ne hi _ _ _ hg h'
  · intro d hd'
    exact ⟨((h []).dflt d hd').1, fun z hz hf => (((h _).dflt d hd').2 z hz hf).congr fun n => e _ _⟩

theorem cond (b : Bool) (hp : Via k p P i) (hq : Via k q Q i) :
    Via k (_root_.cond b p q) (fun n => _root_.cond b (P n) (Q n)) i := by
  cases b
  · exact hq
  · exact hp

/-- Only in front of the tokens `l`. -/
def onlyI (l : List Str) (i : Info) : Info := ⟨i.ne, i.d, fun t => l.contains t⟩

theorem only (l : List Str) (h : Via k p P i) (ok : l.all i.f = true) : Via k p P (onlyI l i) :=
  h.weaken (fun e => e) (fun _ e => e) fun t ht => by
    simp only [onlyI, List.contains_eq_mem, decide_eq_true_eq] at ht
    exact List.all_eq_true.1 ok t ht

/-- The same with a given information. -/
theorem fix {ne : Bool} {d : Option (List Str)} {l : List Str} (h : Via k p P i)
    (ok : ((!ne || i.ne) && (d.isNone || d == i.d) && l.all i.f) = true) :
    Via k p P ⟨ne, d, fun t => l.contains t⟩ := by
  simp only [Bool.and_eq_true, Bool.or_eq_true, Bool.not_eq_true', Option.isNone_iff_eq_none, beq_iff_eq] at ok
  refine h.weaken ?_ ?_ ?_
  · intro e
    rcases ok.1.1 with h | h
    · simp only at e; rw [h] at e; cases e
    · exact h
  · intro d' e
    rcases ok.1.2 with h | h
    · simp only at e; rw [h] at e; cases e
    · rw [← h]; exact e
  · intro t ht
    simp only [List.contains_eq_mem, decide_eq_true_eq] at ht
    exact List.all_eq_true.1 ok.2 t ht

theorem oobRet (h : Via k p P i) (ok : i.f EOF = false) :
    Via k (ifM isOutOfRange (.ret ()) p) (fun n => ifM isOutOfRange (.ret ()) (P n)) ⟨false, i.d, i.f⟩ := by
  have e : ∀ (p : Prog Unit) ts, ts ≠ [] → runA (ifM isOutOfRange (.ret ()) p) ts = runA p ts := fun p ts hts => by
    rw [runA_oob, if_neg (by cases ts <;> simp_all)]
  have ez : ∀ z : List Str, i.f (hd z) = true → z ≠ [] := by
    rintro z hz rfl
    rw [show hd [] = EOF from rfl, ok] at hz; cases hz
  have go : ∀ ts r, ts ≠ [] → Ev P ts r → Ev (fun n => ifM isOutOfRange (.ret ()) (P n)) ts r :=
    fun ts r hts h => h.congr fun n => e _ _ hts
  refine ⟨?_, ?_, ?_, ?_, ?_, ?_⟩
  · intro ts r o hg h'
    cases ts with
    | nil =>
      simp only [runA_oob, List.isEmpty_nil, if_true, runA] at h'
      cases h'
      exact ⟨0, fun n _ => ⟨[], by simp only [runA_oob, List.isEmpty_nil, if_true, runA]⟩⟩
    | cons t ts =>
      rw [e _ _ (by simp)] at h'
      exact go _ _ (by simp) (h.mono _ _ _ hg h')
  · intro pre m o hg h' hpre z hz hf
    rw [e _ _ (by simp [hpre])] at h'
    exact go _ _ (by simp [hpre]) (h.stop _ _ _ hg h' hpre z hz hf)
  · intro pre m hg h' hpre
    rw [e _ _ (by simp [hpre])] at h'
    obtain ⟨w, hw, hc⟩ := h.comp _ _ hg h' hpre
    exact ⟨w, hw, fun z hz hf => go _ _ (by simp [hpre]) (hc z hz hf)⟩
  · intro ts hg hl h'
    cases ts with
    | nil => simp only [runA_oob, List.isEmpty_nil, if_true, runA] at h'; cases h'
    | cons t ts =>
      rw [e _ _ (by simp)] at h'
      exact (h.hang _ hg hl h').map (fun _ e => e) fun x z hx _ => go x z hx
  · rintro ⟨⟩
  · intro d hd'
    exact ⟨(h.dflt d hd').1, fun z hz hf => go _ _ (by simp [ez z hf]) ((h.dflt d hd').2 z hz hf)⟩

theorem oobFail (h : Via k p P i) (hd' : ∀ d, i.d = some d → d ≠ []) :
    Via k (ifM isOutOfRange syntaxError p) (fun n => ifM isOutOfRange syntaxError (P n)) i := by
  have e : ∀ (p : Prog Unit) ts, ts ≠ [] → runA (ifM isOutOfRange syntaxError p) ts = runA p ts := fun p ts hts => by
    rw [runA_oob, if_neg (by cases ts <;> simp_all)]
  have go : ∀ ts r, ts ≠ [] → Ev P ts r → Ev (fun n => ifM isOutOfRange syntaxError (P n)) ts r :=
    fun ts r hts h => h.congr fun n => e _ _ hts
  have e0 : ∀ p : Prog Unit, runA (ifM isOutOfRange syntaxError p) [] = .fail [] := fun p => by
    simp only [runA_oob, List.isEmpty_nil, if_true, syntaxError, runA]
  refine ⟨?_, ?_, ?_, ?_, ?_, ?_⟩
  · intro ts r o hg h'
    cases ts with
    | nil => rw [e0] at h'; cases h'
    | cons t ts =>
      rw [e _ _ (by simp)] at h'
      exact go _ _ (by simp) (h.mono _ _ _ hg h')
  · intro pre m o hg h' hpre z hz hf
    rw [e _ _ (by simp [hpre])] at h'
    exact go _ _ (by simp [hpre]) (h.stop _ _ _ hg h' hpre z hz hf)
  · intro pre m hg h' hpre
    rw [e _ _ (by simp [hpre])] at h'
    obtain ⟨w, hw, hc⟩ := h.comp _ _ hg h' hpre
    exact ⟨w, hw, fun z hz hf => go _ _ (by simp [hpre]) (hc z hz hf)⟩
  · intro ts hg hl h'
    cases ts with
    | nil => rw [e0] at h'; cases h'
    | cons t ts =>
      rw [e _ _ (by simp)] at h'
      exact (h.hang _ hg hl h').map (fun _ e => e) fun x z hx _ => go x z hx
  · intro hi ts r o hg h'
    cases ts with
    | nil => rw [e0] at h'; cases h'
    | cons t ts =>
      rw [e _ _ (by simp)] at h'
      exact h.ne hi _ _ _ hg h'
  · intro d hd2
    exact ⟨(h.dflt d hd2).1, fun z hz hf => go _ _ (by simp [hd' d hd2]) ((h.dflt d hd2).2 z hz hf)⟩

/-- One token, whatever it is; with no token the program does not return. -/
theorem any (set : Bool) : Via 0 (ifM isOutOfRange .timeout (next set))
    (fun _ => ifM isOutOfRange .timeout (next set)) (oneI (S "cc")) := by
  have e : ∀ t r, runA (ifM isOutOfRange .timeout (next set)) (t :: r) = .ok () r (keep set t) := fun t r => by
    rw [runA_oob, if_neg (by simp), runA_next]; rfl
  have e0 : runA (ifM isOutOfRange .timeout (next set)) [] = .timeout := by
    simp only [runA_oob, List.isEmpty_nil, if_true, runA]
  refine ⟨fun ts r o _ h => .const h, ?_, ?_, ?_, ?_, ?_⟩
  · intro pre m o hg h hpre z hz _
    cases pre with
    | nil => exact absurd rfl hpre
    | cons t pre =>
      rw [List.cons_append, e] at h
      simp only [ResA.ok.injEq, true_and] at h
      have : pre = [] := by simpa using congrArg List.length h.1
      subst this
      exact .const (e t z)
  · intro pre m hg h hpre
    cases pre with
    | nil => exact absurd rfl hpre
    | cons t pre => rw [List.cons_append, e] at h; cases h
  · intro ts _ hl; exact absurd hl (Nat.not_lt_zero _)
  · rintro - ts r o _ h
    cases ts with
    | nil => rw [e0] at h; cases h
    | cons t ts => rw [e] at h; cases h; simp
  · rintro d ⟨⟩
    exact ⟨by decide, fun z _ _ => .const (e _ z)⟩

end Via

/-! ### Helpers shared by the dialects -/

open Via

theorem validateName_via (d : Rdbms) (set : Bool) (k : Nat) :
    Via k (validateName d set) (fun _ => validateName d set) (oneI (S "cc")) :=
  oneOf (set := set) (A := fun t => isIdentifier d (t.headD ' ') || plainName d t) (by decide)
    (fun ts hg => by rw [runA_validateName d set ts hg]; cases ts <;> rfl) (by cases d <;> decide +kernel)

theorem validateLiteralValue_via {isNum : Str → Bool} (hN : NumOK isNum) (d : Rdbms) (set : Bool) (k : Nat) :
    Via k (validateLiteralValue isNum d set) (fun _ => validateLiteralValue isNum d set) (oneI (S "NULL")) :=
  oneOf (set := set) (A := fun t => isNum t || V.isStringValue d (t.headD ' ') || isKw literalKeywords t) (by decide)
    (fun ts hg => by rw [runA_validateLiteralValue hN d set ts hg]; cases ts <;> rfl) (by
      rw [show isKw literalKeywords (S "NULL") = true by decide, Bool.or_true])

theorem validatePositiveInteger_via (set : Bool) (k : Nat) :
    Via k (validatePositiveInteger set) (fun _ => validatePositiveInteger set) (oneI (S "1")) :=
  oneOf (set := set) (A := isPositiveIntegerToken) (by decide)
    (fun ts hg => by
      unfold validatePositiveInteger
      cases ts with
      | nil => rfl
      | cons t r =>
        show runA (_root_.cond (isPositiveIntegerToken t) (next set) syntaxError) (t :: r) =
          if isPositiveIntegerToken t = true then .ok () r (keep set t) else .fail (t :: r)
        cases isPositiveIntegerToken t
        · rfl
        · exact runA_next set (t :: r)) (by decide +kernel)

/-- Information about the contents of brackets. -/
def bracketsI : Info := ⟨false, some [], fun t => [S ")"].contains t⟩

theorem hd_only {z : List Str} {t : Str} (h : [t].contains (hd z) = true) : hd z = t := by
  simpa using h

theorem validateBracketsAux_via (set : Bool) (n : Nat) :
    Via 0 (validateBracketsAux set n) (validateBracketsAux set) bracketsI := by
  induction n with
  | zero =>
    refine zero ?_
    rintro d ⟨⟩
    refine ⟨by simp, fun z _ hf => Ev.shift ⟨0, fun n _ => ⟨[], ?_⟩⟩⟩
    have := hd_only hf
    show runA (validateBracketsAux set (n + 1)) ([] ++ z) = _
    rw [validateBracketsAux, runA_if, if_pos (by rw [List.nil_append, this]; decide)]; rfl
  | succ n ih =>
    refine Via.shift ?_
    have e0 : ∀ n ts, runA ((next set).bind fun _ => validateBracketsAux set n) ts =
        runA ((ifM isOutOfRange .timeout (next set)).bind fun _ => validateBracketsAux set n) ts := by
      intro n ts
      rw [runA_bind, runA_bind, runA_oob]
      cases ts with
      | nil => simp only [runA_next, ResA.andThen, List.tail_nil, bracketsAux_nil]; rfl
      | cons t r => rw [if_neg (by simp)]
    simp only [validateBracketsAux, Prog.bind_eq]
    exact (altStop [")"] (alt ["("]
      (seq (tok set ["("] (by decide)) (seq ih (seq (tok set [")"] (by decide)) ih (by decide)) (by decide))
        (by decide))
      ((seq (any set) ih (by decide)).congrP (fun ts => e0 _ _) (fun _ _ => e0 _ _)))).fix (by decide)

/-- Information about brackets. -/
def parenI : Info := seqI (tokI ["("]) (seqI bracketsI (tokI [")"]))

theorem validateBrackets_via (set : Bool) (n : Nat) :
    Via n (validateBrackets n set) (fun n => validateBrackets n set) parenI := by
  have h0 : Via 0 (validateBrackets n set) (fun n => validateBrackets n set) parenI :=
    seq (tok set ["("] (by decide)) (seq (validateBracketsAux_via set n) (tok set [")"] (by decide)) (by decide)) (by decide)
  refine { h0 with hang := fun ts hg hl h => ?_ }
  rw [validateBrackets, runA_seq] at h
  cases ts with
  | nil => rw [runA_validateToken] at h; cases h
  | cons t b =>
    by_cases h1 : t = ['(']
    · subst h1
      rw [runA_tokT (isKw_lpar.2 rfl)] at h
      simp only [ResA.andThen, runA_seq] at h
      simp only [List.length_cons] at hl
      rcases bracketsAux_spec set n b (by omega) with ⟨e, r, hb, rfl, hr⟩ | ⟨hr, hno⟩
      · rw [hr] at h
        simp only [runA_tokT (isKw_rpar.2 rfl), ResA.pre] at h
        cases h
      · refine ⟨[], b, [], rfl, hno, by simp, fun e he heg z hz _ => ?_⟩
        refine ⟨(['('] :: (e ++ [')'] :: ([] ++ z))).length + 1, fun m hm => ?_⟩
        have hgood : GoodL (['('] :: (e ++ [')'] :: ([] ++ z))) := by
          intro t ht
          simp only [List.mem_append, List.mem_cons, List.nil_append] at ht
          rcases ht with h | h | h | h
          · rw [h]; exact filler_good (by decide)
          · exact heg t h
          · rw [h]; exact filler_good (by decide)
          · exact hz t h
        have hI := parens_impl m set (['('] :: (e ++ [')'] :: ([] ++ z))) ⟨by omega, hgood⟩
        have hp : parens (['('] :: (e ++ [')'] :: ([] ++ z))) (['('] :: e ++ [[')']]) z := ⟨e, he, rfl, by simp⟩
        unfold Impl at hI
        rw [List.nil_append]
        cases hr : runA (validateBrackets m set) (['('] :: (e ++ [')'] :: ([] ++ z))) with
        | ok u r o =>
          rw [hr] at hI
          obtain ⟨v, hv, _⟩ := hI
          obtain ⟨_, rfl⟩ := parens_unique hp hv
          exact ⟨o, rfl⟩
        | fail r => rw [hr] at hI; exact absurd hp (hI _ _)
        | panic => rw [hr] at hI; exact hI.elim
        | timeout => rw [hr] at hI; exact absurd hp (hI.1 _ _)
    · rw [runA_tokF (not_lpar h1)] at h; cases h

end DDL

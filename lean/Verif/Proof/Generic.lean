import Verif.Proof.Prog
/-
More facts about all validator programs: fuel order, no panic, independence of later tokens,
where kept tokens come from.
-/

namespace DDL

/-! ### Fuel -/

/-- `p` behaves like `q` except that it may run out of fuel earlier. -/
inductive Prog.Le : Prog α → Prog α → Prop where
  | timeout (q : Prog α) : Prog.Le .timeout q
  | ret (a : α) : Prog.Le (.ret a) (.ret a)
  | token {k k' : Str → Prog α} (h : ∀ t, Prog.Le (k t) (k' t)) : Prog.Le (.token k) (.token k')
  | oob {k k' : Bool → Prog α} (h : ∀ t, Prog.Le (k t) (k' t)) : Prog.Le (.oob k) (.oob k')
  | head {k k' : Char → Prog α} (h : ∀ t, Prog.Le (k t) (k' t)) : Prog.Le (.head k) (.head k')
  | adv (b : Bool) {k k' : Prog α} (h : Prog.Le k k') : Prog.Le (.adv b k) (.adv b k')
  | emit (t : Str) {k k' : Prog α} (h : Prog.Le k k') : Prog.Le (.emit t k) (.emit t k')
  | fail : Prog.Le .fail .fail

namespace Prog.Le

theorem refl (p : Prog α) : Prog.Le p p := by
  induction p with
  | ret a => exact .ret a
  | token k ih => exact .token ih
  | oob k ih => exact .oob ih
  | head k ih => exact .head ih
  | adv b k ih => exact .adv b ih
  | emit t k ih => exact .emit t ih
  | fail => exact .fail
  | timeout => exact .timeout _

theorem trans {p q r : Prog α} (h : Prog.Le p q) (h' : Prog.Le q r) : Prog.Le p r := by
  induction h generalizing r with
  | timeout q => exact .timeout r
  | ret a => exact h'
  | token h ih => cases h' with | token h' => exact .token (fun t => ih t (h' t))
  | oob h ih => cases h' with | oob h' => exact .oob (fun t => ih t (h' t))
  | head h ih => cases h' with | head h' => exact .head (fun t => ih t (h' t))
  | adv b h ih => cases h' with | adv _ h' => exact .adv b (ih h')
  | emit b h ih => cases h' with | emit _ h' => exact .emit b (ih h')
  | fail => exact h'

theorem bind {p q : Prog α} {f g : α → Prog β} (h : Prog.Le p q) (hf : ∀ a, Prog.Le (f a) (g a)) :
    Prog.Le (p.bind f) (q.bind g) := by
  induction h with
  | timeout q => exact .timeout _
  | ret a => exact hf a
  | token h ih => exact .token ih
  | oob h ih => exact .oob ih
  | head h ih => exact .head ih
  | adv b h ih => exact .adv b ih
  | emit t h ih => exact .emit t ih
  | fail => exact .fail

theorem cond {b : Bool} {p p' q q' : Prog α} (h : Prog.Le p p') (h' : Prog.Le q q') :
    Prog.Le (cond b p q) (cond b p' q') := by cases b <;> assumption

theorem ifM {c : Prog Bool} {p p' q q' : Prog α} (h : Prog.Le p p') (h' : Prog.Le q q') :
    Prog.Le (V.ifM c p q) (V.ifM c p' q') :=
  bind (refl c) (fun _ => cond h h')

/-- A chain that grows at every step grows. -/
theorem of_step {f : Nat → Prog α} (h : ∀ n, Prog.Le (f n) (f (n + 1))) {n m : Nat}
    (hnm : n ≤ m) : Prog.Le (f n) (f m) := by
  induction hnm with
  | refl => exact refl _
  | step _ ih => exact ih.trans (h _)

end Prog.Le

theorem run_mono {p q : Prog α} (h : Prog.Le p q) (s : VS) :
    run p s = .timeout ∨ run p s = run q s := by
  induction h generalizing s with
  | timeout q => exact .inl rfl
  | ret a => exact .inr rfl
  | token h ih => exact ih _ s
  | oob h ih => exact ih _ s
  | head h ih =>
    simp only [run]
    split
    · exact .inr rfl
    · exact ih _ s
  | adv b h ih => cases b <;> exact ih _
  | emit t h ih => exact ih _
  | fail => exact .inr rfl

theorem runA_mono {p q : Prog α} (h : Prog.Le p q) (ts : List Str) :
    runA p ts = .timeout ∨ runA p ts = runA q ts := by
  induction h generalizing ts with
  | timeout q => exact .inl rfl
  | ret a => exact .inr rfl
  | token h ih => exact ih _ ts
  | oob h ih => exact ih _ ts
  | head h ih =>
    simp only [runA]
    split
    · exact .inr rfl
    · exact ih _ ts
  | adv b h ih =>
    simp only [runA]
    rcases ih ts.tail with h | h <;> simp [h, ResA.pre]
  | emit t h ih =>
    simp only [runA]
    rcases ih ts with h | h <;> simp [h, ResA.pre]
  | fail => exact .inr rfl

/-! ### No panic -/

/-- With non-empty tokens no validator program panics. -/
theorem run_no_panic (p : Prog α) (s : VS) (hs : ∀ t ∈ s.rest, t ≠ []) : run p s ≠ .panic := by
  have htok : ∀ s : VS, (∀ t ∈ s.rest, t ≠ []) → s.token ≠ [] := by
    intro s hs
    cases h : s.rest with
    | nil => simp [VS.token, h, EOF_ne_nil]
    | cons t r => simpa [VS.token, h] using hs t (by simp [h])
  have hskip : ∀ (r : List Str) (l : Nat), ∀ t ∈ (VS.skipNl r l).1, t ∈ r := by
    intro r l t ht
    obtain ⟨pre, h, _⟩ := skipNl_spec r l
    rw [h]; simp [ht]
  have hnext : ∀ s : VS, (∀ t ∈ s.rest, t ≠ []) → ∀ t ∈ s.next.rest, t ≠ [] := by
    intro s hs t ht
    cases h : s.rest with
    | nil => simp [VS.next, h] at ht
    | cons x r =>
      simp only [VS.next, h] at ht
      exact hs t (by rw [h]; exact List.mem_cons_of_mem _ (hskip _ _ _ ht))
  induction p generalizing s with
  | ret a => simp [run]
  | token k ih => exact ih _ s hs
  | oob k ih => exact ih _ s hs
  | head k ih =>
    simp only [run]
    split
    · rename_i h; exact absurd h (htok s hs)
    · exact ih _ s hs
  | adv b k ih => cases b <;> exact ih _ (hnext s hs)
  | emit t k ih => exact ih _ hs
  | fail => simp [run]
  | timeout => simp [run]

/-! ### Independence of tokens after the current one -/

theorem skipNl_append (pre : List Str) (t : Str) (l : Nat) (ht : t ≠ nl) :
    ∃ pre' k, ∀ r, VS.skipNl (pre ++ t :: r) l = (pre' ++ t :: r, k) := by
  induction pre generalizing l with
  | nil => exact ⟨[], l, by intro r; simp [VS.skipNl, ht]⟩
  | cons x pre ih =>
    by_cases hx : x = nl
    · obtain ⟨pre', k, h⟩ := ih (l + 1)
      exact ⟨pre', k, by intro r; simp only [List.cons_append, VS.skipNl, hx, if_true]; exact h r⟩
    · exact ⟨x :: pre, l, by intro r; simp [VS.skipNl, hx]⟩

/-- Outcomes of the same run on inputs that differ only after the token `t` at which it ends. -/
def EndsAt (x : Res VS α) (t : Str) (r r' : List Str) (y : Res VS α) : Prop :=
  (∀ a s', x = .ok a s' → s'.rest = t :: r → y = .ok a { s' with rest := t :: r' }) ∧
  (∀ e s', x = .fail e s' → s'.rest = t :: r → y = .fail e { s' with rest := t :: r' })

theorem run_rest_length (p : Prog α) (s : VS) :
    (∀ a s', run p s = .ok a s' → s'.rest.length ≤ s.rest.length) ∧
    (∀ e s', run p s = .fail e s' → s'.rest.length ≤ s.rest.length) := by
  have hn : ∀ s : VS, s.next.rest.length ≤ s.rest.length := by
    intro s
    cases h : s.rest with
    | nil => simp [VS.next, h]
    | cons x r =>
      obtain ⟨pre, h1, _⟩ := skipNl_spec r s.line
      simp only [VS.next, h]
      conv => rhs; rw [h1]
      simp; omega
  induction p generalizing s with
  | ret a => simp only [run]; constructor <;> intros <;> simp_all
  | token k ih => exact ih _ s
  | oob k ih => exact ih _ s
  | head k ih =>
    simp only [run]
    split
    · simp
    · exact ih _ s
  | adv b k ih =>
    cases b
    · obtain ⟨h1, h2⟩ := ih s.next
      exact ⟨fun a s' h => Nat.le_trans (h1 a s' h) (hn s), fun a s' h => Nat.le_trans (h2 a s' h) (hn s)⟩
    · obtain ⟨h1, h2⟩ := ih (s.next.set s.token)
      exact ⟨fun a s' h => Nat.le_trans (h1 a s' h) (hn s), fun a s' h => Nat.le_trans (h2 a s' h) (hn s)⟩
  | emit t k ih => exact ih (s.set t)
  | fail => simp only [run]; constructor <;> intros <;> simp_all
  | timeout => simp [run]

/-- A run that ends at token `t` (accepting or failing) does not depend on the tokens after
`t`. -/
theorem run_online (p : Prog α) (pre : List Str) (t : Str) (r r' : List Str) (l : Nat)
    (o : List Str) (ht : t ≠ nl) :
    EndsAt (run p ⟨pre ++ t :: r, l, o⟩) t r r' (run p ⟨pre ++ t :: r', l, o⟩) := by
  have htok : ∀ (pre : List Str) (r r' : List Str),
      (pre ++ t :: r).headD EOF = (pre ++ t :: r').headD EOF := by
    intro pre r r'; cases pre <;> rfl
  have hemp : ∀ (pre : List Str) (r r' : List Str),
      (pre ++ t :: r).isEmpty = (pre ++ t :: r').isEmpty := by
    intro pre r r'; cases pre <;> rfl
  have hadv : ∀ (k : Prog α) (pre : List Str) (l : Nat) (o : List Str),
      (∀ (pre : List Str) (l : Nat) (o : List Str),
        EndsAt (run k ⟨pre ++ t :: r, l, o⟩) t r r' (run k ⟨pre ++ t :: r', l, o⟩)) →
      EndsAt (run k { VS.next ⟨pre ++ t :: r, l, []⟩ with result := o }) t r r'
        (run k { VS.next ⟨pre ++ t :: r', l, []⟩ with result := o }) := by
    intro k pre l o ih
    cases pre with
    | nil =>
      have hlen : (VS.next ⟨t :: r, l, []⟩).rest.length ≤ r.length := by
        obtain ⟨pre, h1, _⟩ := skipNl_spec r l
        simp only [VS.next]
        conv => rhs; rw [h1]
        simp
      constructor
      · intro a s' h hr
        have := (run_rest_length _ _).1 _ _ h
        rw [hr] at this
        simp at this hlen
        omega
      · intro a s' h hr
        have := (run_rest_length _ _).2 _ _ h
        rw [hr] at this
        simp at this hlen
        omega
    | cons x pre =>
      obtain ⟨pre', j, h⟩ := skipNl_append pre t l ht
      simp only [List.cons_append, VS.next, h]
      exact ih pre' j o
  induction p generalizing pre l o with
  | ret a =>
    constructor
    · intro b s' h hr
      simp only [run, Res.ok.injEq] at h ⊢
      obtain ⟨rfl, rfl⟩ := h
      have : pre = [] := by
        have := congrArg List.length hr
        simp at this
        exact this
      subst this
      simp
    · intro b s' h; simp [run] at h
  | token k ih =>
    have := ih ((pre ++ t :: r).headD EOF) pre l o
    simp only [run, VS.token]
    rw [← htok pre r r']
    exact this
  | oob k ih =>
    have := ih ((pre ++ t :: r).isEmpty) pre l o
    simp only [run]
    rw [← hemp pre r r']
    exact this
  | head k ih =>
    simp only [run, VS.token]
    rw [← htok pre r r']
    cases (pre ++ t :: r).headD EOF with
    | nil => constructor <;> intro _ _ h <;> simp at h
    | cons c _ => exact ih c pre l o
  | adv b k ih =>
    cases b with
    | false =>
      have := hadv k pre l o ih
      simp only [run]
      cases pre <;> exact this
    | true =>
      have := hadv k pre l (o ++ [(pre ++ t :: r).headD EOF]) ih
      simp only [run, VS.token, VS.set]
      rw [← htok pre r r']
      cases pre <;> exact this
  | emit x k ih => exact ih pre l (o ++ [x])
  | fail =>
    constructor
    · intro b s' h; simp [run] at h
    · intro e s' h hr
      simp only [run, Res.fail.injEq] at h ⊢
      obtain ⟨rfl, rfl⟩ := h
      have : pre = [] := by
        have := congrArg List.length hr
        simp at this
        exact this
      subst this
      simp [VS.token]
  | timeout => constructor <;> intro _ _ h <;> simp [run] at h

/-- `runA` version of `run_online`, for accepting runs. -/
theorem runA_online (p : Prog α) (pre : List Str) (t : Str) (r r' : List Str) :
    (∀ a out, runA p (pre ++ t :: r) = .ok a (t :: r) out →
      runA p (pre ++ t :: r') = .ok a (t :: r') out) ∧
    (runA p (pre ++ t :: r) = .fail (t :: r) → runA p (pre ++ t :: r') = .fail (t :: r')) := by
  have htok : ∀ (pre : List Str) (r r' : List Str),
      (pre ++ t :: r).headD EOF = (pre ++ t :: r').headD EOF := by
    intro pre r r'; cases pre <;> rfl
  have hemp : ∀ (pre : List Str) (r r' : List Str),
      (pre ++ t :: r).isEmpty = (pre ++ t :: r').isEmpty := by
    intro pre r r'; cases pre <;> rfl
  have hnil : ∀ pre : List Str, (pre ++ t :: r = t :: r) → pre = [] := by
    intro pre h
    have := congrArg List.length h
    simp at this
    exact this
  induction p generalizing pre with
  | ret a =>
    constructor
    · intro b out h
      simp only [runA, ResA.ok.injEq] at h ⊢
      obtain ⟨rfl, h, rfl⟩ := h
      rw [hnil _ h]
      simp
    · intro h; simp [runA] at h
  | token k ih =>
    have := ih ((pre ++ t :: r).headD EOF) pre
    simp only [runA]
    rw [← htok pre r r']
    exact this
  | oob k ih =>
    have := ih ((pre ++ t :: r).isEmpty) pre
    simp only [runA]
    rw [← hemp pre r r']
    exact this
  | head k ih =>
    simp only [runA]
    rw [← htok pre r r']
    cases (pre ++ t :: r).headD EOF with
    | nil => constructor <;> intros <;> simp_all
    | cons c _ => exact ih c pre
  | adv b k ih =>
    simp only [runA]
    rw [← htok pre r r']
    cases pre with
    | nil =>
      simp only [List.nil_append, List.tail_cons]
      constructor
      · intro a out h
        cases h' : runA k r <;> rw [h'] at h <;> simp [ResA.pre] at h
        obtain ⟨_, h, _⟩ := h
        have := ((runA_suffix k r).1 _ _ _ h').length_le
        rw [h] at this
        simp at this
        omega
      · intro h
        cases h' : runA k r <;> rw [h'] at h <;> simp [ResA.pre] at h
        have := ((runA_suffix k r).2 _ h').length_le
        rw [h] at this
        simp at this
        omega
    | cons x pre =>
      obtain ⟨h1, h2⟩ := ih pre
      simp only [List.cons_append, List.tail_cons]
      constructor
      · intro a out h
        cases h' : runA k (pre ++ t :: r) <;> rw [h'] at h <;> simp [ResA.pre] at h
        obtain ⟨rfl, rfl, rfl⟩ := h
        rw [h1 _ _ h']
        rfl
      · intro h
        cases h' : runA k (pre ++ t :: r) <;> rw [h'] at h <;> simp [ResA.pre] at h
        obtain rfl := h
        rw [h2 h']
        rfl
  | emit x k ih =>
    obtain ⟨h1, h2⟩ := ih pre
    simp only [runA]
    constructor
    · intro a out h
      cases h' : runA k (pre ++ t :: r) <;> rw [h'] at h <;> simp [ResA.pre] at h
      obtain ⟨rfl, rfl, rfl⟩ := h
      rw [h1 _ _ h']
      rfl
    · intro h
      cases h' : runA k (pre ++ t :: r) <;> rw [h'] at h <;> simp [ResA.pre] at h
      obtain rfl := h
      rw [h2 h']
      rfl
  | fail =>
    constructor
    · intro b out h; simp [runA] at h
    · intro h
      simp only [runA, ResA.fail.injEq] at h ⊢
      rw [hnil _ h]
      simp
  | timeout => constructor <;> intros <;> simp_all [runA]

/-! ### Where kept tokens come from -/

/-- Every kept token is an input token, `<EOF>`, or one of the constants the code inserts. -/
def Prog.EmitsOnly (P : Str → Prop) : Prog α → Prop
  | .ret _ => True
  | .token k => ∀ t, (k t).EmitsOnly P
  | .oob k => ∀ t, (k t).EmitsOnly P
  | .head k => ∀ t, (k t).EmitsOnly P
  | .adv _ k => k.EmitsOnly P
  | .emit t k => P t ∧ k.EmitsOnly P
  | .fail => True
  | .timeout => True

end DDL

import Verif.Model.Validator
/-
Facts about all validator programs, by induction on `Prog`: monad laws, the newline-free
semantics `runA`, and its relation to `run`.
-/

namespace DDL

theorem nl_ne_nil : nl ≠ [] := by decide
theorem EOF_ne_nil : EOF ≠ [] := by decide
theorem EOF_ne_nl : EOF ≠ nl := by decide

/-! ### Monad laws -/

namespace Prog

theorem bind_assoc (p : Prog α) (f : α → Prog β) (g : β → Prog γ) :
    (p.bind f).bind g = p.bind (fun a => (f a).bind g) := by
  induction p with
  | ret a => rfl
  | token k ih => simp only [Prog.bind]; congr 1; funext t; exact ih t
  | oob k ih => simp only [Prog.bind]; congr 1; funext t; exact ih t
  | head k ih => simp only [Prog.bind]; congr 1; funext t; exact ih t
  | adv b k ih => simp only [Prog.bind]; rw [ih]
  | emit t k ih => simp only [Prog.bind]; rw [ih]
  | fail => rfl
  | timeout => rfl

theorem bind_ret (p : Prog α) : p.bind .ret = p := by
  induction p with
  | ret a => rfl
  | token k ih => simp only [Prog.bind]; congr 1; funext t; exact ih t
  | oob k ih => simp only [Prog.bind]; congr 1; funext t; exact ih t
  | head k ih => simp only [Prog.bind]; congr 1; funext t; exact ih t
  | adv b k ih => simp only [Prog.bind]; rw [ih]
  | emit t k ih => simp only [Prog.bind]; rw [ih]
  | fail => rfl
  | timeout => rfl

@[simp] theorem bind_eq (p : Prog α) (f : α → Prog β) : p >>= f = p.bind f := rfl
@[simp] theorem pure_eq (a : α) : (pure a : Prog α) = .ret a := rfl

end Prog

/-! ### Semantics on token lists without newlines -/

/-- Outcome of `runA`: value, remaining tokens, kept tokens. -/
inductive ResA (α : Type) where
  | ok (a : α) (rest out : List Str)
  | fail (rest : List Str)
  | panic
  | timeout

/-- Put kept tokens in front. -/
def ResA.pre (o : List Str) : ResA α → ResA α
  | .ok a r out => .ok a r (o ++ out)
  | .fail r => .fail r
  | .panic => .panic
  | .timeout => .timeout

/-- `run` without line numbers and newline skipping. -/
def runA : Prog α → List Str → ResA α
  | .ret a, ts => .ok a ts []
  | .token k, ts => runA (k (ts.headD EOF)) ts
  | .oob k, ts => runA (k ts.isEmpty) ts
  | .head k, ts =>
    match ts.headD EOF with
    | [] => .panic
    | c :: _ => runA (k c) ts
  | .adv b k, ts => (runA k ts.tail).pre (if b then [ts.headD EOF] else [])
  | .emit t k, ts => (runA k ts).pre [t]
  | .fail, ts => .fail ts
  | .timeout, _ => .timeout

/-- Continue after a `runA` outcome. -/
def ResA.andThen (x : ResA α) (f : α → List Str → ResA β) : ResA β :=
  match x with
  | .ok a r out => (f a r).pre out
  | .fail r => .fail r
  | .panic => .panic
  | .timeout => .timeout

theorem ResA.pre_pre (o o' : List Str) (x : ResA α) : (x.pre o').pre o = x.pre (o ++ o') := by
  cases x <;> simp [ResA.pre]

@[simp] theorem ResA.pre_nil (x : ResA α) : x.pre [] = x := by
  cases x <;> simp [ResA.pre]

theorem ResA.pre_andThen (o : List Str) (x : ResA α) (f : α → List Str → ResA β) :
    (x.pre o).andThen f = (x.andThen f).pre o := by
  cases x with
  | ok a r out => exact (ResA.pre_pre _ _ _).symm
  | _ => rfl

theorem runA_bind (p : Prog α) (f : α → Prog β) (ts : List Str) :
    runA (p.bind f) ts = (runA p ts).andThen (fun a r => runA (f a) r) := by
  induction p generalizing ts with
  | ret a => simp [Prog.bind, runA, ResA.andThen]
  | token k ih => simp only [Prog.bind, runA]; exact ih _ _
  | oob k ih => simp only [Prog.bind, runA]; exact ih _ _
  | head k ih =>
    simp only [Prog.bind, runA]
    split
    · rfl
    · exact ih _ _
  | adv b k ih => simp only [Prog.bind, runA]; rw [ih, ResA.pre_andThen]
  | emit t k ih => simp only [Prog.bind, runA]; rw [ih, ResA.pre_andThen]
  | fail => rfl
  | timeout => rfl

/-- The remaining tokens are a suffix. -/
theorem runA_suffix (p : Prog α) (ts : List Str) :
    (∀ a r out, runA p ts = .ok a r out → r <:+ ts) ∧ (∀ r, runA p ts = .fail r → r <:+ ts) := by
  induction p generalizing ts with
  | ret a => simp only [runA]; constructor <;> intros <;> simp_all
  | token k ih => exact ih _ _
  | oob k ih => exact ih _ _
  | head k ih =>
    simp only [runA]
    split
    · simp
    · exact ih _ _
  | adv b k ih =>
    obtain ⟨h1, h2⟩ := ih ts.tail
    simp only [runA]
    constructor
    · intro a r out h
      cases h' : runA k ts.tail <;> rw [h'] at h <;> simp [ResA.pre] at h
      obtain ⟨rfl, rfl, rfl⟩ := h
      exact (h1 _ _ _ h').trans (List.tail_suffix ts)
    · intro r h
      cases h' : runA k ts.tail <;> rw [h'] at h <;> simp [ResA.pre] at h
      obtain rfl := h
      exact (h2 _ h').trans (List.tail_suffix ts)
  | emit t k ih =>
    obtain ⟨h1, h2⟩ := ih ts
    simp only [runA]
    constructor
    · intro a r out h
      cases h' : runA k ts <;> rw [h'] at h <;> simp [ResA.pre] at h
      obtain ⟨rfl, rfl, rfl⟩ := h
      exact h1 _ _ _ h'
    · intro r h
      cases h' : runA k ts <;> rw [h'] at h <;> simp [ResA.pre] at h
      obtain rfl := h
      exact h2 _ h'
  | fail => simp [runA]
  | timeout => simp [runA]

/-! ### Relation between `run` and `runA` -/

/-- Drop newline tokens. -/
def strip (ts : List Str) : List Str := ts.filter (fun t => decide (t ≠ nl))

@[simp] theorem strip_nil : strip [] = [] := rfl
theorem strip_cons_nl (ts : List Str) : strip (nl :: ts) = strip ts := by simp [strip]
theorem strip_cons (t : Str) (ts : List Str) (h : t ≠ nl) : strip (t :: ts) = t :: strip ts := by
  simp [strip, h]
theorem strip_append (a b : List Str) : strip (a ++ b) = strip a ++ strip b := by simp [strip]
theorem strip_length_le (ts : List Str) : (strip ts).length ≤ ts.length :=
  List.length_filter_le _ _

/-- Number of newline tokens. -/
def nls (ts : List Str) : Nat := ts.count nl

@[simp] theorem nls_nil : nls [] = 0 := rfl
theorem nls_append (a b : List Str) : nls (a ++ b) = nls a + nls b := by simp [nls]

/-- The list does not start with a newline token. -/
def Clean (ts : List Str) : Prop := ts.head? ≠ some nl

theorem Clean.headD (h : Clean ts) : (strip ts).headD EOF = ts.headD EOF := by
  cases ts with
  | nil => rfl
  | cons t r =>
    have : t ≠ nl := by intro e; apply h; simp [e]
    rw [strip_cons _ _ this]; rfl

theorem Clean.isEmpty (h : Clean ts) : (strip ts).isEmpty = ts.isEmpty := by
  cases ts with
  | nil => rfl
  | cons t r =>
    have : t ≠ nl := by intro e; apply h; simp [e]
    rw [strip_cons _ _ this]; rfl

theorem skipNl_spec (r : List Str) (l : Nat) :
    ∃ pre, r = pre ++ (VS.skipNl r l).1 ∧ (∀ t ∈ pre, t = nl) ∧
      (VS.skipNl r l).2 = l + pre.length ∧ Clean (VS.skipNl r l).1 := by
  induction r generalizing l with
  | nil => exact ⟨[], by simp [VS.skipNl, Clean]⟩
  | cons t r ih =>
    unfold VS.skipNl
    split
    · rename_i ht
      obtain ⟨pre, h1, h2, h3, h4⟩ := ih (l + 1)
      refine ⟨t :: pre, ?_, ?_, ?_, h4⟩
      · rw [List.cons_append, ← h1]
      · intro x hx
        rcases List.mem_cons.1 hx with rfl | hx
        · exact ht
        · exact h2 x hx
      · rw [h3]; simp; omega
    · rename_i ht
      exact ⟨[], by simp, by simp, by simp, by simp [Clean, ht]⟩

theorem strip_all_nl {pre : List Str} (h : ∀ t ∈ pre, t = nl) : strip pre = [] := by
  induction pre with
  | nil => rfl
  | cons t r ih =>
    have : t = nl := h t (by simp)
    subst this
    rw [strip_cons_nl]
    exact ih (fun t ht => h t (by simp [ht]))

theorem nls_all_nl {pre : List Str} (h : ∀ t ∈ pre, t = nl) : nls pre = pre.length := by
  induction pre with
  | nil => rfl
  | cons t r ih =>
    have : t = nl := h t (by simp)
    subst this
    have := ih (fun t ht => h t (by simp [ht]))
    simp [nls] at *
    omega

/-- What `next` does, in terms of the tokens dropped. -/
theorem VS.next_spec (s : VS) (hc : Clean s.rest) :
    ∃ pre, s.rest = pre ++ s.next.rest ∧ s.next.line = s.line + nls pre ∧ Clean s.next.rest ∧
      strip s.next.rest = (strip s.rest).tail ∧ s.next.result = s.result := by
  cases hr : s.rest with
  | nil => exact ⟨[], by simp [VS.next, hr, Clean]⟩
  | cons t r =>
    have ht : t ≠ nl := by intro e; apply hc; simp [hr, e]
    obtain ⟨pre, h1, h2, h3, h4⟩ := skipNl_spec r s.line
    refine ⟨t :: pre, ?_, ?_, ?_, ?_, ?_⟩
    · simp only [VS.next, hr, List.cons_append]; rw [← h1]
    · simp only [VS.next, hr]; rw [h3]
      have : nls (t :: pre) = nls pre := by simp [nls, ht]
      rw [this, nls_all_nl h2]
    · simpa only [VS.next, hr] using h4
    · simp only [VS.next, hr]
      rw [strip_cons _ _ ht, List.tail_cons]
      conv => rhs; rw [h1, strip_append, strip_all_nl h2, List.nil_append]
    · simp only [VS.next, hr]

/-- How the outcome of `run` from `s` relates to an outcome of `runA`. -/
def Sim (s : VS) : Res VS α → ResA α → Prop
  | .ok a s', .ok b r out =>
      a = b ∧ r = strip s'.rest ∧ s'.result = s.result ++ out ∧ Clean s'.rest ∧
      ∃ pre, s.rest = pre ++ s'.rest ∧ s'.line = s.line + nls pre
  | .fail e s', .fail r =>
      r = strip s'.rest ∧ e = ⟨s'.line, s'.token⟩ ∧ Clean s'.rest ∧
      ∃ pre, s.rest = pre ++ s'.rest ∧ s'.line = s.line + nls pre
  | .panic, .panic => True
  | .timeout, .timeout => True
  | _, _ => False

/-- Moving the start of a simulation back over a step that kept `o`. -/
theorem Sim.step {s s1 : VS} {o : List Str} {pre : List Str} {x : Res VS α} {y : ResA α}
    (hr : s.rest = pre ++ s1.rest) (hl : s1.line = s.line + nls pre)
    (ho : s1.result = s.result ++ o) (h : Sim s1 x y) : Sim s x (y.pre o) := by
  cases x <;> cases y <;> simp only [Sim, ResA.pre] at h ⊢
  · obtain ⟨h1, h2, h3, h4, pre', h5, h6⟩ := h
    refine ⟨h1, h2, ?_, h4, pre ++ pre', ?_, ?_⟩
    · rw [h3, ho, List.append_assoc]
    · rw [hr, h5, List.append_assoc]
    · rw [h6, hl, nls_append]; omega
  · obtain ⟨h2, h3, h4, pre', h5, h6⟩ := h
    refine ⟨h2, h3, h4, pre ++ pre', ?_, ?_⟩
    · rw [hr, h5, List.append_assoc]
    · rw [h6, hl, nls_append]; omega

/-- `run` and `runA` agree, up to newlines. -/
theorem run_sim (p : Prog α) (s : VS) (hc : Clean s.rest) :
    Sim s (run p s) (runA p (strip s.rest)) := by
  induction p generalizing s with
  | ret a => exact ⟨rfl, rfl, by simp, hc, [], by simp, by simp⟩
  | token k ih =>
    simp only [run, runA]; rw [hc.headD]; exact ih _ s hc
  | oob k ih =>
    simp only [run, runA]; rw [hc.isEmpty]; exact ih _ s hc
  | head k ih =>
    simp only [run, runA]; rw [hc.headD]
    show Sim s (match s.token with | [] => _ | c :: _ => _) (match s.token with | [] => _ | c :: _ => _)
    cases s.token with
    | nil => trivial
    | cons c r => exact ih _ s hc
  | adv b k ih =>
    obtain ⟨pre, h1, h2, h3, h4, h5⟩ := s.next_spec hc
    cases b with
    | false =>
      simp only [run, runA]
      rw [← h4]
      exact Sim.step h1 h2 (by simp [h5]) (ih s.next h3)
    | true =>
      simp only [run, runA]
      rw [← h4, hc.headD]
      exact Sim.step (s1 := s.next.set s.token) h1 h2
        (by simp [VS.set, h5, VS.token]) (ih (s.next.set s.token) h3)
  | emit t k ih =>
    simp only [run, runA]
    exact Sim.step (s1 := s.set t) (pre := []) (by simp [VS.set]) (by simp [VS.set])
      (by simp [VS.set]) (ih (s.set t) hc)
  | fail => exact ⟨rfl, rfl, hc, [], by simp, by simp⟩
  | timeout => trivial

/-- `init` (validator.go:44-53) starts on a non-newline token. The line is one too small if the
first token is a newline. -/
theorem init_spec (ts : List Str) :
    ∃ pre, ts = pre ++ (VS.init ts).rest ∧ (∀ t ∈ pre, t = nl) ∧ Clean (VS.init ts).rest ∧
      (VS.init ts).line = 1 + (pre.length - 1) ∧ (VS.init ts).result = [] ∧
      strip (VS.init ts).rest = strip ts := by
  cases ts with
  | nil =>
    refine ⟨[], ?_⟩
    simp [VS.init, VS.token, EOF_ne_nl, Clean]
  | cons t r =>
    by_cases ht : t = nl
    · subst ht
      obtain ⟨pre, h1, h2, h3, h4⟩ := skipNl_spec r 1
      refine ⟨nl :: pre, ?_⟩
      simp only [VS.init, VS.token, List.headD_cons, if_true, VS.next]
      refine ⟨?_, ?_, h4, ?_, trivial, ?_⟩
      · rw [List.cons_append, ← h1]
      · intro x hx
        rcases List.mem_cons.1 hx with rfl | hx
        · rfl
        · exact h2 x hx
      · rw [h3]; simp
      · rw [strip_cons_nl]
        conv => rhs; rw [h1, strip_append, strip_all_nl h2, List.nil_append]
    · refine ⟨[], ?_⟩
      simp [VS.init, VS.token, ht, Clean]

end DDL

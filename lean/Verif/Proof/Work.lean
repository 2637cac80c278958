import Verif.Model.Work
import Verif.Proof.ViableSweep
/-
The work of a validator is linear in the number of tokens it reads.
-/

namespace DDL
open V Spec

/-- The operations of `runA`. -/
def workA : Prog α → List Str → Nat
  | .ret _, _ => 0
  | .token k, ts => workA (k (ts.headD EOF)) ts + 1
  | .oob k, ts => workA (k ts.isEmpty) ts + 1
  | .head k, ts =>
    match ts.headD EOF with
    | [] => 1
    | c :: _ => workA (k c) ts + 1
  | .adv _ k, ts => workA k ts.tail + 2
  | .emit _ k, ts => workA k ts + 1
  | .fail, _ => 1
  | .timeout, _ => 0

/-- Work after a result. -/
def ResA.more (x : ResA α) (f : α → List Str → Nat) : Nat :=
  match x with
  | .ok a r _ => f a r
  | _ => 0

theorem ResA.more_pre (o : List Str) (x : ResA α) (f : α → List Str → Nat) : (x.pre o).more f = x.more f := by
  cases x <;> rfl

theorem workA_bind (p : Prog α) (f : α → Prog β) (ts : List Str) :
    workA (p.bind f) ts = workA p ts + (runA p ts).more fun a r => workA (f a) r := by
  induction p generalizing ts with
  | ret a => simp [Prog.bind, workA, runA, ResA.more]
  | token k ih => simp only [Prog.bind, workA, runA]; rw [ih]; omega
  | oob k ih => simp only [Prog.bind, workA, runA]; rw [ih]; omega
  | head k ih =>
    simp only [Prog.bind, workA, runA]
    cases ts.headD EOF with
    | nil => rfl
    | cons c r => simp only; rw [ih]; omega
  | adv b k ih => simp only [Prog.bind, workA, runA]; rw [ih, ResA.more_pre]; omega
  | emit t k ih => simp only [Prog.bind, workA, runA]; rw [ih, ResA.more_pre]; omega
  | fail => rfl
  | timeout => rfl

/-- The rate: operations per token. -/
def RATE : Int := 100

/-- Bounds beyond the rate, on success and on failure. -/
structure Bd where
  b : Int
  f : Int

/-- `p` performs at most `RATE` operations for each token it reads, and `i` more. -/
def Lin (p : Prog α) (i : Bd) : Prop :=
  ∀ ts, GoodL ts →
    (∀ a r o, runA p ts = .ok a r o → (workA p ts : Int) + RATE * r.length ≤ RATE * ts.length + i.b) ∧
    (∀ r, runA p ts = .fail r → (workA p ts : Int) + RATE * r.length ≤ RATE * ts.length + i.f)

namespace Bd
def seq (x y : Bd) : Bd := ⟨x.b + y.b, max x.f (x.b + y.f)⟩
def or (x y : Bd) : Bd := ⟨max x.b y.b, max x.f y.f⟩
def plus (k : Int) (x : Bd) : Bd := ⟨k + x.b, k + x.f⟩
def le (x y : Bd) : Bool := decide (x.b ≤ y.b) && decide (x.f ≤ y.f)
def ret : Bd := ⟨0, 0⟩
def fail : Bd := ⟨-1000, 1⟩
def tok : Bd := ⟨4 - RATE, 4⟩
def name : Bd := ⟨6 - RATE, 6⟩
end Bd

namespace Lin

theorem weaken {p : Prog α} {i j : Bd} (h : Lin p i) (hl : i.le j = true) : Lin p j := by
  simp only [Bd.le, Bool.and_eq_true, decide_eq_true_eq] at hl
  intro ts hg
  refine ⟨fun a r o e => ?_, fun r e => ?_⟩
  · have := (h ts hg).1 a r o e; omega
  · have := (h ts hg).2 r e; omega

theorem ret (a : α) : Lin (.ret a) .ret := by
  intro ts _
  refine ⟨fun a r o e => ?_, fun r e => (by cases e)⟩
  cases e; simp only [workA, Bd.ret]; omega

theorem fail : Lin (.fail : Prog α) .fail := by
  intro ts _
  refine ⟨fun a r o e => (by cases e), fun r e => ?_⟩
  cases e; simp only [workA, Bd.fail]; omega

theorem timeout {i : Bd} : Lin (.timeout : Prog α) i := by
  intro ts _
  exact ⟨fun a r o e => (by cases e), fun r e => (by cases e)⟩

theorem bind {p : Prog α} {f : α → Prog β} {x y : Bd} (hp : Lin p x) (hf : ∀ a, Lin (f a) y) :
    Lin (p.bind f) (x.seq y) := by
  intro ts hg
  simp only [Bd.seq]
  rw [workA_bind, runA_bind]
  cases hr : runA p ts with
  | ok b m o1 =>
    have h1 := (hp ts hg).1 _ _ _ hr
    have hg' := Cost.good hr hg
    simp only [ResA.andThen, ResA.more]
    refine ⟨fun a r o e => ?_, fun r e => ?_⟩
    · obtain ⟨o2, h2, _⟩ := Cost.of_pre e
      have := (hf b m hg').1 _ _ _ h2
      omega
    · cases h2 : runA (f b) m with
      | fail r' =>
        rw [h2] at e; cases e
        have := (hf b m hg').2 _ h2
        omega
      | _ => rw [h2] at e; cases e
  | fail m =>
    refine ⟨fun a r o e => (by cases e), fun r e => ?_⟩
    cases e
    have := (hp ts hg).2 _ hr
    simp only [ResA.more]
    omega
  | panic => exact ⟨fun a r o e => (by cases e), fun r e => (by cases e)⟩
  | timeout => exact ⟨fun a r o e => (by cases e), fun r e => (by cases e)⟩

theorem seq {p : Prog α} {q : Prog β} {x y : Bd} (hp : Lin p x) (hq : Lin q y) : Lin (p.bind fun _ => q) (x.seq y) :=
  bind hp fun _ => hq

theorem cond {c : Bool} {p q : Prog α} {x y : Bd} (hp : Lin p x) (hq : Lin q y) : Lin (cond c p q) (x.or y) := by
  intro ts hg
  simp only [Bd.or]
  cases c
  · refine ⟨fun a r o e => ?_, fun r e => ?_⟩
    · have := (hq ts hg).1 a r o e; simp only [cond_false]; omega
    · have := (hq ts hg).2 r e; simp only [cond_false]; omega
  · refine ⟨fun a r o e => ?_, fun r e => ?_⟩
    · have := (hp ts hg).1 a r o e; simp only [cond_true]; omega
    · have := (hp ts hg).2 r e; simp only [cond_true]; omega

theorem token {k : Str → Prog α} {x : Bd} (h : ∀ t, Lin (k t) x) : Lin (.token k) (x.plus 1) := by
  intro ts hg
  simp only [Bd.plus, workA]
  refine ⟨fun a r o e => ?_, fun r e => ?_⟩
  · have := (h _ ts hg).1 a r o e; omega
  · have := (h _ ts hg).2 r e; omega

theorem oob {k : Bool → Prog α} {x : Bd} (h : ∀ t, Lin (k t) x) : Lin (.oob k) (x.plus 1) := by
  intro ts hg
  simp only [Bd.plus, workA]
  refine ⟨fun a r o e => ?_, fun r e => ?_⟩
  · have := (h _ ts hg).1 a r o e; omega
  · have := (h _ ts hg).2 r e; omega

theorem alt {ks : List String} {p q : Prog α} {x y : Bd} (hp : Lin p x) (hq : Lin q y) :
    Lin (ifM (matchToken ks) p q) ((x.or y).plus 1) := token fun _ => cond hp hq

theorem ifOob {p q : Prog α} {x y : Bd} (hp : Lin p x) (hq : Lin q y) :
    Lin (ifM isOutOfRange p q) ((x.or y).plus 1) := oob fun _ => cond hp hq

theorem set (t : Str) : Lin (V.set t) (Bd.ret.plus 1) := by
  intro ts _
  refine ⟨fun a r o e => ?_, fun r e => (by cases e)⟩
  cases e; simp only [V.set, workA, Bd.ret, Bd.plus]; omega

/-- `next`, wherever it stands. -/
theorem next (set : Bool) : Lin (V.next set) (Bd.ret.plus 2) := by
  intro ts _
  rw [runA_next]
  refine ⟨fun a r o e => ?_, fun r e => (by cases e)⟩
  cases e
  have : (ts.tail.length : Int) ≤ ts.length := by rw [List.length_tail]; omega
  simp only [V.next, workA, Bd.ret, Bd.plus, RATE]; omega

/-- One token is read. -/
theorem one {p : Prog Unit} {set : Bool} {A : Str → Bool} {w : Int} (hw : ∀ ts, (workA p ts : Int) ≤ w)
    (h : ∀ ts, GoodL ts → runA p ts = match ts with
      | [] => .fail []
      | t :: r => if A t = true then .ok () r (keep set t) else .fail (t :: r)) :
    Lin p ⟨w - RATE, w⟩ := by
  intro ts hg
  rw [h ts hg]
  have := hw ts
  cases ts with
  | nil =>
    refine ⟨fun a r o e => (by cases e), fun r e => ?_⟩
    cases e; simp only; omega
  | cons t ts =>
    refine ⟨fun a r o e => ?_, fun r e => ?_⟩
    · dsimp only at e
      split at e
      · cases e; simp only [List.length_cons, RATE]; omega
      · cases e
    · dsimp only at e
      split at e
      · cases e
      · cases e; simp only [List.length_cons]; omega

theorem ite_work {c : Bool} {p q : Prog α} {ts : List Str} {w : Nat} (h : workA p ts ≤ w) (h' : workA q ts ≤ w) :
    workA (_root_.cond c p q) ts ≤ w := by cases c <;> assumption

theorem tok (set : Bool) (ks : List String) : Lin (validateToken set ks) .tok := by
  refine one (A := isKw ks) (set := set) (fun ts => ?_) (fun ts hg => ?_)
  · have : workA (validateToken set ks) ts ≤ 4 := by
      show workA (_root_.cond ts.isEmpty syntaxError (ifM (matchToken ks) (V.next set) syntaxError)) ts + 1 ≤ 4
      refine Nat.succ_le_succ (ite_work (by simp [syntaxError, workA]) ?_)
      show workA (_root_.cond _ (V.next set) syntaxError) ts + 1 ≤ 3
      exact Nat.succ_le_succ (ite_work (by simp [V.next, workA]) (by simp [syntaxError, workA]))
    omega
  · rw [runA_validateToken]; cases ts <;> rfl

/-- A test with `next`. -/
theorem altNext {set : Bool} {ks : List String} {p q : Prog α} {x y : Bd} (hp : Lin p x) (hq : Lin q y)
    (hk : isKw ks EOF = false) :
    Lin (ifM (matchTokenNext set ks) p q) ((x.plus (3 - RATE)).or (y.plus 1)) := by
  intro ts hg
  have e1 : workA (ifM (matchTokenNext set ks) p q) ts =
      if isKw ks (hd ts) = true then workA p ts.tail + 3 else workA q ts + 1 := by
    show workA ((matchTokenNext set ks).bind fun b => _root_.cond b p q) ts = _
    unfold matchTokenNext ifM matchToken
    simp only [Prog.bind, workA]
    change workA (Prog.bind (_root_.cond (isKw ks (hd ts)) _ _) _) ts + 1 = _
    cases isKw ks (hd ts) <;> rfl
  rw [e1, ifM_next, runA_if]
  simp only [Bd.or, Bd.plus]
  split
  · rename_i h
    cases ts with
    | nil => rw [show hd [] = EOF from rfl, hk] at h; cases h
    | cons t ts =>
      have hg' : GoodL ts := fun t ht => hg t (by simp [ht])
      simp only [runA, List.tail_cons, List.length_cons]
      refine ⟨fun a r o e => ?_, fun r e => ?_⟩
      · obtain ⟨o2, h2, _⟩ := Cost.of_pre e
        have := (hp ts hg').1 _ _ _ h2
        simp only [RATE] at this ⊢
        omega
      · cases h2 : runA p ts with
        | fail r' =>
          rw [h2] at e; cases e
          have := (hp ts hg').2 _ h2
          simp only [RATE] at this ⊢
          omega
        | _ => rw [h2] at e; cases e
  · refine ⟨fun a r o e => ?_, fun r e => ?_⟩
    · have := (hq ts hg).1 a r o e; simp only [RATE] at this ⊢; omega
    · have := (hq ts hg).2 r e; simp only [RATE] at this ⊢; omega

theorem skip {set : Bool} {ks : List String} (hk : isKw ks EOF = false) :
    Lin (skipToken set ks) ((Bd.ret.plus (3 - RATE)).or (Bd.ret.plus 1)) := by
  have : skipToken set ks = ifM (matchTokenNext set ks) (.ret ()) (.ret ()) := by
    unfold skipToken ifM; congr 1; funext b; cases b <;> rfl
  rw [this]
  exact altNext (ret _) (ret _) hk

end Lin
end DDL

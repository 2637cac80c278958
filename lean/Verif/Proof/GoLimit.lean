import Verif.Go.Semantics
/-
The interpreter of Go/Semantics.lean without fuel: more fuel never changes an answer, so the answers for growing
fuel have a limit, and the limit satisfies the equations one expects of the language.
-/

set_option linter.unusedSectionVars false

namespace DDL.Src

/-! ### flat order and limits -/

/-- `a` is no answer yet, or the answer `b`. -/
def Flat (bot a b : α) : Prop := a = bot ∨ a = b

theorem Flat.refl {bot a : α} : Flat bot a a := .inr rfl

theorem Flat.trans {bot a b c : α} (h : Flat bot a b) (h' : Flat bot b c) : Flat bot a c := by
  rcases h with h | h
  · exact .inl h
  · subst h; exact h'

/-- The answers for growing fuel. -/
def IsChain (bot : α) (F : Nat → α) : Prop := ∀ n, Flat bot (F n) (F (n + 1))

theorem IsChain.le {bot : α} {F : Nat → α} (h : IsChain bot F) {m n : Nat} (hmn : m ≤ n) :
    Flat bot (F m) (F n) := by
  induction hmn with
  | refl => exact .refl
  | step _ ih => exact ih.trans (h _)

open Classical in
/-- The answer that is reached with enough fuel. -/
noncomputable def lim (bot : α) (F : Nat → α) : α :=
  if h : ∃ n, F n ≠ bot then F h.choose else bot

theorem lim_eq {bot : α} {F : Nat → α} (h : IsChain bot F) {n : Nat} (hn : F n ≠ bot) : lim bot F = F n := by
  have he : ∃ n, F n ≠ bot := ⟨n, hn⟩
  unfold lim
  rw [dif_pos he]
  have hc := he.choose_spec
  rcases Nat.le_total he.choose n with hle | hle
  · rcases h.le hle with h' | h'
    · exact absurd h' hc
    · exact h'
  · rcases h.le hle with h' | h'
    · exact absurd h' hn
    · exact h'.symm

theorem lim_bot {bot : α} {F : Nat → α} (h : ∀ n, F n = bot) : lim bot F = bot := by
  unfold lim
  rw [dif_neg]
  rintro ⟨n, hn⟩
  exact hn (h n)

theorem le_lim {bot : α} {F : Nat → α} (h : IsChain bot F) (n : Nat) : Flat bot (F n) (lim bot F) := by
  by_cases hn : F n = bot
  · exact .inl hn
  · exact .inr (lim_eq h hn).symm

theorem lim_reached {bot : α} {F : Nat → α} (h : IsChain bot F) (hl : lim bot F ≠ bot) :
    ∃ n, ∀ m, n ≤ m → F m = lim bot F := by
  by_cases he : ∃ n, F n ≠ bot
  · obtain ⟨n, hn⟩ := he
    refine ⟨n, fun m hm => ?_⟩
    rw [lim_eq h hn]
    rcases h.le hm with h' | h'
    · exact absurd h' hn
    · exact h'.symm
  · exact absurd (lim_bot fun n => Classical.not_not.mp fun hn => he ⟨n, hn⟩) hl

theorem lim_const {bot a : α} : lim bot (fun _ => a) = a := by
  by_cases h : a = bot
  · rw [lim_bot fun _ => h, h]
  · exact lim_eq (F := fun _ => a) (fun _ => .refl) (n := 0) h

theorem lim_shift {bot : α} {F : Nat → α} (h : IsChain bot F) : lim bot (fun n => F (n + 1)) = lim bot F := by
  have h' : IsChain bot (fun n => F (n + 1)) := fun n => h (n + 1)
  by_cases he : ∃ n, F n ≠ bot
  · obtain ⟨n, hn⟩ := he
    have hn' : F (n + 1) ≠ bot := by
      rcases h n with hh | hh
      · exact absurd hh hn
      · rw [← hh]; exact hn
    rw [lim_eq h hn', lim_eq h' (n := n) hn']
  · have ha : ∀ n, F n = bot := fun n => Classical.not_not.mp fun hn => he ⟨n, hn⟩
    rw [lim_bot ha, lim_bot (fun n => ha (n + 1))]

/-! ### code -/

/-- `q` answers everything `p` answers, and the same. -/
def Act.le (p q : Act α) : Prop := ∀ vs s, Flat .timeout (p vs s) (q vs s)

/-- The same for functions. -/
def Env.le (E E' : Env) : Prop := ∀ f args s, Flat .timeout (E f args s) (E' f args s)

theorem Act.le_refl {p : Act α} : p.le p := fun _ _ => .refl
theorem Act.le_trans {p q r : Act α} (h : p.le q) (h' : q.le r) : p.le r := fun vs s => (h vs s).trans (h' vs s)
theorem Env.le_refl {E : Env} : E.le E := fun _ _ _ => .refl
theorem Env.le_trans {E E' E'' : Env} (h : E.le E') (h' : E'.le E'') : E.le E'' :=
  fun f a s => (h f a s).trans (h' f a s)

theorem Act.bind_le {p p' : Act α} {q q' : α → Act β} (hp : p.le p') (hq : ∀ a, (q a).le (q' a)) :
    (p.bind q).le (p'.bind q') := by
  intro vs s
  unfold Act.bind
  rcases hp vs s with h | h
  · rw [h]; exact .inl rfl
  · rw [h]
    cases p' vs s with
    | ok a vs s => exact hq a vs s
    | panic => exact .refl
    | stuck => exact .refl
    | timeout => exact .refl

theorem branch_le {v : Val} {t t' e e' : Act α} (ht : t.le t') (he : e.le e') : (branch v t e).le (branch v t' e') := by
  unfold branch
  split
  · exact ht
  · exact he
  · exact Act.le_refl

theorem inBlock_le {p p' : Act α} (h : p.le p') : (inBlock p).le (inBlock p') := by
  intro vs s
  unfold inBlock
  rcases h vs s with h | h
  · rw [h]; exact .inl rfl
  · rw [h]; exact .refl

theorem call_le {E E' : Env} (h : E.le E') (f : Fn) (args : List Val) (ptrs : List Var) :
    (call E f args ptrs).le (call E' f args ptrs) := by
  intro vs s
  unfold call
  rcases h f args s with h | h
  · rw [h]; exact .inl rfl
  · rw [h]; exact .refl

theorem invoke_le {E E' : Env} (h : E.le E') (x : Var) (m : Mth) (args : List Val) :
    (invoke E x m args).le (invoke E' x m args) := by
  intro vs s
  unfold invoke
  split
  · rename_i t fs _
    split
    · rename_i f _
      rcases h f args fs with h | h
      · rw [h]; exact .inl rfl
      · rw [h]; exact .refl
    · exact .refl
  · exact .refl

theorem eval_le [CaseMap] (isNum : Str → Bool) {E E' : Env} (h : E.le E') (e : Expr) : (eval isNum E e).le (eval isNum E' e) := by
  induction e with
  | lit | var | field | addr | nil => exact Act.le_refl
  | tuple a ih => exact ih
  | sel e f ih => exact Act.bind_le ih fun _ => Act.le_refl
  | not e ih => exact Act.bind_le ih fun _ => Act.le_refl
  | and a b iha ihb => exact Act.bind_le iha fun _ => branch_le ihb Act.le_refl
  | or a b iha ihb => exact Act.bind_le iha fun _ => branch_le Act.le_refl ihb
  | eq a b iha ihb | ne a b iha ihb | add a b iha ihb | sub a b iha ihb | gt a b iha ihb | index a b iha ihb
  | cons a b iha ihb => exact Act.bind_le iha fun _ => Act.bind_le ihb fun _ => Act.le_refl
  | slice a b c iha ihb ihc => exact Act.bind_le iha fun _ => Act.bind_le ihb fun _ => Act.bind_le ihc fun _ => Act.le_refl
  | mk t z f e ih => exact Act.bind_le ih fun _ => Act.le_refl
  | lib f e ih => exact Act.bind_le ih fun _ => Act.le_refl
  | callv x e ih => exact Act.bind_le ih fun _ => Act.le_refl
  | call f args ih => exact Act.bind_le ih fun _ => call_le h _ _ _
  | invoke x m args ih => exact Act.bind_le ih fun _ => invoke_le h _ _ _

theorem rounds_le {c c' : Act Val} {b b' : Act Ctl} (hc : c.le c') (hb : b.le b') {k k' : Nat} (hk : k ≤ k') :
    (rounds c b k).le (rounds c' b' k') := by
  induction k generalizing k' with
  | zero => intro vs s; exact .inl rfl
  | succ k ih =>
    obtain ⟨k', rfl⟩ : ∃ j, k' = j + 1 := ⟨k' - 1, by omega⟩
    unfold rounds
    refine Act.bind_le hc fun v => branch_le (Act.bind_le hb fun r => ?_) Act.le_refl
    cases r with
    | next => exact ih (by omega)
    | cont => exact ih (by omega)
    | brk => exact Act.le_refl
    | ret v => exact Act.le_refl

theorem each_le {b b' : Act Ctl} (hb : b.le b') (x : Var) (l : List Val) : (each x b l).le (each x b' l) := by
  induction l with
  | nil => exact Act.le_refl
  | cons v l ih =>
    unfold each
    refine Act.bind_le (inBlock_le (Act.bind_le Act.le_refl fun _ => hb)) fun r => ?_
    cases r with
    | next => exact ih
    | cont => exact ih
    | brk => exact Act.le_refl
    | ret v => exact Act.le_refl

theorem two_le {v : Val} {k k' : Val → Val → Act α} (h : ∀ a b, (k a b).le (k' a b)) : (v.two k).le (v.two k') := by
  unfold Val.two
  split
  · exact h _ _
  · exact Act.le_refl

theorem exec_le [CaseMap] (isNum : Str → Bool) {E E' : Env} (h : E.le E') {k k' : Nat} (hk : k ≤ k') (st : Stmt) :
    (exec isNum E k st).le (exec isNum E' k' st) := by
  induction st with
  | skip | brk | cont => exact Act.le_refl
  | seq a b iha ihb =>
    refine Act.bind_le iha fun r => ?_
    cases r with
    | next => exact ihb
    | brk | cont | ret => exact Act.le_refl
  | block a ih => exact inBlock_le ih
  | expr e => exact Act.bind_le (eval_le isNum h e) fun _ => Act.le_refl
  | define x e | define2 x y e | assign x e | assign2 x y e | ret e =>
    exact Act.bind_le (eval_le isNum h e) fun _ => Act.le_refl
  | ite c t e iht ihe => exact Act.bind_le (eval_le isNum h c) fun _ => branch_le iht ihe
  | loop c b ih => exact rounds_le (eval_le isNum h c) ih hk
  | range x e b ih =>
    exact Act.bind_le (eval_le isNum h e) fun _ => Act.bind_le Act.le_refl fun _ => each_le ih _ _

theorem body_le [CaseMap] (isNum : Str → Bool) {E E' : Env} (h : E.le E') {k k' : Nat} (hk : k ≤ k') :
    (body isNum E k).le (body isNum E' k') := by
  intro f args s
  unfold body
  split
  · rename_i vs _
    rcases exec_le isNum h hk (decl f).body vs s with h | h
    · rw [h]; exact .inl rfl
    · rw [h]; exact .refl
  · exact .refl

theorem env_succ [CaseMap] (isNum : Str → Bool) (k : Nat) : (env isNum k).le (env isNum (k + 1)) := by
  induction k with
  | zero => intro f args s; exact .inl rfl
  | succ k ih => exact body_le isNum ih (Nat.le_succ k)

/-! ### limits of code -/

/-- Code for growing fuel. -/
def Chain (P : Nat → Act α) : Prop := ∀ n, (P n).le (P (n + 1))

theorem Chain.out {P : Nat → Act α} (h : Chain P) (vs : Locals) (s : State) : IsChain .timeout (fun n => P n vs s) :=
  fun n => h n vs s

/-- Its limit. -/
noncomputable def Act.lim (P : Nat → Act α) : Act α := fun vs s => Src.lim .timeout (fun n => P n vs s)

theorem Act.lim_const {p : Act α} : Act.lim (fun _ => p) = p := by
  funext vs s
  exact Src.lim_const

theorem Act.lim_bind {P : Nat → Act α} {Q : Nat → α → Act β} (hP : Chain P) (hQ : ∀ a, Chain (fun n => Q n a)) :
    Act.lim (fun n => (P n).bind (Q n)) = (Act.lim P).bind (fun a => Act.lim (fun n => Q n a)) := by
  have hC : Chain (fun n => (P n).bind (Q n)) := fun n => Act.bind_le (hP n) fun a => hQ a n
  funext vs s
  show Src.lim .timeout (fun n => (P n).bind (Q n) vs s) = _
  by_cases hl : Act.lim P vs s = .timeout
  · rw [show (Act.lim P).bind (fun a => Act.lim (fun n => Q n a)) vs s = .timeout by unfold Act.bind; rw [hl]]
    refine lim_bot fun n => ?_
    have : P n vs s = .timeout := by
      rcases le_lim (hP.out vs s) n with h | h
      · exact h
      · exact h.trans hl
    unfold Act.bind
    rw [this]
  · obtain ⟨n, hn⟩ := lim_reached (hP.out vs s) hl
    have hr : (Act.lim P).bind (fun a => Act.lim (fun n => Q n a)) vs s
        = Src.lim .timeout (fun m => (P (m + n)).bind (Q (m + n)) vs s) := by
      have hm : ∀ m, (P (m + n)).bind (Q (m + n)) vs s
          = (Act.lim P).bind (fun a => Q (m + n) a) vs s := by
        intro m
        unfold Act.bind
        rw [hn (m + n) (Nat.le_add_left n m)]
        rfl
      simp only [hm]
      unfold Act.bind
      cases Act.lim P vs s with
      | ok a vs' s' =>
        have hsh : ∀ j, Src.lim .timeout (fun m => Q (m + j) a vs' s') = Src.lim .timeout (fun m => Q m a vs' s') := by
          intro j
          induction j with
          | zero => rfl
          | succ j ih =>
            rw [← ih]
            have := lim_shift (bot := Out.timeout) (F := fun m => Q (m + j) a vs' s')
              (fun m => by
                have := (hQ a).out vs' s' (m + j)
                rwa [show m + j + 1 = m + 1 + j by omega] at this)
            rw [← this]
            congr 1
            funext m
            rw [show m + (j + 1) = m + 1 + j by omega]
        exact (hsh n).symm
      | panic => exact Src.lim_const.symm
      | stuck => exact Src.lim_const.symm
      | timeout => exact Src.lim_const.symm
    rw [hr]
    have hsh : ∀ j, Src.lim .timeout (fun m => (P (m + j)).bind (Q (m + j)) vs s)
        = Src.lim .timeout (fun m => (P m).bind (Q m) vs s) := by
      intro j
      induction j with
      | zero => rfl
      | succ j ih =>
        rw [← ih]
        have := lim_shift (bot := Out.timeout) (F := fun m => (P (m + j)).bind (Q (m + j)) vs s)
          (fun m => by
            have := hC.out vs s (m + j)
            rwa [show m + j + 1 = m + 1 + j by omega] at this)
        rw [← this]
        congr 1
        funext m
        rw [show m + (j + 1) = m + 1 + j by omega]
    exact (hsh n).symm

theorem Act.lim_bind_const {P : Nat → Act α} {q : α → Act β} (hP : Chain P) :
    Act.lim (fun n => (P n).bind q) = (Act.lim P).bind q := by
  rw [Act.lim_bind (Q := fun _ => q) hP (fun _ _ => Act.le_refl)]
  congr 1
  funext a
  exact Act.lim_const

theorem Act.lim_inBlock {P : Nat → Act α} (hP : Chain P) :
    Act.lim (fun n => inBlock (P n)) = inBlock (Act.lim P) := by
  funext vs s
  have hC : Chain (fun n => inBlock (P n)) := fun n => inBlock_le (hP n)
  show Src.lim .timeout (fun n => inBlock (P n) vs s) = _
  by_cases hl : Act.lim P vs s = .timeout
  · rw [show inBlock (Act.lim P) vs s = .timeout by unfold inBlock; rw [hl]]
    refine lim_bot fun n => ?_
    have : P n vs s = .timeout := by
      rcases le_lim (hP.out vs s) n with h | h
      · exact h
      · exact h.trans hl
    unfold inBlock
    rw [this]
  · obtain ⟨n, hn⟩ := lim_reached (hP.out vs s) hl
    have hn := hn n (Nat.le_refl n)
    have hr : inBlock (Act.lim P) vs s = inBlock (P n) vs s := by
      unfold inBlock
      rw [hn]
      rfl
    rw [hr]
    refine lim_eq (hC.out vs s) (n := n) ?_
    unfold inBlock
    rw [hn]
    show (match Act.lim P vs s with | .ok a vs' s => _ | .panic => _ | .stuck => _ | .timeout => _) ≠ _
    cases h : Act.lim P vs s with
    | ok a vs s => exact fun h => nomatch h
    | panic => exact fun h => nomatch h
    | stuck => exact fun h => nomatch h
    | timeout => exact absurd h hl

theorem Act.lim_shift {P : Nat → Act α} (hP : Chain P) : Act.lim (fun n => P (n + 1)) = Act.lim P := by
  funext vs s
  exact Src.lim_shift (hP.out vs s)

theorem Act.lim_branch {v : Val} {T E : Nat → Act α} :
    Act.lim (fun n => branch v (T n) (E n)) = branch v (Act.lim T) (Act.lim E) := by
  cases v with
  | bool b => cases b <;> rfl
  | _ => exact Act.lim_const

theorem Act.lim_two {v : Val} {K : Nat → Val → Val → Act α} :
    Act.lim (fun n => v.two (K n)) = v.two (fun a b => Act.lim (fun n => K n a b)) := by
  unfold Val.two
  split
  · rfl
  · exact Act.lim_const

/-! ### limits of functions -/

/-- Functions for growing fuel. -/
def EChain (En : Nat → Env) : Prop := ∀ n, (En n).le (En (n + 1))

/-- Their limit. -/
noncomputable def Env.lim (En : Nat → Env) : Env := fun f args s => Src.lim .timeout (fun n => En n f args s)

theorem EChain.out {En : Nat → Env} (h : EChain En) (f : Fn) (args : List Val) (s : State) :
    IsChain .timeout (fun n => En n f args s) := fun n => h n f args s

theorem EChain.le_lim {En : Nat → Env} (h : EChain En) (n : Nat) : (En n).le (Env.lim En) :=
  fun f args s => Src.le_lim (h.out f args s) n

theorem call_lim {En : Nat → Env} (h : EChain En) (f : Fn) (args : List Val) (ptrs : List Var) :
    Act.lim (fun n => call (En n) f args ptrs) = call (Env.lim En) f args ptrs := by
  funext vs s
  have hC : Chain (fun n => call (En n) f args ptrs) := fun n => call_le (h n) _ _ _
  show Src.lim .timeout (fun n => call (En n) f args ptrs vs s) = _
  by_cases hl : Env.lim En f args s = .timeout
  · rw [show call (Env.lim En) f args ptrs vs s = .timeout by unfold call; rw [hl]]
    refine lim_bot fun n => ?_
    have : En n f args s = .timeout := by
      rcases Src.le_lim (h.out f args s) n with h | h
      · exact h
      · exact h.trans hl
    unfold call
    rw [this]
  · obtain ⟨n, hn⟩ := lim_reached (h.out f args s) hl
    have hn := hn n (Nat.le_refl n)
    have hr : call (Env.lim En) f args ptrs vs s = call (En n) f args ptrs vs s := by
      unfold call
      rw [hn]
      rfl
    rw [hr]
    refine lim_eq (hC.out vs s) (n := n) ?_
    rw [← hr]
    unfold call
    cases h : Env.lim En f args s with
    | ok a ws s =>
      show (match writeBack ptrs ws vs with | some vs => _ | none => _) ≠ _
      split <;> exact fun h => nomatch h
    | panic => exact fun h => nomatch h
    | stuck => exact fun h => nomatch h
    | timeout => exact absurd h hl

theorem invoke_lim {En : Nat → Env} (h : EChain En) (x : Var) (m : Mth) (args : List Val) :
    Act.lim (fun n => invoke (En n) x m args) = invoke (Env.lim En) x m args := by
  funext vs s
  have hC : Chain (fun n => invoke (En n) x m args) := fun n => invoke_le (h n) _ _ _
  show Src.lim .timeout (fun n => invoke (En n) x m args vs s) = _
  cases hx : look x vs with
  | none => simp only [invoke, hx]; exact Src.lim_const
  | some v =>
    cases v with
    | obj t fs =>
      cases hi : impl t m with
      | none => simp only [invoke, hx, hi]; exact Src.lim_const
      | some f =>
        by_cases hl : Env.lim En f args fs = .timeout
        · rw [show invoke (Env.lim En) x m args vs s = .timeout by simp only [invoke, hx, hi, hl]]
          refine lim_bot fun n => ?_
          have : En n f args fs = .timeout := by
            rcases Src.le_lim (h.out f args fs) n with h | h
            · exact h
            · exact h.trans hl
          simp only [invoke, hx, hi, this]
        · obtain ⟨n, hn⟩ := lim_reached (h.out f args fs) hl
          have hn := hn n (Nat.le_refl n)
          have hr : invoke (Env.lim En) x m args vs s = invoke (En n) x m args vs s := by
            simp only [invoke, hx, hi]
            rw [hn]
            rfl
          rw [hr]
          refine lim_eq (hC.out vs s) (n := n) ?_
          rw [← hr]
          simp only [invoke, hx, hi]
          cases h : Env.lim En f args fs with
          | ok a ws s =>
            cases ws with
            | nil =>
              show (match upd x (.obj t s) vs with | some vs => _ | none => _) ≠ _
              split <;> exact fun h => nomatch h
            | cons => exact fun h => nomatch h
          | panic => exact fun h => nomatch h
          | stuck => exact fun h => nomatch h
          | timeout => exact absurd h hl
    | _ => simp only [invoke, hx]; exact Src.lim_const

theorem eval_chain [CaseMap] (isNum : Str → Bool) {En : Nat → Env} (h : EChain En) (e : Expr) :
    Chain (fun n => eval isNum (En n) e) := fun n => eval_le isNum (h n) e

theorem chain_const {p : Act α} : Chain (fun _ => p) := fun _ => Act.le_refl

theorem eval_lim [CaseMap] (isNum : Str → Bool) {En : Nat → Env} (h : EChain En) (e : Expr) :
    Act.lim (fun n => eval isNum (En n) e) = eval isNum (Env.lim En) e := by
  have hc := fun e => eval_chain isNum h e
  induction e with
  | lit | var | field | addr | nil => exact Act.lim_const
  | tuple a ih => exact ih
  | sel e f ih | not e ih | mk t z f e ih | lib f e ih | callv x e ih =>
    unfold eval
    rw [Act.lim_bind_const (hc _), ih]
  | and a b iha ihb =>
    unfold eval
    rw [Act.lim_bind (Q := fun n v => branch v (eval isNum (En n) b) (Act.pure (.bool false))) (hc _)
      (fun _ n => branch_le (hc _ n) Act.le_refl), iha]
    congr 1
    funext v
    rw [Act.lim_branch, ihb, Act.lim_const]
  | or a b iha ihb =>
    unfold eval
    rw [Act.lim_bind (Q := fun n v => branch v (Act.pure (.bool true)) (eval isNum (En n) b)) (hc _)
      (fun _ n => branch_le Act.le_refl (hc _ n)), iha]
    congr 1
    funext v
    rw [Act.lim_branch, ihb, Act.lim_const]
  | eq a b iha ihb | ne a b iha ihb | add a b iha ihb | sub a b iha ihb | gt a b iha ihb | index a b iha ihb
  | cons a b iha ihb =>
    unfold eval
    rw [Act.lim_bind (hc _) (fun _ n => Act.bind_le (hc _ n) fun _ => Act.le_refl), iha]
    congr 1
    funext v
    rw [Act.lim_bind_const (hc _), ihb]
  | slice a b c iha ihb ihc =>
    unfold eval
    rw [Act.lim_bind (hc _) (fun _ n => Act.bind_le (hc _ n) fun _ => Act.bind_le (hc _ n) fun _ => Act.le_refl), iha]
    congr 1
    funext v
    rw [Act.lim_bind (hc _) (fun _ n => Act.bind_le (hc _ n) fun _ => Act.le_refl), ihb]
    congr 1
    funext w
    rw [Act.lim_bind_const (hc _), ihc]
  | call f args ih =>
    unfold eval
    rw [Act.lim_bind (Q := fun n v => call (En n) f v.list args.ptrs) (hc _) (fun _ n => call_le (h n) _ _ _), ih]
    congr 1
    funext v
    exact call_lim h _ _ _
  | invoke x m args ih =>
    unfold eval
    rw [Act.lim_bind (Q := fun n v => invoke (En n) x m v.list) (hc _) (fun _ n => invoke_le (h n) _ _ _), ih]
    congr 1
    funext v
    exact invoke_lim h _ _ _

/-! ### the program without fuel -/

theorem env_chain [CaseMap] (isNum : Str → Bool) : EChain (env isNum) := env_succ isNum

/-- The functions of the program. -/
noncomputable def go [CaseMap] (isNum : Str → Bool) : Env := Env.lim (env isNum)

/-- A statement of the program. -/
noncomputable def exe [CaseMap] (isNum : Str → Bool) (st : Stmt) : Act Ctl := Act.lim (fun n => exec isNum (env isNum n) n st)

theorem exe_chain [CaseMap] (isNum : Str → Bool) (st : Stmt) : Chain (fun n => exec isNum (env isNum n) n st) :=
  fun n => exec_le isNum (env_succ isNum n) (Nat.le_succ n) st

/-- After `a`, unless it left. -/
def Ctl.andThen (r : Ctl) (p : Act Ctl) : Act Ctl :=
  match r with
  | .next => p
  | r => Act.pure r

/-- After the body of a loop. -/
def Ctl.again (r : Ctl) (p : Act Ctl) : Act Ctl :=
  match r with
  | .next | .cont => p
  | .brk => Act.pure .next
  | .ret v => Act.pure (Ctl.ret v)

section
variable [CaseMap] (isNum : Str → Bool)

theorem exe_skip : exe isNum .skip = Act.pure .next := Act.lim_const
theorem exe_brk : exe isNum .brk = Act.pure .brk := Act.lim_const
theorem exe_cont : exe isNum .cont = Act.pure .cont := Act.lim_const

theorem exe_seq (a b : Stmt) : exe isNum (.seq a b) = (exe isNum a).bind fun r => r.andThen (exe isNum b) := by
  show Act.lim (fun n => (exec isNum (env isNum n) n a).bind fun r => r.andThen (exec isNum (env isNum n) n b)) = _
  rw [Act.lim_bind (exe_chain isNum a) (Q := fun n r => r.andThen (exec isNum (env isNum n) n b))]
  · congr 1
    funext r
    cases r with
    | next => rfl
    | brk | cont | ret => exact Act.lim_const
  · intro r n
    cases r with
    | next => exact exe_chain isNum b n
    | brk | cont | ret => exact Act.le_refl

theorem exe_block (a : Stmt) : exe isNum (.block a) = inBlock (exe isNum a) := Act.lim_inBlock (exe_chain isNum a)

theorem exe_expr (e : Expr) : exe isNum (.expr e) = (eval isNum (go isNum) e).bind fun _ => Act.pure Ctl.next := by
  show Act.lim (fun n => (eval isNum (env isNum n) e).bind fun _ => Act.pure Ctl.next) = _
  rw [Act.lim_bind_const (eval_chain isNum (env_chain isNum) e), eval_lim isNum (env_chain isNum)]
  rfl

theorem exe_define (x : Lhs) (e : Expr) : exe isNum (.define x e)
    = (eval isNum (go isNum) e).bind fun v => (declare x v).bind fun _ => Act.pure Ctl.next := by
  show Act.lim (fun n => (eval isNum (env isNum n) e).bind fun v => (declare x v).bind fun _ => Act.pure Ctl.next) = _
  rw [Act.lim_bind_const (eval_chain isNum (env_chain isNum) e), eval_lim isNum (env_chain isNum)]
  rfl

theorem exe_define2 (x y : Lhs) (e : Expr) : exe isNum (.define2 x y e)
    = (eval isNum (go isNum) e).bind fun v => v.two fun a b =>
      (declare x a).bind fun _ => (declare y b).bind fun _ => Act.pure Ctl.next := by
  show Act.lim (fun n => (eval isNum (env isNum n) e).bind fun v => v.two fun a b =>
      (declare x a).bind fun _ => (declare y b).bind fun _ => Act.pure Ctl.next) = _
  rw [Act.lim_bind_const (eval_chain isNum (env_chain isNum) e), eval_lim isNum (env_chain isNum)]
  rfl

theorem exe_assign (x : Lhs) (e : Expr) : exe isNum (.assign x e)
    = (eval isNum (go isNum) e).bind fun v => (store x v).bind fun _ => Act.pure Ctl.next := by
  show Act.lim (fun n => (eval isNum (env isNum n) e).bind fun v => (store x v).bind fun _ => Act.pure Ctl.next) = _
  rw [Act.lim_bind_const (eval_chain isNum (env_chain isNum) e), eval_lim isNum (env_chain isNum)]
  rfl

theorem exe_assign2 (x y : Lhs) (e : Expr) : exe isNum (.assign2 x y e)
    = (eval isNum (go isNum) e).bind fun v => v.two fun a b =>
      (store x a).bind fun _ => (store y b).bind fun _ => Act.pure Ctl.next := by
  show Act.lim (fun n => (eval isNum (env isNum n) e).bind fun v => v.two fun a b =>
      (store x a).bind fun _ => (store y b).bind fun _ => Act.pure Ctl.next) = _
  rw [Act.lim_bind_const (eval_chain isNum (env_chain isNum) e), eval_lim isNum (env_chain isNum)]
  rfl

theorem exe_ret (e : Expr) : exe isNum (.ret e) = (eval isNum (go isNum) e).bind fun v => Act.pure (Ctl.ret v) := by
  show Act.lim (fun n => (eval isNum (env isNum n) e).bind fun v => Act.pure (Ctl.ret v)) = _
  rw [Act.lim_bind_const (eval_chain isNum (env_chain isNum) e), eval_lim isNum (env_chain isNum)]
  rfl

theorem exe_ite (c : Expr) (t e : Stmt) : exe isNum (.ite c t e)
    = (eval isNum (go isNum) c).bind fun v => branch v (exe isNum t) (exe isNum e) := by
  show Act.lim (fun n => (eval isNum (env isNum n) c).bind fun v =>
    branch v (exec isNum (env isNum n) n t) (exec isNum (env isNum n) n e)) = _
  rw [Act.lim_bind (Q := fun n v => branch v (exec isNum (env isNum n) n t) (exec isNum (env isNum n) n e))
    (eval_chain isNum (env_chain isNum) c) (fun _ n => branch_le (exe_chain isNum t n) (exe_chain isNum e n)), eval_lim isNum (env_chain isNum)]
  congr 1
  funext v
  exact Act.lim_branch

theorem exe_loop (c : Expr) (b : Stmt) : exe isNum (.loop c b)
    = (eval isNum (go isNum) c).bind fun v => branch v
        ((exe isNum b).bind fun r => r.again (exe isNum (.loop c b)))
        (Act.pure .next) := by
  let R := fun n => rounds (eval isNum (env isNum (n + 1)) c) (exec isNum (env isNum (n + 1)) (n + 1) b) n
  have hR : Chain R := fun n => rounds_le (eval_le isNum (env_succ isNum _) c) (exe_chain isNum b (n + 1)) (Nat.le_succ n)
  have hb := fun n => exe_chain isNum b (n + 1)
  have hc := fun n => eval_chain isNum (env_chain isNum) c (n + 1)
  have hAg : ∀ r : Ctl, Chain (fun n => r.again (R n)) := by
    intro r n
    cases r with
    | next => exact hR n
    | cont => exact hR n
    | brk => exact Act.le_refl
    | ret v => exact Act.le_refl
  have h1 : exe isNum (.loop c b) = Act.lim (fun n => exec isNum (env isNum (n + 1)) (n + 1) (.loop c b)) :=
    (Act.lim_shift (exe_chain isNum (.loop c b))).symm
  have h2 : (fun n => exec isNum (env isNum (n + 1)) (n + 1) (.loop c b))
      = fun n => (eval isNum (env isNum (n + 1)) c).bind fun v => branch v
          ((exec isNum (env isNum (n + 1)) (n + 1) b).bind fun r => r.again (R n)) (Act.pure .next) := by
    funext n
    rfl
  have h3 : Act.lim R = exe isNum (.loop c b) := by
    funext vs s
    have hch := (exe_chain isNum (.loop c b)).out vs s
    show Src.lim .timeout (fun n => R n vs s) = Src.lim .timeout (fun n => exec isNum (env isNum n) n (.loop c b) vs s)
    have le1 : ∀ n, Flat .timeout (exec isNum (env isNum n) n (.loop c b) vs s) (R n vs s) := fun n =>
      rounds_le (eval_le isNum (env_succ isNum n) c) (exe_chain isNum b n) (Nat.le_refl n) vs s
    have le2 : ∀ n, Flat .timeout (R n vs s) (exec isNum (env isNum (n + 1)) (n + 1) (.loop c b) vs s) := fun n =>
      rounds_le Act.le_refl Act.le_refl (Nat.le_succ n) vs s
    by_cases he : ∃ n, R n vs s ≠ .timeout
    · obtain ⟨n, hn⟩ := he
      rw [lim_eq (hR.out vs s) hn]
      rcases le2 n with h | h
      · exact absurd h hn
      · rw [h]
        exact (lim_eq hch (n := n + 1) (by rw [← h]; exact hn)).symm
    · have ha : ∀ n, R n vs s = .timeout := fun n => Classical.not_not.mp fun hn => he ⟨n, hn⟩
      rw [lim_bot ha, lim_bot]
      intro n
      rcases le1 n with h | h
      · exact h
      · exact h.trans (ha n)
  refine (h1.trans (congrArg _ h2)).trans ?_
  rw [Act.lim_bind (P := fun n => eval isNum (env isNum (n + 1)) c)
    (Q := fun n v => branch v
          ((exec isNum (env isNum (n + 1)) (n + 1) b).bind fun r => r.again (R n)) (Act.pure .next)) hc
    (fun _ n => branch_le (Act.bind_le (hb n) fun r => hAg r n) Act.le_refl)]
  rw [Act.lim_shift (eval_chain isNum (env_chain isNum) c), eval_lim isNum (env_chain isNum)]
  congr 1
  funext v
  rw [Act.lim_branch, Act.lim_const, Act.lim_bind (P := fun n => exec isNum (env isNum (n + 1)) (n + 1) b)
    (Q := fun n r => r.again (R n)) hb hAg]
  rw [Act.lim_shift (exe_chain isNum b)]
  congr 2
  funext r
  cases r with
  | next => exact h3
  | cont => exact h3
  | brk => exact Act.lim_const
  | ret v => exact Act.lim_const

theorem each_lim {P : Nat → Act Ctl} (hP : Chain P) (x : Var) (l : List Val) :
    Act.lim (fun n => each x (P n) l) = each x (Act.lim P) l := by
  induction l with
  | nil => exact Act.lim_const
  | cons v l ih =>
    have hD : Chain (fun n => (declare (.var x) v).bind fun _ => P n) := fun n => Act.bind_le Act.le_refl fun _ => hP n
    show Act.lim (fun n => (inBlock ((declare (.var x) v).bind fun _ => P n)).bind fun r => r.again (each x (P n) l)) = _
    rw [Act.lim_bind (P := fun n => inBlock ((declare (.var x) v).bind fun _ => P n))
      (Q := fun n r => r.again (each x (P n) l)) (fun n => inBlock_le (hD n))]
    · rw [Act.lim_inBlock hD, Act.lim_bind (P := fun _ => declare (.var x) v) (Q := fun n _ => P n) chain_const fun _ => hP,
        Act.lim_const]
      show _ = (inBlock ((declare (.var x) v).bind fun _ => Act.lim P)).bind fun r => r.again (each x (Act.lim P) l)
      congr 1
      funext r
      cases r with
      | next => exact ih
      | cont => exact ih
      | brk => exact Act.lim_const
      | ret v => exact Act.lim_const
    · intro r n
      cases r with
      | next => exact each_le (hP n) _ _
      | cont => exact each_le (hP n) _ _
      | brk => exact Act.le_refl
      | ret v => exact Act.le_refl

theorem exe_range (x : Var) (e : Expr) (b : Stmt) : exe isNum (.range x e b)
    = (eval isNum (go isNum) e).bind fun v => (Act.get v.elems).bind fun l => each x (exe isNum b) l := by
  show Act.lim (fun n => (eval isNum (env isNum n) e).bind fun v => (Act.get v.elems).bind fun l =>
    each x (exec isNum (env isNum n) n b) l) = _
  rw [Act.lim_bind (Q := fun n v => (Act.get v.elems).bind fun l => each x (exec isNum (env isNum n) n b) l)
    (eval_chain isNum (env_chain isNum) e) (fun _ n => Act.bind_le Act.le_refl fun _ => each_le (exe_chain isNum b n) _ _), eval_lim isNum (env_chain isNum)]
  congr 1
  funext v
  rw [Act.lim_bind (P := fun _ => Act.get v.elems) (Q := fun n l => each x (exec isNum (env isNum n) n b) l)
    chain_const (fun l n => each_le (exe_chain isNum b n) _ _), Act.lim_const]
  congr 1
  funext l
  exact each_lim (exe_chain isNum b) x l

theorem finish_ne {ps : List (Var × Bool)} {o : Out Ctl} (h : o ≠ .timeout) : finish ps o ≠ .timeout := by
  cases o with
  | ok r vs s =>
    cases r with
    | ret v => show (match ptrVals ps vs with | some ws => _ | none => _) ≠ _; split <;> exact fun h => nomatch h
    | next => show (match ptrVals ps vs with | some ws => _ | none => _) ≠ _; split <;> exact fun h => nomatch h
    | brk => exact fun h => nomatch h
    | cont => exact fun h => nomatch h
  | panic => exact fun h => nomatch h
  | stuck => exact fun h => nomatch h
  | timeout => exact absurd rfl h

/-- A function of the program runs its body. -/
theorem go_eq (f : Fn) (args : List Val) (s : State) (vs : Locals) (hvs : bindParams (decl f).params args = some vs) :
    go isNum f args s = finish (decl f).params (exe isNum (decl f).body vs s) := by
  have hC := (env_chain isNum).out f args s
  have h1 : go isNum f args s = lim .timeout (fun n => env isNum (n + 1) f args s) := (lim_shift hC).symm
  have h2 : (fun n => env isNum (n + 1) f args s)
      = fun n => finish (decl f).params (exec isNum (env isNum n) n (decl f).body vs s) := by
    funext n
    show body isNum (env isNum n) n f args s = _
    unfold body
    rw [hvs]
  rw [h1, h2]
  have hX := (exe_chain isNum (decl f).body).out vs s
  have hF : IsChain .timeout (fun n => finish (decl f).params (exec isNum (env isNum n) n (decl f).body vs s)) := by
    intro n
    rcases hX n with h | h
    · left; simp only [h]; rfl
    · right; simp only [h]
  show _ = finish _ (lim .timeout (fun n => exec isNum (env isNum n) n (decl f).body vs s))
  by_cases he : ∃ n, exec isNum (env isNum n) n (decl f).body vs s ≠ .timeout
  · obtain ⟨n, hn⟩ := he
    rw [lim_eq hX hn, lim_eq hF (n := n) (finish_ne hn)]
  · have ha : ∀ n, exec isNum (env isNum n) n (decl f).body vs s = .timeout :=
      fun n => Classical.not_not.mp fun hn => he ⟨n, hn⟩
    rw [lim_bot ha, lim_bot]
    · rfl
    · intro n
      rw [ha n]
      rfl

end

end DDL.Src

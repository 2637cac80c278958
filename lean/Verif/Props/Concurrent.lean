import Verif.Proof.ConcPool
import Verif.Proof.MemoryShare
import Verif.Proof.Float
/-
C65: Parse and ParseForce may be called from several goroutines at once.

`Call.run` is a call as a goroutine: it asks for new arrays, reads cells and writes cells, one after the other
(Model/Concurrent.lean). `Exec h₀ ts₀ tr h ts`: starting with the memory `h₀` and the goroutines `ts₀`, after the operations `tr`
(goroutine, operation) in whatever order, and after whatever the rest of the program has done meanwhile to memory not owned by a
running call, the memory is `h` and of the goroutines `ts` remains. `g` says how much room a new array gets, and is arbitrary.
-/

namespace DDL.Props
open DDL Spec Conc
open DDL.Mem (Heap Cell Sl)

/-- The call, made alone, returns `r`. -/
def CallReturns [CaseMap] (isNum : Str → Bool) : Call → List Table × Option VErr → Prop
  | .parse ddl d, r => Returns isNum ddl d r
  | .parseForce ddl, r => ForceReturns isNum ddl r

theorem callReturns_iff [CaseMap] {isNum : Str → Bool} {c : Call} {r} : CallReturns isNum c r ↔ ∃ n, c.modelN isNum n = .ok r := by
  cases c <;> exact Iff.rfl

/-- Calls, each as a goroutine, with `n` steps each at most. -/
def goroutines [CaseMap] (g : Room) (isNum : Str → Bool) (n : Nat) (cs : List Call) :
    List (Go (Outcome (Option Sl × Option VErr))) :=
  cs.map fun c => c.run g isNum n

theorem goroutines_wp [CaseMap] (g : Room) (isNum : Str → Bool) (n : Nat) (cs : List Call) (i : Nat) (t)
    (h : (goroutines g isNum n cs)[i]? = some t) :
    WP (fun o v => ∀ c, cs[i]? = some c → Done (fun _ => none) (c.modelN isNum n) o v) t fun _ => none := by
  unfold goroutines at h
  rw [List.getElem?_map] at h
  cases hc : cs[i]? with
  | none => rw [hc] at h; cases h
  | some c =>
    rw [hc] at h
    cases h
    exact WP.imp (fun o v hd c' h' => by cases h'; exact hd) _ _ (call_wp g isNum n c _)

section
variable [CaseMap] {g : Room} {isNum : Str → Bool} {n : Nat} {cs : List Call} {h₀ h h' : Heap} {tr : List (Nat × Ev)}
  {ts : List (Go (Outcome (Option Sl × Option VErr)))} {i : Nat} {c : Call} {t : Go (Outcome (Option Sl × Option VErr))} {e : Ev}
  {s : Option Sl} {er : Option VErr}

/-- What holds when a call ends. -/
theorem end_facts (hx : Exec h₀ (goroutines g isNum n cs) tr h ts) (hc : cs[i]? = some c) (ht : ts[i]? = some t)
    {o} (hs : step h t = some (e, h', .done o)) :
    ∃ v, (∀ a, v a ≠ none ↔ (i, Ev.made a) ∈ tr ++ [(i, e)]) ∧ Sees v h' ∧ Done (fun _ => none) (c.modelN isNum n) o v := by
  obtain ⟨v, h1, h2, h3⟩ := exec_end (goroutines_wp g isNum n cs) hx ht hs
  exact ⟨v, h1, h2, h3 c hc⟩

theorem end_ok (hx : Exec h₀ (goroutines g isNum n cs) tr h ts) (hc : cs[i]? = some c) (ht : ts[i]? = some t)
    (hs : step h t = some (e, h', .done (.ok (s, er)))) :
    ∃ v tabs ids, (∀ a, v a ≠ none ↔ (i, Ev.made a) ∈ tr ++ [(i, e)]) ∧ c.modelN isNum n = .ok (tabs, er) ∧
      Mem.TabsR h' s tabs ids ∧ Conc.Post (fun _ => none) [] v ids := by
  obtain ⟨v, h1, h2, h3⟩ := end_facts hx hc ht hs
  cases hp : c.modelN isNum n with
  | ok r =>
    obtain ⟨tabs, er'⟩ := r
    rw [hp] at h3
    obtain ⟨s', ids, e1, e2, e3⟩ := h3
    cases e1
    exact ⟨v, tabs, ids, h1, rfl, tabsR_real _ _ _ _ _ h2 e2, e3⟩
  | err _ => rw [hp] at h3; exact h3.elim
  | panic => rw [hp] at h3; cases h3
  | timeout => rw [hp] at h3; cases h3

/-- C65 (results). Whatever else is going on, when a call among others returns, the tables and the error are those that the call
returns when made alone. -/
theorem C65_results (hx : Exec h₀ (goroutines g isNum n cs) tr h ts) (hc : cs[i]? = some c) (ht : ts[i]? = some t)
    (hs : step h t = some (e, h', .done (.ok (s, er)))) : CallReturns isNum c (tablesAt h' s, er) := by
  obtain ⟨v, tabs, ids, _, h2, h3, _⟩ := end_ok hx hc ht hs
  rw [(Mem.tabs_read h3 (.refl _)).1]
  exact callReturns_iff.2 ⟨n, h2⟩

/-- C65 (returning). A call that returns when made alone returns the same among others: given enough steps, it cannot end in any
other way. -/
theorem C65_same {r : List Table × Option VErr} (hr : CallReturns isNum c r) : ∃ n₀, ∀ n, n₀ ≤ n →
    ∀ (g : Room) (cs : List Call) (h₀ : Heap) tr h ts (i : Nat) t e h' o, Exec h₀ (goroutines g isNum n cs) tr h ts → cs[i]? = some c → ts[i]? = some t →
      step h t = some (e, h', .done o) → ∃ s, o = Outcome.ok (s, r.2) ∧ tablesAt h' s = r.1 := by
  obtain ⟨n₀, h0⟩ := callReturns_iff.1 hr
  refine ⟨n₀, fun n hn g cs h₀ tr h ts i t e h' o hx hc ht hs => ?_⟩
  obtain ⟨v, _, h2, h3⟩ := end_facts hx hc ht hs
  rcases modelN_mono isNum hn c with e | e
  · rw [h0] at e; cases e
  · rw [← e, h0] at h3
    obtain ⟨tabs, er⟩ := r
    obtain ⟨s, ids, e1, e2, _⟩ := h3
    exact ⟨s, e1, (Mem.tabs_read (tabsR_real _ _ _ _ _ h2 e2) (.refl _)).1⟩

/-- C65 (no race). No array is used by two calls: two operations on one array are always operations of the same goroutine. And no
array is used that was there before. -/
theorem C65_no_race (hx : Exec h₀ (goroutines g isNum n cs) tr h ts) {j : Nat} {e₁ e₂ : Ev} (h1 : (i, e₁) ∈ tr) (h2 : (j, e₂) ∈ tr)
    (he : e₁.array = e₂.array) : i = j ∧ h₀.length ≤ e₁.array := by
  have hI := exec_inv (goroutines_wp g isNum n cs) hx
  exact ⟨hI.one _ _ _ (hI.used _ _ h1) (he ▸ hI.used _ _ h2), (hI.lt _ _ (hI.used _ _ h1)).1⟩

/-- C65 (own arrays). What a call returns uses only arrays that the call has made itself, none of them twice. -/
theorem C65_own (hx : Exec h₀ (goroutines g isNum n cs) tr h ts) (hc : cs[i]? = some c) (ht : ts[i]? = some t)
    (hs : step h t = some (e, h', .done (.ok (s, er)))) :
    (arraysOf h' s).Nodup ∧ ∀ a ∈ arraysOf h' s, (i, Ev.made a) ∈ tr ++ [(i, e)] := by
  obtain ⟨v, tabs, ids, h1, _, h3, h4⟩ := end_ok hx hc ht hs
  rw [(Mem.tabs_read h3 (.refl _)).2.1]
  exact ⟨h4.nodup, fun a ha => (h1 a).1 (h4.from_ a ha).1⟩

/-- C65 (kept). What a call has returned no other call touches: from then on every operation on one of its arrays, if any, is one
of the goroutine that has returned, of which there are none. -/
theorem C65_kept (hx : Exec h₀ (goroutines g isNum n cs) tr h ts) (hc : cs[i]? = some c) (ht : ts[i]? = some t)
    (hs : step h t = some (e, h', .done (.ok (s, er)))) {tr₂ : List (Nat × Ev)} {h₂ ts₂}
    (hx₂ : Exec h₀ (goroutines g isNum n cs) (tr ++ [(i, e)] ++ tr₂) h₂ ts₂) {j : Nat} {e₂ : Ev} (hj : (j, e₂) ∈ tr₂)
    (hij : j ≠ i) : e₂.array ∉ arraysOf h' s := by
  intro hm
  have h1 := (C65_own hx hc ht hs).2 _ hm
  exact hij (C65_no_race hx₂ (List.mem_append_right _ hj) (List.mem_append_left _ h1) rfl).1

omit [CaseMap] in
/-- C65 (no waiting). No goroutine ever waits for another one, and none goes on for ever: while it has not ended it has a next
operation, whatever is in memory; and there are only finitely many. -/
theorem C65_progress (t : Go (Outcome (Option Sl × Option VErr))) :
    (∀ h, step h t = none ↔ ∃ o, t = .done o) ∧
    ∀ (G : Nat → Go (Outcome (Option Sl × Option VErr))) (H : Nat → Heap), G 0 = t →
      ¬ ∀ k, ∃ e h', step (H k) (G k) = some (e, h', G (k + 1)) := by
  refine ⟨fun h => ?_, no_infinite t⟩
  cases t with
  | done o => exact ⟨fun _ => ⟨o, rfl⟩, fun _ => rfl⟩
  | new k => exact ⟨fun h => (nomatch h), fun ⟨_, h⟩ => (nomatch h)⟩
  | read a i k => exact ⟨fun h => (nomatch h), fun ⟨_, h⟩ => (nomatch h)⟩
  | write a i c k => exact ⟨fun h => (nomatch h), fun ⟨_, h⟩ => (nomatch h)⟩

end

/-! ### examples -/

/-- The goroutines take turns as the list says. -/
def turns : List Nat → List (Nat × Ev) → Heap → List (Go α) → List (Nat × Ev) × Heap × List (Go α)
  | [], tr, h, ts => (tr, h, ts)
  | i :: is, tr, h, ts =>
    match ts[i]? with
    | none => turns is tr h ts
    | some t =>
      match step h t with
      | none => turns is tr h ts
      | some (e, h', t') => turns is (tr ++ [(i, e)]) h' (ts.set i t')

/-- Taking turns is a case of `Exec`. -/
theorem turns_exec {h₀ : Heap} {ts₀ : List (Go α)} : ∀ (is : List Nat) (tr h) (ts : List (Go α)), Exec h₀ ts₀ tr h ts →
    Exec h₀ ts₀ (turns is tr h ts).1 (turns is tr h ts).2.1 (turns is tr h ts).2.2
  | [], tr, h, ts, hx => hx
  | i :: is, tr, h, ts, hx => by
    unfold turns
    cases hi : ts[i]? with
    | none => exact turns_exec is tr h ts hx
    | some t =>
      dsimp only
      cases hs : step h t with
      | none => exact turns_exec is tr h ts hx
      | some r =>
        obtain ⟨e, h', t'⟩ := r
        exact turns_exec is _ _ _ (hx.step hi hs)

/-- Three calls, one of them with an error, one of ParseForce. -/
def threeCalls : List Call :=
  [.parse "CREATE TABLE t (aa TEXT, bb TEXT, cc TEXT);".toList .sqlite, .parse "CREATE".toList .mysql,
    .parseForce "CREATE TABLE u (dd INTEGER, PRIMARY KEY (dd));".toList]

/-- The three, taking turns `n` times, in a memory with one array, new arrays with double the room. -/
def threeRun [CaseMap] (n : Nat) : List (Nat × Ev) × Heap × List (Go (Outcome (Option Sl × Option VErr))) :=
  turns ((List.range n).map (· % 3)) [] [[.str (S "x")]] (goroutines (fun _ n => 2 * n) (fun _ => false) 150 threeCalls)

example (n : Nat) : Exec [[.str (S "x")]] (goroutines (fun _ n => 2 * n) (fun _ => false) 150 threeCalls) (threeRun n).1
    (threeRun n).2.1 (threeRun n).2.2 := turns_exec _ _ _ _ .start

/-- What is returned, to be looked at: whether without an error, and the tables. -/
def shown (h : Heap) : Go (Outcome (Option Sl × Option VErr)) → Bool × List (Str × List Str)
  | .done (.ok (s, e)) => (e.isNone, (tablesAt h s).map fun t => (t.name, t.columns.map Column.name))
  | _ => (false, [([], [])])

/-- All three end; each has returned what it returns alone. -/
example : (threeRun 1000).2.2.map (shown (threeRun 1000).2.1) =
    [(true, [(S "t", [S "aa", S "bb", S "cc"])]), (false, []), (true, [(S "u", [S "dd"])])] := by decide +kernel

/-- They really take turns: arrays of one are made between those of another. -/
example : ((threeRun 30).1.filter fun x => match x.2 with | .made _ => true | _ => false).map Prod.fst = [0, 1, 2, 0, 1, 2, 0, 1, 2] := by
  decide +kernel

end DDL.Props

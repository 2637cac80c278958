import Verif.Proof.JsonWrite
import Verif.Props.Memory
/-
C63: the JSON of a result.

`marshal fmt h s` is what `json.Marshal` makes of the slice `s` of tables in the memory `h` (Model/Json.lean; `fmt` writes the
numbers). `JText v x`: the text `x` is JSON and says `v` (RFC 8259, Spec/Json.lean). `J.tables fmt ts` is the JSON of the
tables `ts`, with the names of the fields in the README.
-/

namespace DDL.Props
open DDL Spec Mem

variable {fmt : Bool → Nat → Str}

/-- C63 (grammar). A text says one thing at most. -/
theorem C63_unambiguous {v v' : J} {x : Str} (h : JText v x) (h' : JText v' x) : v = v' := Json.jtext_unique h h'

/-- The text of a slice that is not nil and whose tables have nil lists where C62 says. -/
theorem text_of_nil {h' : Heap} {s : Option Sl} (hf : ∀ neg u, JNumber (fmt neg u)) (h1 : s ≠ none)
    (h2 : ∀ t ∈ tablesIn h' s, NilLists h' t)
    (hd : ∀ t ∈ tablesAt h' s, ∀ c ∈ t.columns, ∀ x, c.constraint.default = .num x → ¬ NotFinite x) :
    ∃ x, Json.marshal fmt h' s = some x ∧ ∀ v, JText v x ↔ v = .tables fmt (tablesAt h' s) := by
  have hd : Out.marshalFails (tablesAt h' s) = false := by
    cases hc : Out.marshalFails (tablesAt h' s) with
    | false => rfl
    | true =>
      obtain ⟨t, ht, c, hc, x, hx, hn⟩ := marshalFails_iff.1 hc
      exact absurd hn (hd t ht c hc x hx)
  obtain ⟨x, hx, ht⟩ := Json.marshal_text hf h1 h2 hd
  exact ⟨x, hx, fun v => ⟨fun h => C63_unambiguous h ht, fun h => h ▸ ht⟩⟩

/-- C63 (text). If no default is infinite or NaN, a result can be written as JSON; the text is valid, and what it says is the
tables and nothing else. -/
theorem C63_text [CaseMap] (hf : ∀ neg u, JNumber (fmt neg u)) {g : Grow} {isNum : Str → Bool} {h : Heap} {ddl : List Char}
    {d : Rdbms} {s : Option Sl} {e : Option VErr} {h' : Heap} (hm : MemReturns g isNum h ddl d s e h')
    (hd : ∀ t ∈ tablesAt h' s, ∀ c ∈ t.columns, ∀ x, c.constraint.default = .num x → ¬ NotFinite x) :
    ∃ x, Json.marshal fmt h' s = some x ∧ ∀ v, JText v x ↔ v = .tables fmt (tablesAt h' s) := by
  exact text_of_nil hf (C62_nil hm).1 (C62_nil hm).2 hd

/-- C63 (errors). Otherwise it cannot. -/
theorem C63_error (h : Heap) (s : Option Sl) : Json.marshal fmt h s = none ↔
    ∃ t ∈ tablesAt h s, ∃ c ∈ t.columns, ∃ x, c.constraint.default = .num x ∧ NotFinite x := by
  rw [← marshalFails_iff]
  unfold Json.marshal
  cases Out.marshalFails (tablesAt h s) <;> simp

/-- Two slices with the same text hold the same tables. -/
theorem determines_of_nil (hf : ∀ neg u, JNumber (fmt neg u)) (hi : ∀ n u n' u', fmt n u = fmt n' u' → n = n' ∧ u = u')
    {h' h₂' : Heap} {s s₂ : Option Sl} (h1 : s ≠ none) (h2 : ∀ t ∈ tablesIn h' s, NilLists h' t) (h3 : s₂ ≠ none)
    (h4 : ∀ t ∈ tablesIn h₂' s₂, NilLists h₂' t)
    {x : Str} (hx : Json.marshal fmt h' s = some x) (hx₂ : Json.marshal fmt h₂' s₂ = some x) :
    (tablesAt h' s).map seen = (tablesAt h₂' s₂).map seen := by
  have fails : ∀ {h : Heap} {s : Option Sl}, Json.marshal fmt h s = some x → Out.marshalFails (tablesAt h s) = false := by
    intro h s hx
    unfold Json.marshal at hx
    cases hc : Out.marshalFails (tablesAt h s) with
    | false => rfl
    | true => rw [hc] at hx; cases hx
  obtain ⟨y, hy, ht⟩ := Json.marshal_text hf h1 h2 (fails hx)
  obtain ⟨z, hz, ht₂⟩ := Json.marshal_text hf h3 h4 (fails hx₂)
  rw [hx] at hy
  rw [hx₂] at hz
  cases hy
  cases hz
  exact Json.tables_inj hi (fails hx) (fails hx₂) (C63_unambiguous ht ht₂)

/-- C63 (nothing lost). Two results with the same text are the same tables, but for the way in which the numbers after DEFAULT
were written. -/
theorem C63_determines [CaseMap] (hf : ∀ neg u, JNumber (fmt neg u)) (hi : ∀ n u n' u', fmt n u = fmt n' u' → n = n' ∧ u = u')
    {g g₂ : Grow} {isNum : Str → Bool} {h h₂ : Heap} {ddl ddl₂ : List Char} {d d₂ : Rdbms} {s s₂ : Option Sl}
    {e e₂ : Option VErr} {h' h₂' : Heap} (hm : MemReturns g isNum h ddl d s e h') (hm₂ : MemReturns g₂ isNum h₂ ddl₂ d₂ s₂ e₂ h₂')
    {x : Str} (hx : Json.marshal fmt h' s = some x) (hx₂ : Json.marshal fmt h₂' s₂ = some x) :
    (tablesAt h' s).map seen = (tablesAt h₂' s₂).map seen := by
  exact determines_of_nil hf hi (C62_nil hm).1 (C62_nil hm).2 (C62_nil hm₂).1 (C62_nil hm₂).2 hx hx₂

/-- C63 (ParseForce, text). The same for what ParseForce returns. -/
theorem C63_force_text [CaseMap] (hf : ∀ neg u, JNumber (fmt neg u)) {g : Grow} {isNum : Str → Bool} {n : Nat} {h : Heap}
    {ddl : List Char} {s : Option Sl} {e : Option VErr} {h' : Heap} (hm : parseForceH g isNum n h ddl = .ok ((s, e), h'))
    (hd : ∀ t ∈ tablesAt h' s, ∀ c ∈ t.columns, ∀ x, c.constraint.default = .num x → ¬ NotFinite x) :
    ∃ x, Json.marshal fmt h' s = some x ∧ ∀ v, JText v x ↔ v = .tables fmt (tablesAt h' s) :=
  text_of_nil hf (C62_force hm).1 (C62_force hm).2 hd

/-- C63 (ParseForce, nothing lost). If ParseForce and Parse, for whatever texts, give the same JSON, they gave the same tables,
but for the way in which the numbers after DEFAULT were written. -/
theorem C63_force_determines [CaseMap] (hf : ∀ neg u, JNumber (fmt neg u))
    (hi : ∀ n u n' u', fmt n u = fmt n' u' → n = n' ∧ u = u') {g g₂ : Grow} {isNum : Str → Bool} {n : Nat} {h h₂ : Heap}
    {ddl ddl₂ : List Char} {d₂ : Rdbms} {s s₂ : Option Sl} {e e₂ : Option VErr} {h' h₂' : Heap}
    (hm : parseForceH g isNum n h ddl = .ok ((s, e), h')) (hm₂ : MemReturns g₂ isNum h₂ ddl₂ d₂ s₂ e₂ h₂')
    {x : Str} (hx : Json.marshal fmt h' s = some x) (hx₂ : Json.marshal fmt h₂' s₂ = some x) :
    (tablesAt h' s).map seen = (tablesAt h₂' s₂).map seen :=
  determines_of_nil hf hi (C62_force hm).1 (C62_force hm).2 (C62_nil hm₂).1 (C62_nil hm₂).2 hx hx₂

/-! ### examples -/

/-- A way to write numbers: as the multiple of 2^-1074. -/
def unitsFmt (neg : Bool) (u : Nat) : Str := (if neg then ['-'] else []) ++ Nat.toDigits 10 u

theorem unitsFmt_number (neg : Bool) (u : Nat) : JNumber (unitsFmt neg u) :=
  Json.toDigits_number u _ (by cases neg <;> simp)

theorem unitsFmt_inj (n : Bool) (u : Nat) (n' : Bool) (u' : Nat) (h : unitsFmt n u = unitsFmt n' u') : n = n' ∧ u = u' := by
  unfold unitsFmt at h
  have key : ∀ a b : Nat, Nat.toDigits 10 a = Nat.toDigits 10 b → a = b := fun a b e => by
    have := congrArg (fun l => Nat.ofDigitChars 10 l 0) e
    simpa only [Nat.ofDigitChars_ten_toDigits] using this
  have no : ∀ a b : Nat, ('-' :: Nat.toDigits 10 a : Str) ≠ Nat.toDigits 10 b := fun a b e => by
    have : '-' ∈ Nat.toDigits 10 b := e ▸ List.mem_cons_self
    exact toDigits_no (by decide) this
  cases n <;> cases n'
  · exact ⟨rfl, key _ _ h⟩
  · exact absurd h.symm (no _ _)
  · exact absurd h (no _ _)
  · exact ⟨rfl, key _ _ (List.cons.inj h).2⟩

/-- The text of a result, to be looked at. -/
def jsonOf [CaseMap] (fmt : Bool → Nat → Str) (ddl : String) (d : Rdbms) : Option Str :=
  match parseH (fun _ n => 2 * n) Go.isNumeric 250 someHeap ddl.toList d with
  | .ok ((s, _), h) => Json.marshal fmt h s
  | _ => none

/-- A table, written. -/
example : jsonOf unitsFmt "CREATE TABLE t (aa TEXT DEFAULT 'a<\\b', UNIQUE (aa));" .sqlite = some (S
    "[{\"schema\":\"\",\"name\":\"t\",\"if_not_exists\":false,\"columns\":[{\"name\":\"aa\",\"data_type\":{\"name\":\"TEXT\",\"digit_n\":0,\"digit_m\":0},\"constraint\":{\"name\":\"\",\"is_primary_key\":false,\"is_unique\":false,\"is_not_null\":false,\"is_autoincrement\":false,\"default\":\"a\\u003c\\\\b\",\"check\":\"\",\"collate\":\"\",\"references\":{\"table_name\":\"\",\"column_names\":null}}}],\"constraints\":{\"primary_key\":null,\"unique\":[{\"name\":\"\",\"column_names\":[\"aa\"]}],\"check\":null,\"foreign_key\":null}}]") := by
  decide +kernel

/-- An empty list of tables is not null. -/
example : jsonOf unitsFmt "" .sqlite = some (S "[]") := by decide +kernel

/-- A default that cannot be written: SQLite takes the word inf after DEFAULT for a number. -/
example : jsonOf unitsFmt "CREATE TABLE t (aa REAL DEFAULT inf);" .sqlite = none := by decide +kernel

/-- Two scripts with the same text: the numbers are written differently. -/
example : jsonOf unitsFmt "CREATE TABLE t (aa REAL DEFAULT 1e0);" .sqlite =
    jsonOf unitsFmt "CREATE TABLE t (aa REAL DEFAULT 1);" .sqlite ∧
    (jsonOf unitsFmt "CREATE TABLE t (aa REAL DEFAULT 1);" .sqlite).isSome = true := by decide +kernel

/-- The text of a result of ParseForce. -/
def jsonOfForce [CaseMap] (fmt : Bool → Nat → Str) (ddl : String) : Option Str :=
  match parseForceH (fun _ n => 2 * n) Go.isNumeric 250 someHeap ddl.toList with
  | .ok ((s, _), h) => Json.marshal fmt h s
  | _ => none

/-- ParseForce finds that this is PostgreSQL. -/
example : jsonOfForce unitsFmt "CREATE TABLE t (aa BYTEA CHECK (1 < aa));" = some (S
    "[{\"schema\":\"\",\"name\":\"t\",\"if_not_exists\":false,\"columns\":[{\"name\":\"aa\",\"data_type\":{\"name\":\"BYTEA\",\"digit_n\":0,\"digit_m\":0},\"constraint\":{\"name\":\"\",\"is_primary_key\":false,\"is_unique\":false,\"is_not_null\":false,\"is_autoincrement\":false,\"default\":null,\"check\":\"(1\\u003caa)\",\"collate\":\"\",\"references\":{\"table_name\":\"\",\"column_names\":null}}}],\"constraints\":{\"primary_key\":null,\"unique\":null,\"check\":null,\"foreign_key\":null}}]") := by
  decide +kernel

/-- No dialect takes this: an empty list, not null. -/
example : jsonOfForce unitsFmt "DROP TABLE t;" = some (S "[]") := by decide +kernel

end DDL.Props

import Verif.Proof.GrammarFacts
/-
C11: scripts one after the other.
-/

namespace DDL.Props
open DDL Spec

/-- C11: if `Parse(a)` returns `ta` then `Parse(a + "\n\n" + b)` does what `Parse(b)` does, with the
tables `ta` in front: returns `ta` and the tables of `b`, or an error near the same token, or
nothing at all. -/
theorem C11_concat [CaseMap] {isNum : Str → Bool} (hN : NumOK isNum) {d : Rdbms} {a b : List Char}
    {ta : List Table} (ha : Returns isNum a d (ta, none)) :
    (∀ tb, Returns isNum b d (tb, none) →
      Returns isNum (a ++ '\n' :: '\n' :: b) d (ta ++ tb, none)) ∧
    (∀ r l x, Returns isNum b d (r, some ⟨l, x⟩) →
      ∃ l', Returns isNum (a ++ '\n' :: '\n' :: b) d ([], some ⟨l', x⟩)) ∧
    (Hangs isNum b d → Hangs isNum (a ++ '\n' :: '\n' :: b) d) := by
  obtain ⟨A, oa, hA, hv, hc⟩ := returns_ok_iff.1 ha
  obtain ⟨l1, l2⟩ := lexes_two_newlines (b := b) hA
  rcases lexes_or_fails d b with ⟨B, hB⟩ | ⟨e, he⟩
  · obtain ⟨h1, h2, h3⟩ := returns_concat hN hA hB (l1 B hB) (strip_two A B) ha
    refine ⟨h1, fun r l x h => ?_, h3⟩
    obtain ⟨l', h'⟩ := h2 r l x h
    obtain ⟨rfl, _⟩ := returns_err_iff.1 h'
    exact ⟨l', h'⟩
  · have hb : Returns isNum b d ([], some e) := returns_err_iff.2 ⟨rfl, .inl he⟩
    have hab := returns_err_iff (isNum := isNum).2 ⟨rfl, .inl (l2 e he)⟩
    refine ⟨fun tb h => ?_, fun r l x h => ?_, fun h => ?_⟩
    · cases Returns.unique hb h
    · cases Returns.unique hb h
      exact ⟨_, hab⟩
    · exact (not_returns_and_hangs hb h).elim

/-- C11, converse: what `Parse` does on the whole determines what it does on `b`. -/
theorem C11_concat_iff [CaseMap] {isNum : Str → Bool} (hN : NumOK isNum) {d : Rdbms} {a b : List Char}
    {ta t : List Table} (ha : Returns isNum a d (ta, none)) :
    Returns isNum (a ++ '\n' :: '\n' :: b) d (t, none) ↔
      ∃ tb, t = ta ++ tb ∧ Returns isNum b d (tb, none) := by
  obtain ⟨h1, h2, h3⟩ := C11_concat hN (b := b) ha
  constructor
  · intro h
    rcases returns_or_hangs isNum b d with ⟨⟨r, e⟩, hr⟩ | hh
    · cases e with
      | none => cases Returns.unique h (h1 r hr); exact ⟨r, rfl, hr⟩
      | some e =>
        obtain ⟨l', h'⟩ := h2 r e.line e.near hr
        cases Returns.unique h h'
    · exact (not_returns_and_hangs h (h3 hh)).elim
  · rintro ⟨tb, rfl, hb⟩
    exact h1 tb hb

/-- C11: a text rejected by the syntax check at one of its tokens stays rejected, with the same line
and token, whatever is appended. -/
theorem C11_rejected_prefix [CaseMap] {isNum : Str → Bool} {d : Rdbms} {a b : List Char} {A : List Str} {e : VErr}
    (ha : Lexes d a A) (hr : Rejects isNum d A e) (hB : ∃ B, Lexes d b B) (he : e.near ≠ EOF) :
    Returns isNum (a ++ '\n' :: '\n' :: b) d ([], some e) := by
  obtain ⟨B, hB⟩ := hB
  obtain ⟨l1, _⟩ := lexes_two_newlines (b := b) ha
  refine returns_err_iff.2 ⟨rfl, .inr ⟨_, l1 B hB, ?_⟩⟩
  obtain ⟨n, hr⟩ := hr
  rcases validateN_err hr with ⟨pre, t, r, rfl, _, rfl, h⟩ | rfl
  · have := h (r ++ [nl, nl] ++ B)
    exact ⟨n, by simpa using this⟩
  · exact absurd rfl he

/-- Texts one after the other, two newlines after each. -/
def joined : List (List Char) → List Char
  | [] => []
  | a :: as => a ++ '\n' :: '\n' :: joined as

/-- C11 for any number of scripts: if each is accepted, all together are, and the tables are those of each, in that order. -/
theorem C11_many [CaseMap] {isNum : Str → Bool} (hN : NumOK isNum) {d : Rdbms} : ∀ (ps : List (List Char × List Table)),
    (∀ p ∈ ps, Returns isNum p.1 d (p.2, none)) → Returns isNum (joined (ps.map Prod.fst)) d ((ps.map Prod.snd).flatten, none)
  | [], _ => by
    have : Returns isNum [] d ([], none) := by cases d <;> exact ⟨9, rfl⟩
    exact this
  | p :: ps, h => (C11_concat hN (h p (by simp))).1 _ (C11_many hN ps fun q hq => h q (by simp [hq]))

/-- C11: the order of the scripts does not matter: put in any other order they are accepted too, and the tables are the same, in
that order. -/
theorem C11_order [CaseMap] {isNum : Str → Bool} (hN : NumOK isNum) {d : Rdbms} {ps qs : List (List Char × List Table)}
    (h : ∀ p ∈ ps, Returns isNum p.1 d (p.2, none)) (hp : ps.Perm qs) :
    Returns isNum (joined (qs.map Prod.fst)) d ((qs.map Prod.snd).flatten, none) ∧
      ((ps.map Prod.snd).flatten).Perm (qs.map Prod.snd).flatten :=
  ⟨C11_many hN qs fun q hq => h q (hp.mem_iff.2 hq), (hp.map _).flatten⟩

/-- Example: a table, a view and a table with a comment that is not closed by a newline. -/
example : Returns simpleNum ("CREATE TABLE a (x INTEGER); CREATE VIEW v; -- first".toList ++
    '\n' :: '\n' :: "CREATE TABLE b (y TEXT);".toList) .sqlite
    ([{ name := S "a", columns := [{ name := S "x", dataType := ⟨S "INTEGER", 0, 0⟩ }] },
      { name := S "b", columns := [{ name := S "y", dataType := ⟨S "TEXT", 0, 0⟩ }] }], none) :=
  ⟨150, by decide +kernel⟩

/-- Example: two scripts to be put in another order. -/
example : ∀ p ∈ [("CREATE TABLE a (x INTEGER);".toList, [({ name := S "a", columns := [{ name := S "x", dataType := ⟨S "INTEGER", 0, 0⟩ }] } : Table)]),
      ("CREATE VIEW v;".toList, [])], Returns simpleNum p.1 .sqlite (p.2, none) := by
  intro p hp
  simp only [List.mem_cons, List.not_mem_nil, or_false] at hp
  rcases hp with rfl | rfl
  · exact ⟨90, by decide +kernel⟩
  · exact ⟨90, by decide +kernel⟩

/-- One newline is not enough: a comment that directly follows another is not recognised. -/
example : Returns simpleNum "CREATE VIEW v; -- first".toList .sqlite ([], none) ∧
    Returns simpleNum "-- second".toList .sqlite ([], none) ∧
    Returns simpleNum ("CREATE VIEW v; -- first".toList ++ '\n' :: "-- second".toList) .sqlite
      ([], some ⟨2, S "--"⟩) :=
  ⟨⟨60, by decide +kernel⟩, ⟨60, by decide +kernel⟩, ⟨90, by decide +kernel⟩⟩

end DDL.Props

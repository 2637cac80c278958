import Verif.Proof.Value
import Verif.Props.Number
/-
C49: the value of a numeric default.
-/

namespace DDL.Props
open DDL Spec Spec.Num Go

/-- C49: a numeric default is written as a number, and its value is the float64 nearest to that number. -/
theorem C49_value [CaseMap] {d : Rdbms} {ddl : List Char} {tbs : List Table}
    (h : Returns Go.isNumeric ddl d (tbs, none)) {t : Table} (ht : t ∈ tbs)
    {c : Column} (hc : c ∈ t.columns) {x : Str} (hx : c.constraint.default = .num x) (hf : ¬ NotFinite x)
    (hlen : x.length ≤ 2000) :
    (∃ neg p q, Denotes x neg p q) ∧
    ∀ neg p q, Denotes x neg p q →
      ∃ y, goValue c.constraint.default = .float (.finite neg y) ∧ Nearest p q y ∧ ∀ z, Nearest p q z → z = y := by
  have hnum := C46_number_default h ht hc hx
  obtain ⟨h1, _⟩ := C43_no_point Go.isNumeric_ok (by decide) h ht hc hx
  refine ⟨(number_denotes hnum).resolve_left hf, fun neg p q hd => ?_⟩
  obtain ⟨y, hy, hn⟩ := parseFloat_nearest h1 hlen hd
  refine ⟨y, ?_, hn, fun z hz => nearest_unique (denotes_pos hd) hz hn⟩
  rw [hx]
  show Value.float _ = _
  rw [hy]

/-- C49: the other numbers are the infinities and NaN. -/
theorem C49_not_finite {x : Str} (hf : NotFinite x) :
    goValue (.num x) = .float (if upper x = S "NAN" then .nan else .inf (x.head? == some '-')) := by
  show Value.float _ = _
  rw [parseFloat_special hf]

example : goValue (.num (S "-iNfinity")) = .float (.inf true) := C49_not_finite (by decide)

/-- C49: a number that is a float64 is returned unchanged. -/
theorem C49_exact [CaseMap] {d : Rdbms} {ddl : List Char} {tbs : List Table}
    (h : Returns Go.isNumeric ddl d (tbs, none)) {t : Table} (ht : t ∈ tbs)
    {c : Column} (hc : c ∈ t.columns) {x : Str} (hx : c.constraint.default = .num x) (hlen : x.length ≤ 2000)
    {neg : Bool} {p q y : Nat} (hd : Denotes x neg p q) (hy : IsDouble y) (he : y * q = p * 2 ^ 1074) :
    goValue c.constraint.default = .float (.finite neg y) := by
  obtain ⟨h1, _⟩ := C43_no_point Go.isNumeric_ok (by decide) h ht hc hx
  obtain ⟨z, hz, hn⟩ := parseFloat_nearest h1 hlen hd
  rw [hx]
  show Value.float _ = _
  rw [hz, nearest_unique (denotes_pos hd) hn (nearest_exact (denotes_pos hd) hy he)]

/-- C49: integers up to 2^53. -/
theorem C49_integer [CaseMap] {d : Rdbms} (hd : d ≠ .other) {table column : Str} (h1 : Quotable table)
    (h2 : Quotable column) {sign x : Str} {vs : List Nat} (hs : Sign sign) (hx : Run dec x vs)
    (hlen : (sign ++ x).length ≤ 2000) (hv : value 10 vs ≤ 2 ^ 53) :
    Returns Go.isNumeric (S "CREATE TABLE " ++ (nameText d table ++ (S "( " ++ (nameText d column ++
        (S "NUMERIC DEFAULT " ++ (sign ++ x ++ S " ) ; ")))))) d
      ([{ name := table, columns := [⟨column, { name := S "NUMERIC" }, { default := .num (sign ++ x) }⟩] }], none) ∧
    goValue (.num (sign ++ x)) = .float (.finite (sign == ['-']) (value 10 vs * 2 ^ 1074)) := by
  have hnum : Number (sign ++ x) :=
    .inr ⟨sign, x, hs, rfl, .inl ⟨x, vs, [], by simp, hx, .inl ⟨rfl, lt_limit hv⟩⟩⟩
  have hret := (C46_number_iff hd h1 h2 (sign ++ x)).2 hnum
  refine ⟨hret, ?_⟩
  exact C49_exact hret (List.mem_singleton.2 rfl) (List.mem_singleton.2 rfl) rfl hlen (q := 1)
    ⟨sign, x, hs, rfl, by simp, .inl ⟨x, vs, [], by simp, hx, .inl ⟨rfl, rfl, rfl⟩⟩⟩ (double_int hv) (Nat.mul_one _)

set_option exponentiation.threshold 2000 in
example : goValue (.num (S "-1_000")) = .float (.finite true (1000 * 2 ^ 1074)) :=
  (C49_integer (d := .sqlite) (table := S "tt") (column := S "aa") (sign := ['-']) (x := S "1_000")
    (vs := [1, 0, 0, 0]) (by decide) (by unfold Quotable; decide) (by unfold Quotable; decide) (.inr (.inr rfl))
    (.under (by decide) (.next (by decide) (.next (by decide) (.one (by decide))))) (by decide) (by decide)).2

/-- C49: but larger integers are rounded: different numbers are returned as the same value. -/
theorem C49_rounded [CaseMap] {d : Rdbms} (hd : d ≠ .other) {table column : Str} (h1 : Quotable table)
    (h2 : Quotable column) : ∃ x y : Str, ∃ p : Nat,
    Denotes x false p 1 ∧ Denotes y false (p + 1) 1 ∧
    (∀ z ∈ [x, y], Returns Go.isNumeric (S "CREATE TABLE " ++ (nameText d table ++ (S "( " ++ (nameText d column ++
        (S "NUMERIC DEFAULT " ++ (z ++ S " ) ; ")))))) d
      ([{ name := table, columns := [⟨column, { name := S "NUMERIC" }, { default := .num z }⟩] }], none)) ∧
    goValue (.num x) = goValue (.num y) := by
  have run : ∀ l : List Char, l ≠ [] → (∀ c ∈ l, (dec c).isSome = true) → ∃ vs, Run dec l vs ∧ vs = l.filterMap dec := by
    intro l
    induction l with
    | nil => intro h; exact absurd rfl h
    | cons c r ih =>
      intro _ hall
      obtain ⟨v, hv⟩ := Option.isSome_iff_exists.1 (hall c (by simp))
      cases r with
      | nil => exact ⟨[v], .one hv, by simp [hv]⟩
      | cons b r =>
        obtain ⟨vs, h1, h2⟩ := ih (by simp) (fun c hc => hall c (by simp [hc]))
        exact ⟨v :: vs, .next hv h1, by rw [List.filterMap_cons_some hv, ← h2]⟩
  obtain ⟨vs, r1, e1⟩ := run (S "9007199254740992") (by decide) (by decide)
  obtain ⟨ws, r2, e2⟩ := run (S "9007199254740993") (by decide) (by decide)
  have v1 : value 10 vs = 9007199254740992 := by rw [e1]; decide
  have v2 : value 10 ws = 9007199254740993 := by rw [e2]; decide
  have hnum : ∀ x us, Run dec x us → value 10 us ≤ 9007199254740993 → Number x := fun x us hr hv =>
    .inr ⟨[], x, .inl rfl, rfl, .inl ⟨x, us, [], by simp, hr, .inl ⟨rfl, Nat.lt_of_le_of_lt hv (by decide +kernel)⟩⟩⟩
  refine ⟨S "9007199254740992", S "9007199254740993", 9007199254740992,
    ⟨[], _, .inl rfl, rfl, by simp, .inl ⟨_, vs, [], (List.append_nil _).symm, r1, .inl ⟨rfl, v1.symm, rfl⟩⟩⟩,
    ⟨[], _, .inl rfl, rfl, by simp, .inl ⟨_, ws, [], (List.append_nil _).symm, r2, .inl ⟨rfl, v2.symm, rfl⟩⟩⟩, ?_,
    by decide +kernel⟩
  intro z hz
  refine (C46_number_iff hd h1 h2 z).2 ?_
  simp only [List.mem_cons, List.not_mem_nil, or_false] at hz
  rcases hz with rfl | rfl
  · exact hnum _ vs r1 (by omega)
  · exact hnum _ ws r2 (by omega)

/-- Halves and tenths: 5e-1 is exact, 1e-1 is the multiple of 2^-56 that is nearest; 1e-400 is 0. -/
example : parseFloat (S "5e-1") = .finite false (2 ^ 1073) ∧
    parseFloat (S "1e-1") = .finite false (0x1999999999999a * 2 ^ 1018) ∧
    parseFloat (S "-1e-400") = .finite true 0 ∧ parseFloat (S "0x1p-2") = .finite false (2 ^ 1072) ∧
    parseFloat (S "-Inf") = .inf true ∧ parseFloat (S "NaN") = .nan ∧
    parseFloat (S "5e-324") = .finite false 1 ∧ parseFloat (S "2e-324") = .finite false 0 ∧
    parseFloat (S "17976931348623157e292") = .finite false ((2 ^ 53 - 1) * 2 ^ 2045) := by decide +kernel

end DDL.Props

import Verif.Model.Json
import Verif.Proof.JsonText
import Verif.Proof.Output
/-
What `json.Marshal` writes is a JSON text for the tables.
-/

namespace DDL.Json
open DDL.Mem DDL.Spec

/-! ### strings, numbers -/

theorem hexValue_digit : ∀ n, n < 16 → hexValue (hexDigit n) = some n := by decide

theorem escape_text (c : Char) : JChar c (escape c) := by
  unfold escape
  by_cases h1 : c = '"'
  · rw [if_pos h1, h1]; exact .short (by decide)
  rw [if_neg h1]
  by_cases h2 : c = '\\'
  · rw [if_pos h2, h2]; exact .short (by decide)
  rw [if_neg h2]
  by_cases h3 : c = Char.ofNat 8
  · rw [if_pos h3, h3]; exact .short (by decide)
  rw [if_neg h3]
  by_cases h4 : c = Char.ofNat 12
  · rw [if_pos h4, h4]; exact .short (by decide)
  rw [if_neg h4]
  by_cases h5 : c = '\n'
  · rw [if_pos h5, h5]; exact .short (by decide)
  rw [if_neg h5]
  by_cases h6 : c = '\r'
  · rw [if_pos h6, h6]; exact .short (by decide)
  rw [if_neg h6]
  by_cases h7 : c = '\t'
  · rw [if_pos h7, h7]; exact .short (by decide)
  rw [if_neg h7]
  by_cases h8 : c.toNat < 32 ∨ c = '<' ∨ c = '>' ∨ c = '&'
  · rw [if_pos h8]
    have hb : c.toNat < 256 := by
      rcases h8 with h | rfl | rfl | rfl
      · omega
      · decide
      · decide
      · decide
    exact .hex (hexValue_digit 0 (by decide)) (hexValue_digit 0 (by decide)) (hexValue_digit _ (by omega))
      (hexValue_digit _ (by omega)) (by omega)
  rw [if_neg h8]
  by_cases h9 : c = Char.ofNat 0x2028
  · rw [if_pos h9, h9]
    exact .hex (n₁ := 2) (n₂ := 0) (n₃ := 2) (n₄ := 8) (by decide) (by decide) (by decide) (by decide) (by decide)
  rw [if_neg h9]
  by_cases h10 : c = Char.ofNat 0x2029
  · rw [if_pos h10, h10]
    exact .hex (n₁ := 2) (n₂ := 0) (n₃ := 2) (n₄ := 9) (by decide) (by decide) (by decide) (by decide) (by decide)
  rw [if_neg h10]
  exact .plain (by omega) h1 h2

theorem str_text (s : Str) : JText (.str s) (str s) := by
  have : JChars s (s.flatMap escape) := by
    induction s with
    | nil => exact .nil
    | cons c s ih => exact .cons (escape_text c) ih
  exact .str this

theorem bool_text (b : Bool) : JText (.bool b) (bool b) := by
  cases b
  · exact .false
  · exact .true

theorem toDigits_head (n : Nat) : 0 < n → (Nat.toDigits 10 n).head? ≠ some '0' := by
  induction n using Nat.strongRecOn with
  | ind n ih =>
    intro hn
    by_cases h : n < 10
    · revert hn
      revert h
      clear ih
      revert n
      decide
    · rw [Nat.toDigits_of_base_le (by decide) (by omega)]
      have := ih (n / 10) (by omega) (by omega)
      rw [List.head?_append]
      cases hh : (Nat.toDigits 10 (n / 10)).head? with
      | none => exact absurd (List.head?_eq_none_iff.1 hh) Nat.toDigits_ne_nil
      | some c => rw [hh] at this; simpa using this

theorem toDigits_number (n : Nat) (sign : Str) (hs : sign = [] ∨ sign = ['-']) : JNumber (sign ++ Nat.toDigits 10 n) := by
  refine ⟨sign, Nat.toDigits 10 n, [], [], by simp, hs, ⟨Nat.toDigits_ne_nil,
    fun c hc => Nat.isDigit_of_mem_toDigits (by decide) (by decide) hc⟩, fun h => ?_, .inl rfl, .inl rfl⟩
  cases n with
  | zero => rfl
  | succ n => exact absurd h (toDigits_head _ (by omega))

theorem int_text (i : Int) : JText (.int i) (int i) := by
  unfold J.int
  cases i with
  | ofNat n =>
    rw [if_neg (by simp)]
    exact .num (toDigits_number n [] (.inl rfl))
  | negSucc n =>
    rw [if_pos (by omega)]
    exact .num (toDigits_number (n + 1) ['-'] (.inr rfl))

/-! ### arrays and objects -/

/-- Values and their texts. -/
inductive Texts : List J → List Str → Prop
  | nil : Texts [] []
  | cons {v l x xs} : JText v x → Texts l xs → Texts (v :: l) (x :: xs)

theorem Texts.rest {l : List J} {xs : List Str} (h : Texts l xs) : ∀ {v x}, JText v x →
    ∃ y, x ++ arrayRest xs = y ++ [']'] ∧ JItems (v :: l) y := by
  induction h with
  | nil => exact fun {v x} h => ⟨x, rfl, .one h⟩
  | cons h1 _ ih =>
    intro v x hx
    obtain ⟨y, e, hy⟩ := ih h1
    exact ⟨x ++ ',' :: y, by simp [arrayRest, e], .cons hx hy⟩

theorem array_text {l : List J} {xs : List Str} (h : Texts l xs) : JText (.arr l) (array xs) := by
  cases h with
  | nil => exact .arr (x := []) .nil
  | cons h1 h2 =>
    obtain ⟨y, e, hy⟩ := h2.rest h1
    show JText _ ('[' :: (_ ++ _))
    rw [e]
    exact .arr hy

theorem Texts.isEmpty {l : List J} {xs : List Str} (h : Texts l xs) : l.isEmpty = xs.isEmpty := by cases h <;> rfl

theorem slice_text {l : List J} {xs : List Str} (h : Texts l xs) {b : Bool} (hb : b = l.isEmpty) : JText (.list l) (slice b xs) := by
  subst hb
  unfold J.list slice
  split
  · exact .null
  · exact array_text h

theorem texts_map {j : α → J} {e : α → Str} : ∀ {l : List α}, (∀ a ∈ l, JText (j a) (e a)) → Texts (l.map j) (l.map e)
  | [], _ => .nil
  | a :: _, h => .cons (h a List.mem_cons_self) (texts_map fun b hb => h b (List.mem_cons_of_mem _ hb))

theorem texts_filterMap {f : α → Option Str} {g : α → Option β} {j : β → J} : ∀ {l : List α},
    (∀ a ∈ l, (f a = none ∧ g a = none) ∨ ∃ x b, f a = some x ∧ g a = some b ∧ JText (j b) x) →
    Texts ((l.filterMap g).map j) (l.filterMap f)
  | [], _ => .nil
  | a :: l, h => by
    have ih := texts_filterMap (l := l) fun b hb => h b (List.mem_cons_of_mem _ hb)
    rcases h a List.mem_cons_self with ⟨h1, h2⟩ | ⟨x, b, h1, h2, h3⟩
    · rw [List.filterMap_cons_none h1, List.filterMap_cons_none h2]; exact ih
    · rw [List.filterMap_cons_some h1, List.filterMap_cons_some h2]; exact .cons h3 ih

/-- A name without characters to be escaped. -/
def plainKey (k : String) : Bool := k.toList.all fun c => decide (0x20 ≤ c.toNat) && c != '"' && c != '\\'

theorem key_text {k : String} (h : plainKey k = true) : JChars (S k) (S k) := by
  unfold plainKey at h
  rw [List.all_eq_true] at h
  show JChars k.toList k.toList
  revert h
  generalize k.toList = l
  intro h
  induction l with
  | nil => exact .nil
  | cons c l ih =>
    have := h c List.mem_cons_self
    simp only [Bool.and_eq_true, decide_eq_true_eq, bne_iff_ne] at this
    exact .cons (x := [c]) (.plain this.1.1 this.1.2 this.2) (ih fun d hd => h d (List.mem_cons_of_mem _ hd))

/-- Fields with their texts. -/
inductive Fields : List (Str × J) → List (String × Str) → Prop
  | nil : Fields [] []
  | cons {k v l x xs} : plainKey k = true → JText v x → Fields l xs → Fields ((S k, v) :: l) ((k, x) :: xs)

theorem Fields.rest {l : List (Str × J)} {xs : List (String × Str)} (h : Fields l xs) : ∀ {k v x}, plainKey k = true → JText v x →
    ∃ y, '"' :: (S k ++ '"' :: ':' :: (x ++ objectRest xs)) = y ++ ['}'] ∧ JMembers ((S k, v) :: l) y := by
  induction h with
  | nil => exact fun {k v x} hk h => ⟨'"' :: (S k ++ '"' :: ':' :: x), by simp [objectRest], .one (key_text hk) h⟩
  | cons hk1 h1 _ ih =>
    intro k v x hk hx
    obtain ⟨y, e, hy⟩ := ih hk1 h1
    refine ⟨'"' :: (S k ++ '"' :: ':' :: (x ++ ',' :: y)), ?_, .cons (key_text hk) hx hy⟩
    simp only [objectRest, e]
    simp

theorem object_text {l : List (Str × J)} {xs : List (String × Str)} (h : Fields l xs) : JText (.obj l) (object xs) := by
  cases h with
  | nil => exact .obj (x := []) .nil
  | cons hk h1 h2 =>
    obtain ⟨y, e, hy⟩ := h2.rest hk h1
    show JText _ ('{' :: ('"' :: (_ ++ '"' :: ':' :: (_ ++ _))))
    rw [e]
    exact .obj hy

/-! ### the tables -/

theorem strs_text (l : List Str) : JText (.strs l) (array (l.map str)) := array_text (texts_map fun s _ => str_text s)

theorem reference_text (r : Reference) : JText (.reference r) (reference r) := by
  obtain ⟨n, c⟩ := r
  cases c with
  | none => exact object_text (.cons rfl (str_text _) (.cons rfl .null .nil))
  | some l => exact object_text (.cons rfl (str_text _) (.cons rfl (strs_text l) .nil))

variable {fmt : Bool → Nat → Str}

theorem value_text (hf : ∀ neg u, JNumber (fmt neg u)) (v : Go.Value) : JText (.value fmt v) (value fmt v) := by
  cases v with
  | nil => exact .null
  | float x =>
    cases x with
    | finite neg u => exact .num (hf neg u)
    | inf => exact .null
    | nan => exact .null
  | str s => exact str_text s
  | bool b => exact bool_text b

theorem column_text (hf : ∀ neg u, JNumber (fmt neg u)) (c : Column) : JText (.column fmt c) (column fmt c) :=
  object_text (.cons rfl (str_text _) (.cons rfl
    (object_text (.cons rfl (str_text _) (.cons rfl (int_text _) (.cons rfl (int_text _) .nil))))
    (.cons rfl
      (object_text (.cons rfl (str_text _) (.cons rfl (bool_text _) (.cons rfl (bool_text _) (.cons rfl (bool_text _)
        (.cons rfl (bool_text _) (.cons rfl (value_text hf _) (.cons rfl (str_text _) (.cons rfl (str_text _)
        (.cons rfl (reference_text _) .nil)))))))))) .nil)))

theorem names_text (h : Heap) {s : Option Sl} (hs : s ≠ none) : JText (.strs (strsAt h s)) (slice s.isNone ((strsAt h s).map str)) := by
  cases s with
  | none => exact absurd rfl hs
  | some s => exact strs_text _

theorem isNone_eq {s : Option Sl} {l : List α} (h : s = none ↔ l = []) {j : α → J} : s.isNone = (l.map j).isEmpty := by
  cases s with
  | none => rw [h.1 rfl]; rfl
  | some s =>
    cases l with
    | nil => cases h.2 rfl
    | cons => rfl

theorem table_text (hf : ∀ neg u, JNumber (fmt neg u)) {h : Heap} {t : MTable} (hn : NilLists h t) :
    JText (.table fmt (tableAt h t)) (table fmt h t) := by
  refine object_text (.cons rfl (str_text _) (.cons rfl (str_text _) (.cons rfl (bool_text _) (.cons rfl ?_ (.cons rfl ?_ .nil)))))
  · exact slice_text (texts_map fun c _ => column_text hf c) (isNone_eq hn.columns)
  · refine object_text (.cons rfl ?_ (.cons rfl ?_ (.cons rfl ?_ (.cons rfl ?_ .nil))))
    · refine slice_text (texts_filterMap fun c hc => ?_) (isNone_eq hn.primaryKey)
      cases c with
      | primaryKey k =>
        exact .inr ⟨_, _, rfl, rfl, object_text (.cons rfl (str_text _) (.cons rfl (names_text h (hn.names k (.inl hc))) .nil))⟩
      | _ => exact .inl ⟨rfl, rfl⟩
    · refine slice_text (texts_filterMap fun c hc => ?_) (isNone_eq hn.unique)
      cases c with
      | unique k =>
        exact .inr ⟨_, _, rfl, rfl, object_text (.cons rfl (str_text _) (.cons rfl (names_text h (hn.names k (.inr hc))) .nil))⟩
      | _ => exact .inl ⟨rfl, rfl⟩
    · refine slice_text (texts_filterMap fun c hc => ?_) (isNone_eq hn.check)
      cases c with
      | check k => exact .inr ⟨_, _, rfl, rfl, object_text (.cons rfl (str_text _) (.cons rfl (str_text _) .nil))⟩
      | _ => exact .inl ⟨rfl, rfl⟩
    · refine slice_text (texts_filterMap fun c hc => ?_) (isNone_eq hn.foreignKey)
      cases c with
      | foreignKey k =>
        exact .inr ⟨_, _, rfl, rfl, object_text (.cons rfl (str_text _) (.cons rfl (names_text h (hn.foreign k hc))
          (.cons rfl (reference_text _) .nil)))⟩
      | _ => exact .inl ⟨rfl, rfl⟩

theorem marshal_text (hf : ∀ neg u, JNumber (fmt neg u)) {h : Heap} {s : Option Sl} (hs : s ≠ none)
    (hn : ∀ t ∈ tablesIn h s, NilLists h t) (hm : Out.marshalFails (tablesAt h s) = false) :
    ∃ x, marshal fmt h s = some x ∧ JText (.tables fmt (tablesAt h s)) x := by
  refine ⟨_, by unfold marshal; rw [hm]; rfl, ?_⟩
  cases s with
  | none => exact absurd rfl hs
  | some s =>
    unfold J.tables tablesAt
    rw [List.map_map]
    exact array_text (texts_map fun t ht => table_text hf (hn t ht))

/-! ### the JSON determines the tables -/

theorem list_inj {l l' : List J} (h : J.list l = J.list l') : l = l' := by
  unfold J.list at h
  cases l <;> cases l' <;> simp at h ⊢
  exact h

theorem map_det {f : α → β} {g : α → γ} : ∀ {l l' : List α}, (∀ a ∈ l, ∀ b ∈ l', f a = f b → g a = g b) → l.map f = l'.map f →
    l.map g = l'.map g
  | [], [], _, _ => rfl
  | [], _ :: _, _, h => nomatch h
  | _ :: _, [], _, h => nomatch h
  | a :: l, b :: l', hd, h => by
    simp only [List.map_cons, List.cons.injEq] at h ⊢
    exact ⟨hd a List.mem_cons_self b List.mem_cons_self h.1,
      map_det (fun x hx y hy => hd x (List.mem_cons_of_mem _ hx) y (List.mem_cons_of_mem _ hy)) h.2⟩

theorem map_inj {f : α → β} (hf : ∀ a b, f a = f b → a = b) {l l' : List α} (h : l.map f = l'.map f) : l = l' := by
  simpa using map_det (g := id) (fun a _ b _ e => hf a b e) h

theorem strs_inj {l l' : List Str} (h : J.strs l = J.strs l') : l = l' := by
  unfold J.strs at h
  injection h with h
  exact map_inj (fun a b e => by injection e) h

theorem int_inj {i j : Int} (h : J.int i = J.int j) : i = j := by
  unfold J.int at h
  injection h with h
  have key : ∀ n m : Nat, Nat.toDigits 10 n = Nat.toDigits 10 m → n = m := fun n m e => by
    have := congrArg (fun l => Nat.ofDigitChars 10 l 0) e
    simpa only [Nat.ofDigitChars_ten_toDigits] using this
  have no : ∀ n m : Nat, '-' :: Nat.toDigits 10 n ≠ Nat.toDigits 10 m := fun n m e => by
    have : '-' ∈ Nat.toDigits 10 m := e ▸ List.mem_cons_self
    exact toDigits_no (by decide) this
  split at h <;> split at h
  · simp only [List.cons.injEq, true_and] at h
    have := key _ _ h
    omega
  · exact absurd h (no _ _)
  · exact absurd h.symm (no _ _)
  · have := key _ _ h
    omega

theorem reference_inj {r r' : Reference} (h : J.reference r = J.reference r') : r = r' := by
  obtain ⟨n, c⟩ := r
  obtain ⟨n', c'⟩ := r'
  simp only [J.reference, J.obj.injEq, List.cons.injEq, Prod.mk.injEq, true_and, J.str.injEq, and_true] at h
  obtain ⟨rfl, h⟩ := h
  cases c with
  | none =>
    cases c' with
    | none => rfl
    | some l => simp [J.strs] at h
  | some l =>
    cases c' with
    | none => simp [J.strs] at h
    | some l' => rw [strs_inj (l := l) (l' := l') h]

/-- Not an infinity, not NaN. -/
def Fin : Go.Value → Prop
  | .float (.finite _ _) => True
  | .float _ => False
  | _ => True

theorem value_inj (hi : ∀ n u n' u', fmt n u = fmt n' u' → n = n' ∧ u = u') {v v' : Go.Value} (hv : Fin v) (hv' : Fin v')
    (h : J.value fmt v = J.value fmt v') : v = v' := by
  cases v with
  | nil =>
    cases v' with
    | nil => rfl
    | float x => cases x <;> first | exact hv'.elim | cases h
    | str => cases h
    | bool => cases h
  | float x =>
    cases x with
    | inf => exact hv.elim
    | nan => exact hv.elim
    | finite n u =>
      cases v' with
      | float x =>
        cases x with
        | inf => exact hv'.elim
        | nan => exact hv'.elim
        | finite n' u' =>
          injection h with h
          obtain ⟨rfl, rfl⟩ := hi _ _ _ _ h
          rfl
      | nil => cases h
      | str => cases h
      | bool => cases h
  | str s =>
    cases v' with
    | str => injection h with h; rw [h]
    | float x => cases x <;> first | exact hv'.elim | cases h
    | nil => cases h
    | bool => cases h
  | bool s =>
    cases v' with
    | bool => injection h with h; rw [h]
    | float x => cases x <;> first | exact hv'.elim | cases h
    | nil => cases h
    | str => cases h

theorem column_inj (hi : ∀ n u n' u', fmt n u = fmt n' u' → n = n' ∧ u = u') {c c' : Column}
    (hv : Fin (Go.goValue c.constraint.default)) (hv' : Fin (Go.goValue c'.constraint.default))
    (h : J.column fmt c = J.column fmt c') : seenColumn c = seenColumn c' := by
  obtain ⟨n, ⟨tn, t1, t2⟩, ⟨cn, b1, b2, b3, b4, dv, ck, co, r⟩⟩ := c
  obtain ⟨n', ⟨tn', t1', t2'⟩, ⟨cn', b1', b2', b3', b4', dv', ck', co', r'⟩⟩ := c'
  simp only [J.column, J.obj.injEq, List.cons.injEq, Prod.mk.injEq, true_and, J.str.injEq, and_true, J.bool.injEq] at h
  obtain ⟨rfl, ⟨rfl, h1, h2⟩, rfl, rfl, rfl, rfl, rfl, h3, rfl, rfl, h4⟩ := h
  rw [int_inj h1, int_inj h2, reference_inj h4]
  have := value_inj hi hv hv' h3
  unfold seenColumn
  simp only at this ⊢
  rw [this]

theorem table_inj (hi : ∀ n u n' u', fmt n u = fmt n' u' → n = n' ∧ u = u') {t t' : Table}
    (hv : ∀ c ∈ t.columns, Fin (Go.goValue c.constraint.default)) (hv' : ∀ c ∈ t'.columns, Fin (Go.goValue c.constraint.default))
    (h : J.table fmt t = J.table fmt t') : seen t = seen t' := by
  obtain ⟨s, n, b, cs, ⟨k1, k2, k3, k4⟩⟩ := t
  obtain ⟨s', n', b', cs', ⟨k1', k2', k3', k4'⟩⟩ := t'
  simp only [J.table, J.obj.injEq, List.cons.injEq, Prod.mk.injEq, true_and, J.str.injEq, and_true, J.bool.injEq] at h
  obtain ⟨rfl, rfl, rfl, h0, h1, h2, h3, h4⟩ := h
  have e0 := map_det (g := seenColumn) (fun a ha b hb e => column_inj hi (hv a ha) (hv' b hb) e) (list_inj h0)
  have e1 : k1 = k1' := map_inj (fun a b e => by
    simp only [J.obj.injEq, List.cons.injEq, Prod.mk.injEq, true_and, J.str.injEq, and_true] at e
    obtain ⟨n, x⟩ := a; obtain ⟨n', x'⟩ := b
    simp only at e
    rw [e.1, strs_inj e.2]) (list_inj h1)
  have e2 : k2 = k2' := map_inj (fun a b e => by
    simp only [J.obj.injEq, List.cons.injEq, Prod.mk.injEq, true_and, J.str.injEq, and_true] at e
    obtain ⟨n, x⟩ := a; obtain ⟨n', x'⟩ := b
    simp only at e
    rw [e.1, strs_inj e.2]) (list_inj h2)
  have e3 : k3 = k3' := map_inj (fun a b e => by
    simp only [J.obj.injEq, List.cons.injEq, Prod.mk.injEq, true_and, J.str.injEq, and_true] at e
    obtain ⟨n, x⟩ := a; obtain ⟨n', x'⟩ := b
    simp only at e
    rw [e.1, e.2]) (list_inj h3)
  have e4 : k4 = k4' := map_inj (fun a b e => by
    simp only [J.obj.injEq, List.cons.injEq, Prod.mk.injEq, true_and, J.str.injEq, and_true] at e
    obtain ⟨n, x, r⟩ := a; obtain ⟨n', x', r'⟩ := b
    simp only at e
    rw [e.1, strs_inj e.2.1, reference_inj e.2.2]) (list_inj h4)
  unfold seen
  simp only
  rw [e0, e1, e2, e3, e4]

theorem fin_of {ts : List Table} (h : Out.marshalFails ts = false) {t : Table} (ht : t ∈ ts) {c : Column} (hc : c ∈ t.columns) :
    Fin (Go.goValue c.constraint.default) := by
  unfold Out.marshalFails at h
  rw [List.any_eq_false] at h
  have := h t ht
  simp only [List.any_eq_true, not_exists, not_and] at this
  have := this c hc
  cases hd : c.constraint.default with
  | num x =>
    rw [hd] at this
    have : Go.special x = false := by simpa [Out.defaultFails, Out.floatFails] using this
    show Fin (.float (Go.parseFloat x))
    unfold Go.parseFloat
    rw [this]
    trivial
  | nil => trivial
  | str => trivial
  | bool => trivial

theorem tables_inj (hi : ∀ n u n' u', fmt n u = fmt n' u' → n = n' ∧ u = u') {ts ts' : List Table}
    (hv : Out.marshalFails ts = false) (hv' : Out.marshalFails ts' = false)
    (h : J.tables fmt ts = J.tables fmt ts') : ts.map seen = ts'.map seen := by
  unfold J.tables at h
  injection h with h
  exact map_det (fun a ha b hb e => table_inj hi (fun c hc => fin_of hv ha hc) (fun c hc => fin_of hv' hb hc) e) h

end DDL.Json

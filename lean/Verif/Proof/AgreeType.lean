import Verif.Proof.AgreeStep
/-
Reading the same tokens with two dialects: data types.
-/

namespace DDL
open V Spec Conv

variable {isNum : Str → Bool} {d e : Rdbms}

/-- The types with a length, with precision and scale, with a precision and a time zone. -/
def typeN : Rdbms → List String
  | .postgres => ["BIT", "CHARACTER", "VARBIT", "VARCHAR", "CHAR"]
  | .mysql => Mysql.typesN
  | _ => []
def typePS : Rdbms → List String
  | .postgres => ["NUMERIC", "DECIMAL"]
  | .mysql => Mysql.typesPS
  | _ => []
def typeZ : Rdbms → List String
  | .postgres => ["TIME", "TIMESTAMP"]
  | .mysql => Mysql.typesTime
  | _ => []

/-- The forms of a type. -/
inductive TForm (d : Rdbms) (t : Str) (x : List Str) (τ : TypeAst) (r : List Str) : Prop
  | plain (h : τ = ⟨t, false, none⟩) (hr : r = x)
  | digN (ht : Kw (typeN d) t) (g) (h : τ = ⟨t, false, g⟩) (hg : digitN x g r)
  | digPS (ht : Kw (typePS d) t) (g) (h : τ = ⟨t, false, g⟩) (hg : digitPS x g r)
  | zone (ht : Kw (typeZ d) t) (g) (m : List Str) (h : τ = ⟨t, false, g⟩) (hg : digitN x g m) (hz : Postgres.zone m () r)
  | word (hd : d = .postgres) (h : HeadIn ["VARYING", "PRECISION"] x)

theorem type_form (hd : d ≠ .other) {ts r : List Str} {τ : TypeAst} (h : typeLang d ts τ r) :
    ∃ t x, ts = t :: x ∧ TForm d t x τ r ∧ Kw (typeNames d) t := by
  cases d with
  | other => exact absurd rfl hd
  | sqlite =>
    obtain ⟨t, _, ⟨rfl, ht⟩, rfl, rfl⟩ := h
    exact ⟨t, _, rfl, .plain rfl rfl, ht⟩
  | postgres =>
    rcases h with ⟨n, _, ⟨rfl, h⟩, b, _, hb, g, _, hg, rfl, rfl⟩ | ⟨n, _, ⟨rfl, h⟩, g, _, hg, rfl, rfl⟩ |
      ⟨n, _, ⟨rfl, h⟩, g, _, hg, rfl, rfl⟩ | ⟨n, _, ⟨rfl, h⟩, _, _, hp, rfl, rfl⟩ |
      ⟨n, _, ⟨rfl, h⟩, g, _, hg, _, _, hz, rfl, rfl⟩ | ⟨n, _, ⟨rfl, h, _⟩, rfl, rfl⟩
    · refine ⟨n, _, rfl, ?_, Kw.mono (by decide +kernel) h⟩
      rcases optWord_def.1 hb with ⟨rfl, t, rfl, ht⟩ | ⟨rfl, rfl, _⟩
      · exact .word rfl ⟨t, _, rfl, Kw.mono (by decide) ht⟩
      · exact .digN (Kw.mono (by decide) h) g rfl hg
    · exact ⟨n, _, rfl, .digN (Kw.mono (by decide) h) g rfl hg, Kw.mono (by decide +kernel) h⟩
    · exact ⟨n, _, rfl, .digPS (Kw.mono (by decide) h) g rfl hg, Kw.mono (by decide +kernel) h⟩
    · obtain ⟨t, rfl, ht⟩ := kw_def.1 hp
      exact ⟨n, _, rfl, .word rfl ⟨t, _, rfl, Kw.mono (by decide) ht⟩, Kw.mono (by decide +kernel) h⟩
    · exact ⟨n, _, rfl, .zone (Kw.mono (by decide) h) g _ rfl hg hz, Kw.mono (by decide +kernel) h⟩
    · exact ⟨n, _, rfl, .plain rfl rfl, Kw.mono (by decide +kernel) h⟩
  | mysql =>
    rcases h with ⟨n, _, ⟨rfl, h⟩, g, _, hg, rfl, rfl⟩ | ⟨n, _, ⟨rfl, h⟩, g, _, hg, rfl, rfl⟩ |
      ⟨n, _, ⟨rfl, h⟩, g, _, hg, _, _, hz, rfl, rfl⟩ | ⟨n, _, ⟨rfl, h, _⟩, rfl, rfl⟩
    · exact ⟨n, _, rfl, .digN h g rfl hg, Kw.mono (by decide +kernel) h⟩
    · exact ⟨n, _, rfl, .digPS h g rfl hg, Kw.mono (by decide +kernel) h⟩
    · exact ⟨n, _, rfl, .zone h g _ rfl hg hz, Kw.mono (by decide +kernel) h⟩
    · exact ⟨n, _, rfl, .plain rfl rfl, Kw.mono (by decide +kernel) h⟩

theorem digitN_tail {x r : List Str} {g} (h : digitN x g r) : (g = none ∧ r = x) ∨
    ∃ t u y n, x = t :: u :: y ∧ Kw ["("] t ∧ PosInt u n := by
  rcases optKw_def.1 h with ⟨t, y, v, rfl, ht, ⟨n, _, ⟨u, rfl, hu⟩, _⟩, _⟩ | ⟨rfl, rfl, _⟩
  · exact .inr ⟨t, u, _, n, rfl, ht, hu⟩
  · exact .inl ⟨rfl, rfl⟩

theorem digitPS_tail {x r : List Str} {g} (h : digitPS x g r) : (g = none ∧ r = x) ∨
    ∃ t u y n, x = t :: u :: y ∧ Kw ["("] t ∧ PosInt u n := by
  rcases optKw_def.1 h with ⟨t, y, v, rfl, ht, ⟨n, _, ⟨u, rfl, hu⟩, _⟩, _⟩ | ⟨rfl, rfl, _⟩
  · exact .inr ⟨t, u, _, n, rfl, ht, hu⟩
  · exact .inl ⟨rfl, rfl⟩

theorem zone_tail {x r : List Str} {u : Unit} (h : Postgres.zone x u r) : r = x ∨ HeadIn ["WITH", "WITHOUT"] x := by
  obtain ⟨_, _, h, _, rfl⟩ := h
  rcases optKw_def.1 h with ⟨t, y, v, rfl, ht, _⟩ | ⟨_, rfl, _⟩
  · exact .inr ⟨t, y, rfl, ht⟩
  · exact .inl rfl

theorem zone_exact : Exact (fun _ _ => True) Postgres.zone Postgres.zone := by
  rintro ts v r w s ⟨_, _, h, _, rfl⟩ ⟨_, _, h', _, rfl⟩
  have : Exact (fun _ _ => True) (do kw ["TIME"]; kw ["ZONE"]) (do kw ["TIME"]; kw ["ZONE"]) := by
    rintro ts v r w s ⟨_, _, h, h1⟩ ⟨_, _, h', h1'⟩
    cases kw_same h h'
    exact ⟨kw_same h1 h1', trivial⟩
  exact ⟨(this.optKw _ _ _ _ _ h h').1, trivial⟩

/-- The words after a type name. -/
def typeTail : List String := ["(", "VARYING", "PRECISION", "WITH", "WITHOUT"]

/-- Digits or words after the name of a type. -/
theorem TForm.tail {t : Str} {x r : List Str} {τ : TypeAst} (h : TForm d t x τ r) :
    (τ = ⟨t, false, none⟩ ∧ r = x) ∨ HeadIn typeTail x := by
  cases h with
  | plain h hr => exact .inl ⟨h, hr⟩
  | digN _ g h hg =>
    rcases digitN_tail hg with ⟨rfl, rfl⟩ | ⟨t, u, y, n, rfl, ht, _⟩
    · exact .inl ⟨h, rfl⟩
    · exact .inr ⟨t, _, rfl, Kw.mono (by decide) ht⟩
  | digPS _ g h hg =>
    rcases digitPS_tail hg with ⟨rfl, rfl⟩ | ⟨t, u, y, n, rfl, ht, _⟩
    · exact .inl ⟨h, rfl⟩
    · exact .inr ⟨t, _, rfl, Kw.mono (by decide) ht⟩
  | zone _ g m h hg hz =>
    rcases digitN_tail hg with ⟨rfl, rfl⟩ | ⟨t, u, y, n, rfl, ht, _⟩
    · rcases zone_tail hz with rfl | hz
      · exact .inl ⟨h, rfl⟩
      · exact .inr (hz.mono (by decide))
    · exact .inr ⟨t, _, rfl, Kw.mono (by decide) ht⟩
  | word _ h => exact .inr (h.mono (by decide))

theorem tail_follow (d : Rdbms) {x : List Str} (h : HeadIn typeTail x) : Stuck d x := by
  cases d <;> exact h.disj (by decide +kernel)

/-- Before a word that no type reads, the type is its name. -/
theorem TForm.word_plain (hd : d ≠ .postgres) {t : Str} {x r : List Str} {τ : TypeAst} (h : TForm d t x τ r)
    (hx : HeadIn ["VARYING", "PRECISION"] x) : r = x := by
  have h1 : ∀ {t u : Str} {y : List Str}, x = t :: u :: y → ¬ Kw ["("] t := by
    rintro t u y rfl ht
    exact clash hx ⟨t, _, rfl, ht⟩ (by decide)
  cases h with
  | plain _ hr => exact hr
  | digN _ g h hg =>
    rcases digitN_tail hg with ⟨_, h⟩ | ⟨t, u, y, n, e, ht, _⟩
    · exact h
    · exact absurd ht (h1 e)
  | digPS _ g h hg =>
    rcases digitPS_tail hg with ⟨_, h⟩ | ⟨t, u, y, n, e, ht, _⟩
    · exact h
    · exact absurd ht (h1 e)
  | zone _ g m h hg hz =>
    rcases digitN_tail hg with ⟨_, rfl⟩ | ⟨t, u, y, n, e, ht, _⟩
    · rcases zone_tail hz with h | h
      · exact h
      · exact (clash hx h (by decide)).elim
    · exact absurd ht (h1 e)
  | word h => exact absurd h hd

/-- What two dialects make of the same type. -/
theorem type_step (hp : Pair d e) {ts r s : List Str} {τ σ : TypeAst} (h : typeLang d ts τ r) (h' : typeLang e ts σ s) :
    (r = s ∧ typeVal τ = typeVal σ) ∨ Stuck d r ∨ Stuck e s := by
  obtain ⟨t, x, rfl, h, _⟩ := type_form hp.left h
  obtain ⟨t', x', e1, h', _⟩ := type_form hp.right h'
  cases e1
  rcases h.tail with ⟨rfl, rfl⟩ | ht
  · rcases h'.tail with ⟨rfl, rfl⟩ | ht'
    · exact .inl ⟨rfl, rfl⟩
    · exact .inr (.inl (tail_follow d ht'))
  · rcases h'.tail with ⟨rfl, rfl⟩ | ht'
    · exact .inr (.inr (tail_follow e ht))
    · have hw : ∀ {r τ}, TForm .sqlite t x τ r → r = x := by
        intro r τ h
        cases h with
        | plain _ h => exact h
        | digN h => obtain ⟨k, hk, _⟩ := h; cases hk
        | digPS h => obtain ⟨k, hk, _⟩ := h; cases hk
        | zone h => obtain ⟨k, hk, _⟩ := h; cases hk
        | word h => cases h
      cases hp with
      | sp => cases hw h; exact .inr (.inl (tail_follow _ ht'))
      | sm => cases hw h; exact .inr (.inl (tail_follow _ ht'))
      | pm =>
        cases h with
        | plain _ h => cases h; exact .inr (.inl (tail_follow _ ht'))
        | word _ hx => cases h'.word_plain (by decide) hx; exact .inr (.inr (tail_follow _ ht'))
        | digN k g hg hr =>
          cases h' with
          | plain _ h => cases h; exact .inr (.inr (tail_follow _ ht'))
          | word h => cases h
          | digN k' g' hg' hr' =>
            obtain ⟨rfl, rfl⟩ := digitN_exact _ _ _ _ _ hr hr'
            subst hg hg'; exact .inl ⟨rfl, rfl⟩
          | digPS k' => exact (kw_disj k (by decide +kernel) k').elim
          | zone k' => exact (kw_disj k (by decide +kernel) k').elim
        | digPS k g hg hr =>
          cases h' with
          | plain _ h => cases h; exact .inr (.inr (tail_follow _ ht'))
          | word h => cases h
          | digPS k' g' hg' hr' =>
            obtain ⟨rfl, rfl⟩ := digitPS_exact _ _ _ _ _ hr hr'
            subst hg hg'; exact .inl ⟨rfl, rfl⟩
          | digN k' => exact (kw_disj k (by decide +kernel) k').elim
          | zone k' => exact (kw_disj k (by decide +kernel) k').elim
        | zone k g m hg hr hz =>
          cases h' with
          | plain _ h => cases h; exact .inr (.inr (tail_follow _ ht'))
          | word h => cases h
          | zone k' g' m' hg' hr' hz' =>
            obtain ⟨rfl, rfl⟩ := digitN_exact _ _ _ _ _ hr hr'
            obtain ⟨rfl, _⟩ := zone_exact _ _ _ _ _ hz hz'
            subst hg hg'; exact .inl ⟨rfl, rfl⟩
          | digPS k' => exact (kw_disj k (by decide +kernel) k').elim
          | digN k' => exact (kw_disj k (by decide +kernel) k').elim

/-- A type followed by the parenthesis of a list of keys, or by USING. -/
theorem type_key (hd : d ≠ .other) {t : Str} {x r : List Str} {τ : TypeAst} (h : typeLang d (t :: x) τ r)
    (hx : HeadIn ["USING"] x ∨ ∃ a u y, x = a :: u :: y ∧ Kw ["("] a ∧ ∀ n, ¬ PosInt u n) : Stuck d r := by
  obtain ⟨t', x', e1, h, _⟩ := type_form hd h
  cases e1
  have hx1 : HeadIn ["USING", "("] x := by
    rcases hx with h | ⟨a, u, y, rfl, h, _⟩
    · exact h.mono (by decide)
    · exact ⟨a, _, rfl, Kw.mono (by decide) h⟩
  have hs : Stuck d x := by cases d <;> exact hx1.disj (by decide +kernel)
  have hno : ∀ {t u : Str} {y : List Str} {n}, x = t :: u :: y → Kw ["("] t → ¬ PosInt u n := by
    rintro t u y n rfl ht hu
    rcases hx with h | ⟨a, u, y, e, h, h'⟩
    · exact clash h ⟨_, _, rfl, ht⟩ (by decide)
    · cases e; exact h' _ hu
  have : r = x := by
    cases h with
    | plain _ hr => exact hr
    | digN _ g h hg =>
      rcases digitN_tail hg with ⟨_, h⟩ | ⟨t, u, y, n, e, ht, hu⟩
      · exact h
      · exact absurd hu (hno e ht)
    | digPS _ g h hg =>
      rcases digitPS_tail hg with ⟨_, h⟩ | ⟨t, u, y, n, e, ht, hu⟩
      · exact h
      · exact absurd hu (hno e ht)
    | zone _ g m h hg hz =>
      rcases digitN_tail hg with ⟨_, rfl⟩ | ⟨t, u, y, n, e, ht, hu⟩
      · rcases zone_tail hz with h | h
        · exact h
        · exact (clash hx1 h (by decide)).elim
      · exact absurd hu (hno e ht)
    | word _ h => exact (clash hx1 h (by decide)).elim
  rw [this]; exact hs

end DDL

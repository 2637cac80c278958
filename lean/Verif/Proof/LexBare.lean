import Verif.Proof.LexMono
/-
The word being read has no quote at its front; quoted tokens end with their quote.
-/

namespace DDL

/-- A quoted token ends with its quote. -/
def Closed (t : Str) : Prop := ∀ q r, t = q :: r → Lex.isQuote q = true → ∃ m, r = m ++ [q]

namespace Lex

/-- The word being read. -/
def pend : Mode → Str
  | .top t => t
  | .p2 t => t
  | .hyphen t => t
  | .slash t => t
  | .star t => t
  | _ => []

/-- A token that is not quoted. -/
def Bare (t : Str) : Prop := ∀ c x, t = c :: x → isQuote c = false

theorem Bare.append {t : Str} (h : Bare t) {c : Char} (hc : isQuote c = false) : Bare (t ++ [c]) := by
  intro a x e1
  cases t with
  | nil => cases e1; exact hc
  | cons b t => cases e1; exact h _ _ rfl

theorem step2_bare {d : Rdbms} {t : Str} {c : Char} {m : Mode} {o : List Str} (h : step2 d t c = .go m o) (ht : Bare t) :
    Bare (pend m) := by
  have hnil : Bare [] := fun _ _ h => by cases h
  unfold step2 at h
  split at h
  · cases h; exact hnil
  split at h
  · cases h; exact hnil
  split at h
  · split at h <;> cases h
    exact hnil
  split at h
  · split at h <;> cases h
    · exact hnil
    · exact ht.append (by decide)
  split at h
  · cases h; exact hnil
  split at h
  · cases h; exact hnil
  split at h
  · cases h; exact hnil
  split at h <;> cases h
  refine ht.append ?_
  unfold isQuote
  simp_all

theorem step_bare {d : Rdbms} {n : Mode} {c : Char} {m : Mode} {o : List Str} (h : step d n c = .go m o) (ht : Bare (pend n)) :
    Bare (pend m) := by
  have hnil : Bare [] := fun _ _ h => by cases h
  cases n with
  | top t =>
    simp only [step] at h
    split at h
    · cases h; exact ht
    split at h
    · cases h; exact ht
    split at h
    · cases h; exact ht
    exact step2_bare h ht
  | p2 t => exact step2_bare h ht
  | hyphen t =>
    simp only [step] at h
    split at h
    · cases h; exact hnil
    exact step2_bare h (ht.append (by decide))
  | slash t =>
    simp only [step] at h
    split at h
    · cases h; exact hnil
    exact step2_bare h (ht.append (by decide))
  | star t =>
    simp only [step] at h
    split at h
    · cases h
    exact step2_bare h (ht.append (by decide))
  | line => simp only [step] at h; split at h <;> cases h <;> exact hnil
  | sharp => simp only [step] at h; split at h <;> cases h <;> exact hnil
  | block =>
    simp only [step] at h
    split at h
    · cases h; exact hnil
    split at h
    · cases h; exact hnil
    split at h <;> cases h <;> exact hnil
  | blockStar => simp only [step] at h; split at h <;> cases h <;> exact hnil
  | blockSlash => cases h; exact hnil
  | str q st acc =>
    simp only [step] at h
    split at h
    · cases h; exact hnil
    split at h
    · cases h; cases st <;> exact hnil
    split at h <;> cases h <;> exact hnil
  | drop q st acc => cases h; exact hnil

/-- The quote at the front of a text inside quotes. -/
def Opened : Mode → Prop
  | .str q st acc => ∃ x, acc = (q :: st).getLast (by simp) :: x
  | .drop q st acc => ∃ x, acc = (q :: st).getLast (by simp) :: x
  | _ => True

theorem Bare.closed {t : Str} (h : Bare t) : Closed t := by
  intro q r e hq
  rw [h q r e] at hq; cases hq

theorem flush_closed {t : Str} (h : Bare t) : ∀ x ∈ flush t, Closed x := by
  unfold flush
  intro x hx
  split at hx
  · cases hx
  · cases List.mem_singleton.1 hx; exact h.closed

theorem nl_closed : Closed nl := by
  intro q r e hq; cases e; exact absurd hq (by decide)

theorem flush_append_closed {t u : Str} (h : Bare t) (hu : Closed u) : ∀ x ∈ flush t ++ [u], Closed x := by
  intro x hx
  rcases List.mem_append.1 hx with hx | hx
  · exact flush_closed h x hx
  · cases List.mem_singleton.1 hx; exact hu

theorem step2_closed {d : Rdbms} {t : Str} {c : Char} {m : Mode} {o : List Str} (h : step2 d t c = .go m o) (ht : Bare t) :
    (∀ x ∈ o, Closed x) ∧ Opened m := by
  unfold step2 at h
  split at h
  · cases h; exact ⟨flush_closed ht, _, rfl⟩
  split at h
  · cases h; exact ⟨flush_closed ht, _, rfl⟩
  split at h
  · split at h <;> cases h
    exact ⟨flush_closed ht, _, rfl⟩
  split at h
  · split at h <;> cases h
    · exact ⟨flush_closed ht, trivial⟩
    · exact ⟨fun x hx => (by cases hx), trivial⟩
  split at h
  · cases h; exact ⟨flush_closed ht, trivial⟩
  split at h
  · cases h; exact ⟨flush_append_closed ht nl_closed, trivial⟩
  split at h
  · cases h
    refine ⟨flush_append_closed ht ?_, trivial⟩
    intro q r e hq
    cases e
    simp_all [isQuote]
  split at h <;> cases h
  exact ⟨fun x hx => (by cases hx), trivial⟩

theorem step_closed {d : Rdbms} {n : Mode} {c : Char} {m : Mode} {o : List Str} (h : step d n c = .go m o) (ht : Bare (pend n))
    (hn : Opened n) : (∀ x ∈ o, Closed x) ∧ Opened m := by
  have hnil : ∀ x ∈ ([] : List Str), Closed x := fun x hx => by cases hx
  have hnl : ∀ x ∈ [nl], Closed x := fun x hx => by cases List.mem_singleton.1 hx; exact nl_closed
  cases n with
  | top t =>
    simp only [step] at h
    split at h
    · cases h; exact ⟨hnil, trivial⟩
    split at h
    · cases h; exact ⟨hnil, trivial⟩
    split at h
    · cases h; exact ⟨hnil, trivial⟩
    exact step2_closed h ht
  | p2 t => exact step2_closed h ht
  | hyphen t =>
    simp only [step] at h
    split at h
    · cases h; exact ⟨flush_closed ht, trivial⟩
    exact step2_closed h (ht.append (by decide))
  | slash t =>
    simp only [step] at h
    split at h
    · cases h; exact ⟨flush_closed ht, trivial⟩
    exact step2_closed h (ht.append (by decide))
  | star t =>
    simp only [step] at h
    split at h
    · cases h
    exact step2_closed h (ht.append (by decide))
  | line => simp only [step] at h; split at h <;> cases h <;> first | exact ⟨hnl, trivial⟩ | exact ⟨hnil, trivial⟩
  | sharp => simp only [step] at h; split at h <;> cases h <;> first | exact ⟨hnl, trivial⟩ | exact ⟨hnil, trivial⟩
  | block =>
    simp only [step] at h
    split at h
    · cases h; exact ⟨hnl, trivial⟩
    split at h
    · cases h; exact ⟨hnil, trivial⟩
    split at h <;> cases h <;> exact ⟨hnil, trivial⟩
  | blockStar => simp only [step] at h; split at h <;> cases h <;> exact ⟨hnil, trivial⟩
  | blockSlash => cases h; exact ⟨hnil, trivial⟩
  | str q st acc =>
    obtain ⟨x, hx⟩ := hn
    simp only [step] at h
    split at h
    · cases h; exact ⟨hnl, x, hx⟩
    split at h
    · rename_i hc
      cases h
      cases st with
      | nil =>
        refine ⟨fun y hy => ?_, trivial⟩
        cases List.mem_singleton.1 hy
        intro a r e _
        rw [hx, List.cons_append] at e
        cases e
        exact ⟨x, by rw [hc]; rfl⟩
      | cons p st =>
        refine ⟨hnil, x ++ [c], ?_⟩
        rw [hx]; simp
    split at h <;> cases h
    · refine ⟨hnil, x ++ [c], ?_⟩
      rw [hx]; simp
    · refine ⟨hnil, x ++ [c], ?_⟩
      rw [hx]; simp
  | drop q st acc => cases h; exact ⟨hnil, hn⟩

theorem scan_closed {d : Rdbms} {cs : List Char} {m : Mode} {l : Nat} {r T : List Str} (h : scan d m cs l r = .ok T)
    (ht : Bare (pend m)) (hn : Opened m) (hr : ∀ t ∈ r, Closed t) : ∀ t ∈ T, Closed t := by
  induction cs generalizing m l r with
  | nil =>
    unfold scan at h
    have hf : ∀ o, final m = some o → ∀ x ∈ o, Closed x := by
      intro o ho
      cases m with
      | top t => cases ho; exact flush_closed ht
      | p2 t => cases ho; exact flush_closed ht
      | hyphen t => cases ho; exact flush_closed (ht.append (by decide))
      | slash t => cases ho; exact flush_closed (ht.append (by decide))
      | star t => cases ho; exact flush_closed (ht.append (by decide))
      | line => cases ho; exact fun x hx => by cases hx
      | sharp => cases ho; exact fun x hx => by cases hx
      | _ => cases ho
    split at h
    · cases h
      intro t ht
      rcases List.mem_append.1 ht with ht | ht
      · exact hr t ht
      · exact hf _ (by assumption) t ht
    · cases h
  | cons c cs ih =>
    unfold scan at h
    split at h
    · rename_i h1
      obtain ⟨h2, h3⟩ := step_closed h1 ht hn
      refine ih h (step_bare h1 ht) h3 fun t ht => ?_
      rcases List.mem_append.1 ht with ht | ht
      · exact hr t ht
      · exact h2 t ht
    · cases h

theorem lexN_closed {d : Rdbms} {n : Nat} {ddl : List Char} {T : List Str} (h : lexN d n ddl = .ok T) : ∀ t ∈ T, Closed t := by
  rcases lexN_scan d n ddl with e | e
  · rw [e] at h; cases h
  · rw [e] at h
    exact scan_closed h (fun _ _ h => by cases h) trivial fun t ht => by cases ht

end Lex

end DDL

import Verif.Spec.Memory
/-
Slices in memory: whoever appends to a slice has it for himself.
-/

namespace DDL.Mem
open DDL.Spec

/-! ### what a function may do to the memory -/

/-- From memory `h` and the arrays `ids₀`, which are given up, to memory `h'` and the arrays `ids`. -/
structure Post (h : Heap) (ids₀ : List Nat) (h' : Heap) (ids : List Nat) : Prop where
  le : h.length ≤ h'.length
  same : ∀ i, i < h.length → i ∉ ids₀ → h'[i]? = h[i]?
  nodup : ids.Nodup
  from_ : ∀ i ∈ ids, i < h'.length ∧ (i ∈ ids₀ ∨ h.length ≤ i)

theorem Post.refl {h : Heap} {ids : List Nat} (hn : ids.Nodup) (hl : ∀ i ∈ ids, i < h.length) : Post h ids h ids :=
  ⟨Nat.le_refl _, fun _ _ _ => rfl, hn, fun i hi => ⟨hl i hi, .inl hi⟩⟩

theorem Post.trans {h h1 h2 : Heap} {i0 i1 i2 : List Nat} (a : Post h i0 h1 i1) (b : Post h1 i1 h2 i2) : Post h i0 h2 i2 := by
  refine ⟨Nat.le_trans a.le b.le, fun i hi hn => ?_, b.nodup, fun i hi => ⟨(b.from_ i hi).1, ?_⟩⟩
  · rw [b.same i (Nat.lt_of_lt_of_le hi a.le) (fun hm => ?_), a.same i hi hn]
    rcases (a.from_ i hm).2 with h3 | h3
    · exact hn h3
    · omega
  · rcases (b.from_ i hi).2 with h3 | h3
    · exact (a.from_ i h3).2
    · exact .inr (Nat.le_trans a.le h3)

/-- Other arrays stay as they are, and apart. -/
theorem Post.frame {h h' : Heap} {ids0 ids F : List Nat} (p : Post h ids0 h' ids) (hn : (F ++ ids0).Nodup)
    (hl : ∀ i ∈ F, i < h.length) : Post h (F ++ ids0) h' (F ++ ids) ∧ AgreeOn F h h' := by
  have hd : ∀ i ∈ F, i ∉ ids0 := fun i hi hm => by
    rw [List.nodup_append] at hn
    exact hn.2.2 i hi i hm rfl
  refine ⟨⟨p.le, fun i hi hm => p.same i hi (fun h => hm (List.mem_append_right _ h)), ?_, fun i hi => ?_⟩,
    fun i hi => p.same i (hl i hi) (hd i hi)⟩
  · rw [List.nodup_append]
    refine ⟨(List.nodup_append.1 hn).1, p.nodup, fun i hi j hj e => ?_⟩
    subst e
    rcases (p.from_ i hj).2 with h3 | h3
    · exact hd i hi h3
    · have := hl i hi
      omega
  · rcases List.mem_append.1 hi with h3 | h3
    · exact ⟨Nat.lt_of_lt_of_le (hl i h3) p.le, .inl (List.mem_append_left _ h3)⟩
    · refine ⟨(p.from_ i h3).1, ?_⟩
      rcases (p.from_ i h3).2 with h4 | h4
      · exact .inl (List.mem_append_right _ h4)
      · exact .inr h4

/-- Only which arrays are given up matters, and some may be forgotten. -/
theorem Post.weaken {h h' : Heap} {i0 i0' i1 i1' : List Nat} (p : Post h i0 h' i1) (h0 : ∀ i ∈ i0, i ∈ i0')
    (h1 : ∀ i ∈ i1', i ∈ i1) (hn : i1'.Nodup) : Post h i0' h' i1' :=
  ⟨p.le, fun i hi hm => p.same i hi (fun h => hm (h0 i h)), hn, fun i hi => ⟨(p.from_ i (h1 i hi)).1,
    (p.from_ i (h1 i hi)).2.imp (h0 i) id⟩⟩

/-! ### values -/

/-- A kind of values: in memory `h`, `a` is `b` and uses the arrays `ids`. -/
abbrev Kind (α β : Type) := Heap → α → β → List Nat → Prop

/-- Values that only depend on the arrays they use. -/
def Framed (R : Kind α β) : Prop := ∀ h h' a b ids, R h a b ids → AgreeOn ids h h' → R h' a b ids

inductive ListR (R : Kind α β) (h : Heap) : List α → List β → List Nat → Prop
  | nil : ListR R h [] [] []
  | cons : R h a b i → ListR R h as bs is → ListR R h (a :: as) (b :: bs) (i ++ is)

theorem ListR.framed {R : Kind α β} (hf : Framed R) : Framed (ListR R) := by
  intro h h' a b ids hr
  induction hr with
  | nil => exact fun _ => .nil
  | cons h1 _ ih =>
    intro ha
    exact .cons (hf _ _ _ _ _ h1 fun i hi => ha i (List.mem_append_left _ hi)) (ih fun i hi => ha i (List.mem_append_right _ hi))

theorem ListR.snoc {R : Kind α β} {h : Heap} (hl : ListR R h as bs is) (he : R h a b i) :
    ListR R h (as ++ [a]) (bs ++ [b]) (is ++ i) := by
  induction hl with
  | nil => simpa using ListR.cons he .nil
  | cons h1 _ ih =>
    rw [List.append_assoc]
    exact .cons h1 ih

/-- A slice whose array holds its cells and nothing more. -/
def SliceR (R : Kind α β) (mk : α → Cell) : Kind (Option Sl) (List β) := fun h s bs ids =>
  match s with
  | none => bs = [] ∧ ids = []
  | some s => ∃ as is, h[s.arr]? = some (as.map mk) ∧ s.len = as.length ∧ s.len ≤ s.cap ∧ ListR R h as bs is ∧ ids = s.arr :: is

theorem SliceR.framed {R : Kind α β} {mk} (hf : Framed R) : Framed (SliceR R mk) := by
  intro h h' s b ids hr ha
  cases s with
  | none => exact hr
  | some s =>
    obtain ⟨as, is, h1, h2, h3, h4, rfl⟩ := hr
    exact ⟨as, is, (ha _ (List.mem_cons_self ..)).trans h1, h2, h3,
      ListR.framed hf _ _ _ _ _ h4 fun i hi => ha i (List.mem_cons_of_mem _ hi), rfl⟩

theorem getElem?_set_other {h : Heap} {a i : Nat} {c : List Cell} (hne : i ≠ a) : (h.set a c)[i]? = h[i]? := by
  rw [List.getElem?_set]
  simp [Ne.symm hne]

/-- `append`: the new slice is the old one with one more element. -/
theorem append_slice {R : Kind α β} {mk} (hf : Framed R) (g : Grow) {h : Heap} {s : Option Sl} {bs : List β} {i0 : List Nat}
    {a : α} {b : β} {ie : List Nat} (hs : SliceR R mk h s bs i0) (he : R h a b ie)
    (hn : (i0 ++ ie).Nodup) (hl : ∀ i ∈ i0 ++ ie, i < h.length) :
    ∃ ids, SliceR R mk (appendH g h s (mk a)).2 (appendH g h s (mk a)).1 (bs ++ [b]) ids ∧
      Post h (i0 ++ ie) (appendH g h s (mk a)).2 ids := by
  have new : ∀ as is, ListR R h as bs is → (is ++ ie).Nodup → (∀ i ∈ is ++ ie, i < h.length) →
      (∀ i ∈ is, i ∈ i0) →
      ∃ ids, SliceR R mk (alloc g h (as.map mk ++ [mk a])).2 (alloc g h (as.map mk ++ [mk a])).1 (bs ++ [b]) ids ∧
        Post h (i0 ++ ie) (alloc g h (as.map mk ++ [mk a])).2 ids := by
    intro as is h1 h2 h3 h4
    refine ⟨h.length :: (is ++ ie), ⟨as ++ [a], is ++ ie, ?_, ?_, ?_, ?_, rfl⟩, ?_, ?_, ?_, ?_⟩
    · simp [alloc]
    · simp [alloc]
    · simp only [alloc]; exact Nat.le_max_left ..
    · refine ListR.framed hf _ _ _ _ _ (h1.snoc he) fun i hi => ?_
      simp only [alloc]
      rw [List.getElem?_append_left (h3 i hi)]
    · simp [alloc]
    · intro i hi _
      simp only [alloc]
      rw [List.getElem?_append_left hi]
    · refine List.nodup_cons.2 ⟨fun hm => ?_, h2⟩
      have := h3 _ hm
      omega
    · intro i hi
      simp only [alloc, List.length_append, List.length_cons, List.length_nil]
      rcases List.mem_cons.1 hi with rfl | hi
      · exact ⟨by omega, .inr (Nat.le_refl _)⟩
      · refine ⟨by have := h3 i hi; omega, .inl ?_⟩
        rcases List.mem_append.1 hi with hi | hi
        · exact List.mem_append_left _ (h4 i hi)
        · exact List.mem_append_right _ hi
  cases s with
  | none =>
    obtain ⟨rfl, rfl⟩ := hs
    exact new [] [] .nil (by simpa using hn) (by simpa using hl) (by simp)
  | some s =>
    obtain ⟨as, is, h1, h2, h3, h4, rfl⟩ := hs
    have hd : h.getD s.arr [] = as.map mk := by simp [List.getD, h1]
    have hlt : s.arr < h.length := hl _ (by simp)
    unfold appendH
    simp only [hd]
    by_cases hc : s.len < s.cap
    · simp only [if_pos hc]
      have hnd : s.arr ∉ is ++ ie := by
        have := List.nodup_cons.1 (show (s.arr :: (is ++ ie)).Nodup from hn)
        exact this.1
      have hag : AgreeOn (is ++ ie) h (h.set s.arr (put (as.map mk) s.len (mk a))) := fun i hi =>
        getElem?_set_other fun e => hnd (e ▸ hi)
      refine ⟨s.arr :: (is ++ ie), ⟨as ++ [a], is ++ ie, ?_, ?_, hc, ListR.framed hf _ _ _ _ _ (h4.snoc he) hag, rfl⟩, ?_, ?_, hn, ?_⟩
      · rw [List.getElem?_set]
        simp only [if_pos, hlt]
        unfold put
        rw [h2, List.take_of_length_le (by simp), List.drop_eq_nil_of_le (by simp)]
        simp
      · simp [h2]
      · simp
      · intro i _ hm
        exact getElem?_set_other fun e => hm (by rw [e]; simp)
      · intro i hi
        exact ⟨by simpa using hl i hi, .inl hi⟩
    · simp only [if_neg hc]
      rw [h2, List.take_of_length_le (by simp)]
      have hn' : (s.arr :: (is ++ ie)).Nodup := hn
      exact new as is h4 (List.nodup_cons.1 hn').2 (fun i hi => hl i (List.mem_cons_of_mem _ hi))
        (fun i hi => List.mem_cons_of_mem _ hi)

/-- An empty slice literal. -/
theorem empty_slice (R : Kind α β) (mk) (h : Heap) :
    ∃ ids, SliceR R mk (emptyH h).2 (emptyH h).1 [] ids ∧ Post h [] (emptyH h).2 ids := by
  refine ⟨[h.length], ⟨[], [], by simp [emptyH], rfl, Nat.le_refl _, .nil, rfl⟩, by simp [emptyH], fun i hi _ => ?_, by simp,
    fun i hi => ?_⟩
  · simp only [emptyH]
    rw [List.getElem?_append_left hi]
  · simp only [List.mem_singleton] at hi
    subst hi
    simp [emptyH]

/-! ### functions -/

/-- A function in memory does what the function of the model does. -/
def Meets (R : Kind α β) (h : Heap) (ids₀ : List Nat) (m : MRes α) (p : CRes β) : Prop :=
  match p with
  | .ok b r => ∃ a h' ids, m = .ok a h' r ∧ R h' a b ids ∧ Post h ids₀ h' ids
  | .panic => m = .panic
  | .timeout => m = .timeout

theorem Meets.bind {R : Kind α β} {R' : Kind α' β'} {h : Heap} {ids₀ : List Nat} {m : MM α} {p : CM β} {k : α → MM α'}
    {q : β → CM β'} {s : List Str} (hm : Meets R h ids₀ (m h s) (p s))
    (hk : ∀ a b h' ids r, R h' a b ids → Post h ids₀ h' ids → Meets R' h' ids (k a h' r) (q b r)) :
    Meets R' h ids₀ ((m.bind k) h s) ((p.bind q) s) := by
  unfold MM.bind CM.bind
  cases hp : p s with
  | ok b r =>
    rw [hp] at hm
    obtain ⟨a, h', ids, e, hr, hpost⟩ := hm
    rw [e]
    have hq := hk a b h' ids r hr hpost
    simp only
    cases hq' : q b r with
    | ok b' r' =>
      rw [hq'] at hq
      obtain ⟨a', h'', ids', e', hr', hpost'⟩ := hq
      exact ⟨a', h'', ids', e', hr', hpost.trans hpost'⟩
    | panic => rw [hq'] at hq; exact hq
    | timeout => rw [hq'] at hq; exact hq
  | panic =>
    rw [hp] at hm
    have hm : m h s = .panic := hm
    rw [hm]; rfl
  | timeout =>
    rw [hp] at hm
    have hm : m h s = .timeout := hm
    rw [hm]; rfl

/-- Arrays that a function has nothing to do with. -/
theorem Meets.frame {R : Kind α β} {h : Heap} {ids₀ F : List Nat} {m : MRes α} {p : CRes β} (hm : Meets R h ids₀ m p)
    (hn : (F ++ ids₀).Nodup) (hl : ∀ i ∈ F, i < h.length) :
    Meets (fun h' a b ids => ∃ ids', ids = F ++ ids' ∧ R h' a b ids' ∧ AgreeOn F h h') h (F ++ ids₀) m p := by
  cases p with
  | ok b r =>
    obtain ⟨a, h', ids, e, hr, hp⟩ := hm
    exact ⟨a, h', F ++ ids, e, ⟨ids, rfl, hr, (hp.frame hn hl).2⟩, (hp.frame hn hl).1⟩
  | panic => exact hm
  | timeout => exact hm

theorem Meets.imp {R R' : Kind α β} {h : Heap} {i0 : List Nat} {m : MRes α} {p : CRes β} (hm : Meets R h i0 m p)
    (hi : ∀ h' a b ids, R h' a b ids → Post h i0 h' ids → ∃ ids', R' h' a b ids' ∧ Post h i0 h' ids') :
    Meets R' h i0 m p := by
  cases p with
  | ok b r =>
    obtain ⟨a, h', ids, e, hr, hp⟩ := hm
    obtain ⟨ids', h1, h2⟩ := hi _ _ _ _ hr hp
    exact ⟨a, h', ids', e, h1, h2⟩
  | panic => exact hm
  | timeout => exact hm

/-- What is given up, up to order. -/
theorem Meets.give {R : Kind α β} {h : Heap} {i0 i0' : List Nat} {m : MRes α} {p : CRes β} (hm : Meets R h i0 m p)
    (hi : ∀ i ∈ i0, i ∈ i0') : Meets R h i0' m p := by
  cases p with
  | ok b r =>
    obtain ⟨a, h', ids, e, hr, hp⟩ := hm
    exact ⟨a, h', ids, e, hr, hp.weaken hi (fun _ h => h) hp.nodup⟩
  | panic => exact hm
  | timeout => exact hm

/-- A value that does not depend on the memory. -/
def Plain (α : Type) : Kind α α := fun _ a b ids => a = b ∧ ids = []

theorem Plain.framed : Framed (Plain α) := fun _ _ _ _ _ h _ => h

theorem meets_pure {R : Kind α β} {h : Heap} {ids : List Nat} {a : α} {b : β} {s : List Str} (hr : R h a b ids)
    (hn : ids.Nodup) (hl : ∀ i ∈ ids, i < h.length) : Meets R h ids (MM.pure a h s) (CM.pure b s) :=
  ⟨a, h, ids, rfl, hr, .refl hn hl⟩

theorem meets_lift (p : CM α) (h : Heap) (s : List Str) : Meets (Plain α) h [] (MM.lift p h s) (p s) := by
  unfold MM.lift
  cases p s with
  | ok b r => exact ⟨b, h, [], rfl, ⟨rfl, rfl⟩, .refl List.nodup_nil (by simp)⟩
  | panic => rfl
  | timeout => rfl

/-- A step that leaves the memory alone. -/
theorem Meets.lift {R : Kind α β} {h : Heap} {ids : List Nat} {p : CM γ} {k : γ → MM α} {q : γ → CM β} {s : List Str}
    (hk : ∀ c r, Meets R h ids (k c h r) (q c r)) :
    Meets R h ids (((MM.lift p).bind k) h s) ((p.bind q) s) := by
  unfold MM.bind MM.lift CM.bind
  cases p s with
  | ok b r => exact hk b r
  | panic => rfl
  | timeout => rfl

theorem Meets.ifM {R : Kind α β} {h : Heap} {ids : List Nat} {c : CM Bool} {t e : MM α} {t' e' : CM β} {s : List Str}
    (ht : ∀ r, Meets R h ids (t h r) (t' r)) (he : ∀ r, Meets R h ids (e h r) (e' r)) :
    Meets R h ids ((ifM c t e) h s) ((C.ifM c t' e') s) := by
  unfold Mem.ifM C.ifM
  refine Meets.lift fun b r => ?_
  cases b
  · exact he r
  · exact ht r

theorem meets_timeout {R : Kind α β} {h : Heap} {ids : List Nat} {s : List Str} :
    Meets R h ids ((timeout : MM α) h s) ((C.timeout : CM β) s) := rfl

end DDL.Mem

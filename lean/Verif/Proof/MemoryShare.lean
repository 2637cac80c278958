import Verif.Proof.MemoryRead
/-
What can be done with a result in memory.
-/

namespace DDL.Mem
open DDL.Spec

/-- A slice that has its array for itself, up to the last cell written. -/
def Full (h : Heap) (s : Option Sl) : Prop := ∀ x, s = some x → ∃ l, h[x.arr]? = some l ∧ x.len = l.length

theorem SliceR.full {R : Kind α β} {mk} {h : Heap} {s bs ids} (hs : SliceR R mk h s bs ids) : Full h s := by
  rintro x rfl
  obtain ⟨as, is, h1, h2, _⟩ := hs
  exact ⟨_, h1, by simp [h2]⟩

theorem RefR.full {h : Heap} {a b ids} (hr : RefR h a b ids) : Full h a.columnNames := by
  obtain ⟨_, h2⟩ := hr
  cases hb : b.columnNames with
  | none =>
    rw [hb] at h2
    rw [h2.1]
    exact fun _ e => nomatch e
  | some xs =>
    rw [hb] at h2
    exact h2.2.full

theorem ListR.mem {R : Kind α β} {h : Heap} {as bs is} (hl : ListR R h as bs is) {a : α} (ha : a ∈ as) : ∃ b i, R h a b i := by
  induction hl with
  | nil => cases ha
  | cons h1 _ ih =>
    rcases List.mem_cons.1 ha with rfl | ha
    · exact ⟨_, _, h1⟩
    · exact ih ha

/-- What holds of the elements of a slice. -/
theorem SliceR.each {R : Kind α β} {mk : α → Cell} {h : Heap} {s bs ids} (hs : SliceR R mk h s bs ids) {c : Cell}
    (hc : c ∈ cells h s) : ∃ a b i, c = mk a ∧ R h a b i := by
  obtain ⟨as, is, h1, h2, rfl⟩ := slice_cells hs (.refl _)
  rw [h1] at hc
  obtain ⟨a, ha, rfl⟩ := List.mem_map.1 hc
  obtain ⟨b, i, hr⟩ := h2.mem ha
  exact ⟨a, b, i, rfl, hr⟩

theorem TabR.full {h : Heap} {a b ids} (hr : TabR h a b ids) : ∀ s ∈ slicesOfTable h a, Full h s := by
  obtain ⟨cols, con, ⟨_, _, rfl, hc, i1, i2, i3, i4, rfl, h1, h2, h3, h4⟩, rfl⟩ := hr
  intro s hs
  unfold slicesOfTable at hs
  obtain ⟨x, hx, hs⟩ := List.mem_flatMap.1 hs
  rcases List.mem_cons.1 hs with rfl | hs
  · simp only [List.mem_cons, List.not_mem_nil, or_false] at hx
    rcases hx with rfl | rfl | rfl | rfl | rfl
    · exact hc.1.full
    · exact h1.1.full
    · exact h2.1.full
    · exact h3.1.full
    · exact h4.1.full
  · obtain ⟨c, hcc, hs⟩ := List.mem_flatMap.1 hs
    simp only [List.mem_cons, List.not_mem_nil, or_false] at hx
    rcases hx with rfl | rfl | rfl | rfl | rfl
    · obtain ⟨a, b, i, rfl, r, ⟨rr, hr, _⟩, _⟩ := hc.1.each hcc
      simp only [slicesOfCell, List.mem_singleton] at hs
      subst hs
      exact hr.full
    · obtain ⟨a, b, i, rfl, hr⟩ := h1.1.each hcc
      simp only [slicesOfCell, List.mem_singleton] at hs
      subst hs
      exact hr.2.2.full
    · obtain ⟨a, b, i, rfl, hr⟩ := h2.1.each hcc
      simp only [slicesOfCell, List.mem_singleton] at hs
      subst hs
      exact hr.2.2.full
    · obtain ⟨a, b, i, rfl, hr⟩ := h3.1.each hcc
      cases hs
    · obtain ⟨a, b, i, rfl, _, j1, j2, _, hn, hr⟩ := h4.1.each hcc
      simp only [slicesOfCell, List.mem_cons, List.not_mem_nil, or_false] at hs
      rcases hs with rfl | rfl
      · exact hn.2.full
      · exact hr.full

theorem TabsR.full {h : Heap} {s ts ids} (hr : TabsR h s ts ids) : ∀ x ∈ slicesOf h s, Full h x := by
  obtain ⟨_, _, as, is, e, hl, _⟩ := tabs_read hr (.refl _)
  intro x hx
  unfold slicesOf at hx
  rw [e] at hx
  rcases List.mem_cons.1 hx with rfl | hx
  · exact SliceR.full hr.2
  · obtain ⟨t, ht, hx⟩ := List.mem_flatMap.1 hx
    obtain ⟨b, i, hb⟩ := hl.mem ht
    exact hb.full x hx

/-- `append` to a slice that has its array for itself. -/
theorem append_full (g : Grow) {h : Heap} {s : Option Sl} (hs : Full h s) (c : Cell) :
    Ext h (appendH g h s c).2 ∧ cells (appendH g h s c).2 (appendH g h s c).1 = cells h s ++ [c] := by
  have new : ∀ l, Ext h (alloc g h l).2 ∧ cells (alloc g h l).2 (alloc g h l).1 = l := by
    intro l
    refine ⟨fun i m e => ⟨[], ?_⟩, ?_⟩
    · obtain ⟨hi, _⟩ := List.getElem?_eq_some_iff.1 e
      simp only [alloc, List.append_nil]
      rw [List.getElem?_append_left hi, e]
    · simp [alloc, cells, List.getD]
  unfold appendH
  cases s with
  | none => exact ⟨(new [c]).1, (new [c]).2⟩
  | some s =>
    obtain ⟨l, h1, h2⟩ := hs s rfl
    have hd : h.getD s.arr [] = l := by simp [List.getD, h1]
    obtain ⟨hi, _⟩ := List.getElem?_eq_some_iff.1 h1
    have hput : put l s.len c = l ++ [c] := by
      unfold put
      rw [h2, List.take_of_length_le (Nat.le_refl _), List.drop_eq_nil_of_le (by omega)]
    simp only [hd]
    by_cases hcap : s.len < s.cap
    · simp only [if_pos hcap, hput]
      refine ⟨fun i m e => ?_, ?_⟩
      · by_cases hia : i = s.arr
        · subst hia
          rw [h1] at e
          cases e
          exact ⟨[c], by simp [hi]⟩
        · exact ⟨[], by rw [getElem?_set_other hia, e, List.append_nil]⟩
      · have e1 : (h.set s.arr (l ++ [c]))[s.arr]? = some (l ++ [c]) := by simp [hi]
        simp only [cells, List.getD, e1, h1, Option.getD_some, h2]
        rw [List.take_of_length_le (by simp), List.take_of_length_le (Nat.le_refl _)]
    · simp only [if_neg hcap]
      have he : cells h (some s) = l.take s.len := by simp [cells, List.getD, h1]
      rw [he]
      exact new _

/-- Two elements of a list use different arrays. -/
theorem ListR.apart {R : Kind α β} {h : Heap} {as bs is} (hl : ListR R h as bs is) (hn : is.Nodup) :
    ∀ {i j : Nat} {t u}, as[i]? = some t → as[j]? = some u → i ≠ j →
      ∃ bt it bu iu, R h t bt it ∧ R h u bu iu ∧ (∀ k ∈ it, k ∉ iu) ∧ (∀ k ∈ it, k ∈ is) ∧ ∀ k ∈ iu, k ∈ is := by
  have one : ∀ {as bs is}, ListR R h as bs is → ∀ {j : Nat} {u}, as[j]? = some u → ∃ bu iu, R h u bu iu ∧ ∀ k ∈ iu, k ∈ is := by
    intro as bs is hl
    induction hl with
    | nil => intro j u e; simp at e
    | cons h1 _ ih =>
      intro j u e
      cases j with
      | zero =>
        simp only [List.getElem?_cons_zero, Option.some.injEq] at e
        subst e
        exact ⟨_, _, h1, fun k hk => List.mem_append_left _ hk⟩
      | succ j =>
        simp only [List.getElem?_cons_succ] at e
        obtain ⟨bu, iu, h2, h3⟩ := ih e
        exact ⟨bu, iu, h2, fun k hk => List.mem_append_right _ (h3 k hk)⟩
  induction hl with
  | nil => intro i j t u e; simp at e
  | @cons a b i0 as bs is h1 hl ih =>
    have hd := List.nodup_append.1 hn
    intro i j t u ei ej hne
    cases i with
    | zero =>
      cases j with
      | zero => exact absurd rfl hne
      | succ j =>
        simp only [List.getElem?_cons_zero, Option.some.injEq] at ei
        subst ei
        simp only [List.getElem?_cons_succ] at ej
        obtain ⟨bu, iu, h2, h3⟩ := one hl ej
        exact ⟨b, i0, bu, iu, h1, h2, fun k hk hk' => hd.2.2 k hk k (h3 k hk') rfl, fun k hk => List.mem_append_left _ hk,
          fun k hk => List.mem_append_right _ (h3 k hk)⟩
    | succ i =>
      simp only [List.getElem?_cons_succ] at ei
      cases j with
      | zero =>
        simp only [List.getElem?_cons_zero, Option.some.injEq] at ej
        subst ej
        obtain ⟨bt, it, h2, h3⟩ := one hl ei
        exact ⟨bt, it, b, i0, h2, h1, fun k hk hk' => hd.2.2 k hk' k (h3 k hk) rfl,
          fun k hk => List.mem_append_right _ (h3 k hk), fun k hk => List.mem_append_left _ hk⟩
      | succ j =>
        simp only [List.getElem?_cons_succ] at ej
        obtain ⟨bt, it, bu, iu, h2, h3, h4, h5, h6⟩ := ih hd.2.1 ei ej (by omega)
        exact ⟨bt, it, bu, iu, h2, h3, h4, fun k hk => List.mem_append_right _ (h5 k hk),
          fun k hk => List.mem_append_right _ (h6 k hk)⟩

theorem AccR.nil_iff {R : Kind α β} {mk} {h : Heap} {s bs ids} (hs : AccR R mk h s bs ids) : s = Option.none ↔ bs = [] := by
  refine ⟨?_, hs.2⟩
  rintro rfl
  exact hs.1.1

theorem TabR.nil {h : Heap} {a b ids} (hr : TabR h a b ids) : NilLists h a := by
  have he := (tab_read hr (.refl _)).1
  obtain ⟨cols, con, ⟨_, _, rfl, hc, i1, i2, i3, i4, rfl, h1, h2, h3, h4⟩, rfl⟩ := hr
  refine ⟨?_, ?_, ?_, ?_, ?_, fun k hk => ?_, fun k hk => ?_⟩
  · rw [he]; exact hc.nil_iff
  · rw [he]; exact h1.nil_iff
  · rw [he]; exact h2.nil_iff
  · rw [he]; exact h3.nil_iff
  · rw [he]; exact h4.nil_iff
  · rcases hk with hk | hk
    · obtain ⟨x, _, _, e, hx⟩ := h1.1.each hk
      cases e
      exact fun e => by have := hx.2.1; rw [e] at this; cases this
    · obtain ⟨x, _, _, e, hx⟩ := h2.1.each hk
      cases e
      exact fun e => by have := hx.2.1; rw [e] at this; cases this
  · obtain ⟨x, _, _, e, _, _, _, _, hx, _⟩ := h4.1.each hk
    cases e
    exact fun e => by have := hx.1; rw [e] at this; cases this

end DDL.Mem

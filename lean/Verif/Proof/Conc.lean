import Verif.Model.Concurrent
import Verif.Proof.MemoryShare
/-
What a goroutine sees: only the arrays it made. As in Proof/Memory.lean, but a new array may have any number.
-/

namespace DDL.Conc
open DDL.Spec Mem

/-- The arrays that a goroutine made. -/
abbrev View := Nat → Option (List Cell)

/-- Change or add an array. -/
def View.set (v : View) (a : Nat) (cs : List Cell) : View := fun i => if i = a then some cs else v i

theorem set_self {v : View} {a : Nat} {cs : List Cell} : v.set a cs a = some cs := by simp [View.set]

theorem set_other {v : View} {a i : Nat} {cs : List Cell} (hne : i ≠ a) : v.set a cs i = v i := by simp [View.set, hne]

theorem set_has {v : View} {a i : Nat} {cs : List Cell} (h : v i ≠ none) : v.set a cs i ≠ none := by
  unfold View.set
  split
  · simp
  · exact h

theorem set_set {v : View} {a : Nat} {cs cs' : List Cell} : (v.set a cs).set a cs' = v.set a cs' := by
  funext i
  unfold View.set
  split <;> rfl

theorem set_same {v : View} {a : Nat} {cs : List Cell} (h : v a = some cs) : v.set a cs = v := by
  funext i
  unfold View.set
  split
  · next e => rw [e, h]
  · rfl

/-- Whatever the numbers of new arrays, the goroutine uses only arrays it made, and ends with `Q`. -/
def WP (Q : α → View → Prop) : Go α → View → Prop
  | .done a, v => Q a v
  | .new k, v => ∀ a, v a = none → WP Q (k a) (v.set a [])
  | .read a i k, v => ∃ cs, v a = some cs ∧ WP Q (k (cs.getD i noCell)) v
  | .write a i c k, v => ∃ cs, v a = some cs ∧ WP Q k (v.set a (put cs i c))

theorem WP.imp {Q Q' : α → View → Prop} (h : ∀ a v, Q a v → Q' a v) : ∀ (m : Go α) (v : View), WP Q m v → WP Q' m v
  | .done _, _, hw => h _ _ hw
  | .new k, _, hw => fun a ha => WP.imp h (k a) _ (hw a ha)
  | .read _ _ k, _, ⟨cs, h1, h2⟩ => ⟨cs, h1, WP.imp h (k _) _ h2⟩
  | .write _ _ _ k, _, ⟨cs, h1, h2⟩ => ⟨cs, h1, WP.imp h k _ h2⟩

theorem WP.bind {Q : β → View → Prop} {f : α → Go β} : ∀ (m : Go α) (v : View), WP (fun a v' => WP Q (f a) v') m v →
    WP Q (m.bind f) v
  | .done _, _, hw => hw
  | .new k, _, hw => fun a ha => WP.bind (k a) _ (hw a ha)
  | .read _ _ k, _, ⟨cs, h1, h2⟩ => ⟨cs, h1, WP.bind (k _) _ h2⟩
  | .write _ _ _ k, _, ⟨cs, h1, h2⟩ => ⟨cs, h1, WP.bind k _ h2⟩

/-! ### what a function may do -/

/-- Two views show the same in these arrays. -/
def Agree (ids : List Nat) (v v' : View) : Prop := ∀ i ∈ ids, v' i = v i

theorem Agree.sub {F F' : List Nat} {h h' : View} (ha : Agree F h h') (hs : ∀ i ∈ F', i ∈ F) : Agree F' h h' :=
  fun i hi => ha i (hs i hi)

/-- From `v` and the arrays `ids₀`, which are given up, to `v'` and the arrays `ids`. -/
structure Post (v : View) (ids₀ : List Nat) (v' : View) (ids : List Nat) : Prop where
  le : ∀ i, v i ≠ none → v' i ≠ none
  same : ∀ i, v i ≠ none → i ∉ ids₀ → v' i = v i
  nodup : ids.Nodup
  from_ : ∀ i ∈ ids, v' i ≠ none ∧ (i ∈ ids₀ ∨ v i = none)

theorem Post.refl {h : View} {ids : List Nat} (hn : ids.Nodup) (hl : ∀ i ∈ ids, h i ≠ none) : Post h ids h ids :=
  ⟨fun _ h => h, fun _ _ _ => rfl, hn, fun i hi => ⟨hl i hi, .inl hi⟩⟩

theorem Post.trans {h h1 h2 : View} {i0 i1 i2 : List Nat} (a : Post h i0 h1 i1) (b : Post h1 i1 h2 i2) : Post h i0 h2 i2 := by
  refine ⟨fun i hi => b.le i (a.le i hi), fun i hi hn => ?_, b.nodup, fun i hi => ⟨(b.from_ i hi).1, ?_⟩⟩
  · rw [b.same i (a.le i hi) (fun hm => ?_), a.same i hi hn]
    rcases (a.from_ i hm).2 with h3 | h3
    · exact hn h3
    · exact hi h3
  · rcases (b.from_ i hi).2 with h3 | h3
    · exact (a.from_ i h3).2
    · refine .inr ?_
      cases e : h i with
      | none => rfl
      | some x => exact absurd h3 (a.le i (by rw [e]; simp))

theorem Post.frame {h h' : View} {ids0 ids F : List Nat} (p : Post h ids0 h' ids) (hn : (F ++ ids0).Nodup)
    (hl : ∀ i ∈ F, h i ≠ none) : Post h (F ++ ids0) h' (F ++ ids) ∧ Agree F h h' := by
  have hd : ∀ i ∈ F, i ∉ ids0 := fun i hi hm => by
    rw [List.nodup_append] at hn
    exact hn.2.2 i hi i hm rfl
  refine ⟨⟨p.le, fun i hi hm => p.same i hi (fun h => hm (List.mem_append_right _ h)), ?_, fun i hi => ?_⟩,
    fun i hi => p.same i (hl i hi) (hd i hi)⟩
  · rw [List.nodup_append]
    refine ⟨(List.nodup_append.1 hn).1, p.nodup, fun i hi j hj e => ?_⟩
    subst e
    rcases (p.from_ i hj).2 with h3 | h3
    · exact hd i hi h3
    · exact hl i hi h3
  · rcases List.mem_append.1 hi with h3 | h3
    · exact ⟨p.le i (hl i h3), .inl (List.mem_append_left _ h3)⟩
    · refine ⟨(p.from_ i h3).1, ?_⟩
      rcases (p.from_ i h3).2 with h4 | h4
      · exact .inl (List.mem_append_right _ h4)
      · exact .inr h4

theorem Post.weaken {h h' : View} {i0 i0' i1 i1' : List Nat} (p : Post h i0 h' i1) (h0 : ∀ i ∈ i0, i ∈ i0')
    (h1 : ∀ i ∈ i1', i ∈ i1) (hn : i1'.Nodup) : Post h i0' h' i1' :=
  ⟨p.le, fun i hi hm => p.same i hi (fun h => hm (h0 i h)), hn, fun i hi => ⟨(p.from_ i (h1 i hi)).1,
    (p.from_ i (h1 i hi)).2.imp (h0 i) id⟩⟩

theorem Post.perm {h h' : View} {i0 i0' i1 i1' : List Nat} (p : Post h i0 h' i1) (h0 : ∀ i, i0'.count i = i0.count i)
    (h1 : ∀ i, i1'.count i = i1.count i) : Post h i0' h' i1' :=
  p.weaken (fun _ hi => mem_perm (fun i => (h0 i).symm) hi) (fun _ hi => mem_perm h1 hi) (nodup_perm p.nodup h1)

/-! ### values -/

/-- A kind of values: `a` is `b` and uses the arrays `ids`. -/
abbrev Kind (α β : Type) := View → α → β → List Nat → Prop

/-- Values that only depend on the arrays they use. -/
def Framed (R : Kind α β) : Prop := ∀ h h' a b ids, R h a b ids → Agree ids h h' → R h' a b ids

inductive ListR (R : Kind α β) (h : View) : List α → List β → List Nat → Prop
  | nil : ListR R h [] [] []
  | cons : R h a b i → ListR R h as bs is → ListR R h (a :: as) (b :: bs) (i ++ is)

theorem ListR.framed {R : Kind α β} (hf : Framed R) : Framed (ListR R) := by
  intro h h' a b ids hr
  induction hr with
  | nil => exact fun _ => .nil
  | cons h1 _ ih =>
    intro ha
    exact .cons (hf _ _ _ _ _ h1 fun i hi => ha i (List.mem_append_left _ hi)) (ih fun i hi => ha i (List.mem_append_right _ hi))

theorem ListR.snoc {R : Kind α β} {h : View} (hl : ListR R h as bs is) (he : R h a b i) :
    ListR R h (as ++ [a]) (bs ++ [b]) (is ++ i) := by
  induction hl with
  | nil => simpa using ListR.cons he .nil
  | cons h1 _ ih =>
    rw [List.append_assoc]
    exact .cons h1 ih

/-- A slice whose array holds its cells and nothing more. -/
def SliceR (R : Kind α β) (mk : α → Cell) : Kind (Option Sl) (List β) := fun h s bs ids =>
  match s with
  | none => bs = [] ∧ ids = []
  | some s => ∃ as is, h s.arr = some (as.map mk) ∧ s.len = as.length ∧ s.len ≤ s.cap ∧ ListR R h as bs is ∧ ids = s.arr :: is

theorem SliceR.framed {R : Kind α β} {mk} (hf : Framed R) : Framed (SliceR R mk) := by
  intro h h' s b ids hr ha
  cases s with
  | none => exact hr
  | some s =>
    obtain ⟨as, is, h1, h2, h3, h4, rfl⟩ := hr
    exact ⟨as, is, (ha _ (List.mem_cons_self ..)).trans h1, h2, h3,
      ListR.framed hf _ _ _ _ _ h4 fun i hi => ha i (List.mem_cons_of_mem _ hi), rfl⟩

theorem put_end {l : List Cell} {n : Nat} {c : Cell} (h : n = l.length) : put l n c = l ++ [c] := by
  subst h
  simp [put]

theorem copy_wp {Q : Unit → View → Prop} {src dst : Nat} {cs : List Cell} (hne : src ≠ dst) : ∀ (n i : Nat) (v : View),
    v src = some cs → v dst = some (cs.take i) → i + n ≤ cs.length → Q () (v.set dst (cs.take (i + n))) →
    WP Q (copyG src dst i n) v
  | 0, i, v, _, h2, _, hq => by
    rw [Nat.add_zero, set_same h2] at hq
    exact hq
  | n + 1, i, v, h1, h2, hl, hq => by
    refine ⟨cs, h1, cs.take i, h2, ?_⟩
    have e : put (cs.take i) i (cs.getD i noCell) = cs.take (i + 1) := by
      rw [put_end (by simp; omega), List.take_succ]
      have : i < cs.length := by omega
      simp [List.getD, this]
    rw [e]
    refine copy_wp hne n (i + 1) _ (by rw [set_other hne]; exact h1) set_self (by omega) ?_
    rw [set_set, show i + 1 + n = i + (n + 1) by omega]
    exact hq

/-- `append`: the new slice is the old one with one more element. -/
theorem append_slice {R : Kind α β} {mk} (hf : Framed R) (g : Room) {h : View} {s : Option Sl} {bs : List β} {i0 : List Nat}
    {a : α} {b : β} {ie : List Nat} (hs : SliceR R mk h s bs i0) (he : R h a b ie)
    (hn : (i0 ++ ie).Nodup) (hl : ∀ i ∈ i0 ++ ie, h i ≠ none) :
    WP (fun s' h' => s'.isSome = true ∧ ∃ ids, SliceR R mk h' s' (bs ++ [b]) ids ∧ Post h (i0 ++ ie) h' ids)
      (appendG g s (mk a)) h := by
  have new : ∀ (x m : Nat) as is, h x = none → as.length + 1 ≤ m → ListR R h as bs is → (is ++ ie).Nodup →
      (∀ i ∈ is ++ ie, h i ≠ none) → (∀ i ∈ is, i ∈ i0) →
      (some (⟨x, as.length + 1, m⟩ : Sl)).isSome = true ∧
      ∃ ids, SliceR R mk (h.set x (as.map mk ++ [mk a])) (some ⟨x, as.length + 1, m⟩) (bs ++ [b]) ids ∧
        Post h (i0 ++ ie) (h.set x (as.map mk ++ [mk a])) ids := by
    intro x m as is hx hm h1 h2 h3 h4
    have hxi : ∀ i ∈ is ++ ie, i ≠ x := fun i hi e => h3 i hi (e ▸ hx)
    refine ⟨rfl, x :: (is ++ ie), ⟨as ++ [a], is ++ ie, ?_, ?_, hm, ?_, rfl⟩, fun i hi => set_has hi, ?_, ?_, ?_⟩
    · simp [View.set]
    · simp
    · exact ListR.framed hf _ _ _ _ _ (h1.snoc he) fun i hi => set_other (hxi i hi)
    · intro i hi _
      exact set_other fun e => hi (e ▸ hx)
    · exact List.nodup_cons.2 ⟨fun hm => hxi _ hm rfl, h2⟩
    · intro i hi
      rcases List.mem_cons.1 hi with rfl | hi
      · exact ⟨by simp [View.set], .inr hx⟩
      · refine ⟨set_has (h3 i hi), .inl ?_⟩
        rcases List.mem_append.1 hi with hi | hi
        · exact List.mem_append_left _ (h4 i hi)
        · exact List.mem_append_right _ hi
  cases s with
  | none =>
    obtain ⟨rfl, rfl⟩ := hs
    intro x hx
    refine ⟨[], set_self, ?_⟩
    rw [set_set]
    exact new x _ [] [] hx (Nat.le_max_left ..) .nil (by simpa using hn) (by simpa using hl) (by simp)
  | some s =>
    obtain ⟨as, is, h1, h2, h3, h4, rfl⟩ := hs
    unfold appendG
    by_cases hc : s.len < s.cap
    · simp only [if_pos hc]
      have hnd : s.arr ∉ is ++ ie := (List.nodup_cons.1 (show (s.arr :: (is ++ ie)).Nodup from hn)).1
      refine ⟨_, h1, ?_⟩
      rw [put_end (by simp [h2])]
      have hag : Agree (is ++ ie) h (h.set s.arr (as.map mk ++ [mk a])) := fun i hi => set_other fun e => hnd (e ▸ hi)
      refine ⟨rfl, s.arr :: (is ++ ie), ⟨as ++ [a], is ++ ie, ?_, ?_, hc, ListR.framed hf _ _ _ _ _ (h4.snoc he) hag, rfl⟩,
        fun i hi => set_has hi, ?_, hn, fun i hi => ⟨set_has (hl i hi), .inl hi⟩⟩
      · simp [View.set]
      · simp [h2]
      · intro i _ hm
        exact set_other fun e => hm (by rw [e]; simp)
    · simp only [if_neg hc]
      intro x hx
      have hne : s.arr ≠ x := fun e => by rw [e, hx] at h1; cases h1
      refine WP.bind _ _ ?_
      refine copy_wp hne _ _ _ (by rw [set_other hne]; exact h1) (by rw [set_self]; simp) (by simp [h2]) ?_
      refine ⟨_, set_self, ?_⟩
      rw [set_set, set_set, Nat.zero_add, h2, List.take_of_length_le (by simp), put_end (by simp)]
      have hn' : (s.arr :: (is ++ ie)).Nodup := hn
      exact new x _ as is hx (Nat.le_max_left ..) h4 (List.nodup_cons.1 hn').2 (fun i hi => hl i (List.mem_cons_of_mem _ hi))
        (fun i hi => List.mem_cons_of_mem _ hi)

/-- An empty slice literal. -/
theorem empty_slice (R : Kind α β) (mk) (h : View) :
    WP (fun s' h' => s'.isSome = true ∧ ∃ ids, SliceR R mk h' s' [] ids ∧ Post h [] h' ids) emptyG h := by
  intro x hx
  refine ⟨rfl, [x], ⟨[], [], set_self, rfl, Nat.le_refl _, .nil, rfl⟩, fun i hi => set_has hi,
    fun i hi _ => set_other fun e => hi (e ▸ hx), by simp, fun i hi => ?_⟩
  rw [List.mem_singleton.1 hi]
  exact ⟨by simp [View.set], .inr hx⟩

/-! ### functions -/

/-- The goroutine ends as the function of the model does. -/
def Ends (R : Kind α β) (h : View) (ids₀ : List Nat) (p : CRes β) (o : CRes α) (h' : View) : Prop :=
  match p with
  | .ok b r => ∃ a ids, o = .ok a r ∧ R h' a b ids ∧ Post h ids₀ h' ids
  | .panic => o = .panic
  | .timeout => o = .timeout

/-- A function in memory does what the function of the model does. -/
def Meets (R : Kind α β) (h : View) (ids₀ : List Nat) (m : Go (CRes α)) (p : CRes β) : Prop := WP (Ends R h ids₀ p) m h

theorem Meets.post {R : Kind α β} {h h1 : View} {i0 i1 : List Nat} {m : Go (CRes α)} {p : CRes β} (hp : Post h i0 h1 i1)
    (hm : Meets R h1 i1 m p) : WP (Ends R h i0 p) m h1 := by
  refine WP.imp (fun o h' he => ?_) _ _ hm
  cases p with
  | ok b r =>
    obtain ⟨a, ids, e, hr, hp'⟩ := he
    exact ⟨a, ids, e, hr, hp.trans hp'⟩
  | panic => exact he
  | timeout => exact he

theorem Meets.bind {R : Kind α β} {R' : Kind α' β'} {h : View} {ids₀ : List Nat} {m : GM α} {p : CM β} {k : α → GM α'}
    {q : β → CM β'} {s : List Str} (hm : Meets R h ids₀ (m s) (p s))
    (hk : ∀ a b h' ids r, R h' a b ids → Post h ids₀ h' ids → Meets R' h' ids (k a r) (q b r)) :
    Meets R' h ids₀ ((m.bind k) s) ((p.bind q) s) := by
  refine WP.bind _ _ (WP.imp (fun o h' he => ?_) _ _ hm)
  unfold CM.bind
  cases hp : p s with
  | ok b r =>
    rw [hp] at he
    obtain ⟨a, ids, rfl, hr, hpost⟩ := he
    exact Meets.post hpost (hk a b h' ids r hr hpost)
  | panic =>
    rw [hp] at he
    have he : o = .panic := he
    rw [he]
    exact rfl
  | timeout =>
    rw [hp] at he
    have he : o = .timeout := he
    rw [he]
    exact rfl

theorem Meets.frame {R : Kind α β} {h : View} {ids₀ F : List Nat} {m : Go (CRes α)} {p : CRes β} (hm : Meets R h ids₀ m p)
    (hn : (F ++ ids₀).Nodup) (hl : ∀ i ∈ F, h i ≠ none) :
    Meets (fun h' a b ids => ∃ ids', ids = F ++ ids' ∧ R h' a b ids' ∧ Agree F h h') h (F ++ ids₀) m p := by
  refine WP.imp (fun o h' he => ?_) _ _ hm
  cases p with
  | ok b r =>
    obtain ⟨a, ids, e, hr, hp⟩ := he
    exact ⟨a, F ++ ids, e, ⟨ids, rfl, hr, (hp.frame hn hl).2⟩, (hp.frame hn hl).1⟩
  | panic => exact he
  | timeout => exact he

theorem Meets.imp {R R' : Kind α β} {h : View} {i0 : List Nat} {m : Go (CRes α)} {p : CRes β} (hm : Meets R h i0 m p)
    (hi : ∀ h' a b ids, R h' a b ids → Post h i0 h' ids → ∃ ids', R' h' a b ids' ∧ Post h i0 h' ids') :
    Meets R' h i0 m p := by
  refine WP.imp (fun o h' he => ?_) _ _ hm
  cases p with
  | ok b r =>
    obtain ⟨a, ids, e, hr, hp⟩ := he
    obtain ⟨ids', h1, h2⟩ := hi _ _ _ _ hr hp
    exact ⟨a, ids', e, h1, h2⟩
  | panic => exact he
  | timeout => exact he

theorem Meets.give {R : Kind α β} {h : View} {i0 i0' : List Nat} {m : Go (CRes α)} {p : CRes β} (hm : Meets R h i0 m p)
    (hi : ∀ i ∈ i0, i ∈ i0') : Meets R h i0' m p := by
  refine WP.imp (fun o h' he => ?_) _ _ hm
  cases p with
  | ok b r =>
    obtain ⟨a, ids, e, hr, hp⟩ := he
    exact ⟨a, ids, e, hr, hp.weaken hi (fun _ h => h) hp.nodup⟩
  | panic => exact he
  | timeout => exact he

/-- A value that does not depend on the memory. -/
def Plain (α : Type) : Kind α α := fun _ a b ids => a = b ∧ ids = []

theorem Plain.framed : Framed (Plain α) := fun _ _ _ _ _ h _ => h

theorem meets_pure {R : Kind α β} {h : View} {ids : List Nat} {a : α} {b : β} {s : List Str} (hr : R h a b ids)
    (hn : ids.Nodup) (hl : ∀ i ∈ ids, h i ≠ none) : Meets R h ids (GM.pure a s) (CM.pure b s) :=
  ⟨a, ids, rfl, hr, .refl hn hl⟩

theorem meets_lift (p : CM α) (h : View) (s : List Str) : Meets (Plain α) h [] (GM.lift p s) (p s) := by
  unfold Meets GM.lift WP Ends
  cases p s with
  | ok b r => exact ⟨b, [], rfl, ⟨rfl, rfl⟩, .refl List.nodup_nil (by simp)⟩
  | panic => rfl
  | timeout => rfl

theorem Meets.lift {R : Kind α β} {h : View} {ids : List Nat} {p : CM γ} {k : γ → GM α} {q : γ → CM β} {s : List Str}
    (hk : ∀ c r, Meets R h ids (k c r) (q c r)) :
    Meets R h ids (((GM.lift p).bind k) s) ((p.bind q) s) := by
  unfold GM.bind GM.lift CM.bind
  show Meets R h ids (match p s with
    | .ok a s' => k a s'
    | .panic => .done .panic
    | .timeout => .done .timeout) _
  cases p s with
  | ok b r => exact hk b r
  | panic => exact rfl
  | timeout => exact rfl

theorem Meets.skip {R : Kind α β} {h : View} {ids : List Nat} {k : Unit → GM α} {q : Unit → CM β} {s : List Str}
    (hk : ∀ c r, Meets R h ids (k c r) (q c r)) :
    Meets R h ids ((Conc.skip.bind k) s) ((C.skip.bind q) s) := Meets.lift hk

theorem Meets.ifM {R : Kind α β} {h : View} {ids : List Nat} {c : CM Bool} {t e : GM α} {t' e' : CM β} {s : List Str}
    (ht : ∀ r, Meets R h ids (t r) (t' r)) (he : ∀ r, Meets R h ids (e r) (e' r)) :
    Meets R h ids ((ifM c t e) s) ((C.ifM c t' e') s) := by
  unfold Conc.ifM C.ifM
  refine Meets.lift fun b r => ?_
  cases b
  · exact he r
  · exact ht r

theorem Meets.append {R : Kind α β} {g : Room} {s : Option Sl} {c : Cell} {k : Option Sl → GM α} {h : View} {i0 : List Nat}
    {r : List Str} {p : CRes β} {Q : Option Sl → View → Prop} (hw : WP Q (appendG g s c) h)
    (hm : ∀ s' h', Q s' h' → ∃ i1, Post h i0 h' i1 ∧ Meets R h' i1 (k s' r) p) :
    Meets R h i0 (((append g s c).bind k) r) p := by
  refine WP.bind _ _ (WP.bind _ _ (WP.imp (fun s' h' hq => ?_) _ _ hw))
  obtain ⟨i1, h1, h2⟩ := hm s' h' hq
  exact Meets.post h1 h2

theorem Meets.empty {R : Kind α β} {k : Option Sl → GM α} {h : View} {i0 : List Nat}
    {r : List Str} {p : CRes β} {Q : Option Sl → View → Prop} (hw : WP Q emptyG h)
    (hm : ∀ s' h', Q s' h' → ∃ i1, Post h i0 h' i1 ∧ Meets R h' i1 (k s' r) p) :
    Meets R h i0 ((Conc.empty.bind k) r) p := by
  refine WP.bind _ _ (WP.bind _ _ (WP.imp (fun s' h' hq => ?_) _ _ hw))
  obtain ⟨i1, h1, h2⟩ := hm s' h' hq
  exact Meets.post h1 h2

end DDL.Conc

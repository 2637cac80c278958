import Verif.Proof.ConcConv
import Verif.Proof.ParseFacts
/-
Parse and ParseForce as goroutines, and any number of them in one memory.
-/

namespace DDL.Conc
open DDL.Spec Mem

/-! ### Parse -/

theorem tokensLoop_wp (g : Room) {h0 : View} : ∀ (ts : List Str) (s : Option Sl) (h : View) (xs : List Str) (ids : List Nat),
    s.isSome = true → SliceR (Plain Str) .str h s xs ids → Post h0 [] h ids →
    WP (fun s' h' => s'.isSome = true ∧ ∃ ids, SliceR (Plain Str) .str h' s' (xs ++ ts) ids ∧ Post h0 [] h' ids) (tokensLoop g ts s) h
  | [], s, h, xs, ids, hs, h1, h2 => ⟨hs, ids, by simpa using h1, h2⟩
  | t :: ts, s, h, xs, ids, hs, h1, h2 => by
    refine WP.bind _ _ (WP.imp (fun s' h' hq => ?_) _ _ (append_slice Plain.framed g (a := t) (b := t) (ie := []) h1 ⟨rfl, rfl⟩
      (by simpa using h2.nodup) (fun i hi => (h2.from_ i (by simpa using hi)).1)))
    obtain ⟨hs', i1, a1, a2⟩ := hq
    rw [List.append_nil] at a2
    have := tokensLoop_wp g ts s' h' _ i1 hs' a1 (h2.trans a2)
    rw [List.append_assoc] at this
    exact this

theorem tokens_wp (g : Room) (h : View) (ts : List Str) :
    WP (fun s' h' => s'.isSome = true ∧ ∃ ids, SliceR (Plain Str) .str h' s' ts ids ∧ Post h [] h' ids) (tokensG g ts) h := by
  refine WP.bind _ _ (WP.imp (fun s' h' hq => ?_) _ _ (empty_slice (Plain Str) .str h))
  obtain ⟨hs, ids, h1, h2⟩ := hq
  exact tokensLoop_wp g ts s' h' [] ids hs h1 h2

theorem plain_list {h : View} {as bs : List Str} {is : List Nat} (hl : ListR (Plain Str) h as bs is) : as = bs := by
  induction hl with
  | nil => rfl
  | cons h1 _ ih => rw [h1.1, ih]

theorem readLoop_wp {Q : List Str → View → Prop} {a : Nat} {xs : List Str} {h : View} (ha : h a = some (xs.map .str)) :
    ∀ (n i : Nat), i + n = xs.length → Q (xs.drop i) h → WP Q (readLoop a i n) h
  | 0, i, hi, hq => by
    rw [List.drop_eq_nil_of_le (by omega)] at hq
    exact hq
  | n + 1, i, hi, hq => by
    refine ⟨_, ha, WP.bind _ _ (readLoop_wp ha n (i + 1) (by omega) ?_)⟩
    have hlt : i < xs.length := by omega
    have e : strOf ((xs.map Cell.str).getD i noCell) :: xs.drop (i + 1) = xs.drop i := by
      rw [List.drop_eq_getElem_cons hlt]
      simp [List.getD, hlt, strOf]
    show Q (strOf ((xs.map Cell.str).getD i noCell) :: xs.drop (i + 1)) h
    rw [e]
    exact hq

theorem read_wp {Q : List Str → View → Prop} {s : Option Sl} {xs : List Str} {ids : List Nat} {h : View}
    (hs : SliceR (Plain Str) .str h s xs ids) (hq : Q xs h) : WP Q (readG s) h := by
  cases s with
  | none =>
    obtain ⟨rfl, _⟩ := hs
    exact hq
  | some s =>
    obtain ⟨as, is, h1, h2, _, h4, _⟩ := hs
    cases plain_list h4
    exact readLoop_wp h1 _ 0 (by omega) hq

/-- The goroutine ends as the function of the model does. -/
def Done (h : View) (p : Outcome (List Table × Option VErr)) (o : Outcome (Option Sl × Option VErr)) (h' : View) : Prop :=
  match p with
  | .ok (ts, e) => ∃ s ids, o = .ok (s, e) ∧ TabsR h' s ts ids ∧ Post h [] h' ids
  | .err _ => False
  | .panic => o = .panic
  | .timeout => o = .timeout

theorem Done.post {h h1 h' : View} {p o} {i1 : List Nat} (hp : Post h [] h1 i1) (hd : Done h1 p o h') : Done h p o h' := by
  have hp : Post h [] h1 [] := hp.weaken (fun _ h => h) (by simp) List.nodup_nil
  match p, hd with
  | .ok (ts, e), ⟨s, ids, h2, h3, h4⟩ => exact ⟨s, ids, h2, h3, hp.trans h4⟩
  | .panic, hd => exact hd
  | .timeout, hd => exact hd

theorem empty_done (h : View) (e : Option VErr) :
    WP (Done h (.ok ([], e))) (emptyG.bind fun s => .done (.ok (s, e))) h := by
  refine WP.bind _ _ (WP.imp (fun s' h' hq => ?_) _ _ (empty_slice TabR .table h))
  obtain ⟨hs, ids, h1, h2⟩ := hq
  exact ⟨s', ids, rfl, ⟨hs, h1⟩, h2⟩

theorem convert_wp [CaseMap] (g : Room) (isNum : Str → Bool) (d : Rdbms) (n : Nat) (h : View) (ts : List Str) :
    Meets TabsR h [] (convertG g isNum d n ts) (C.convert isNum d n [] ts) := by
  refine Meets.empty (empty_slice TabR .table h) ?_
  rintro s' h' ⟨hs, ids, h1, h2⟩
  exact ⟨ids, h2, convert_mem g isNum d n _ ts _ [] ids ⟨hs, h1⟩ h2.nodup fun i hi => (h2.from_ i hi).1⟩

theorem parse_wp [CaseMap] (g : Room) (isNum : Str → Bool) (n : Nat) (ddl : List Char) (d : Rdbms) (h : View) :
    WP (Done h (parseN isNum n ddl d)) (parseG g isNum n ddl d) h := by
  unfold parseN parseG
  cases Lex.lexN d n ddl with
  | panic => exact rfl
  | timeout => exact rfl
  | err e => exact empty_done h (some e)
  | ok tokens =>
    refine WP.bind _ _ (WP.imp (fun s1 h1 hq => ?_) _ _ (tokens_wp g h tokens))
    obtain ⟨_, i1, a1, a2⟩ := hq
    refine WP.bind _ _ (read_wp a1 ?_)
    refine WP.imp (fun o h' hd => Done.post a2 hd) _ _ ?_
    simp only
    cases validateN isNum d n tokens with
    | panic => exact rfl
    | timeout => exact rfl
    | err e => exact empty_done h1 (some e)
    | ok vts =>
      refine WP.bind _ _ (WP.imp (fun s2 h2 hq => ?_) _ _ (tokens_wp g h1 vts))
      obtain ⟨_, i2, b1, b2⟩ := hq
      refine WP.bind _ _ (read_wp b1 ?_)
      refine WP.imp (fun o h' hd => Done.post b2 hd) _ _ ?_
      refine WP.bind _ _ (WP.imp (fun o h' hm => ?_) _ _ (convert_wp g isNum d n h2 vts))
      unfold convertN
      dsimp only
      cases hc : C.convert isNum d n [] vts with
      | panic =>
        rw [hc] at hm
        have hm : o = .panic := hm
        rw [hm]
        exact rfl
      | timeout =>
        rw [hc] at hm
        have hm : o = .timeout := hm
        rw [hm]
        exact rfl
      | ok ts r =>
        rw [hc] at hm
        obtain ⟨a, ids, rfl, hr, hp⟩ := hm
        exact ⟨a, ids, rfl, hr, hp⟩

theorem force_wp [CaseMap] (g : Room) (isNum : Str → Bool) (n : Nat) (ddl : List Char) : ∀ (ds : List Rdbms) (h : View),
    WP (Done h (parseForceLoop isNum n ddl ds)) (parseForceLoopG g isNum n ddl ds) h
  | [], h => empty_done h none
  | d :: ds, h => by
    unfold parseForceLoop parseForceLoopG
    refine WP.bind _ _ (WP.imp (fun o h' hd => ?_) _ _ (parse_wp g isNum n ddl d h))
    cases hp : parseN isNum n ddl d with
    | ok r =>
      obtain ⟨ts, e⟩ := r
      rw [hp] at hd
      obtain ⟨s, ids, rfl, h2, h3⟩ := hd
      cases e with
      | none => exact ⟨s, ids, rfl, h2, h3⟩
      | some e => exact WP.imp (fun o h' hd => Done.post h3 hd) _ _ (force_wp g isNum n ddl ds h')
    | err _ => rw [hp] at hd; exact hd.elim
    | panic =>
      rw [hp] at hd
      have hd : o = .panic := hd
      rw [hd]
      exact rfl
    | timeout =>
      rw [hp] at hd
      have hd : o = .timeout := hd
      rw [hd]
      exact rfl

/-- What the model says of a call. -/
def Call.modelN [CaseMap] (isNum : Str → Bool) (n : Nat) : Call → Outcome (List Table × Option VErr)
  | .parse ddl d => parseN isNum n ddl d
  | .parseForce ddl => parseForceN isNum n ddl

theorem call_wp [CaseMap] (g : Room) (isNum : Str → Bool) (n : Nat) (c : Call) (h : View) :
    WP (Done h (c.modelN isNum n)) (c.run g isNum n) h := by
  cases c with
  | parse ddl d => exact parse_wp g isNum n ddl d h
  | parseForce ddl => exact force_wp g isNum n ddl _ h

theorem modelN_mono [CaseMap] (isNum : Str → Bool) {n m : Nat} (hnm : n ≤ m) (c : Call) :
    c.modelN isNum n = .timeout ∨ c.modelN isNum n = c.modelN isNum m := by
  cases c with
  | parse ddl d => exact parseN_mono isNum d hnm ddl
  | parseForce ddl =>
    unfold Call.modelN parseForceN
    generalize [Rdbms.sqlite, .postgres, .mysql] = ds
    simp only
    induction ds with
    | nil => exact .inr rfl
    | cons d ds ih =>
      unfold parseForceLoop
      rcases parseN_mono isNum d hnm ddl with e | e
      · rw [e]; exact .inl rfl
      · rw [← e]
        cases parseN isNum n ddl d with
        | ok r =>
          obtain ⟨ts, e⟩ := r
          cases e with
          | none => exact .inr rfl
          | some e => exact ih
        | err _ => exact .inr rfl
        | panic => exact .inr rfl
        | timeout => exact .inr rfl

/-! ### from the view to the memory -/

/-- The memory holds what the goroutine sees. -/
def Sees (v : View) (h : Heap) : Prop := ∀ i cs, v i = some cs → h[i]? = some cs

/-- Values seen are values in memory. -/
def Real (R : Kind α β) (R' : Mem.Kind α β) : Prop := ∀ v h a b ids, Sees v h → R v a b ids → R' h a b ids

theorem listR_real {R : Kind α β} {R' : Mem.Kind α β} (hr : Real R R') : Real (ListR R) (Mem.ListR R') := by
  intro v h a b ids hs hl
  induction hl with
  | nil => exact .nil
  | cons h1 _ ih => exact .cons (hr _ _ _ _ _ hs h1) ih

theorem sliceR_real {R : Kind α β} {R' : Mem.Kind α β} {mk} (hr : Real R R') : Real (SliceR R mk) (Mem.SliceR R' mk) := by
  intro v h s b ids hs hl
  cases s with
  | none => exact hl
  | some s =>
    obtain ⟨as, is, h1, h2, h3, h4, h5⟩ := hl
    exact ⟨as, is, hs _ _ h1, h2, h3, listR_real hr _ _ _ _ _ hs h4, h5⟩

theorem plain_real : Real (Plain α) (Mem.Plain α) := fun _ _ _ _ _ _ h => h

theorem namesR_real : Real NamesR Mem.NamesR := fun _ _ _ _ _ hs h => ⟨h.1, sliceR_real plain_real _ _ _ _ _ hs h.2⟩

theorem refR_real : Real RefR Mem.RefR := by
  intro v h a b ids hs hr
  obtain ⟨h1, h2⟩ := hr
  refine ⟨h1, ?_⟩
  cases hb : b.columnNames with
  | none => rw [hb] at h2; exact h2
  | some xs => rw [hb] at h2; exact namesR_real _ _ _ _ _ hs h2

theorem conR_real : Real ConR Mem.ConR := fun _ _ _ _ _ hs ⟨r, h1, h2⟩ => ⟨r, refR_real _ _ _ _ _ hs h1, h2⟩

theorem colR_real : Real ColR Mem.ColR := fun _ _ _ _ _ hs ⟨r, h1, h2⟩ => ⟨r, conR_real _ _ _ _ _ hs h1, h2⟩

theorem pkR_real : Real PkR Mem.PkR := fun _ _ _ _ _ hs h => ⟨h.1, namesR_real _ _ _ _ _ hs h.2⟩

theorem uqR_real : Real UqR Mem.UqR := fun _ _ _ _ _ hs h => ⟨h.1, namesR_real _ _ _ _ _ hs h.2⟩

theorem fkR_real : Real FkR Mem.FkR := fun _ _ _ _ _ hs ⟨h1, i1, i2, e, h2, h3⟩ =>
  ⟨h1, i1, i2, e, namesR_real _ _ _ _ _ hs h2, refR_real _ _ _ _ _ hs h3⟩

theorem accR_real {R : Kind α β} {R' : Mem.Kind α β} {mk} (hr : Real R R') : Real (AccR R mk) (Mem.AccR R' mk) :=
  fun _ _ _ _ _ hs h => ⟨sliceR_real hr _ _ _ _ _ hs h.1, h.2⟩

theorem tcR_real : Real TcR Mem.TcR := fun _ _ _ _ _ hs ⟨i1, i2, i3, i4, e, h1, h2, h3, h4⟩ =>
  ⟨i1, i2, i3, i4, e, accR_real pkR_real _ _ _ _ _ hs h1, accR_real uqR_real _ _ _ _ _ hs h2,
    accR_real plain_real _ _ _ _ _ hs h3, accR_real fkR_real _ _ _ _ _ hs h4⟩

theorem defR_real : Real DefR Mem.DefR := fun _ _ _ _ _ hs ⟨i1, i2, e, h1, h2⟩ =>
  ⟨i1, i2, e, accR_real colR_real _ _ _ _ _ hs h1, tcR_real _ _ _ _ _ hs h2⟩

theorem tabR_real : Real TabR Mem.TabR := fun _ _ _ _ _ hs ⟨c, t, h1, h2⟩ => ⟨c, t, defR_real _ _ _ _ _ hs h1, h2⟩

theorem tabsR_real : Real TabsR Mem.TabsR := fun _ _ _ _ _ hs h => ⟨h.1, sliceR_real tabR_real _ _ _ _ _ hs h.2⟩

/-! ### goroutines in one memory -/

/-- What is true at any time; `live`: the goroutines whose arrays are still their own. -/
structure Inv (Q : Nat → α → View → Prop) (base : Nat) (live : Nat → Prop) (tr : List (Nat × Ev)) (h : Heap) (ts : List (Go α)) : Prop where
  view : ∀ i t, ts[i]? = some t → ∃ v, (∀ a, v a ≠ none ↔ (i, Ev.made a) ∈ tr) ∧ (live i → Sees v h) ∧ WP (Q i) t v
  lt : ∀ i a, (i, Ev.made a) ∈ tr → base ≤ a ∧ a < h.length
  le : base ≤ h.length
  one : ∀ i j a, (i, Ev.made a) ∈ tr → (j, Ev.made a) ∈ tr → i = j
  used : ∀ i e, (i, e) ∈ tr → (i, Ev.made e.array) ∈ tr

theorem sees_getD {v : View} {h : Heap} (hs : Sees v h) {a : Nat} {cs : List Cell} (ha : v a = some cs) : h.getD a [] = cs := by
  simp [List.getD, hs a cs ha]

theorem Inv.step {Q : Nat → α → View → Prop} {base live tr h} {ts : List (Go α)} (hI : Inv Q base live tr h ts) {i : Nat} {t : Go α}
    (hi : ts[i]? = some t) (hlive : live i) {e h' t'} (hs : step h t = some (e, h', t')) : Inv Q base live (tr ++ [(i, e)]) h' (ts.set i t') := by
  obtain ⟨v, hv, hsee, hw⟩ := hI.view i t hi
  replace hsee := hsee hlive
  have hlen : i < ts.length := by
    rcases Nat.lt_or_ge i ts.length with hlt | hge
    · exact hlt
    · rw [List.getElem?_eq_none hge] at hi; cases hi
  -- the views of the others
  have others : ∀ j u, j ≠ i → (ts.set i t')[j]? = some u → (∀ a cs, (j, Ev.made a) ∈ tr → h[a]? = some cs → h'[a]? = some cs) →
      ∃ v, (∀ a, v a ≠ none ↔ (j, Ev.made a) ∈ tr ++ [(i, e)]) ∧ (live j → Sees v h') ∧ WP (Q j) u v := by
    intro j u hj hu hh
    rw [List.getElem?_set_ne (Ne.symm hj)] at hu
    obtain ⟨w, w1, w2, w3⟩ := hI.view j u hu
    refine ⟨w, fun a => ?_, fun hl a cs ha => hh a cs ((w1 a).1 (by rw [ha]; simp)) (w2 hl a cs ha), w3⟩
    rw [w1 a, List.mem_append, List.mem_singleton]
    exact ⟨.inl, fun h => h.elim id fun e => absurd (Prod.mk.inj e).1 hj⟩
  cases t with
  | done a => cases hs
  | new k =>
    cases hs
    have hfresh : v h.length = none := by
      cases e : v h.length with
      | none => rfl
      | some x => exact absurd (hI.lt i _ ((hv _).1 (by rw [e]; simp))).2 (Nat.lt_irrefl _)
    have keep : ∀ (a : Nat) cs, h[a]? = some cs → (h ++ [[]])[a]? = some cs := fun a cs ha => by
      have : a < h.length := by
        rcases Nat.lt_or_ge a h.length with hlt | hge
        · exact hlt
        · rw [List.getElem?_eq_none hge] at ha; cases ha
      rw [List.getElem?_append_left this]; exact ha
    refine ⟨fun j u hu => ?_, ?_, ?_, ?_, ?_⟩
    · by_cases hj : j = i
      · subst hj
        rw [List.getElem?_set_self hlen] at hu
        cases hu
        refine ⟨v.set h.length [], fun a => ?_, fun _ a cs ha => ?_, hw _ hfresh⟩
        · rw [List.mem_append, List.mem_singleton, ← hv a]
          by_cases hae : a = h.length
          · subst hae
            simp [View.set]
          · rw [set_other hae]
            simp [hae]
        · by_cases hae : a = h.length
          · subst hae
            rw [set_self] at ha
            cases ha
            simp
          · rw [set_other hae] at ha
            exact keep a cs (hsee a cs ha)
      · exact others j u hj hu fun a cs _ ha => keep a cs ha
    · intro j a hm
      rw [List.length_append, List.length_singleton]
      rcases List.mem_append.1 hm with hm | hm
      · have := hI.lt j a hm
        omega
      · cases List.mem_singleton.1 hm
        have := hI.le
        omega
    · rw [List.length_append]
      have := hI.le
      omega
    · intro j1 j2 a h1 h2
      rcases List.mem_append.1 h1 with h1 | h1 <;> rcases List.mem_append.1 h2 with h2 | h2
      · exact hI.one _ _ _ h1 h2
      · cases List.mem_singleton.1 h2
        exact absurd (hI.lt _ _ h1).2 (Nat.lt_irrefl _)
      · cases List.mem_singleton.1 h1
        exact absurd (hI.lt _ _ h2).2 (Nat.lt_irrefl _)
      · cases List.mem_singleton.1 h1
        cases List.mem_singleton.1 h2
        rfl
    · intro j e hm
      rcases List.mem_append.1 hm with hm | hm
      · exact List.mem_append_left _ (hI.used j e hm)
      · cases List.mem_singleton.1 hm
        exact List.mem_append_right _ (List.mem_singleton.2 rfl)
  | read a k c =>
    cases hs
    obtain ⟨cs, hc, hw⟩ := hw
    have hmade : (i, Ev.made a) ∈ tr := (hv a).1 (by rw [hc]; simp)
    have hiff : ∀ j x, (j, Ev.made x) ∈ tr ++ [(i, Ev.read a)] ↔ (j, Ev.made x) ∈ tr := by
      intro j x
      simp
    refine ⟨fun j u hu => ?_, fun j x hm => hI.lt j x ((hiff j x).1 hm), hI.le, fun j1 j2 x h1 h2 =>
      hI.one j1 j2 x ((hiff _ _).1 h1) ((hiff _ _).1 h2), fun j e hm => ?_⟩
    · by_cases hj : j = i
      · subst hj
        rw [List.getElem?_set_self hlen] at hu
        cases hu
        rw [sees_getD hsee hc]
        exact ⟨v, fun x => (hv x).trans (hiff _ _).symm, fun _ => hsee, hw⟩
      · exact others j u hj hu fun _ _ _ h => h
    · rcases List.mem_append.1 hm with hm | hm
      · exact List.mem_append_left _ (hI.used j e hm)
      · cases List.mem_singleton.1 hm
        exact List.mem_append_left _ hmade
  | write a x c k =>
    cases hs
    obtain ⟨cs, hc, hw⟩ := hw
    have hmade : (i, Ev.made a) ∈ tr := (hv a).1 (by rw [hc]; simp)
    have halt := (hI.lt i a hmade).2
    have hiff : ∀ j x, (j, Ev.made x) ∈ tr ++ [(i, Ev.wrote a)] ↔ (j, Ev.made x) ∈ tr := by
      intro j x
      simp
    rw [sees_getD hsee hc]
    refine ⟨fun j u hu => ?_, fun j x hm => ?_, by rw [List.length_set]; exact hI.le, fun j1 j2 x h1 h2 =>
      hI.one j1 j2 x ((hiff _ _).1 h1) ((hiff _ _).1 h2), fun j e hm => ?_⟩
    · by_cases hj : j = i
      · subst hj
        rw [List.getElem?_set_self hlen] at hu
        cases hu
        refine ⟨v.set a (put cs x c), fun y => ?_, fun _ y ds hd => ?_, hw⟩
        · rw [hiff, ← hv y]
          by_cases hy : y = a
          · subst hy
            rw [set_self, hc]
            simp
          · rw [set_other hy]
        · by_cases hy : y = a
          · subst hy
            rw [set_self] at hd
            cases hd
            rw [List.getElem?_set_self halt]
          · rw [set_other hy] at hd
            rw [getElem?_set_other hy]
            exact hsee y ds hd
      · rw [← sees_getD hsee hc]
        refine others j u hj hu fun y ds hy hd => ?_
        rw [getElem?_set_other fun (e : y = a) => hj (hI.one _ _ _ (e ▸ hy) hmade)]
        exact hd
    · rw [List.length_set]
      exact hI.lt j x ((hiff j x).1 hm)
    · rcases List.mem_append.1 hm with hm | hm
      · exact List.mem_append_left _ (hI.used j e hm)
      · cases List.mem_singleton.1 hm
        exact List.mem_append_left _ hmade

/-- The goroutine has not ended. -/
def Live (ts : List (Go α)) (i : Nat) : Prop := ∃ t, ts[i]? = some t ∧ ∀ r, t ≠ .done r

theorem live_of_step {ts : List (Go α)} {i : Nat} {t : Go α} (hi : ts[i]? = some t) {h e h' t'}
    (hs : step h t = some (e, h', t')) : Live ts i :=
  ⟨t, hi, fun r hr => by rw [hr] at hs; cases hs⟩

/-- Whatever the schedule. -/
theorem exec_inv {Q : Nat → α → View → Prop} {h₀ : Heap} {ts₀ : List (Go α)}
    (h0 : ∀ i t, ts₀[i]? = some t → WP (Q i) t fun _ => none) {tr h ts} (hx : Exec h₀ ts₀ tr h ts) :
    Inv Q h₀.length (Live ts) tr h ts := by
  induction hx with
  | start =>
    exact ⟨fun i t hi => ⟨fun _ => none, fun a => (by simp), fun _ a cs ha => (by cases ha), h0 i t hi⟩, fun i a h => (by cases h),
      Nat.le_refl _, fun i j a h => (by cases h), fun i e h => (by cases h)⟩
  | step _ hi hs ih =>
    have hl := live_of_step hi hs
    have := ih.step hi hl hs
    refine ⟨fun j u hu => ?_, this.lt, this.le, this.one, this.used⟩
    obtain ⟨v, h1, h2, h3⟩ := this.view j u hu
    refine ⟨v, h1, fun hj => h2 ?_, h3⟩
    obtain ⟨w, w1, w2⟩ := hj
    rename_i i _ _ _ _ _
    by_cases hji : j = i
    · rw [hji]; exact hl
    · rw [List.getElem?_set_ne (Ne.symm hji)] at w1
      exact ⟨w, w1, w2⟩
  | other _ hl ha ih =>
    refine ⟨fun i t hi => ?_, fun i a hm => ⟨(ih.lt i a hm).1, Nat.lt_of_lt_of_le (ih.lt i a hm).2 hl⟩, Nat.le_trans ih.le hl,
      ih.one, ih.used⟩
    obtain ⟨v, h1, h2, h3⟩ := ih.view i t hi
    refine ⟨v, h1, fun hi a cs hc => ?_, h3⟩
    obtain ⟨w, w1, w2⟩ := hi
    rw [ha i a w ((h1 a).1 (by rw [hc]; simp)) w1 w2]
    exact h2 ⟨w, w1, w2⟩ a cs hc

/-- When a goroutine ends. -/
theorem exec_end {Q : Nat → α → View → Prop} {h₀ : Heap} {ts₀ : List (Go α)}
    (h0 : ∀ i t, ts₀[i]? = some t → WP (Q i) t fun _ => none) {tr h ts} (hx : Exec h₀ ts₀ tr h ts) {i : Nat} {t : Go α}
    (hi : ts[i]? = some t) {e h' r} (hs : step h t = some (e, h', .done r)) :
    ∃ v, (∀ a, v a ≠ none ↔ (i, Ev.made a) ∈ tr ++ [(i, e)]) ∧ Sees v h' ∧ Q i r v := by
  have hl := live_of_step hi hs
  have hlen : i < ts.length := by
    rcases Nat.lt_or_ge i ts.length with hlt | hge
    · exact hlt
    · rw [List.getElem?_eq_none hge] at hi; cases hi
  obtain ⟨v, h1, h2, h3⟩ := ((exec_inv h0 hx).step hi hl hs).view i (.done r) (by rw [List.getElem?_set_self hlen])
  exact ⟨v, h1, h2 hl, h3⟩

/-- A goroutine does only finitely many operations. -/
theorem no_infinite : ∀ (t : Go α) (G : Nat → Go α) (h : Nat → Heap), G 0 = t →
    ¬ ∀ n, ∃ e h', step (h n) (G n) = some (e, h', G (n + 1))
  | .done a, G, h, h0, hs => by
    obtain ⟨e, h', hs⟩ := hs 0
    rw [h0] at hs
    cases hs
  | .new k, G, h, h0, hs => by
    obtain ⟨e, h', h1⟩ := hs 0
    rw [h0] at h1
    simp only [step, Option.some.injEq, Prod.mk.injEq] at h1
    exact no_infinite (k (h 0).length) (fun n => G (n + 1)) (fun n => h (n + 1)) h1.2.2.symm fun n => hs (n + 1)
  | .read a i k, G, h, h0, hs => by
    obtain ⟨e, h', h1⟩ := hs 0
    rw [h0] at h1
    simp only [step, Option.some.injEq, Prod.mk.injEq] at h1
    exact no_infinite (k _) (fun n => G (n + 1)) (fun n => h (n + 1)) h1.2.2.symm fun n => hs (n + 1)
  | .write a i c k, G, h, h0, hs => by
    obtain ⟨e, h', h1⟩ := hs 0
    rw [h0] at h1
    simp only [step, Option.some.injEq, Prod.mk.injEq] at h1
    exact no_infinite k (fun n => G (n + 1)) (fun n => h (n + 1)) h1.2.2.symm fun n => hs (n + 1)

end DDL.Conc

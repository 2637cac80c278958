import Verif.Model.Bytes
import Verif.Spec.Bytes
import Verif.Proof.AlikeParse
import Verif.Proof.Float
import Verif.Proof.LexBare
/-
Bytes and characters: decoding is the inverse of encoding, and the validators and the converter do on the bytes of tokens
what they do on their characters.
-/

namespace DDL
open V Spec Go

theorem ofNat_toNat {b : Nat} (h : b < 256) : (UInt8.ofNat b).toNat = b := by
  rw [UInt8.toNat_ofNat']; omega

theorem encodeRune_eq (c : Char) : encodeRune c = String.utf8EncodeChar c := by
  have hv : c.toNat < 1114112 := by
    have := c.valid
    rcases this with h | ⟨_, h⟩
    · exact Nat.lt_trans h (by decide)
    · exact h
  unfold encodeRune String.utf8EncodeChar
  simp only [show c.val.toNat = c.toNat from rfl]
  generalize c.toNat = v at hv
  by_cases h1 : v ≤ 127
  · simp only [h1, if_true]
  · simp only [h1, if_false]
    by_cases h2 : v ≤ 2047
    · simp only [h2, if_true]
      rw [show 192 + v / 64 = v / 64 % 32 + 192 by omega, Nat.add_comm 128]
    · simp only [h2, if_false]
      by_cases h3 : v ≤ 65535
      · simp only [h3, if_true]
        rw [show 224 + v / 4096 = v / 4096 % 16 + 224 by omega, Nat.add_comm 128, Nat.add_comm 128]
      · simp only [h3, if_false]
        rw [show 240 + v / 262144 = v / 262144 % 8 + 240 by omega, Nat.add_comm 128, Nat.add_comm 128, Nat.add_comm 128]

theorem isCont_ofNat {x : Nat} (h : x < 64) : isCont (UInt8.ofNat (0x80 + x)) = true := by
  unfold isCont
  rw [ofNat_toNat (by omega)]
  simp only [Bool.and_eq_true, decide_eq_true_eq]
  omega

/-- Encoding a character gives at least one byte. -/
theorem encodeRune_cons (c : Char) : ∃ a r, encodeRune c = a :: r ∧ ∀ s, decodeRune a (r ++ s) = (c, s) := by
  have hc : ∀ v, c.toNat = v → Char.ofNat v = c := by
    rintro v rfl
    exact Char.ofNat_toNat c
  have hv : c.toNat < 0xD800 ∨ (0xDFFF < c.toNat ∧ c.toNat < 1114112) := c.valid
  unfold encodeRune
  generalize c.toNat = v at hc hv
  have hc := hc v rfl
  by_cases h1 : v ≤ 127
  · simp only [h1, if_true]
    refine ⟨_, _, rfl, fun s => ?_⟩
    unfold decodeRune byteChar
    rw [ofNat_toNat (by omega), if_pos (by omega), hc]
    rfl
  · simp only [h1, if_false]
    by_cases h2 : v ≤ 2047
    · simp only [h2, if_true]
      refine ⟨_, _, rfl, fun s => ?_⟩
      unfold decodeRune
      rw [ofNat_toNat (by omega), if_neg (by omega), if_pos (by omega)]
      simp only [List.cons_append, List.nil_append]
      rw [ofNat_toNat (by omega), isCont_ofNat (by omega), if_pos ⟨rfl, by omega⟩]
      rw [show (0xC0 + v / 64) % 32 * 64 + (0x80 + v % 64) % 64 = v by omega, hc]
    · simp only [h2, if_false]
      by_cases h3 : v ≤ 65535
      · simp only [h3, if_true]
        refine ⟨_, _, rfl, fun s => ?_⟩
        unfold decodeRune
        rw [ofNat_toNat (by omega), if_neg (by omega), if_neg (by omega), if_pos (by omega)]
        simp only [List.cons_append, List.nil_append]
        rw [ofNat_toNat (by omega), ofNat_toNat (by omega), isCont_ofNat (by omega), isCont_ofNat (by omega)]
        have e : (0xE0 + v / 4096) % 16 * 4096 + (0x80 + v / 64 % 64) % 64 * 64 + (0x80 + v % 64) % 64 = v := by omega
        rw [e, if_pos ⟨rfl, rfl, by omega, by omega⟩, hc]
      · simp only [h3, if_false]
        refine ⟨_, _, rfl, fun s => ?_⟩
        unfold decodeRune
        rw [ofNat_toNat (by omega), if_neg (by omega), if_neg (by omega), if_neg (by omega), if_pos (by omega)]
        simp only [List.cons_append, List.nil_append]
        rw [ofNat_toNat (by omega), ofNat_toNat (by omega), ofNat_toNat (by omega), isCont_ofNat (by omega), isCont_ofNat (by omega),
          isCont_ofNat (by omega)]
        have e : (0xF0 + v / 262144) % 8 * 262144 + (0x80 + v / 4096 % 64) % 64 * 4096 + (0x80 + v / 64 % 64) % 64 * 64 +
          (0x80 + v % 64) % 64 = v := by omega
        rw [e, if_pos ⟨rfl, rfl, rfl, by omega, by omega⟩, hc]

theorem runesN_encode (l : List Char) : ∀ n, (l.flatMap encodeRune).length ≤ n → runesN n (l.flatMap encodeRune) = l := by
  induction l with
  | nil => intro n _; cases n <;> rfl
  | cons c l ih =>
    intro n hn
    obtain ⟨a, r, h1, h2⟩ := encodeRune_cons c
    rw [List.flatMap_cons, h1, List.cons_append] at hn ⊢
    cases n with
    | zero => cases hn
    | succ n =>
      simp only [List.length_cons, List.length_append] at hn
      simp only [runesN, h2]
      rw [ih n (by omega)]

theorem flatMap_encode (l : List Char) : l.flatMap encodeRune = utf8 l := by
  unfold utf8
  rw [show encodeRune = String.utf8EncodeChar from funext encodeRune_eq]

theorem runes_utf8 (l : List Char) : runes (utf8 l) = l := by
  rw [← flatMap_encode]
  exact runesN_encode l _ (Nat.le_refl _)

theorem byte_of {a : UInt8} {x : Nat} (h : a.toNat = x) : UInt8.ofNat x = a := by
  rw [← h]; exact UInt8.ofNat_toNat

theorem char_toNat {v : Nat} (h : v < 0xD800 ∨ (0xDFFF < v ∧ v < 1114112)) : (Char.ofNat v).toNat = v := by
  have hv : v.isValidChar := h
  unfold Char.ofNat
  rw [dif_pos hv]
  rfl

theorem isCont_iff {b : UInt8} (h : isCont b = true) : 128 ≤ b.toNat ∧ b.toNat ≤ 191 := by
  unfold isCont at h
  simpa only [Bool.and_eq_true, decide_eq_true_eq] using h

/-- A character is read if its bytes are there; otherwise one byte is skipped. -/
theorem decodeRune_spec (a : UInt8) (r : List UInt8) :
    (a :: r = encodeRune (decodeRune a r).1 ++ (decodeRune a r).2) ∨ decodeRune a r = (runeError, r) := by
  unfold decodeRune
  by_cases h1 : a.toNat < 128
  · rw [if_pos h1]
    left
    unfold encodeRune byteChar
    simp only [char_toNat (.inl (Nat.lt_trans h1 (by decide))), if_pos (show a.toNat ≤ 127 by omega), byte_of rfl]
    rfl
  rw [if_neg h1]
  by_cases h2 : 0xC0 ≤ a.toNat ∧ a.toNat < 0xE0
  · rw [if_pos h2]
    match r with
    | [] => exact .inr rfl
    | b :: r1 =>
      simp only
      split
      · rename_i h
        have hb := isCont_iff h.1
        left
        unfold encodeRune
        simp only
        rw [char_toNat (by omega), if_neg (by omega), if_pos (by omega), byte_of (a := a) (by omega),
          byte_of (a := b) (by omega)]
        rfl
      · exact .inr rfl
  rw [if_neg h2]
  by_cases h3 : 0xE0 ≤ a.toNat ∧ a.toNat < 0xF0
  · rw [if_pos h3]
    match r with
    | [] => exact .inr rfl
    | [_] => exact .inr rfl
    | b :: c :: r2 =>
      simp only
      split
      · rename_i h
        have hb := isCont_iff h.1
        have hc := isCont_iff h.2.1
        left
        unfold encodeRune
        simp only
        rw [char_toNat (by omega), if_neg (by omega), if_neg (by omega), if_pos (by omega), byte_of (a := a) (by omega),
          byte_of (a := b) (by omega), byte_of (a := c) (by omega)]
        rfl
      · exact .inr rfl
  rw [if_neg h3]
  by_cases h4 : 0xF0 ≤ a.toNat ∧ a.toNat < 0xF8
  · rw [if_pos h4]
    match r with
    | [] => exact .inr rfl
    | [_] => exact .inr rfl
    | [_, _] => exact .inr rfl
    | b :: c :: e :: r3 =>
      simp only
      split
      · rename_i h
        have hb := isCont_iff h.1
        have hc := isCont_iff h.2.1
        have he := isCont_iff h.2.2.1
        left
        unfold encodeRune
        simp only
        rw [char_toNat (by omega), if_neg (by omega), if_neg (by omega), if_neg (by omega), byte_of (a := a) (by omega),
          byte_of (a := b) (by omega), byte_of (a := c) (by omega), byte_of (a := e) (by omega)]
        rfl
      · exact .inr rfl
  rw [if_neg h4]
  exact .inr rfl

/-- What is skipped does not begin with a character. -/
theorem decodeRune_bad {a : UInt8} {r : List UInt8} (h : decodeRune a r = (runeError, r)) (c : Char) (s : List UInt8) :
    a :: r ≠ encodeRune c ++ s := by
  intro e
  obtain ⟨a', r', h1, h2⟩ := encodeRune_cons c
  rw [h1, List.cons_append] at e
  cases e
  rw [h2 s] at h
  have hc := congrArg Prod.fst h
  have hs := congrArg List.length (congrArg Prod.snd h)
  simp only at hc hs
  subst hc
  have : (encodeRune runeError).length = 3 := by decide
  rw [h1] at this
  simp only [List.length_cons, List.length_append] at this hs
  omega

theorem runesN_more : ∀ (n m : Nat) (b : List UInt8), b.length ≤ n → b.length ≤ m → runesN n b = runesN m b
  | n, m, [], _, _ => by cases n <;> cases m <;> rfl
  | 0, _, _ :: _, h, _ => by cases h
  | _, 0, _ :: _, _, h => by cases h
  | n + 1, m + 1, a :: r, hn, hm => by
    have : (decodeRune a r).2.length ≤ r.length := by
      rcases decodeRune_spec a r with h | h
      · have := congrArg List.length h
        obtain ⟨x, y, h1, _⟩ := encodeRune_cons (decodeRune a r).1
        rw [h1] at this
        simp only [List.length_cons, List.length_append] at this
        omega
      · rw [h]; exact Nat.le_refl _
    simp only [List.length_cons] at hn hm
    simp only [runesN]
    rw [runesN_more n m _ (by omega) (by omega)]

theorem runes_cons (a : UInt8) (r : List UInt8) : runes (a :: r) = (decodeRune a r).1 :: runes (decodeRune a r).2 := by
  unfold runes
  simp only [List.length_cons, runesN]
  congr 1
  apply runesN_more
  · rcases decodeRune_spec a r with h | h
    · have := congrArg List.length h
      obtain ⟨x, y, h1, _⟩ := encodeRune_cons (decodeRune a r).1
      rw [h1] at this
      simp only [List.length_cons, List.length_append] at this
      omega
    · rw [h]; exact Nat.le_refl _
  · exact Nat.le_refl _

theorem ReadAs.runes {b : List UInt8} {l : List Char} (h : ReadAs b l) : runes b = l := by
  induction h with
  | nil => rfl
  | char c _ ih =>
    obtain ⟨a, r, h1, h2⟩ := encodeRune_cons c
    rw [← encodeRune_eq, h1, List.cons_append, runes_cons, h2, ih]
  | bad a hb _ ih =>
    rename_i r _ _
    rcases decodeRune_spec a r with h | h
    · rw [encodeRune_eq] at h
      exact absurd h (hb _ _)
    · rw [runes_cons, h, ih]; rfl

theorem readAs_runesN : ∀ (n : Nat) (b : List UInt8), b.length ≤ n → ReadAs b (runes b)
  | _, [], _ => .nil
  | 0, _ :: _, h => by cases h
  | n + 1, a :: r, h => by
    simp only [List.length_cons] at h
    rw [runes_cons]
    rcases decodeRune_spec a r with e | e
    · have hl := congrArg List.length e
      obtain ⟨x, y, h1, _⟩ := encodeRune_cons (decodeRune a r).1
      rw [h1] at hl
      simp only [List.length_cons, List.length_append] at hl
      have := ReadAs.char (decodeRune a r).1 (readAs_runesN n (decodeRune a r).2 (by omega))
      rw [← encodeRune_eq, ← e] at this
      exact this
    · have hb := decodeRune_bad e
      rw [e]
      refine .bad a (fun c s => ?_) (readAs_runesN n r (by omega))
      rw [← encodeRune_eq]
      exact hb c s

theorem readAs_iff {b : List UInt8} {l : List Char} : ReadAs b l ↔ runes b = l :=
  ⟨ReadAs.runes, fun h => h ▸ readAs_runesN _ b (Nat.le_refl _)⟩

theorem readAs_utf8 (l : List Char) : ReadAs (utf8 l) l := readAs_iff.2 (runes_utf8 l)

theorem goString_eq (t : Str) : goString t = utf8Str t := by
  unfold goString utf8Str
  rw [flatMap_encode]
  rfl

/-! ### ASCII -/

/-- Made of ASCII characters. -/
def Ascii (t : Str) : Prop := ∀ c ∈ t, c.toNat < 128

instance (t : Str) : Decidable (Ascii t) := inferInstanceAs (Decidable (∀ c ∈ t, _))

theorem enc_ascii {c : Char} (h : c.toNat < 128) : (String.utf8EncodeChar c).map byteChar = [c] := by
  rw [← encodeRune_eq]
  unfold encodeRune
  simp only [show c.toNat ≤ 127 by omega, if_true]
  unfold byteChar
  rw [List.map_cons, ofNat_toNat (by omega), Char.ofNat_toNat]
  rfl

theorem byteChar_nat (b : UInt8) : (byteChar b).toNat = b.toNat :=
  toNat_ofNat (by have := b.toNat_lt; omega)

/-- The bytes of other characters are not ASCII. -/
theorem enc_other {c : Char} (h : ¬ c.toNat < 128) :
    ∃ a b r, (String.utf8EncodeChar c).map byteChar = a :: b :: r ∧ ∀ x ∈ a :: b :: r, 128 ≤ x.toNat := by
  have hv : c.toNat < 0xD800 ∨ (0xDFFF < c.toNat ∧ c.toNat < 1114112) := c.valid
  rw [← encodeRune_eq]
  unfold encodeRune
  generalize c.toNat = v at h hv
  simp only [show ¬ v ≤ 127 by omega, if_false]
  by_cases h2 : v ≤ 2047
  · simp only [h2, if_true]
    refine ⟨_, _, _, rfl, fun x hx => ?_⟩
    simp only [List.mem_cons, List.map_nil, List.not_mem_nil, or_false] at hx
    rcases hx with rfl | rfl <;> rw [byteChar_nat, ofNat_toNat (by omega)] <;> omega
  · simp only [h2, if_false]
    by_cases h3 : v ≤ 65535
    · simp only [h3, if_true]
      refine ⟨_, _, _, rfl, fun x hx => ?_⟩
      simp only [List.mem_cons, List.map_cons, List.map_nil, List.not_mem_nil, or_false] at hx
      rcases hx with rfl | rfl | rfl <;> rw [byteChar_nat, ofNat_toNat (by omega)] <;> omega
    · simp only [h3, if_false]
      refine ⟨_, _, _, rfl, fun x hx => ?_⟩
      simp only [List.mem_cons, List.map_cons, List.map_nil, List.not_mem_nil, or_false] at hx
      rcases hx with rfl | rfl | rfl | rfl <;> rw [byteChar_nat, ofNat_toNat (by omega)] <;> omega

theorem utf8Str_nil : utf8Str [] = [] := rfl

theorem utf8Str_cons (c : Char) (t : Str) : utf8Str (c :: t) = (String.utf8EncodeChar c).map byteChar ++ utf8Str t := by
  unfold utf8Str utf8
  rw [List.flatMap_cons, List.map_append]
  rfl

theorem utf8Str_append (t u : Str) : utf8Str (t ++ u) = utf8Str t ++ utf8Str u := by
  unfold utf8Str utf8
  rw [List.flatMap_append, List.map_append]

theorem utf8Str_flatten (ts : List Str) : utf8Str ts.flatten = (ts.map utf8Str).flatten := by
  induction ts with
  | nil => rfl
  | cons t ts ih => rw [List.flatten_cons, utf8Str_append, ih]; rfl

theorem utf8Str_ascii {t : Str} (h : Ascii t) : utf8Str t = t := by
  induction t with
  | nil => rfl
  | cons c t ih =>
    rw [utf8Str_cons, enc_ascii (h c (List.mem_cons_self ..)), ih fun c hc => h c (List.mem_cons_of_mem _ hc)]
    rfl

theorem utf8Str_not_ascii {t : Str} (h : ¬ Ascii t) : ¬ Ascii (utf8Str t) := by
  induction t with
  | nil => exact absurd (fun c hc => by cases hc) h
  | cons c t ih =>
    rw [utf8Str_cons]
    intro ha
    by_cases hc : c.toNat < 128
    · have : ¬ Ascii t := by
        intro ht
        refine h fun x hx => ?_
        rcases List.mem_cons.1 hx with rfl | hx
        · exact hc
        · exact ht x hx
      exact ih this fun x hx => ha x (List.mem_append_right _ hx)
    · obtain ⟨a, b, r, h1, h2⟩ := enc_other hc
      rw [h1] at ha
      have := ha a (List.mem_append_left _ (List.mem_cons_self ..))
      have := h2 a (List.mem_cons_self ..)
      omega

/-- ASCII texts are the same in both forms. -/
theorem utf8Str_eq_ascii {t a : Str} (ha : Ascii a) : t = a ↔ utf8Str t = a := by
  constructor
  · rintro rfl; exact utf8Str_ascii ha
  · intro h
    by_cases ht : Ascii t
    · rw [utf8Str_ascii ht] at h; exact h
    · exact absurd (h ▸ ha) (utf8Str_not_ascii ht)

theorem upC_other {c : Char} (h : 128 ≤ c.toNat) : upC c = c := by
  apply toNat_inj; rw [upC_nat, if_neg (by omega)]

theorem upC_ascii {c : Char} (h : c.toNat < 128) : (upC c).toNat < 128 := by
  rw [upC_nat]; split <;> omega

theorem utf8Str_toUpper (t : Str) : utf8Str (toUpper t) = toUpper (utf8Str t) := by
  induction t with
  | nil => rfl
  | cons c t ih =>
    have e : toUpper (c :: t) = upC c :: toUpper t := rfl
    have ea : ∀ a b : Str, toUpper (a ++ b) = toUpper a ++ toUpper b := fun a b => List.map_append
    rw [e, utf8Str_cons, utf8Str_cons, ea, ih]
    congr 1
    by_cases hc : c.toNat < 128
    · rw [enc_ascii hc, enc_ascii (upC_ascii hc)]; rfl
    · rw [upC_other (by omega)]
      obtain ⟨a, b, r, h1, h2⟩ := enc_other hc
      rw [h1]
      unfold toUpper
      conv => lhs; rw [← List.map_id (a :: b :: r)]
      exact (List.map_congr_left fun x hx => upC_other (h2 x hx)).symm

theorem utf8Str_upper (t : Str) : utf8Str (upper t) = upper (utf8Str t) := by
  rw [upper_eq, upper_eq]; exact utf8Str_toUpper t

theorem ascii_words (d : Rdbms) : ∀ k ∈ grammarWords d, Ascii (S k) ∧ Ascii (toLower (S k)) := by
  cases d <;> decide +kernel

/-! ### Numbers and names are ASCII -/

theorem dig_ascii {c : Char} (h : isDig c = true) : c.toNat < 128 := by
  unfold isDig at h
  simp only [Bool.and_eq_true, decide_eq_true_eq] at h
  exact Nat.lt_of_le_of_lt h.2 (by decide)

theorem Ascii.cons {c : Char} {t : Str} (h : c.toNat < 128) (ht : Ascii t) : Ascii (c :: t) := by
  intro x hx
  rcases List.mem_cons.1 hx with rfl | hx
  · exact h
  · exact ht x hx

theorem Ascii.append {t u : Str} (h : Ascii t) (hu : Ascii u) : Ascii (t ++ u) := by
  intro x hx
  rcases List.mem_append.1 hx with hx | hx
  · exact h x hx
  · exact hu x hx

theorem Ascii.tail {c : Char} {t : Str} (h : Ascii (c :: t)) : Ascii t := fun x hx => h x (List.mem_cons_of_mem _ hx)

theorem ident_ascii {t : Str} (h : matchIdent t = true) : Ascii t := by
  have h1 : ∀ c, isAlpha_ c = true → c.toNat < 128 := by
    intro c h
    unfold isAlpha_ at h
    simp only [Bool.or_eq_true, Bool.and_eq_true, decide_eq_true_eq, beq_iff_eq] at h
    rcases h with (h | h) | rfl
    · exact Nat.lt_of_le_of_lt h.2 (by decide)
    · exact Nat.lt_of_le_of_lt h.2 (by decide)
    · decide
  have h2 : ∀ c, isDig c = true → c.toNat < 128 := fun c h => dig_ascii h
  cases t with
  | nil => cases h
  | cons c t =>
    unfold matchIdent at h
    rw [Bool.and_eq_true, List.all_eq_true] at h
    intro x hx
    rcases List.mem_cons.1 hx with rfl | hx
    · exact h1 _ h.1
    · have := h.2 x hx
      rw [Bool.or_eq_true] at this
      rcases this with h | h
      · exact h1 _ h
      · exact h2 _ h

theorem splitSign_ascii {t : Str} (h : Ascii (splitSign t).2) : Ascii t := by
  unfold splitSign at h
  split at h
  · exact Ascii.cons (by decide) h
  · exact Ascii.cons (by decide) h
  · exact h

theorem atoi_not_ascii {t : Str} (h : ¬ Ascii t) : atoi t = (0, false) := by
  unfold atoi
  have : ((splitSign t).2.isEmpty || !(splitSign t).2.all isDig) = true := by
    by_cases hd : (splitSign t).2.all isDig = true
    · refine absurd (splitSign_ascii fun c hc => ?_) h
      exact dig_ascii (List.all_eq_true.1 hd c hc)
    · rw [Bool.not_eq_true] at hd
      rw [hd]; simp
  simp only [this, if_true]

theorem lowC_ascii {c p : Char} (h : lowC c = p) (hp : p.toNat < 128) : c.toNat < 128 := by
  have := lowC_nat c
  rw [h] at this
  split at this <;> omega

theorem equal_ascii {t p : Str} (h : equalIgnoreCase t p = true) (hp : Ascii p) : Ascii t := by
  induction t generalizing p with
  | nil => intro c hc; cases hc
  | cons c t ih =>
    cases p with
    | nil => cases h
    | cons q p =>
      simp only [equalIgnoreCase, Bool.and_eq_true, beq_iff_eq] at h
      exact Ascii.cons (lowC_ascii h.1 (hp _ (List.mem_cons_self ..))) (ih h.2 hp.tail)

theorem special_ascii {t : Str} (h : special t = true) : Ascii t := by
  unfold special at h
  cases t with
  | nil => cases h
  | cons c r =>
    simp only at h
    have hi : ∀ r, (equalIgnoreCase r (S "inf") || equalIgnoreCase r (S "infinity")) = true → Ascii r := by
      intro r h
      rw [Bool.or_eq_true] at h
      rcases h with h | h
      · exact equal_ascii h (by decide)
      · exact equal_ascii h (by decide)
    split at h
    · rename_i hc
      rw [Bool.or_eq_true, beq_iff_eq, beq_iff_eq] at hc
      refine Ascii.cons ?_ (hi _ h)
      rcases hc with rfl | rfl <;> decide
    · rw [Bool.or_eq_true] at h
      rcases h with h | h
      · exact hi _ h
      · exact equal_ascii h (by decide)

theorem digit_ascii {hex : Bool} {c : Char} {v : Nat} (h : digit hex c = some v) : c.toNat < 128 := by
  unfold digit at h
  split at h
  · exact dig_ascii (by assumption)
  · split at h
    · rename_i h1
      simp only [Bool.and_eq_true, decide_eq_true_eq] at h1
      have h2 := lowC_nat c
      have h3 : 'f'.toNat = 102 := rfl
      split at h2 <;> omega
    · cases h

theorem readMant_ascii {hex dot : Bool} {m f : Nat} {sd : Bool} {t : Str} (h : Ascii (readMant hex dot m f sd t).rest) :
    Ascii t := by
  induction t generalizing dot m f sd with
  | nil => intro c hc; cases hc
  | cons c t ih =>
    unfold readMant at h
    split at h
    · rename_i h1
      rw [beq_iff_eq] at h1; subst h1
      exact Ascii.cons (by decide) (ih h)
    · split at h
      · rename_i h1
        rw [beq_iff_eq] at h1; subst h1
        split at h
        · exact h
        · exact Ascii.cons (by decide) (ih h)
      · split at h
        · exact Ascii.cons (digit_ascii (by assumption)) (ih h)
        · exact h

theorem expDigits_ascii {k e : Nat} {t : Str} (h : expDigits k t = some e) : Ascii t := by
  induction t generalizing k with
  | nil => intro c hc; cases hc
  | cons c t ih =>
    unfold expDigits at h
    split at h
    · rename_i h1
      rw [beq_iff_eq] at h1; subst h1
      exact Ascii.cons (by decide) (ih h)
    · split at h
      · exact Ascii.cons (dig_ascii (by assumption)) (ih h)
      · cases h

theorem readExp_ascii {t : Str} {x : Bool × Nat} (h : readExp t = some x) : Ascii t := by
  unfold readExp at h
  apply splitSign_ascii
  revert h
  generalize splitSign t = p
  obtain ⟨neg, r⟩ := p
  intro h
  cases r with
  | nil => intro c hc; cases hc
  | cons c r =>
    simp only at h
    split at h
    · cases he : expDigits 0 (c :: r) with
      | none => rw [he] at h; cases h
      | some e => exact expDigits_ascii he
    · cases h

theorem readNumber_ascii {hex : Bool} {t : Str} (h : readNumber hex t = true) : Ascii t := by
  unfold readNumber at h
  refine readMant_ascii (hex := hex) (dot := false) (m := 0) (f := 0) (sd := false) ?_
  revert h
  generalize readMant hex false 0 0 false t = m
  intro h
  simp only at h
  have h := (Bool.eq_false_or_eq_true (!m.sawdigits)).elim (fun e => by rw [e] at h; cases h)
    (fun e => by rw [e] at h; exact h)
  cases hr : m.rest with
  | nil => intro c hc; cases hc
  | cons c r =>
    rw [hr] at h
    simp only at h
    by_cases hc : (lowC c == (if hex then 'p' else 'e')) = true
    · rw [if_pos hc] at h
      rw [beq_iff_eq] at hc
      refine Ascii.cons (lowC_ascii hc (by cases hex <;> decide)) ?_
      cases he : readExp r with
      | none => rw [he] at h; cases h
      | some x => exact readExp_ascii he
    · rw [if_neg hc] at h; cases h

theorem isNumeric_ascii {t : Str} (h : isNumeric t = true) : Ascii t := by
  unfold isNumeric at h
  rw [Bool.or_eq_true] at h
  rcases h with h | h
  · exact special_ascii h
  · rw [Bool.and_eq_true] at h
    apply splitSign_ascii
    have h := h.1
    revert h
    generalize (splitSign t).2 = r
    intro h
    cases hp : hexPrefix r with
    | none => rw [hp] at h; exact readNumber_ascii h
    | some x =>
      rw [hp] at h
      unfold hexPrefix at hp
      split at hp
      · split at hp
        · rename_i hx
          rw [beq_iff_eq] at hx
          cases hp
          exact Ascii.cons (by decide) (Ascii.cons (lowC_ascii hx (by decide)) (readNumber_ascii h))
        · cases hp
      · cases hp

/-- A number test that does not see the difference between bytes and characters. -/
def NumBytes (isNum : Str → Bool) : Prop := ∀ t, isNum (utf8Str t) = isNum t

theorem numBytes_of_ascii {isNum : Str → Bool} (h : ∀ t, isNum t = true → Ascii t) : NumBytes isNum := by
  intro t
  by_cases ht : Ascii t
  · rw [utf8Str_ascii ht]
  · rw [Bool.eq_iff_iff]
    exact ⟨fun h' => absurd (h _ h') (utf8Str_not_ascii ht), fun h' => absurd (h _ h') ht⟩

theorem isNumeric_bytes : NumBytes isNumeric := numBytes_of_ascii fun _ => isNumeric_ascii

/-! ### The same steps -/

theorem utf8Str_head {c : Char} {r : Str} : ∃ a x, utf8Str (c :: r) = a :: x ∧
    ((c.toNat < 128 ∧ a = c ∧ x = utf8Str r) ∨ (128 ≤ c.toNat ∧ 128 ≤ a.toNat)) := by
  rw [utf8Str_cons]
  by_cases hc : c.toNat < 128
  · rw [enc_ascii hc]
    exact ⟨c, utf8Str r, rfl, .inl ⟨hc, rfl, rfl⟩⟩
  · obtain ⟨a, b, x, h1, h2⟩ := enc_other hc
    rw [h1]
    exact ⟨a, _, rfl, .inr ⟨by omega, h2 a (List.mem_cons_self ..)⟩⟩

theorem utf8Str_eq_nil {t : Str} : t = [] ↔ utf8Str t = [] := utf8Str_eq_ascii (fun c hc => by cases hc)

/-- A token and its bytes. -/
def UT (t t' : Str) : Prop := t' = utf8Str t ∧ Closed t

theorem word_closed (d : Rdbms) : ∀ k ∈ grammarWords d, Closed (S k) := by
  have : ∀ k ∈ grammarWords d, Lex.isQuote ((S k).headD ' ') = false := by cases d <;> decide +kernel
  intro k hk q r h hq
  have := this k hk
  rw [h] at this
  rw [show Lex.isQuote q = false from this] at hq
  cases hq

theorem utf8_alike {isNum : Str → Bool} {d : Rdbms} (hN : NumBytes isNum) : AlikeV d isNum UT where
  eof := ⟨(utf8Str_ascii (by decide)).symm, fun q r h hq => by
    have : Lex.isQuote (EOF.headD ' ') = false := by decide
    rw [h] at this
    rw [show Lex.isQuote q = false from this] at hq
    cases hq⟩
  lit k hk := ⟨(utf8Str_ascii (ascii_words d k hk).1).symm, word_closed d k hk⟩
  kw k hk := by
    rintro t t' ⟨rfl, _⟩
    have hu := grammarWords_upper d k hk
    obtain ⟨h1, h2⟩ := ascii_words d k hk
    rw [Bool.eq_iff_iff, isKw_one, isKw_one, hu, ← utf8Str_eq_ascii h1, ← utf8Str_eq_ascii h2]
  up k hk := by
    rintro t t' ⟨rfl, _⟩
    rw [← utf8Str_toUpper]
    exact utf8Str_eq_ascii (ascii_words d k hk).1
  nl := by rintro t t' ⟨rfl, _⟩; exact utf8Str_eq_ascii (by decide)
  num := by rintro t t' ⟨rfl, _⟩; exact (hN t).symm
  int := by
    rintro t t' ⟨rfl, _⟩
    by_cases ht : Ascii t
    · rw [utf8Str_ascii ht]
    · rw [atoi_not_ascii ht, atoi_not_ascii (utf8Str_not_ascii ht)]
  nil := by rintro t t' ⟨rfl, _⟩; exact utf8Str_eq_nil
  head c r c' r' h q hq := by
    have hq : q.toNat < 128 := by
      simp only [List.mem_cons, List.not_mem_nil, or_false] at hq
      rcases hq with rfl | rfl | rfl <;> decide
    obtain ⟨a, x, h1, h2⟩ := @utf8Str_head c r
    have h := h.1
    rw [h1] at h
    cases h
    rcases h2 with ⟨_, rfl, _⟩ | ⟨h2, h3⟩
    · exact Iff.rfl
    · constructor
      · rintro rfl; omega
      · rintro rfl; omega
  plain := by
    rintro t t' ⟨rfl, _⟩
    by_cases ht : Ascii t
    · rw [utf8Str_ascii ht]
    · unfold plainName
      have h1 : matchIdent t = false := by
        rw [← Bool.not_eq_true]; exact fun h => ht (ident_ascii h)
      have h2 : matchIdent (utf8Str t) = false := by
        rw [← Bool.not_eq_true]; exact fun h => utf8Str_not_ascii ht (ident_ascii h)
      rw [h1, h2]; rfl
  short q hq r r' h := by
    have hq : q.toNat < 128 := by
      simp only [List.mem_cons, List.not_mem_nil, or_false] at hq
      rcases hq with rfl | rfl | rfl <;> decide
    have h := h.1
    rw [utf8Str_cons, enc_ascii hq] at h
    cases h
    exact utf8Str_eq_nil

/-! ### The same results -/

section
variable {d : Rdbms}

theorem each_map {xs ys : List Str} (h : Each UT xs ys) : ys = xs.map utf8Str := by
  induction h with
  | nil => rfl
  | cons h _ ih => rw [h.1, ih]; rfl

theorem utf8_text {x y : Str} (h : TextRel UT x y) : y = utf8Str x := by
  obtain ⟨ts, ts', h, rfl, rfl⟩ := h
  rw [utf8Str_flatten, each_map h]

theorem quote_ascii {q : Char} (h : Lex.isQuote q = true) : q.toNat < 128 := by
  unfold Lex.isQuote at h
  simp only [Bool.or_eq_true, beq_iff_eq] at h
  rcases h with (h | h) | h <;> subst h <;> decide

theorem utf8_content {q : Char} {r : Str} (h : Closed (q :: r)) (hq : Lex.isQuote q = true) :
    content (utf8Str (q :: r)) = utf8Str (content (q :: r)) := by
  obtain ⟨m, rfl⟩ := h q r rfl hq
  rw [utf8Str_cons, enc_ascii (quote_ascii hq), utf8Str_append, utf8Str_ascii (t := [q]) (Ascii.cons (quote_ascii hq)
    fun c hc => by cases hc)]
  simp [content]

theorem identQuote_isQuote {d : Rdbms} {q : Char} (h : q ∈ identQuotes d) : Lex.isQuote q = true := by
  have : ∀ q ∈ identQuotes d, Lex.isQuote q = true := by cases d <;> decide
  exact this q h

theorem utf8_nameVal {t : Str} (h : Closed t) : nameVal d (utf8Str t) = utf8Str (nameVal d t) := by
  cases t with
  | nil => rfl
  | cons c r =>
    unfold nameVal
    by_cases hc : c ∈ identQuotes d
    · have hq := identQuote_isQuote hc
      have e : utf8Str (c :: r) = c :: utf8Str r := by rw [utf8Str_cons, enc_ascii (quote_ascii hq)]; rfl
      have h1 := utf8_content h hq
      rw [e] at h1 ⊢
      simp only [unquote, if_pos hc, h1]
    · obtain ⟨a, x, h1, h2⟩ := @utf8Str_head c r
      have ha : a ∉ identQuotes d := by
        rcases h2 with ⟨_, rfl, _⟩ | ⟨_, h3⟩
        · exact hc
        · intro hx
          have := quote_ascii (identQuote_isQuote hx)
          omega
      simp only [unquote, if_neg hc]
      rw [h1]
      simp only [if_neg ha]

theorem utf8_name {x y : Str} (h : NameRel d UT x y) : y = utf8Str x := by
  rcases h with ⟨rfl, rfl⟩ | ⟨t, t', ⟨rfl, h⟩, rfl, rfl⟩
  · rfl
  · exact utf8_nameVal h

theorem utf8_typeName {x y : Str} (h : TypeNameRel UT upC x y) : y = utf8Str x := by
  have e : ∀ t : Str, utf8Str (t.map upC) = (utf8Str t).map upC := fun t => by
    have := utf8Str_upper t
    rw [upper_eq, upper_eq] at this
    exact this
  rcases h with ⟨rfl, rfl | rfl⟩ | ⟨t, t', ⟨rfl, _⟩, ⟨rfl, rfl⟩ | ⟨rfl, rfl⟩⟩
  · exact (utf8Str_ascii (by decide)).symm
  · exact (utf8Str_ascii (by decide)).symm
  · exact (e t).symm
  · rw [utf8Str_append, e, utf8Str_ascii (t := S " VARYING") (by decide)]

theorem utf8_default {x y : DefaultVal} (h : DefaultRel UT x y) : y = utf8Default x := by
  cases h with
  | nil => rfl
  | bool => rfl
  | num h => rw [h.1]; rfl
  | str h hq =>
    obtain ⟨rfl, h⟩ := h
    obtain ⟨q, r, rfl, hq⟩ := hq
    have hq : Lex.isQuote q = true := by rcases hq with rfl | rfl | rfl <;> decide
    simp only [utf8Default, utf8_content h hq]
  | text h => rw [utf8_text h]; rfl

theorem utf8_ref {x y : Reference} (h : RefRel d UT x y) : y = utf8Ref x := by
  obtain ⟨h1, h2⟩ := h
  obtain ⟨a, b⟩ := x
  obtain ⟨a', b'⟩ := y
  have e1 : a' = utf8Str a := utf8_name h1
  have e2 : b' = b.map (·.map utf8Str) := by
    cases h2 with
    | none => rfl
    | some h => rw [each_map h]; rfl
  rw [e1, e2]; rfl

theorem utf8_con {x y : Constraint} (h : ConRel d UT x y) : y = utf8Con x := by
  cases x; cases y
  obtain ⟨h1, h2, h3, h4, h5, h6, h7, h8, h9⟩ := h
  simp only [utf8Con] at *
  rw [utf8_name h1, ← h2, ← h3, ← h4, ← h5, utf8_default h6, utf8_text h7, utf8_name h8, utf8_ref h9]

theorem utf8_col {x y : Column} (h : ColRel d UT upC x y) : y = utf8Col x := by
  obtain ⟨a, ⟨b, n, m⟩, c⟩ := x
  obtain ⟨a', ⟨b', n', m'⟩, c'⟩ := y
  obtain ⟨h1, ⟨h2, h3, h4⟩, h5⟩ := h
  simp only [utf8Col] at *
  rw [utf8_name h1, utf8_typeName h2, ← h3, ← h4, utf8_con h5]

theorem each_map' {R : α → α → Prop} {f : α → α} (hf : ∀ a b, R a b → b = f a) {xs ys : List α} (h : Each R xs ys) :
    ys = xs.map f := by
  induction h with
  | nil => rfl
  | cons h _ ih => rw [hf _ _ h, ih]; rfl

theorem utf8_table {x y : Table} (h : TableRel d UT upC x y) : y = utf8Table x := by
  obtain ⟨a, b, c, e, ⟨p, u, k, f⟩⟩ := x
  obtain ⟨a', b', c', e', ⟨p', u', k', f'⟩⟩ := y
  obtain ⟨h1, h2, h3, h4, ⟨h5, h6, h7, h8⟩⟩ := h
  simp only [utf8Table] at *
  rw [utf8_name h1, utf8_name h2, ← h3, each_map' (f := utf8Col) (fun _ _ h => utf8_col h) h4]
  rw [each_map' (f := fun k => ⟨utf8Str k.name, k.columnNames.map utf8Str⟩) ?_ h5,
    each_map' (f := fun k => ⟨utf8Str k.name, k.columnNames.map utf8Str⟩) ?_ h6,
    each_map' (f := fun k => ⟨utf8Str k.name, utf8Str k.expr⟩) ?_ h7,
    each_map' (f := fun k => ⟨utf8Str k.name, k.columnNames.map utf8Str, utf8Ref k.references⟩) ?_ h8]
  · rintro ⟨a, b, c⟩ ⟨a', b', c'⟩ ⟨h1, h2, h3⟩
    simp only at *
    rw [utf8_name h1, each_map h2, utf8_ref h3]
  · rintro ⟨a, b⟩ ⟨a', b'⟩ ⟨h1, h2⟩
    simp only at *
    rw [utf8_name h1, utf8_text h2]
  · rintro ⟨a, b⟩ ⟨a', b'⟩ ⟨h1, h2⟩
    simp only at *
    rw [utf8_name h1, each_map h2]
  · rintro ⟨a, b⟩ ⟨a', b'⟩ ⟨h1, h2⟩
    simp only at *
    rw [utf8_name h1, each_map h2]

theorem utf8_tables {xs ys : List Table} (h : Each (TableRel d UT upC) xs ys) : ys = xs.map utf8Table :=
  each_map' (f := utf8Table) (fun _ _ h => utf8_table h) h

end

theorem utf8_up {isNum : Str → Bool} (hN : NumBytes isNum) (d : Rdbms) : UpAlike UT := fun k hk t t' h => by
  rw [upStr_ascii, upStr_ascii]
  exact (utf8_alike (d := d) hN).up k (by revert k; cases d <;> decide +kernel) t t' h

/-! ### The whole run -/

/-- An outcome with another result. -/
def Outcome.map (f : α → β) : Outcome α → Outcome β
  | .ok a => .ok (f a)
  | .err e => .err e
  | .panic => .panic
  | .timeout => .timeout

theorem each_ut {toks : List Str} (h : ∀ t ∈ toks, Closed t) : Each UT toks (toks.map utf8Str) := by
  induction toks with
  | nil => exact .nil
  | cons t ts ih => exact .cons ⟨rfl, h t (List.mem_cons_self ..)⟩ (ih fun t ht => h t (List.mem_cons_of_mem _ ht))

theorem parseBytesN_eq {isNum : Str → Bool} (hN : NumBytes isNum) (n : Nat) (ddl : List UInt8) (d : Rdbms) :
    parseBytesN isNum n ddl d = (parseN isNum n (runes ddl) d).map utf8Result := by
  unfold parseBytesN parseN
  cases hl : Lex.lexN d n (runes ddl) with
  | err e => simp only [goString_eq]; rfl
  | panic => rfl
  | timeout => rfl
  | ok toks =>
    have hc := each_ut (Lex.lexN_closed hl)
    have h1 := validateN_alike (utf8_alike (d := d) hN) hc n
    simp only
    rw [show goString = utf8Str from funext goString_eq]
    revert h1
    generalize validateN isNum d n toks = x
    generalize validateN isNum d n (toks.map utf8Str) = y
    intro h1
    cases h1 with
    | err hl hn =>
      rename_i e e'
      obtain ⟨l, t⟩ := e
      obtain ⟨l', t'⟩ := e'
      simp only at hl hn
      rw [← hl, hn.1]
      rfl
    | panic => rfl
    | timeout => rfl
    | ok h =>
      rename_i a b
      have h2 := convertN_alike (utf8_alike (d := d) hN) (utf8_up hN d) h n
      simp only
      revert h2
      generalize convertN isNum d n a = x
      generalize convertN isNum d n b = y
      intro h2
      cases h2 with
      | err hl hn =>
        rename_i e e'
        obtain ⟨l, t⟩ := e
        obtain ⟨l', t'⟩ := e'
        simp only at hl hn
        rw [← hl, hn.1]
        rfl
      | panic => rfl
      | timeout => rfl
      | ok h => rw [utf8_tables h]; rfl

theorem parseForceBytesLoop_eq {isNum : Str → Bool} (hN : NumBytes isNum) (n : Nat) (ddl : List UInt8) (ds : List Rdbms) :
    parseForceBytesLoop isNum n ddl ds = (parseForceLoop isNum n (runes ddl) ds).map utf8Result := by
  induction ds with
  | nil => rfl
  | cons d ds ih =>
    unfold parseForceBytesLoop parseForceLoop
    rw [parseBytesN_eq hN]
    generalize parseN isNum n (runes ddl) d = x
    match x with
    | .ok (_, none) => rfl
    | .ok (_, some _) => exact ih
    | .err _ => rfl
    | .panic => rfl
    | .timeout => rfl

end DDL

import Verif.Model.Value
import Verif.Spec.Value
/-
Rounding to the nearest float64.
-/

namespace DDL.Go
open DDL Spec.Num

theorem dist_mul (x y c : Nat) : dist (x * c) (y * c) = dist x y * c := by
  unfold dist
  rw [Nat.add_mul, Nat.sub_mul, Nat.sub_mul]

/-- Nothing is nearer than the rounded number. -/
theorem roundEven_near {a b : Nat} (hb : 0 < b) (y : Nat) : dist (roundEven a b * b) a ≤ dist (y * b) a := by
  have h := Nat.div_add_mod a b
  have hr := Nat.mod_lt a hb
  have hm : b * (a / b) = a / b * b := Nat.mul_comm _ _
  have h1 : (a / b + 1) * b = a / b * b + b := Nat.succ_mul _ _
  have hy : y * b ≤ a / b * b ∨ a / b * b + b ≤ y * b := by
    rcases Nat.lt_or_ge (a / b) y with h' | h'
    · right; rw [← h1]; exact Nat.mul_le_mul_right _ h'
    · left; exact Nat.mul_le_mul_right _ h'
  unfold roundEven dist
  split
  · omega
  split
  · rw [h1]; omega
  split
  · omega
  · rw [h1]; omega

/-- If two are equally near it is the even one. -/
theorem roundEven_even {a b : Nat} (hb : 0 < b) {y : Nat} (hy : y ≠ roundEven a b)
    (h' : dist (roundEven a b * b) a = dist (y * b) a) : roundEven a b % 2 = 0 := by
  have h := Nat.div_add_mod a b
  have hr := Nat.mod_lt a hb
  have hm : b * (a / b) = a / b * b := Nat.mul_comm _ _
  have h1 : (a / b + 1) * b = a / b * b + b := Nat.succ_mul _ _
  have h0 : a / b = 0 ∨ (a / b - 1) * b + b = a / b * b := by
    cases hq : a / b with
    | zero => exact .inl rfl
    | succ n => right; rw [Nat.succ_mul]; rfl
  have hy' : y = a / b ∨ y = a / b + 1 ∨ (y * b + b ≤ a / b * b) ∨ a / b * b + b + b ≤ y * b := by
    rcases Nat.lt_trichotomy y (a / b) with h2 | h2 | h2
    · right; right; left
      have := Nat.mul_le_mul_right b (show y + 1 ≤ a / b from h2)
      rwa [Nat.succ_mul] at this
    · exact .inl h2
    · rcases Nat.lt_or_ge y (a / b + 2) with h3 | h3
      · right; left; omega
      · right; right; right
        have := Nat.mul_le_mul_right b h3
        rwa [show a / b + 2 = a / b + 1 + 1 from rfl, Nat.succ_mul, Nat.succ_mul] at this
  unfold roundEven at hy h' ⊢
  unfold dist at h'
  split at hy
  · rename_i hc
    rw [if_pos hc] at h'
    rw [if_pos hc]
    rcases hy' with rfl | rfl | h2 | h2
    · exact absurd rfl hy
    · rw [h1] at h'; omega
    · omega
    · omega
  · rename_i hc
    rw [if_neg hc] at h' ⊢
    split at hy
    · rename_i hc2
      rw [if_pos hc2] at h' ⊢
      rw [h1] at h'
      rcases hy' with rfl | rfl | h2 | h2
      · omega
      · exact absurd rfl hy
      · omega
      · omega
    · rename_i hc2
      rw [if_neg hc2] at h' ⊢
      split
      · assumption
      · omega

theorem roundEven_le {a b n : Nat} (h : a < n * b) : roundEven a b ≤ n := by
  have hb : 0 < b := by
    rcases Nat.eq_zero_or_pos b with rfl | hb
    · omega
    · exact hb
  have : a / b < n := (Nat.div_lt_iff_lt_mul hb).2 h
  unfold roundEven
  split
  · omega
  split
  · omega
  split <;> omega

theorem le_roundEven {a b n : Nat} (hb : 0 < b) (h : n * b ≤ a) : n ≤ roundEven a b := by
  have : n ≤ a / b := (Nat.le_div_iff_mul_le hb).2 h
  unfold roundEven
  split
  · omega
  split
  · omega
  split <;> omega

/-- The place of the last digit. -/
theorem lost_spec (n : Nat) : n < 2 ^ 53 * 2 ^ lost n ∧ (lost n = 0 ∨ 2 ^ 52 * 2 ^ lost n ≤ n) := by
  unfold lost
  rcases Nat.eq_zero_or_pos n with rfl | hn
  · exact ⟨by decide, .inl (by decide)⟩
  have hne : n ≠ 0 := by omega
  have h1 : n < 2 ^ (n.log2 + 1) := Nat.lt_log2_self
  have h2 : 2 ^ n.log2 ≤ n := Nat.log2_self_le hne
  rw [← Nat.pow_add, ← Nat.pow_add]
  refine ⟨Nat.lt_of_lt_of_le h1 (Nat.pow_le_pow_right (by decide) (by omega)), ?_⟩
  rcases Nat.lt_or_ge 52 n.log2 with h | h
  · right
    rw [show 52 + (n.log2 - 52) = n.log2 by omega]
    exact h2
  · left; omega

/-- `IsDouble` with the largest exponent as a variable. -/
def Dbl (E x : Nat) : Prop := ∃ m k, m < 2 ^ 53 ∧ k ≤ E ∧ x = m * 2 ^ k

/-- The result of the rounding, with the largest exponent as a variable. -/
theorem round_core {a q E : Nat} (hq : 0 < q) (hle : 2 * a < (2 ^ 54 - 1) * (q * 2 ^ E)) :
    (∃ m j, m < 2 ^ 53 ∧ j ≤ E ∧ roundEven a (q * 2 ^ lost (a / q)) * 2 ^ lost (a / q) = m * 2 ^ j ∧
      (j = 0 ∨ 2 ^ 52 ≤ m) ∧
      ∀ y, Dbl E y → dist (roundEven a (q * 2 ^ lost (a / q)) * 2 ^ lost (a / q) * q) a ≤ dist (y * q) a ∧
        (y ≠ roundEven a (q * 2 ^ lost (a / q)) * 2 ^ lost (a / q) →
          dist (roundEven a (q * 2 ^ lost (a / q)) * 2 ^ lost (a / q) * q) a = dist (y * q) a → m % 2 = 0)) := by
  obtain ⟨h1, h2⟩ := lost_spec (a / q)
  have hk : lost (a / q) ≤ E := by
    rcases Nat.lt_or_ge E (lost (a / q)) with h | h
    · exfalso
      rcases h2 with h2 | h2
      · omega
      · have h3 := (Nat.le_div_iff_mul_le hq).1 h2
        have h4 : 2 ^ (E + 1) * q ≤ 2 ^ lost (a / q) * q :=
          Nat.mul_le_mul_right _ (Nat.pow_le_pow_right (by decide) h)
        rw [Nat.mul_assoc] at h3
        rw [Nat.pow_succ, Nat.mul_comm (2 ^ E) 2, Nat.mul_assoc, Nat.mul_comm (2 ^ E)] at h4
        generalize q * 2 ^ E = b at *
        omega
    · exact h
  generalize hkk : lost (a / q) = k at *
  have hK : 0 < 2 ^ k := Nat.pow_pos (by decide)
  have hb : 0 < q * 2 ^ k := Nat.mul_pos hq hK
  have hlt : a < 2 ^ 53 * (q * 2 ^ k) := by
    have := (Nat.div_lt_iff_lt_mul hq).1 h1
    rwa [Nat.mul_assoc, Nat.mul_comm (2 ^ k) q] at this
  have hge : k = 0 ∨ 2 ^ 52 * (q * 2 ^ k) ≤ a := by
    rcases h2 with h | h
    · exact .inl h
    · right
      have := (Nat.le_div_iff_mul_le hq).1 h
      rwa [Nat.mul_assoc, Nat.mul_comm (2 ^ k) q] at this
  have hM := roundEven_le hlt
  have hM' : k = 0 ∨ 2 ^ 52 ≤ roundEven a (q * 2 ^ k) := hge.imp_right (le_roundEven hb)
  have hnear := roundEven_near (a := a) hb
  have heven := @roundEven_even a _ hb
  have hmul : ∀ m, m * 2 ^ k * q = m * (q * 2 ^ k) := fun m => by rw [Nat.mul_assoc, Nat.mul_comm q]
  -- the largest mantissa does not occur with the largest exponent
  have hmax : roundEven a (q * 2 ^ k) = 2 ^ 53 → k + 1 ≤ E := by
    intro h
    rcases Nat.lt_or_ge k E with h' | h'
    · exact h'
    · exfalso
      have hk' : k = E := by omega
      subst hk'
      have := hnear (2 ^ 53 - 1)
      rw [h] at this
      generalize q * 2 ^ k = b at *
      unfold dist at this
      omega
  have hdouble : ∃ m j, m < 2 ^ 53 ∧ j ≤ E ∧ roundEven a (q * 2 ^ k) * 2 ^ k = m * 2 ^ j ∧ (j = 0 ∨ 2 ^ 52 ≤ m) ∧
      (roundEven a (q * 2 ^ k) % 2 = 0 → m % 2 = 0) := by
    rcases Nat.lt_or_ge (roundEven a (q * 2 ^ k)) (2 ^ 53) with h | h
    · exact ⟨_, k, h, hk, rfl, hM', fun h => h⟩
    · have h : roundEven a (q * 2 ^ k) = 2 ^ 53 := by omega
      refine ⟨2 ^ 52, k + 1, by decide, hmax h, ?_, .inr (Nat.le_refl _), fun _ => by decide⟩
      rw [h, Nat.pow_succ 2 k, Nat.mul_comm (2 ^ k) 2, ← Nat.mul_assoc]
  -- other numbers
  have hother : ∀ y, Dbl E y → (∃ m, y = m * 2 ^ k) ∨
      dist (2 ^ 52 * (q * 2 ^ k)) a < dist (y * q) a := by
    rintro y ⟨m, j, hm, hj, rfl⟩
    rcases Nat.lt_or_ge j k with h | h
    · right
      have hge : 2 ^ 52 * (q * 2 ^ k) ≤ a := by
        rcases hge with h' | h'
        · omega
        · exact h'
      have h3 : m * 2 ^ j < 2 ^ 52 * 2 ^ k := by
        have e1 : m * 2 ^ j < 2 ^ 53 * 2 ^ j := Nat.mul_lt_mul_of_pos_right hm (Nat.pow_pos (by decide))
        have e2 : (2 : Nat) ^ 53 * 2 ^ j ≤ 2 ^ 52 * 2 ^ k := by
          rw [← Nat.pow_add, ← Nat.pow_add]
          exact Nat.pow_le_pow_right (by decide) (by omega)
        omega
      have h4 : m * 2 ^ j * q < 2 ^ 52 * (q * 2 ^ k) := by
        rw [← hmul]; exact Nat.mul_lt_mul_of_pos_right h3 hq
      unfold dist
      omega
    · left
      refine ⟨m * 2 ^ (j - k), ?_⟩
      rw [Nat.mul_assoc, ← Nat.pow_add]
      congr 2; omega
  obtain ⟨m, j, h1, h2, h3, h4, h5⟩ := hdouble
  refine ⟨m, j, h1, h2, h3, h4, fun y hy => ⟨?_, fun hne he => h5 ?_⟩⟩
  · rw [hmul]
    rcases hother y hy with ⟨m, rfl⟩ | h
    · rw [hmul]; exact hnear m
    · exact Nat.le_of_lt (Nat.lt_of_le_of_lt (hnear _) h)
  · rw [hmul] at he
    rcases hother y hy with ⟨m, rfl⟩ | h
    · rw [hmul] at he
      refine heven ?_ he
      rintro rfl
      exact hne rfl
    · have := hnear (2 ^ 52)
      omega

theorem limit_units {l a b c e : Nat} (hl : l = 2 ^ a - 2 ^ b) (h54 : a = b + 54) (he : e = b + c + 1) :
    2 * (l * 2 ^ c) = (2 ^ 54 - 1) * 2 ^ e := by
  subst h54 he hl
  rw [Nat.pow_add 2 b 54, Nat.pow_succ 2 (b + c), Nat.pow_add 2 b c, Nat.sub_mul, Nat.sub_mul, Nat.mul_sub,
    Nat.one_mul]
  congr 1
  · generalize 2 ^ b = x; generalize 2 ^ c = y
    rw [Nat.mul_comm x, Nat.mul_assoc, Nat.mul_comm _ 2, ← Nat.mul_assoc 2, Nat.mul_comm 2 (2 ^ 54), Nat.mul_assoc]
  · rw [Nat.mul_comm 2]

set_option exponentiation.threshold 3000 in
theorem limit_pos : 0 < limit := Nat.sub_pos_of_lt (Nat.pow_lt_pow_right (by decide) (by decide))

set_option exponentiation.threshold 3000 in
/-- The result of the rounding. -/
theorem toUnits_nearest {p q : Nat} (hq : 0 < q) (hp : p < limit * q) : Nearest p q (toUnits p q) := by
  have hle : 2 * (p * 2 ^ 1074) < (2 ^ 54 - 1) * (q * 2 ^ 2045) := by
    have h1 : p * 2 ^ 1074 < limit * q * 2 ^ 1074 := Nat.mul_lt_mul_of_pos_right hp (Nat.two_pow_pos 1074)
    have h2 : 2 * (limit * 2 ^ 1074) = (2 ^ 54 - 1) * 2 ^ 2045 :=
      limit_units (a := 1024) (b := 970) rfl (by omega) (by omega)
    have h3 : (2 ^ 54 - 1) * (q * 2 ^ 2045) = 2 * (limit * q * 2 ^ 1074) := by
      rw [Nat.mul_right_comm limit, ← Nat.mul_assoc 2, h2, Nat.mul_comm q, Nat.mul_assoc]
    rw [h3]
    exact Nat.mul_lt_mul_of_pos_left h1 (by decide)
  obtain ⟨m, j, h1, h2, h3, h4, h5⟩ := round_core hq hle
  exact
    { double := ⟨m, j, h1, h2, h3⟩
      near := fun y hy => (h5 y hy).1
      even := fun y hy hne he => ⟨m, j, h1, h2, h3, (h5 y hy).2 hne he, h4⟩ }

/-- There is one nearest float64. -/
theorem nearest_unique {p q x y : Nat} (hq : 0 < q) (hx : Nearest p q x) (hy : Nearest p q y) : x = y := by
  suffices H : ∀ x y, Nearest p q x → Nearest p q y → ¬ x < y by
    rcases Nat.lt_trichotomy x y with h | h | h
    · exact (H x y hx hy h).elim
    · exact h
    · exact (H y x hy hx h).elim
  intro x y hx hy hlt
  have he : dist (x * q) (p * 2 ^ 1074) = dist (y * q) (p * 2 ^ 1074) :=
    Nat.le_antisymm (hx.near y hy.double) (hy.near x hx.double)
  obtain ⟨m, j, h1, h2, h3, h4, h5⟩ := hx.even y hy.double (by omega) he
  obtain ⟨n, i, g1, g2, g3, g4, g5⟩ := hy.even x hx.double (by omega) he.symm
  have hji : j ≤ i := by
    rcases Nat.lt_or_ge i j with h | h
    · exfalso
      have h6 : 2 ^ 52 ≤ m := by omega
      have e1 : n * 2 ^ i < 2 ^ 53 * 2 ^ i := Nat.mul_lt_mul_of_pos_right g1 (Nat.pow_pos (by decide))
      have e2 : (2 : Nat) ^ 53 * 2 ^ i ≤ 2 ^ 52 * 2 ^ j := by
        rw [← Nat.pow_add, ← Nat.pow_add]
        exact Nat.pow_le_pow_right (by decide) (by omega)
      have e3 : 2 ^ 52 * 2 ^ j ≤ m * 2 ^ j := Nat.mul_le_mul_right _ h6
      omega
    · exact h
  obtain ⟨m', rfl⟩ : ∃ m', m = 2 * m' := ⟨m / 2, by omega⟩
  obtain ⟨n', rfl⟩ : ∃ n', n = 2 * n' := ⟨n / 2, by omega⟩
  have hyj : y = 2 * (n' * 2 ^ (i - j)) * 2 ^ j := by
    rw [g3, show i = (i - j) + j by omega, Nat.pow_add, Nat.mul_assoc 2, Nat.mul_assoc 2, Nat.mul_assoc n',
      Nat.add_sub_cancel]
  generalize n' * 2 ^ (i - j) = k at hyj
  have hd : IsDouble ((2 * m' + 1) * 2 ^ j) := ⟨_, j, by omega, h2, rfl⟩
  have hz := hx.near _ hd
  have hm : m' < k := by
    rcases Nat.lt_or_ge m' k with h | h
    · exact h
    · have := Nat.mul_le_mul_right (2 ^ j) (Nat.mul_le_mul_left 2 h)
      omega
  have hJ : 0 < 2 ^ j * q := Nat.mul_pos (Nat.pow_pos (by decide)) hq
  have hk := Nat.mul_le_mul_right (2 ^ j * q) (show 2 * m' + 1 + 1 ≤ 2 * k by omega)
  rw [h3, hyj, Nat.mul_assoc, Nat.mul_assoc (2 * k)] at he
  rw [h3, Nat.mul_assoc, Nat.mul_assoc (2 * m' + 1)] at hz
  rw [Nat.succ_mul (2 * m' + 1), Nat.succ_mul (2 * m')] at hk
  rw [Nat.succ_mul (2 * m')] at hz
  generalize p * 2 ^ 1074 = a at *
  generalize 2 * m' * (2 ^ j * q) = A at *
  generalize 2 * k * (2 ^ j * q) = B at *
  generalize 2 ^ j * q = b at *
  unfold dist at he hz
  omega

/-- Very small numbers. -/
theorem nearest_zero {p q : Nat} (h : 2 * (p * 2 ^ 1074) < q) : Nearest p q 0 := by
  have key : ∀ y, y ≠ 0 → dist (0 * q) (p * 2 ^ 1074) < dist (y * q) (p * 2 ^ 1074) := by
    intro y hy
    have := Nat.mul_le_mul_right q (show 1 ≤ y by omega)
    generalize p * 2 ^ 1074 = a at *
    unfold dist
    omega
  exact
    { double := ⟨0, 0, by decide, by omega, rfl⟩
      near := fun y _ => by
        rcases Nat.eq_zero_or_pos y with rfl | h
        · exact Nat.le_refl _
        · exact Nat.le_of_lt (key y (by omega))
      even := fun y _ h he => absurd he (Nat.ne_of_lt (key y h)) }

/-- A number that is a float64. -/
theorem nearest_exact {p q x : Nat} (hq : 0 < q) (hx : IsDouble x) (h : x * q = p * 2 ^ 1074) : Nearest p q x := by
  have h0 : dist (x * q) (p * 2 ^ 1074) = 0 := by rw [h]; unfold dist; omega
  exact
    { double := hx
      near := fun y _ => by rw [h0]; exact Nat.zero_le _
      even := fun y _ hne he => by
        exfalso
        rw [h0, ← h] at he
        have h1 : x * q = y * q := by unfold dist at he; omega
        exact hne (Nat.eq_of_mul_eq_mul_right hq h1).symm }

end DDL.Go

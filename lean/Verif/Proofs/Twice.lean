/-
Rounding to `double` and then to `float`: when this is rounding to `float`.
-/
import Verif.Proofs.FloatError
import Verif.Proofs.FloatArith
import Verif.Proofs.FloatText

namespace Knuckle

open Spec

/-- The number in the middle of two adjacent numbers of the grid has one more bit. -/
theorem middle_adjacent {p e : ℕ} (hp : 0 < p) {a b : ℚ} (ha : OnGrid p e a) (hb : OnGrid p e b) (h : a < b)
    (hno : ∀ r, OnGrid p e r → a < r → ¬ r < b) : OnGrid (p + 1) (e + 1) ((a + b) / 2) := by
  obtain ⟨m, k, rfl, h2, h3⟩ := ha
  obtain ⟨m', k', rfl, h2', h3'⟩ := hb
  have e2 : (2 : ℤ) ^ (p + 1) = 2 * 2 ^ p := by rw [pow_succ]; ring
  rw [abs_lt] at h2 h2'
  rcases le_total k k' with hk | hk
  · have hg : OnGrid p e (((m + 1 : ℤ) : ℚ) * 2 ^ k) := onGrid_le hp (abs_le.2 ⟨by omega, by omega⟩) h3
    have hz := zpos k
    have hlt : (m : ℚ) * 2 ^ k < ((m + 1 : ℤ) : ℚ) * 2 ^ k := by push_cast; linarith
    have h1 := hno _ hg hlt
    have heq : (m' : ℚ) * 2 ^ k' = ((m + 1 : ℤ) : ℚ) * 2 ^ k := by
      refine le_antisymm (not_lt.1 h1) ?_
      rw [zpow_split hk, ← mul_assoc, ← Int.cast_mul] at h ⊢
      generalize m' * 2 ^ (k' - k).toNat = M at h ⊢
      have : (m : ℚ) < M := lt_of_mul_lt_mul_right h hz.le
      have : m + 1 ≤ M := by exact_mod_cast this
      exact mul_le_mul_of_nonneg_right (by exact_mod_cast this) hz.le
    rw [heq]
    refine ⟨2 * m + 1, k - 1, ?_, ?_, by omega⟩
    · rw [half_zpow]; push_cast; ring
    · rw [e2, abs_lt]; omega
  · have hg : OnGrid p e (((m' - 1 : ℤ) : ℚ) * 2 ^ k') := onGrid_le hp (abs_le.2 ⟨by omega, by omega⟩) h3'
    have hz := zpos k'
    have hlt : ((m' - 1 : ℤ) : ℚ) * 2 ^ k' < (m' : ℚ) * 2 ^ k' := by push_cast; linarith
    have heq : (m : ℚ) * 2 ^ k = ((m' - 1 : ℤ) : ℚ) * 2 ^ k' := by
      refine le_antisymm ?_ (not_lt.1 fun h1 => hno _ hg h1 hlt)
      rw [zpow_split hk, ← mul_assoc, ← Int.cast_mul] at h ⊢
      generalize m * 2 ^ (k - k').toNat = M at h ⊢
      have : (M : ℚ) < m' := lt_of_mul_lt_mul_right h hz.le
      have : M ≤ m' - 1 := by
        have : M < m' := by exact_mod_cast this
        omega
      exact mul_le_mul_of_nonneg_right (by exact_mod_cast this) hz.le
    rw [heq]
    refine ⟨2 * m' - 1, k' - 1, ?_, ?_, by omega⟩
    · rw [half_zpow]; push_cast; ring
    · rw [e2, abs_lt]; omega

/-- One direction of the next theorem. -/
theorem nearest_twice_lt {q d r r' : ℚ} (hd : Nearest 53 1074 q d) (hr : Nearest 24 149 d r)
    (hmid : OnGrid 25 150 d → ¬ OnGrid 24 149 d → q = d) (hq : Nearest 24 149 q r') (h : r < r') : False := by
  have h1 : d ≤ (r + r') / 2 := by
    have := hr.2.1 r' hq.1
    by_contra hc
    push Not at hc
    rcases abs_cases (d - r) with ⟨e1, _⟩ | ⟨e1, _⟩ <;> rcases abs_cases (d - r') with ⟨e2, _⟩ | ⟨e2, _⟩ <;> linarith
  have h2 : (r + r') / 2 ≤ q := by
    have := hq.2.1 r hr.1
    by_contra hc
    push Not at hc
    rcases abs_cases (q - r) with ⟨e1, _⟩ | ⟨e1, _⟩ <;> rcases abs_cases (q - r') with ⟨e2, _⟩ | ⟨e2, _⟩ <;> linarith
  -- a `double` between `d` and `q` is `d`
  have tween : ∀ {m : ℚ}, OnGrid 53 1074 m → d ≤ m → m ≤ q → m = d := by
    intro m hm hdm hmq
    have := hd.2.1 m hm
    rw [abs_of_nonneg (by linarith), abs_of_nonneg (by linarith)] at this
    linarith
  by_cases hadj : ∃ x, OnGrid 24 149 x ∧ r < x ∧ x < r'
  · obtain ⟨x, hx, hx1, hx2⟩ := hadj
    have h3 : d ≤ (r + x) / 2 := by
      have := hr.2.1 x hx
      by_contra hc
      push Not at hc
      rcases abs_cases (d - r) with ⟨e1, _⟩ | ⟨e1, _⟩ <;> rcases abs_cases (d - x) with ⟨e2, _⟩ | ⟨e2, _⟩ <;> linarith
    have h4 : (x + r') / 2 ≤ q := by
      have := hq.2.1 x hx
      by_contra hc
      push Not at hc
      rcases abs_cases (q - x) with ⟨e1, _⟩ | ⟨e1, _⟩ <;> rcases abs_cases (q - r') with ⟨e2, _⟩ | ⟨e2, _⟩ <;> linarith
    have := tween (single_on_double hx) (by linarith) (by linarith)
    linarith
  · have hno : ∀ x, OnGrid 24 149 x → r < x → ¬ x < r' := fun x hx h1 h2 => hadj ⟨x, hx, h1, h2⟩
    have hm : OnGrid 25 150 ((r + r') / 2) := middle_adjacent (by decide) hr.1 hq.1 h hno
    have e := tween (onGrid_mono (by decide) (by decide) hm) h1 h2
    have hs : ¬ OnGrid 24 149 d := by
      rw [← e]
      exact fun hs => hno _ hs (by linarith) (by linarith)
    have hqd := hmid (e ▸ hm) hs
    subst hqd
    exact h.ne (nearest_unique (by decide) (by decide) hr hq)

/-- Rounding first to `double` and then to `float` gives the same as rounding to `float`, unless the `double` is in the middle of two
`float`s and not the number itself. -/
theorem nearest_twice {q d r r' : ℚ} (hd : Nearest 53 1074 q d) (hr : Nearest 24 149 d r)
    (hmid : OnGrid 25 150 d → ¬ OnGrid 24 149 d → q = d) (hq : Nearest 24 149 q r') : r = r' := by
  rcases lt_trichotomy r r' with h | h | h
  · exact (nearest_twice_lt hd hr hmid hq h).elim
  · exact h
  · refine (nearest_twice_lt (nearest_neg hd) (nearest_neg hr) ?_ (nearest_neg hq) (neg_lt_neg h)).elim
    intro h1 h2
    rw [hmid (onGrid_neg_iff.1 h1) fun h => h2 (onGrid_neg h)]

theorem cast_bound {p : ℕ} {m k : ℤ} (hm : |m| < 2 ^ p) : |(m : ℚ) * 2 ^ k| < 2 ^ (p + k) := by
  rw [abs_mul, abs_of_pos (zpos k), zpow_add₀ (by norm_num), zpow_natCast]
  refine mul_lt_mul_of_pos_right ?_ (zpos k)
  have : ((|m| : ℤ) : ℚ) < ((2 ^ p : ℤ) : ℚ) := Int.cast_lt.2 hm
  rw [Int.cast_abs] at this
  push_cast at this; exact this

/-- The sum of two `float`s, rounded to `double`, is not in the middle of two `float`s unless it is exact. -/
theorem sum_middle_le {X Y b c : ℤ} {d : ℚ} (hX : |X| < 2 ^ 24) (hY : |Y| < 2 ^ 24) (hb : -(149 : ℤ) ≤ b) (hbc : b ≤ c)
    (hd : Nearest 53 1074 ((X : ℚ) * 2 ^ c + Y * 2 ^ b) d) (h1 : OnGrid 25 150 d) (h2 : ¬ OnGrid 24 149 d) :
    (X : ℚ) * 2 ^ c + Y * 2 ^ b = d := by
  by_contra hne
  have hx : OnGrid 24 149 ((X : ℚ) * 2 ^ c) := ⟨X, c, rfl, hX, by push_cast; omega⟩
  set s := (X : ℚ) * 2 ^ c + Y * 2 ^ b with hs
  have hyb := cast_bound (k := b) hY
  push_cast at hyb
  -- the sum is a multiple of `2^b`
  have hS : s = ((X * 2 ^ (c - b).toNat + Y : ℤ) : ℚ) * 2 ^ b := by
    rw [hs, zpow_split hbc]; push_cast; ring
  have hbig : (2 : ℚ) ^ (53 + b) < |s| := by
    by_contra hc
    push Not at hc
    apply hne
    have hS' : |X * 2 ^ (c - b).toNat + Y| ≤ 2 ^ 53 := by
      rw [hS, abs_mul, abs_of_pos (zpos b), zpow_add₀ (by norm_num)] at hc
      have := le_of_mul_le_mul_right hc (zpos b)
      rw [← Int.cast_abs] at this
      exact_mod_cast this
    have : OnGrid 53 1074 s := by rw [hS]; exact onGrid_le (by decide) hS' (by push_cast; omega)
    exact nearest_unique (by decide) (by decide) (nearest_self this) hd
  have e53 : (2 : ℚ) ^ (53 + b) = 2 ^ (52 + b) * 2 := by
    rw [show 53 + b = (52 + b) + 1 by ring, zpow_add_one₀ (by norm_num)]
  have e24 : (2 : ℚ) ^ (24 + b) < 2 ^ (52 + b) := zpow_lt_of (by omega)
  have hxs : |s| ≤ |(X : ℚ) * 2 ^ c| + |(Y : ℚ) * 2 ^ b| := abs_add_le _ _
  have hxbig : (2 : ℚ) ^ (52 + b) < |(X : ℚ) * 2 ^ c| := by linarith
  obtain ⟨j, hj1, hj2⟩ := exists_mem_Ico_zpow (lt_trans (zpos _) hxbig) (by norm_num : (1 : ℚ) < 2)
  have hj : 52 + b < j + 1 := of_zpow_lt (lt_trans hxbig hj2)
  have hapart := grid_apart (p := 25) (e := 150) (x := d) (onGrid_mono (by decide) (by decide) hx) h1 (fun e => h2 (e ▸ hx)) hj1 (by decide)
  have hrel := nearest_relative (by decide) hd (by
    refine le_trans ?_ hbig.le
    exact zpow_le_of (by norm_num; omega))
  have t : |d - (X : ℚ) * 2 ^ c| ≤ |s - d| + |(Y : ℚ) * 2 ^ b| := by
    have h3 : d - (X : ℚ) * 2 ^ c = Y * 2 ^ b - (s - d) := by rw [hs]; ring
    rw [h3]
    have := abs_sub (Y * 2 ^ b : ℚ) (s - d)
    linarith
  have hy' : |(Y : ℚ) * 2 ^ b| < 2 ^ (j - 28) := lt_of_lt_of_le hyb (zpow_le_of (by omega))
  have p1 : (2 : ℚ) ^ (j + 1) = 2 ^ j * 2 := zpow_add_one₀ (by norm_num) _
  have p2 : (2 : ℚ) ^ (j - 28) = 2 ^ j * (1 / 2 ^ 28) := by rw [zpow_sub₀ (by norm_num)]; norm_num; ring
  have p3 : (2 : ℚ) ^ (j - (25 : ℕ)) = 2 ^ j * (1 / 2 ^ 25) := by rw [zpow_sub₀ (by norm_num)]; norm_num; ring
  have p4 : (2 : ℚ) ^ (-((53 : ℕ) : ℤ)) = 1 / 2 ^ 53 := by norm_num
  rw [p3] at hapart
  rw [p4] at hrel
  rw [p2] at hy'
  rw [p1] at hj2
  have hz := zpos j
  generalize (2 : ℚ) ^ j = J at *
  norm_num at *
  linarith

theorem sum_middle {x y d : ℚ} (hx : OnGrid 24 149 x) (hy : OnGrid 24 149 y) (hd : Nearest 53 1074 (x + y) d) (h1 : OnGrid 25 150 d)
    (h2 : ¬ OnGrid 24 149 d) : x + y = d := by
  obtain ⟨X, c, rfl, hX, hc⟩ := hx
  obtain ⟨Y, b, rfl, hY, hb⟩ := hy
  rcases le_total b c with h | h
  · exact sum_middle_le hX hY hb h hd h1 h2
  · rw [add_comm] at hd ⊢
    exact sum_middle_le hY hX hc h hd h1 h2

/-- The product of two `float`s is a `double`. -/
theorem product_on_double {x y : ℚ} (hx : OnGrid 24 149 x) (hy : OnGrid 24 149 y) : OnGrid 53 1074 (x * y) := by
  obtain ⟨X, c, rfl, hX, hc⟩ := hx
  obtain ⟨Y, b, rfl, hY, hb⟩ := hy
  refine ⟨X * Y, c + b, ?_, ?_, by push_cast at *; omega⟩
  · rw [zpow_add₀ (by norm_num)]; push_cast; ring
  · rw [abs_mul]
    have := abs_nonneg X
    have := abs_nonneg Y
    nlinarith

/-- The quotient of two `float`s, rounded to `double`, is not in the middle of two `float`s unless it is exact. -/
theorem quotient_middle {x y d : ℚ} (hx : OnGrid 24 149 x) (hy : OnGrid 24 149 y) (hy0 : y ≠ 0) (hd : Nearest 53 1074 (x / y) d)
    (h1 : OnGrid 25 150 d) (h2 : ¬ OnGrid 24 149 d) : x / y = d := by
  by_contra hne
  obtain ⟨X, c, rfl, hX, hc⟩ := hx
  obtain ⟨Y, b, rfl, hY, hb⟩ := hy
  obtain ⟨M, a, hM, hMb, ha⟩ := h1
  set q := (X : ℚ) * 2 ^ c / (Y * 2 ^ b) with hq
  have hyp : 0 < |(Y : ℚ) * 2 ^ b| := abs_pos.2 hy0
  have hxq : (X : ℚ) * 2 ^ c = q * (Y * 2 ^ b) := by rw [hq, div_mul_cancel₀ _ hy0]
  have hX0 : X ≠ 0 := by
    rintro rfl
    have : q = 0 := by rw [hq]; simp
    rw [this] at hd
    have := nearest_unique (by decide) (by decide) (nearest_self (onGrid_zero 53 1074)) hd
    exact h2 (this ▸ onGrid_zero 24 149)
  have hX1 : (1 : ℚ) ≤ |(X : ℚ)| := by
    rw [← Int.cast_abs]; exact_mod_cast Int.one_le_abs hX0
  have hYb := cast_bound (k := b) hY
  have hXb := cast_bound (k := c) hX
  -- the relative error of the quotient
  have hrel : |q - d| ≤ |q| * (1 / 2 ^ 53) := by
    have hY' := hy0
    by_cases hsmall : (2 : ℚ) ^ ((53 : ℕ) - 1 - (1074 : ℕ) : ℤ) ≤ |q|
    · have := nearest_relative (by decide) hd hsmall
      have p4 : (2 : ℚ) ^ (-((53 : ℕ) : ℤ)) = 1 / 2 ^ 53 := by norm_num
      rwa [p4] at this
    · exfalso
      push Not at hsmall
      have he := nearest_error (p := 53) (e := 1074) (k := -1074) (by decide) hd (by norm_num) (by
        refine hsmall.le.trans (zpow_le_of (by norm_num)))
      have hdb : (2 : ℚ) ^ (-(150 : ℤ)) ≤ |d| := by
        have := grid_apart_min (p := 25) (e := 150) (onGrid_zero 25 150) ⟨M, a, hM, hMb, ha⟩ (fun e => h2 (e ▸ onGrid_zero 24 149))
        rw [sub_zero] at this
        exact_mod_cast this
      have t : |d| ≤ |q| + |q - d| := by
        have := abs_sub_abs_le_abs_sub d q
        rw [abs_sub_comm] at this; linarith
      have z1 : (2 : ℚ) ^ ((53 : ℕ) - 1 - (1074 : ℕ) : ℤ) ≤ 2 ^ (-(152 : ℤ)) := zpow_le_of (by norm_num)
      have z2 : (2 : ℚ) ^ (-1074 - 1 : ℤ) ≤ 2 ^ (-(152 : ℤ)) := zpow_le_of (by norm_num)
      have z3 : (2 : ℚ) ^ (-(150 : ℤ)) = 2 ^ (-(152 : ℤ)) * 4 := by
        rw [show (-(150 : ℤ)) = -152 + 2 by norm_num, zpow_add₀ (by norm_num)]; norm_num
      have := zpos (-(152 : ℤ))
      linarith
  -- the difference of `x` and `d * y`
  have hdiff : |(X : ℚ) * 2 ^ c - d * (Y * 2 ^ b)| = |q - d| * |(Y : ℚ) * 2 ^ b| := by
    rw [hxq, ← sub_mul, abs_mul]
  have hne' : (X : ℚ) * 2 ^ c - d * (Y * 2 ^ b) ≠ 0 := by
    rw [hxq, ← sub_mul]
    exact mul_ne_zero (sub_ne_zero.2 hne) hy0
  have hz : ∀ {Z k : ℤ}, (Z : ℚ) * 2 ^ k ≠ 0 → (2 : ℚ) ^ k ≤ |(Z : ℚ) * 2 ^ k| := by
    intro Z k h
    rw [abs_mul, abs_of_pos (zpos k)]
    have h0 : Z ≠ 0 := by rintro rfl; simp at h
    have : (1 : ℚ) ≤ |(Z : ℚ)| := by rw [← Int.cast_abs]; exact_mod_cast Int.one_le_abs h0
    calc (2 : ℚ) ^ k = 1 * 2 ^ k := (one_mul _).symm
      _ ≤ _ := mul_le_mul_of_nonneg_right this (zpos k).le
  have hxq' : |(X : ℚ) * 2 ^ c| = |q| * |(Y : ℚ) * 2 ^ b| := by rw [hxq, abs_mul]
  rcases le_total (a + b) c with h | h
  · have e : (X : ℚ) * 2 ^ c - d * (Y * 2 ^ b) = ((X * 2 ^ (c - (a + b)).toNat - M * Y : ℤ) : ℚ) * 2 ^ (a + b) := by
      rw [zpow_split h, hM, zpow_add₀ (by norm_num)]; push_cast; ring
    have h3 := hz (e ▸ hne')
    rw [← e, hdiff] at h3
    -- `|d| < 2^(25+a)`
    have hdb : |d| < 2 ^ (25 + a) := by rw [hM]; exact cast_bound hMb
    have t : |q| ≤ |d| + |q - d| := by
      have := abs_sub_abs_le_abs_sub q d
      linarith
    have h4 : |q - d| * |(Y : ℚ) * 2 ^ b| ≤ |q - d| * 2 ^ (24 + b) := mul_le_mul_of_nonneg_left hYb.le (abs_nonneg _)
    have h5 : (2 : ℚ) ^ (a + b) ≤ |q - d| * 2 ^ (24 + b) := h3.trans h4
    have p1 : (2 : ℚ) ^ (a + b) = 2 ^ a * 2 ^ b := zpow_add₀ (by norm_num) _ _
    have p2 : (2 : ℚ) ^ (24 + b) = 2 ^ 24 * 2 ^ b := by rw [zpow_add₀ (by norm_num)]; norm_num
    have p3 : (2 : ℚ) ^ (25 + a) = 2 ^ 25 * 2 ^ a := by rw [zpow_add₀ (by norm_num)]; norm_num
    rw [p1, p2, ← mul_assoc] at h5
    have h6 := le_of_mul_le_mul_right h5 (zpos b)
    rw [p3] at hdb
    have := zpos a
    generalize (2 : ℚ) ^ a = A at *
    norm_num at *
    linarith
  · have e : (X : ℚ) * 2 ^ c - d * (Y * 2 ^ b) = ((X - M * Y * 2 ^ (a + b - c).toNat : ℤ) : ℚ) * 2 ^ c := by
      have : (2 : ℚ) ^ a * 2 ^ b = ((2 ^ (a + b - c).toNat : ℤ) : ℚ) * 2 ^ c := by
        rw [← zpow_add₀ (by norm_num), zpow_split h]
      have e2 : d * (Y * 2 ^ b) = M * Y * ((2 : ℚ) ^ a * 2 ^ b) := by rw [hM]; ring
      rw [e2, this]; push_cast; ring
    have h3 := hz (e ▸ hne')
    rw [← e, hdiff] at h3
    have h4 := mul_le_mul_of_nonneg_right hrel hyp.le
    have h5 : |q| * (1 / 2 ^ 53) * |(Y : ℚ) * 2 ^ b| = |(X : ℚ) * 2 ^ c| * (1 / 2 ^ 53) := by rw [hxq']; ring
    rw [h5] at h4
    have p2 : (2 : ℚ) ^ (24 + c) = 2 ^ 24 * 2 ^ c := by rw [zpow_add₀ (by norm_num)]; norm_num
    push_cast at hXb
    rw [p2] at hXb
    have := zpos c
    generalize (2 : ℚ) ^ c = A at *
    norm_num at *
    linarith

/-! ### Operations on `float`s in `double` -/

/-- The number with the sign that the bit says. -/
def Signed (neg : Bool) (q : ℚ) : Prop := q = (if neg then -1 else 1) * |q|

theorem signed_number {x : Fl} {p : ℚ} (h : number x = some p) : Signed (signBit x) p := by
  obtain ⟨s, k, rfl, rfl⟩ := number_eq h
  unfold Signed
  rw [sign_mul_abs, abs_of_nonneg (div_nonneg (Nat.cast_nonneg _) unit_pos.le)]
  rfl

theorem signed_decide (q : ℚ) : Signed (decide (q < 0)) q := by
  unfold Signed
  by_cases h : q < 0
  · simp [h, abs_of_neg]
  · simp [h, abs_of_nonneg (not_lt.1 h)]

theorem signed_mul {a b : Bool} {p q : ℚ} (h : Signed a p) (h' : Signed b q) : Signed (a != b) (p * q) := by
  unfold Signed at *
  rw [abs_mul, ← sign_prod]
  calc p * q = ((if a then -1 else 1) * |p|) * ((if b then -1 else 1) * |q|) := by rw [← h, ← h']
    _ = _ := by ring

theorem signed_inv {b : Bool} {q : ℚ} (h : Signed b q) : Signed b q⁻¹ := by
  unfold Signed at *
  rw [abs_inv]
  cases b
  · simp only [Bool.false_eq_true, if_false, one_mul] at *
    rw [← h]
  · simp only [if_true, neg_mul, one_mul] at *
    rw [eq_neg_iff_add_eq_zero.1 h |> eq_neg_of_add_eq_zero_left, inv_neg, abs_neg, abs_abs]

/-- Every number can be rounded. -/
theorem rounds_exists {f : Fmt} {F : Format} (hF : f.Is F) {neg : Bool} {q : ℚ} (h : Signed neg q) : ∃ x, Rounds F neg q x := by
  have := rounds_round f F hF neg (q.num.natAbs * 2 ^ 1074) q.den q.pos
  have e : (if neg then (-1 : ℚ) else 1) * (((q.num.natAbs * 2 ^ 1074 : ℕ) : ℚ) / (q.den * unit)) = q := by
    have hd : (q.den : ℚ) ≠ 0 := by exact_mod_cast q.pos.ne'
    have hu := unit_pos.ne'
    have e1 : (((q.num.natAbs * 2 ^ 1074 : ℕ) : ℚ) / (q.den * unit)) = |q| := by
      rw [unit_two] at *
      push_cast
      rw [mul_div_mul_right _ _ hu]
      have : |q| = |(q.num : ℚ)| / |(q.den : ℚ)| := by rw [← abs_div, Rat.num_div_den]
      rw [this, Nat.abs_cast, ← Int.cast_abs, Nat.cast_natAbs]
    rw [e1]; exact h.symm
  rw [e] at this
  exact ⟨_, this⟩

/-- Rounding to `double` and converting to `float` is rounding to `float`, if the `double` is finite and not in the middle. -/
theorem rounds_twice {neg : Bool} {q : ℚ} {d x : Fl} (hs : Signed neg q) (h : Rounds double neg q d) (hx : Converts d x)
    (hb : |q| ≤ 2 ^ 1000) (hmid : ∀ r, Nearest 53 1074 q r → OnGrid 25 150 r → ¬ OnGrid 24 149 r → q = r) : Rounds single neg q x := by
  obtain ⟨z, hz⟩ := rounds_exists f32_is hs
  obtain ⟨r, h1, h2, h3⟩ := h
  obtain ⟨r3, g1, g2, g3⟩ := hz
  have hr : |r| ≤ 2 ^ 1000 := by
    have hg : OnGrid 53 1074 ((2 : ℚ) ^ 1000) := ⟨1, 1000, by norm_num, by norm_num, by norm_num⟩
    rw [abs_le] at hb ⊢
    have a := nearest_mono (by decide) (by decide) (nearest_self (onGrid_neg hg)) h1 hb.1
    have b := nearest_mono (by decide) (by decide) h1 (nearest_self hg) hb.2
    exact ⟨a, b⟩
  have hlt : |r| < 2 ^ 1024 := lt_of_le_of_lt hr (by
    have : (2 : ℚ) ^ (1000 : ℤ) < 2 ^ (1024 : ℤ) := zpow_lt_of (by norm_num)
    exact_mod_cast this)
  rcases h3 with ⟨_, h3⟩ | ⟨h3, _⟩
  · cases hx with
    | nan => cases h3
    | inf => cases h3
    | @num _ _ r' k1 k2 =>
      rw [h3] at k1
      cases k1
      obtain ⟨r2, l1, l2, l3⟩ := k2
      have e := nearest_twice h1 l1 (hmid r h1) g1
      subst e
      rw [h2] at l2 l3
      exact ⟨r2, g1, l2, l3⟩
  · exact absurd hlt (not_lt.2 h3)

theorem converts_zero {s : Bool} {x : Fl} (h : Converts (.fin s 0) x) : x = .fin s 0 := by
  rw [converts_iff.1 h]
  exact (isF32_fin s 0).2 ⟨rep_zero _, Nat.two_pow_pos _⟩

theorem converts_special {x : Fl} : (Converts .nan x → x = .nan) ∧ ∀ s, Converts (.inf s) x → x = .inf s := by
  refine ⟨fun h => converts_iff.1 h, fun s h => converts_iff.1 h⟩

theorem pow_bound {a : ℤ} (h : a ≤ 1000) : (2 : ℚ) ^ a ≤ 2 ^ 1000 := by
  have : (2 : ℚ) ^ a ≤ 2 ^ (1000 : ℤ) := zpow_le_of h
  exact_mod_cast this

theorem sum_twice {v l d x : Fl} (hv : v.toF32 = v) (hl : l.toF32 = l) (h : Sum double v l d) (hx : Converts d x) : Sum single v l x := by
  cases h with
  | nanLeft => rw [converts_special.1 hx]; exact .nanLeft _
  | nanRight => rw [converts_special.1 hx]; exact .nanRight _
  | opposite h => rw [converts_special.1 hx]; exact .opposite h
  | infinities => rw [converts_special.2 _ hx]; exact .infinities _
  | infLeft h => rw [converts_special.2 _ hx]; exact .infLeft h
  | infRight h => rw [converts_special.2 _ hx]; exact .infRight h
  | zero h1 h2 h3 => rw [converts_zero hx]; exact .zero h1 h2 h3
  | @number _ _ _ p q h1 h2 h3 h4 =>
    obtain ⟨g1, b1⟩ := single_number hv h1
    obtain ⟨g2, b2⟩ := single_number hl h2
    refine .number h1 h2 h3 (rounds_twice (signed_decide _) h4 hx ?_ fun r hr => sum_middle g1 g2 hr)
    have := abs_add_le p q
    have b : (2 : ℚ) ^ 128 + 2 ^ 128 ≤ 2 ^ 1000 := by
      have := pow_bound (a := 129) (by norm_num)
      refine le_trans ?_ this
      norm_num
    exact this.trans ((add_le_add b1.le b2.le).trans b)

theorem opposite_single {l : Fl} (h : l.toF32 = l) : (opposite l).toF32 = opposite l := by
  cases l with
  | nan => rfl
  | inf => rfl
  | fin s k => exact (isF32_fin _ k).2 ((isF32_fin s k).1 h)

theorem difference_twice {v l d x : Fl} (hv : v.toF32 = v) (hl : l.toF32 = l) (h : Difference double v l d) (hx : Converts d x) :
    Difference single v l x := sum_twice hv (opposite_single hl) h hx

theorem product_twice {v l d x : Fl} (hv : v.toF32 = v) (hl : l.toF32 = l) (h : Product double v l d) (hx : Converts d x) :
    Product single v l x := by
  cases h with
  | nanLeft => rw [converts_special.1 hx]; exact .nanLeft _
  | nanRight => rw [converts_special.1 hx]; exact .nanRight _
  | zeroTimesInf h => rw [converts_special.1 hx]; exact .zeroTimesInf h
  | infTimesZero h => rw [converts_special.1 hx]; exact .infTimesZero h
  | infinities => rw [converts_special.2 _ hx]; exact .infinities _ _
  | infLeft h h' => rw [converts_special.2 _ hx]; exact .infLeft h h'
  | infRight h h' => rw [converts_special.2 _ hx]; exact .infRight h h'
  | @number _ _ _ p q h1 h2 h4 =>
    obtain ⟨g1, b1⟩ := single_number hv h1
    obtain ⟨g2, b2⟩ := single_number hl h2
    refine .number h1 h2 (rounds_twice (signed_mul (signed_number h1) (signed_number h2)) h4 hx ?_ fun r hr _ _ =>
      nearest_unique (by decide) (by decide) (nearest_self (product_on_double g1 g2)) hr)
    rw [abs_mul]
    have b : (2 : ℚ) ^ 128 * 2 ^ 128 ≤ 2 ^ 1000 := by
      have := pow_bound (a := 256) (by norm_num)
      refine le_trans ?_ this
      norm_num
    exact (mul_le_mul b1.le b2.le (abs_nonneg _) (by positivity)).trans b

theorem quotient_twice {v l d x : Fl} (hv : v.toF32 = v) (hl : l.toF32 = l) (h : Spec.Quotient double v l d) (hx : Converts d x) :
    Spec.Quotient single v l x := by
  cases h with
  | nanLeft => rw [converts_special.1 hx]; exact .nanLeft _
  | nanRight => rw [converts_special.1 hx]; exact .nanRight _
  | infinities => rw [converts_special.1 hx]; exact .infinities _ _
  | zeros h h' => rw [converts_special.1 hx]; exact .zeros h h'
  | byZero h h' h'' => rw [converts_special.2 _ hx]; exact .byZero h h' h''
  | infLeft h => rw [converts_special.2 _ hx]; exact .infLeft h
  | infRight h => rw [converts_zero hx]; exact .infRight h
  | @number _ _ _ p q h1 h2 h3 h4 =>
    obtain ⟨g1, b1⟩ := single_number hv h1
    obtain ⟨g2, b2⟩ := single_number hl h2
    refine .number h1 h2 h3 (rounds_twice ?_ h4 hx ?_ fun r hr => quotient_middle g1 g2 h3 hr)
    · rw [div_eq_mul_inv]; exact signed_mul (signed_number h1) (signed_inv (signed_number h2))
    · have hq : (2 : ℚ) ^ (-(149 : ℤ)) ≤ |q| := by
        have := grid_apart_min (onGrid_zero 24 149) g2 h3
        rw [sub_zero] at this
        exact_mod_cast this
      rw [abs_div, div_le_iff₀ (abs_pos.2 h3)]
      have b : (2 : ℚ) ^ 128 ≤ 2 ^ 1000 * 2 ^ (-(149 : ℤ)) := by
        have : (2 : ℚ) ^ (128 : ℤ) ≤ 2 ^ (1000 + -149 : ℤ) := zpow_le_of (by norm_num)
        rw [zpow_add₀ (by norm_num)] at this
        exact_mod_cast this
      exact b1.le.trans (b.trans (mul_le_mul_of_nonneg_left hq (by positivity)))

end Knuckle

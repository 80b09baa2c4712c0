/-
Reading a printed float gives a float that prints in the same way.
-/
import Verif.Props.Numbers

namespace Knuckle

open Spec Props

/-- The numbers of the `float` format next to a positive number. -/
theorem neighbours {T : ℚ} (hT : 0 < T) : ∃ (e k : ℤ), -149 ≤ e ∧ 0 ≤ k ∧ k < 2 ^ 24 ∧ (k : ℚ) * 2 ^ e ≤ T ∧ T < ((k + 1 : ℤ) : ℚ) * 2 ^ e ∧
    ∀ z, OnGrid 24 149 z → z ≤ k * 2 ^ e ∨ ((k + 1 : ℤ) : ℚ) * 2 ^ e ≤ z := by
  obtain ⟨j, h1, h2⟩ := exists_mem_Ico_zpow hT (by norm_num : (1 : ℚ) < 2)
  obtain ⟨e, he1, he2, he3⟩ : ∃ e : ℤ, -149 ≤ e ∧ j - 23 ≤ e ∧ (e = -149 ∨ e = j - 23) := by
    rcases le_total (j - 23) (-149) with h | h
    · exact ⟨-149, le_refl _, h, .inl rfl⟩
    · exact ⟨j - 23, h, le_refl _, .inr rfl⟩
  have pe := zpos e
  have hk1 : ((⌊T / 2 ^ e⌋ : ℤ) : ℚ) * 2 ^ e ≤ T := by
    rw [← le_div_iff₀ pe]; exact Int.floor_le _
  have hk2 : T < ((⌊T / 2 ^ e⌋ + 1 : ℤ) : ℚ) * 2 ^ e := by
    rw [← div_lt_iff₀ pe]; push_cast; exact Int.lt_floor_add_one _
  refine ⟨e, ⌊T / 2 ^ e⌋, he1, Int.floor_nonneg.2 (div_nonneg hT.le pe.le), ?_, hk1, hk2, ?_⟩
  · have h3 : T < 2 ^ (24 : ℤ) * 2 ^ e := by
      rw [← zpow_add₀ (by norm_num)]
      exact lt_of_lt_of_le h2 (zpow_le_zpow_right₀ (by norm_num) (by omega))
    have h4 : ((⌊T / 2 ^ e⌋ : ℤ) : ℚ) < 2 ^ (24 : ℤ) := by
      have := lt_of_le_of_lt hk1 h3
      exact (mul_lt_mul_iff_left₀ pe).1 this
    exact_mod_cast h4
  · rintro z ⟨a, i, rfl, ha, hi⟩
    rcases le_or_gt e i with h | h
    · rw [zpow_split h]
      rcases le_or_gt (a * 2 ^ (i - e).toNat) ⌊T / 2 ^ e⌋ with h4 | h4
      · left
        rw [← mul_assoc]
        refine mul_le_mul_of_nonneg_right ?_ pe.le
        exact_mod_cast h4
      · right
        rw [← mul_assoc]
        refine mul_le_mul_of_nonneg_right ?_ pe.le
        have h5 : ⌊T / 2 ^ e⌋ + 1 ≤ a * 2 ^ (i - e).toNat := h4
        exact_mod_cast h5
    · left
      have he : e = j - 23 := by
        rcases he3 with h5 | h5
        · omega
        · exact h5
      have h5 : (2 : ℤ) ^ 23 ≤ ⌊T / 2 ^ e⌋ := by
        rw [Int.le_floor, le_div_iff₀ pe]
        have h7 : (((2 : ℤ) ^ 23 : ℤ) : ℚ) = 2 ^ (23 : ℤ) := by norm_cast
        rw [h7, ← zpow_add₀ (by norm_num), he]
        exact le_trans (zpow_le_zpow_right₀ (by norm_num) (by omega)) h1
      have h6 : (a : ℚ) < 2 ^ 24 := by
        have := lt_of_le_of_lt (le_abs_self a) ha
        exact_mod_cast this
      calc (a : ℚ) * 2 ^ i ≤ 2 ^ 24 * 2 ^ i := mul_le_mul_of_nonneg_right h6.le (zpos i).le
        _ = 2 ^ 23 * 2 ^ (i + 1) := by rw [zpow_add₀ (by norm_num)]; ring
        _ ≤ 2 ^ 23 * 2 ^ e := mul_le_mul_of_nonneg_left (zpow_le_zpow_right₀ (by norm_num) (by omega)) (by norm_num)
        _ ≤ _ := mul_le_mul_of_nonneg_right (by exact_mod_cast h5) pe.le

/-- No power of two is near a power of ten (of those that matter here). -/
theorem powers_apart : ∀ p < 46, ∀ k < 160, 0 < p → 10 ^ p < ((10 ^ p - 2 ^ k : ℤ).natAbs) * 2 ^ 28 := by decide +kernel

theorem gap {p : ℕ} {e : ℤ} (hp : p ≤ 45) (hp0 : 0 < p) : ¬ |(2 : ℚ) ^ e - 1 / 10 ^ p| ≤ 2 ^ (e - 28) := by
  intro h
  have h10 : (0 : ℚ) < 10 ^ p := by positivity
  rcases le_or_gt 0 e with he | he
  · have h1 : (1 : ℚ) ≤ 2 ^ e := one_le_zpow₀ (by norm_num) he
    have h2 : (1 : ℚ) / 10 ^ p ≤ 1 / 10 := by
      refine div_le_div_of_nonneg_left (by norm_num) (by norm_num) ?_
      calc (10 : ℚ) = 10 ^ 1 := by norm_num
        _ ≤ 10 ^ p := pow_le_pow_right₀ (by norm_num) hp0
    have h3 := (abs_le.1 h).2
    rw [zpow_sub₀ (by norm_num)] at h3
    have h4 : (2 : ℚ) ^ e / 2 ^ (28 : ℤ) ≤ 2 ^ e / 2 := div_le_div_of_nonneg_left (by positivity) (by norm_num) (by norm_num)
    linarith
  · obtain ⟨k, rfl⟩ : ∃ k : ℕ, e = -(k : ℤ) := ⟨e.natAbs, by omega⟩
    have hk : (0 : ℚ) < 2 ^ k := by positivity
    have h1 : |(10 : ℚ) ^ p - 2 ^ k| * 2 ^ 28 ≤ 10 ^ p := by
      have e1 : (2 : ℚ) ^ (-(k : ℤ)) - 1 / 10 ^ p = (10 ^ p - 2 ^ k) / (2 ^ k * 10 ^ p) := by
        rw [zpow_neg, zpow_natCast]; field_simp
      have e2 : (2 : ℚ) ^ (-(k : ℤ) - 28) = 1 / (2 ^ k * 2 ^ 28) := by
        rw [zpow_sub₀ (by norm_num), zpow_neg, zpow_natCast]
        have : (2 : ℚ) ^ (28 : ℤ) = 2 ^ 28 := by norm_cast
        rw [this]; field_simp
      rw [e1, e2, abs_div, abs_of_pos (by positivity : (0 : ℚ) < 2 ^ k * 10 ^ p), div_le_div_iff₀ (by positivity) (by positivity)] at h
      have : |(10 : ℚ) ^ p - 2 ^ k| * 2 ^ 28 * 2 ^ k ≤ 10 ^ p * 2 ^ k := by linarith
      exact le_of_mul_le_mul_right this hk
    rcases lt_or_ge k 160 with hk' | hk'
    · have h2 := powers_apart p (by omega) k hk' hp0
      have h3 : ((10 ^ p - 2 ^ k : ℤ).natAbs : ℚ) = |(10 : ℚ) ^ p - 2 ^ k| := by
        rw [Nat.cast_natAbs]; push_cast; rfl
      rw [← h3] at h1
      have h4 : (((10 ^ p - 2 ^ k : ℤ).natAbs * 2 ^ 28 : ℕ) : ℚ) ≤ ((10 ^ p : ℕ) : ℚ) := by push_cast; exact h1
      exact absurd h2 (not_lt.2 (Nat.cast_le.1 h4))
    · have h2 : (2 : ℚ) ^ 160 ≤ 2 ^ k := pow_le_pow_right₀ (by norm_num) hk'
      have h3 : (10 : ℚ) ^ p ≤ 10 ^ 45 := pow_le_pow_right₀ (by norm_num) hp
      have h4 : (2 : ℚ) ^ k - 10 ^ p ≤ |(10 : ℚ) ^ p - 2 ^ k| := by rw [abs_sub_comm]; exact le_abs_self _
      have h5 : (10 : ℚ) ^ 45 * 2 < 2 ^ 160 := by norm_num
      have h6 : |(10 : ℚ) ^ p - 2 ^ k| * 1 ≤ |(10 : ℚ) ^ p - 2 ^ k| * 2 ^ 28 := mul_le_mul_of_nonneg_left (by norm_num) (abs_nonneg _)
      linarith


theorem nearestInt_of {x : ℚ} {m : ℤ} (h : |x - m| ≤ 1 / 2) (he : |x - m| = 1 / 2 → 2 ∣ m) : NearestInt x m := by
  have far : ∀ m' : ℤ, m' ≠ m → 1 ≤ |(m' : ℚ) - m| := by
    intro m' hm
    have h1 : (1 : ℤ) ≤ |m' - m| := Int.one_le_abs (sub_ne_zero.2 hm)
    have h2 : ((1 : ℤ) : ℚ) ≤ ((|m' - m| : ℤ) : ℚ) := Int.cast_le.2 h1
    rw [Int.cast_abs] at h2
    push_cast at h2
    exact h2
  have tri : ∀ m' : ℤ, |(m' : ℚ) - m| ≤ |x - m| + |x - m'| := by
    intro m'
    have : (m' : ℚ) - m = (x - m) - (x - m') := by ring
    rw [this]; exact abs_sub _ _
  refine ⟨fun m' => ?_, fun m' hm ht => he ?_⟩
  · by_cases hm : m' = m
    · rw [hm]
    · have := far m' hm; have := tri m'; linarith
  · have := far m' hm; have := tri m'; rw [ht] at this; linarith

/-- A number of the format that is not an integer is less than `2^23`. -/
theorem grid_large {x : ℚ} (hx : OnGrid 24 149 x) (h : 2 ^ 24 ≤ |x|) : ∃ n : ℤ, x = n := by
  obtain ⟨a, k, rfl, ha, hk⟩ := hx
  have h1 : |(a : ℚ)| < 2 ^ 24 := by
    have : ((|a| : ℤ) : ℚ) < ((2 ^ 24 : ℤ) : ℚ) := Int.cast_lt.2 (by exact_mod_cast ha)
    rw [Int.cast_abs] at this; push_cast at this; exact this
  have h2 : 0 ≤ k := by
    by_contra hc
    rw [abs_mul, abs_of_pos (zpos k)] at h
    have h3 : (2 : ℚ) ^ k ≤ 1 := by
      have := zpow_le_of (show k ≤ 0 by omega)
      rwa [zpow_zero] at this
    have h4 : |(a : ℚ)| * 2 ^ k ≤ |(a : ℚ)| * 1 := mul_le_mul_of_nonneg_left h3 (abs_nonneg _)
    linarith
  refine ⟨a * 2 ^ k.toNat, ?_⟩
  push_cast
  rw [← zpow_natCast, Int.toNat_of_nonneg h2]

/-- A number that is printed with at most 45 decimals and read again, through `double`, is printed in the same way. -/
theorem reread {x T d r : ℚ} {p m : ℕ} (hp : p ≤ 45) (hx : OnGrid 24 149 x) (hm : NearestInt (x * 10 ^ p) m)
    (hT : T = m / 10 ^ p) (hd : Nearest 53 1074 T d) (hr : Nearest 24 149 d r) : NearestInt (r * 10 ^ p) m := by
  have h10 : (0 : ℚ) < 10 ^ p := by positivity
  have hT0 : 0 ≤ T := by rw [hT]; positivity
  have hmT : T * 10 ^ p = m := by rw [hT, div_mul_cancel₀ _ h10.ne']
  have dbl : ∀ {z : ℚ}, OnGrid 24 149 z → Nearest 53 1074 z z := fun h => nearest_self (onGrid_mono (by decide) (by decide) h)
  have sgl : ∀ {z : ℚ}, OnGrid 24 149 z → Nearest 24 149 z z := fun h => nearest_self h
  have two : ∀ {z y : ℚ}, |z * 10 ^ p - y * 10 ^ p| = |z - y| * 10 ^ p := fun {z y} => by
    rw [← sub_mul, abs_mul, abs_of_pos h10]
  by_cases hg : OnGrid 24 149 T
  · have e1 : d = T := nearest_unique (by decide) (by decide) hd (dbl hg)
    rw [e1] at hr
    have e2 : r = T := nearest_unique (by decide) (by decide) hr (sgl hg)
    rw [e2, hmT]
    refine nearestInt_of ?_ ?_
    · simp
    · intro h; exfalso; revert h; simp
  have hxT : |x - T| * 10 ^ p ≤ 1 / 2 := by
    have := nearestInt_half hm
    rwa [Int.cast_natCast, ← hmT, two] at this
  have hp0 : 0 < p := by
    by_contra hc
    have : p = 0 := by omega
    subst this
    rw [pow_zero, mul_one] at hxT
    rw [pow_zero, mul_one] at hmT
    rcases le_or_gt m (2 ^ 24) with h | h
    · refine hg ?_
      have := onGrid_le (p := 24) (e := 149) (by decide) (m := m) (k := 0) (by rw [abs_of_nonneg (by positivity)]; exact_mod_cast h) (by decide)
      rw [zpow_zero, mul_one, Int.cast_natCast, ← hmT] at this
      exact this
    · have h1 : (2 ^ 24 + 1 : ℚ) ≤ T := by rw [hmT]; exact_mod_cast h
      have h2 : (2 : ℚ) ^ 24 ≤ |x| := by
        have := (abs_le.1 hxT).1
        exact le_trans (by linarith) (le_abs_self x)
      obtain ⟨n, rfl⟩ := grid_large hx h2
      rw [pow_zero, mul_one] at hm
      have := nearestInt_int hm
      rw [hmT] at hg
      rw [← this, Int.cast_natCast] at hx
      exact hg hx
  have hTp : 0 < T := lt_of_le_of_ne hT0 fun h => hg (by rw [← h]; exact onGrid_zero _ _)
  obtain ⟨e, k, he, hk0, hk1, hl, hu, hb⟩ := neighbours hTp
  have g1 : OnGrid 24 149 ((k : ℚ) * 2 ^ e) := onGrid_le (by decide) (by rw [abs_of_nonneg hk0]; exact hk1.le) he
  have g2 : OnGrid 24 149 (((k + 1 : ℤ) : ℚ) * 2 ^ e) := onGrid_le (by decide) (by rw [abs_of_nonneg (by omega)]; exact hk1) he
  have hstep : ((k + 1 : ℤ) : ℚ) * 2 ^ e = k * 2 ^ e + 2 ^ e := by push_cast; ring
  generalize hA : (k : ℚ) * 2 ^ e = A at *
  rw [hstep] at hu g2 hb
  have hB : T ≤ 2 ^ (53 + (e - 29) : ℤ) := by
    have h1 : ((k + 1 : ℤ) : ℚ) * 2 ^ e ≤ 2 ^ (24 : ℤ) * 2 ^ e := by
      refine mul_le_mul_of_nonneg_right ?_ (zpos e).le
      have : (k + 1 : ℤ) ≤ 2 ^ 24 := hk1
      exact_mod_cast this
    rw [← zpow_add₀ (by norm_num), hstep] at h1
    have : (53 + (e - 29) : ℤ) = 24 + e := by ring
    rw [this]
    exact hu.le.trans h1
  have hTd : |T - d| ≤ 2 ^ (e - 30) := by
    have := nearest_error (p := 53) (e := 1074) (by decide) hd (k := e - 29) (by push_cast; omega) (by rw [abs_of_pos hTp]; exact hB)
    rwa [show e - 29 - 1 = e - 30 by ring] at this
  have hd1 : A ≤ d := nearest_mono (by decide) (by decide) (dbl g1) hd hl
  have hd2 : d ≤ A + 2 ^ e := nearest_mono (by decide) (by decide) hd (dbl g2) hu.le
  have hr1 : A ≤ r := nearest_mono (by decide) (by decide) (sgl g1) hr hd1
  have hr2 : r ≤ A + 2 ^ e := nearest_mono (by decide) (by decide) hr (sgl g2) hd2
  have hA1 : A < T := lt_of_le_of_ne hl fun h => hg (by rw [← h]; exact g1)
  have key : |r - T| ≤ |x - T| ∨ |r - T| * 10 ^ p < 1 / 2 := by
    by_contra hc
    push Not at hc
    obtain ⟨c1, c2⟩ := hc
    have u1 : (1 : ℚ) / 10 ^ p / 2 ≤ |r - T| := by
      rw [div_right_comm, div_le_iff₀ h10]; exact c2
    have u2 : |x - T| ≤ (1 : ℚ) / 10 ^ p / 2 := by
      rw [div_right_comm, le_div_iff₀ h10]; exact hxT
    have hs : (2 : ℚ) ^ (e - 30) * 2 = 2 ^ (e - 29) := by rw [show e - 29 = e - 30 + 1 by ring, zpow_add₀ (by norm_num), zpow_one]
    have hs' : (2 : ℚ) ^ (e - 29) ≤ 2 ^ (e - 28) := zpow_le_of (by omega)
    have n1 := hr.2.1 _ g1
    have n2 := hr.2.1 _ g2
    have t1 := abs_le.1 hTd
    refine gap (p := p) (e := e) hp hp0 ?_
    rcases hb r hr.1 with h | h
    · have er : r = A := le_antisymm h hr1
      subst er
      have x1 : r + 2 ^ e ≤ x := by
        rcases hb x hx with h' | h'
        · rw [abs_of_nonpos (by linarith), abs_of_nonpos (by linarith)] at c1; linarith
        · exact h'
      rw [abs_of_nonneg (by linarith)] at u2 c1
      rw [abs_of_nonpos (by linarith)] at u1 c1
      rw [abs_of_nonneg (by linarith), abs_of_nonpos (by linarith)] at n2
      rw [abs_le]; constructor <;> linarith
    · have er : r = A + 2 ^ e := le_antisymm hr2 h
      have x1 : x ≤ A := by
        rcases hb x hx with h' | h'
        · exact h'
        · rw [abs_of_nonneg (by linarith), abs_of_nonneg (by linarith)] at c1; linarith
      rw [er] at u1 c1 n1
      rw [abs_of_nonpos (by linarith)] at u2 c1
      rw [abs_of_nonneg (by linarith)] at u1 c1
      rw [abs_of_nonpos (by linarith), abs_of_nonneg (by linarith)] at n1
      rw [abs_le]; constructor <;> linarith
  have hrT : |r - T| * 10 ^ p ≤ 1 / 2 := by
    rcases key with h | h
    · exact le_trans (mul_le_mul_of_nonneg_right h h10.le) hxT
    · exact h.le
  refine nearestInt_of ?_ ?_
  · rw [Int.cast_natCast, ← hmT, two]; exact hrT
  · rw [Int.cast_natCast, ← hmT, two]
    intro ht
    have h1 : |x - T| * 10 ^ p = 1 / 2 := by
      rcases key with h | h
      · refine le_antisymm hxT ?_
        rw [← ht]; exact mul_le_mul_of_nonneg_right h h10.le
      · linarith
    have h2 : |x * 10 ^ p - m| = 1 / 2 := by rw [← hmT, two]; exact h1
    rcases abs_eq (by norm_num : (0 : ℚ) ≤ 1 / 2) |>.1 h2 with h3 | h3
    · refine hm.2 (m + 1) (by omega) ?_
      push_cast
      rw [h2, show x * 10 ^ p - (m + 1 : ℚ) = -(1 / 2) by linarith]; norm_num
    · refine hm.2 (m - 1) (by omega) ?_
      push_cast
      rw [h2, show x * 10 ^ p - (m - 1 : ℚ) = 1 / 2 by linarith]; norm_num

end Knuckle

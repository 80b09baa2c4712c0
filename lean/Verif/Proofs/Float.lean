/-
Facts about rounding: exactness, monotonicity, signs.
-/
import Verif.Model.Float
import Mathlib.Tactic.Linarith
import Mathlib.Tactic.Ring

namespace Knuckle

/-! ### Rounding to an integer -/

theorem rhe_exact (q d : Nat) (hd : 0 < d) : rhe (q * d) d = q := by
  unfold rhe
  simp [Nat.mul_div_cancel _ hd, Nat.mul_mod_left, hd]

/-- The distance to the exact quotient is at most one half. -/
theorem rhe_bounds (n d : Nat) (hd : 0 < d) : 2 * (rhe n d * d) ≤ 2 * n + d ∧ 2 * n ≤ 2 * (rhe n d * d) + d := by
  have h := Nat.div_add_mod n d
  have hm := Nat.mod_lt n hd
  unfold rhe
  have e1 : n / d * d = d * (n / d) := Nat.mul_comm _ _
  have e2 : (n / d + 1) * d = d * (n / d) + d := by rw [Nat.add_mul, Nat.one_mul, e1]
  simp only
  split
  · rw [e1]; omega
  · split
    · rw [e2]; omega
    · split
      · rw [e1]; omega
      · rw [e2]; omega

theorem rhe_le_succ (n d : Nat) : n / d ≤ rhe n d ∧ rhe n d ≤ n / d + 1 := by
  unfold rhe
  simp only
  split
  · omega
  · split
    · omega
    · split <;> omega

theorem rhe_mono (n n' d : Nat) (hd : 0 < d) (h : n ≤ n') : rhe n d ≤ rhe n' d := by
  have hq := Nat.div_le_div_right (c := d) h
  rcases Nat.lt_or_ge (n / d) (n' / d) with hlt | hge
  · have := (rhe_le_succ n d).2; have := (rhe_le_succ n' d).1; omega
  · have e : n / d = n' / d := by omega
    have h1 := Nat.div_add_mod n d
    have h2 := Nat.div_add_mod n' d
    have hr : n % d ≤ n' % d := by rw [e] at h1; omega
    unfold rhe
    simp only [e]
    split <;> split <;> (try split) <;> (try split) <;> (try split) <;> omega

theorem rhe_scale (n d c : Nat) (hc : 0 < c) : rhe (n * c) (d * c) = rhe n d := by
  unfold rhe
  simp only [Nat.mul_div_mul_right _ _ hc, Nat.mul_mod_mul_right]
  have h1 : (2 * (n % d * c) < d * c) ↔ (2 * (n % d) < d) := by
    rw [← Nat.mul_assoc]; exact Nat.mul_lt_mul_right hc
  have h2 : (d * c < 2 * (n % d * c)) ↔ (d < 2 * (n % d)) := by
    rw [← Nat.mul_assoc]; exact Nat.mul_lt_mul_right hc
  simp only [h1, h2]

/-! ### Number of bits -/

theorem bitLen_le (n k : Nat) (h : n < 2 ^ k) : bitLen n ≤ k := by
  unfold bitLen
  split
  · omega
  · rename_i hn
    have := (Nat.log2_lt hn).2 h
    omega

theorem lt_pow_bitLen (n : Nat) : n < 2 ^ bitLen n := by
  unfold bitLen
  split
  · rename_i h; simp [h]
  · rename_i h; exact (Nat.log2_lt h).1 (by omega)

theorem pow_bitLen_le (n : Nat) (h : n ≠ 0) : 2 ^ (bitLen n - 1) ≤ n := by
  unfold bitLen
  rw [if_neg h]
  exact (Nat.le_log2 h).1 (by omega)

theorem bitLen_mono (n m : Nat) (h : n ≤ m) : bitLen n ≤ bitLen m := bitLen_le _ _ (Nat.lt_of_le_of_lt h (lt_pow_bitLen m))

/-! ### Formats -/

/-- The magnitudes of a format: at most `p` significant bits, on the grid. -/
def Fmt.Rep (f : Fmt) (k : Nat) : Prop := ∃ m e, k = m * 2 ^ e ∧ m < 2 ^ f.p ∧ f.g ≤ e

/-- Formats have at least one bit. -/
def Fmt.Pos (f : Fmt) : Prop := 0 < f.p

theorem f64_pos : f64.Pos := by unfold Fmt.Pos f64; decide
theorem f32_pos : f32.Pos := by unfold Fmt.Pos f32; decide

theorem div_lt_of (n d k : Nat) (hd : 0 < d) : n < d * k ↔ n / d < k := by
  rw [Nat.mul_comm]; exact (Nat.div_lt_iff_lt_mul hd).symm

/-- Representable magnitudes are not changed. -/
theorem roundMag_rep (f : Fmt) (k d : Nat) (hd : 0 < d) (h : f.Rep k) : f.roundMag (k * d) d = k := by
  obtain ⟨m, e, rfl, hm, he⟩ := h
  unfold Fmt.roundMag
  simp only [Nat.mul_div_cancel _ hd]
  have hs : max f.g (bitLen (m * 2 ^ e) - f.p) ≤ e := by
    have : bitLen (m * 2 ^ e) ≤ f.p + e := by
      refine bitLen_le _ _ ?_
      rw [Nat.pow_add]
      exact Nat.mul_lt_mul_of_pos_right hm (Nat.two_pow_pos e)
    omega
  generalize max f.g (bitLen (m * 2 ^ e) - f.p) = s at hs
  obtain ⟨t, rfl⟩ := Nat.exists_eq_add_of_le hs
  have : m * 2 ^ (s + t) * d = (m * 2 ^ t) * (d * 2 ^ s) := by rw [Nat.pow_add]; ring
  rw [this, rhe_exact _ _ (Nat.mul_pos hd (Nat.two_pow_pos s)), Nat.pow_add]
  ring

/-- Every rounded magnitude is representable. -/
theorem rep_roundMag (f : Fmt) (hf : f.Pos) (n d : Nat) (hd : 0 < d) : f.Rep (f.roundMag n d) := by
  unfold Fmt.roundMag
  simp only
  have hs1 : f.g ≤ max f.g (bitLen (n / d) - f.p) := Nat.le_max_left _ _
  have hs2 : bitLen (n / d) ≤ f.p + max f.g (bitLen (n / d) - f.p) := by omega
  generalize max f.g (bitLen (n / d) - f.p) = s at hs1 hs2
  have hlt : n / d < 2 ^ (f.p + s) := Nat.lt_of_lt_of_le (lt_pow_bitLen _) (Nat.pow_le_pow_right (by omega) hs2)
  have hle : rhe n (d * 2 ^ s) ≤ 2 ^ f.p := by
    have h1 : n ≤ 2 ^ f.p * (d * 2 ^ s) := by
      have := (Nat.div_lt_iff_lt_mul hd).1 hlt
      rw [Nat.pow_add] at this
      have e : 2 ^ f.p * (d * 2 ^ s) = 2 ^ f.p * 2 ^ s * d := by ring
      omega
    have hpos : 0 < d * 2 ^ s := Nat.mul_pos hd (Nat.two_pow_pos s)
    have := rhe_mono _ _ (d * 2 ^ s) hpos h1
    rwa [rhe_exact _ _ hpos] at this
  rcases Nat.lt_or_ge (rhe n (d * 2 ^ s)) (2 ^ f.p) with h | h
  · exact ⟨_, s, rfl, h, hs1⟩
  · have e : rhe n (d * 2 ^ s) = 2 ^ f.p := by omega
    refine ⟨1, f.p + s, by rw [e, Nat.pow_add]; ring, Nat.one_lt_two_pow (by unfold Fmt.Pos at hf; omega), by omega⟩

/-- Rounding is monotone. -/
theorem roundMag_mono (f : Fmt) (hf : f.Pos) (n n' d : Nat) (hd : 0 < d) (h : n ≤ n') :
    f.roundMag n d ≤ f.roundMag n' d := by
  have hq : n / d ≤ n' / d := Nat.div_le_div_right h
  have hb := bitLen_mono _ _ hq
  unfold Fmt.roundMag
  simp only
  have hs : max f.g (bitLen (n / d) - f.p) ≤ max f.g (bitLen (n' / d) - f.p) := by omega
  rcases Nat.eq_or_lt_of_le hs with e | hlt
  · rw [e]
    exact Nat.mul_le_mul_right _ (rhe_mono _ _ _ (Nat.mul_pos hd (Nat.two_pow_pos _)) h)
  · -- the lower one is at most 2^(p+s), the higher one at least 2^(p+s'-1)
    have hg : max f.g (bitLen (n' / d) - f.p) = bitLen (n' / d) - f.p := by omega
    have hn' : n' / d ≠ 0 := by
      intro h0; rw [h0] at hg hlt; simp [bitLen] at hg hlt
    have hlow : rhe n (d * 2 ^ (max f.g (bitLen (n / d) - f.p))) * 2 ^ (max f.g (bitLen (n / d) - f.p)) ≤
        2 ^ (bitLen (n' / d) - 1) := by
      have hs2 : bitLen (n / d) ≤ f.p + max f.g (bitLen (n / d) - f.p) := by omega
      generalize hs0 : max f.g (bitLen (n / d) - f.p) = s at hs2 hlt
      have hlt' : n / d < 2 ^ (f.p + s) := Nat.lt_of_lt_of_le (lt_pow_bitLen _) (Nat.pow_le_pow_right (by omega) hs2)
      have hle : rhe n (d * 2 ^ s) ≤ 2 ^ f.p := by
        have h1 : n ≤ 2 ^ f.p * (d * 2 ^ s) := by
          have := (Nat.div_lt_iff_lt_mul hd).1 hlt'
          rw [Nat.pow_add] at this
          have e : 2 ^ f.p * (d * 2 ^ s) = 2 ^ f.p * 2 ^ s * d := by ring
          omega
        have hpos : 0 < d * 2 ^ s := Nat.mul_pos hd (Nat.two_pow_pos s)
        have := rhe_mono _ _ (d * 2 ^ s) hpos h1
        rwa [rhe_exact _ _ hpos] at this
      calc rhe n (d * 2 ^ s) * 2 ^ s ≤ 2 ^ f.p * 2 ^ s := Nat.mul_le_mul_right _ hle
        _ = 2 ^ (f.p + s) := (Nat.pow_add _ _ _).symm
        _ ≤ 2 ^ (bitLen (n' / d) - 1) := Nat.pow_le_pow_right (by omega) (by omega)
    have hhigh : 2 ^ (bitLen (n' / d) - 1) ≤
        rhe n' (d * 2 ^ (max f.g (bitLen (n' / d) - f.p))) * 2 ^ (max f.g (bitLen (n' / d) - f.p)) := by
      rw [hg]
      have hp1 := pow_bitLen_le _ hn'
      generalize hb' : bitLen (n' / d) = b at *
      have hbp : b - 1 = (f.p - 1) + (b - f.p) := by unfold Fmt.Pos at hf; omega
      rw [hbp, Nat.pow_add]
      refine Nat.mul_le_mul_right _ ?_
      have h1 : 2 ^ (f.p - 1) * (d * 2 ^ (b - f.p)) ≤ n' := by
        rw [hbp, Nat.pow_add] at hp1
        have := (Nat.le_div_iff_mul_le hd).1 hp1
        calc _ = 2 ^ (f.p - 1) * 2 ^ (b - f.p) * d := by ring
          _ ≤ n' := this
      have hpos : 0 < d * 2 ^ (b - f.p) := Nat.mul_pos hd (Nat.two_pow_pos _)
      have := rhe_mono _ _ _ hpos h1
      rwa [rhe_exact _ _ hpos] at this
    omega

/-- Rounding does not cross a representable magnitude from above … -/
theorem rep_le_roundMag (f : Fmt) (hf : f.Pos) (k n d : Nat) (hd : 0 < d) (hk : f.Rep k) (h : k * d ≤ n) :
    k ≤ f.roundMag n d := by
  have := roundMag_mono f hf _ _ d hd h
  rwa [roundMag_rep f k d hd hk] at this

/-- … nor from below. -/
theorem roundMag_le_rep (f : Fmt) (hf : f.Pos) (k n d : Nat) (hd : 0 < d) (hk : f.Rep k) (h : n ≤ k * d) :
    f.roundMag n d ≤ k := by
  have := roundMag_mono f hf _ _ d hd h
  rwa [roundMag_rep f k d hd hk] at this

theorem rep_zero (f : Fmt) : f.Rep 0 := ⟨0, f.g, by simp, Nat.two_pow_pos _, Nat.le_refl _⟩

theorem rep_mul (f : Fmt) (m e : Nat) (hm : m < 2 ^ f.p) (he : f.g ≤ e) : f.Rep (m * 2 ^ e) := ⟨m, e, rfl, hm, he⟩

end Knuckle


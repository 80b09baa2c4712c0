/-
Integer arithmetic done in `double`.
-/
import Verif.Proofs.Float
import Verif.Model.Instance

namespace Knuckle

theorem oneK_pos : 0 < oneK := Nat.two_pow_pos _

theorem oneK_eq : oneK = 2 ^ 1074 := rfl

theorem round_eq (f : Fmt) (neg : Bool) (n d : Nat) (h : f.roundMag n d < f.lim) :
    f.round neg n d = .fin neg (f.roundMag n d) := by
  unfold Fmt.round; rw [if_neg (by omega)]

theorem round_cases (f : Fmt) (neg : Bool) (n d : Nat) :
    f.round neg n d = .inf neg ∨ f.round neg n d = .fin neg (f.roundMag n d) := by
  unfold Fmt.round; split
  · exact .inl rfl
  · exact .inr rfl

theorem f64_rep_int (m : Nat) (h : m < 2 ^ 53) : f64.Rep (m * oneK) := ⟨m, 1074, rfl, h, Nat.zero_le _⟩

theorem f64_lt_lim (m : Nat) (h : m < 2 ^ 64) : m * oneK < f64.lim := by
  have : 2 ^ 64 * oneK ≤ f64.lim := by
    rw [show f64.lim = 2 ^ 2098 from rfl, oneK_eq, ← Nat.pow_add]
    exact Nat.pow_le_pow_right (Nat.succ_pos 1) (by decide)
  exact Nat.lt_of_lt_of_le (Nat.mul_lt_mul_of_pos_right h oneK_pos) this

/-- A double that is an integer below 2^53. -/
theorem round_int (neg : Bool) (m d : Nat) (hd : 0 < d) (h : m < 2 ^ 53) :
    f64.round neg (m * oneK * d) d = .fin neg (m * oneK) := by
  have e := roundMag_rep f64 (m * oneK) d hd (f64_rep_int m h)
  rw [round_eq, e]
  rw [e]; exact f64_lt_lim m (by omega)

theorem sgn_natAbs (n : Int) : sgn (decide (n < 0)) n.natAbs = n := by
  unfold sgn
  by_cases h : n < 0
  · rw [if_pos (by simpa using h)]; omega
  · rw [if_neg (by simpa using h)]; omega

theorem natAbs_lt (n : Int) (h : inInt n) : n.natAbs ≤ 2 ^ 31 := by unfold inInt at h; omega

theorem ofInt64_eq (n : Int) (h : inInt n) : ofInt64 n = .fin (decide (n < 0)) (n.natAbs * oneK) := by
  unfold ofInt64
  have := natAbs_lt n h
  have e := round_int (decide (n < 0)) n.natAbs 1 (by omega) (by omega)
  rwa [Nat.mul_one] at e

theorem toInt_fin (neg : Bool) (m : Nat) : (Fl.fin neg (m * oneK)).toInt = if inInt (sgn neg m) then .ok (sgn neg m) else .ub := by
  show (if inInt (sgn neg (m * oneK / oneK)) then _ else _) = _
  rw [Nat.mul_div_cancel _ oneK_pos]

/-- Reading an `int` back from a `double`. -/
theorem toInt_ofInt64 (n : Int) (h : inInt n) : (ofInt64 n).toInt = .ok n := by
  rw [ofInt64_eq n h, toInt_fin, sgn_natAbs, if_pos h]

theorem toInt_big (x : Fl) (neg : Bool) (k : Nat) (hx : x = .inf neg ∨ x = .fin neg k) (h : 2 ^ 32 * oneK ≤ k) :
    x.toInt = .ub := by
  rcases hx with rfl | rfl
  · rfl
  · show (if inInt (sgn neg (k / oneK)) then _ else _) = _
    rw [if_neg]
    have : 2 ^ 32 ≤ k / oneK := (Nat.le_div_iff_mul_le oneK_pos).2 h
    unfold inInt sgn
    generalize k / oneK = q at this
    split <;> omega

theorem sgn_mul (s : Bool) (m k : Nat) : sgn s (m * k) = sgn s m * (k : Int) := by
  unfold sgn; split <;> simp

theorem add_toInt (a b : Int) (ha : inInt a) (hb : inInt b) :
    (Fl.add f64 (ofInt64 a) (ofInt64 b)).toInt = if inInt (a + b) then .ok (a + b) else .ub := by
  rw [ofInt64_eq a ha, ofInt64_eq b hb]
  unfold Fl.add
  have e : sgn (decide (a < 0)) (a.natAbs * oneK) + sgn (decide (b < 0)) (b.natAbs * oneK) = (a + b) * (oneK : Int) := by
    rw [sgn_mul, sgn_mul, sgn_natAbs, sgn_natAbs]; ring
  simp only [e]
  have hK : (0 : Int) < (oneK : Int) := by exact_mod_cast oneK_pos
  by_cases h0 : a + b = 0
  · simp only [h0, Int.zero_mul, if_true]
    have := toInt_fin (decide (a < 0) && decide (b < 0)) 0
    rw [Nat.zero_mul] at this
    rw [this]
    simp [sgn]
  · have hne : (a + b) * (oneK : Int) ≠ 0 := by
      intro h; rcases Int.mul_eq_zero.1 h with h | h <;> omega
    rw [if_neg hne]
    have hsign : decide ((a + b) * (oneK : Int) < 0) = decide (a + b < 0) := by
      rw [decide_eq_decide]
      constructor
      · intro h; by_contra hc
        have : 0 ≤ (a + b) * (oneK : Int) := Int.mul_nonneg (by omega) (by omega)
        omega
      · intro h; exact Int.mul_neg_of_neg_of_pos h hK
    have habs : ((a + b) * (oneK : Int)).natAbs = (a + b).natAbs * oneK * 1 := by
      rw [Int.natAbs_mul, Int.natAbs_natCast, Nat.mul_one]
    rw [hsign, habs, round_int _ _ _ (by omega) (by unfold inInt at ha hb; omega), toInt_fin, sgn_natAbs]

theorem neg_ofInt64 (b : Int) (hb : inInt b) : (ofInt64 b).neg = .fin (!decide (b < 0)) (b.natAbs * oneK) := by
  rw [ofInt64_eq b hb]; rfl

theorem sub_toInt (a b : Int) (ha : inInt a) (hb : inInt b) :
    (Fl.sub f64 (ofInt64 a) (ofInt64 b)).toInt = if inInt (a - b) then .ok (a - b) else .ub := by
  unfold Fl.sub
  rw [neg_ofInt64 b hb, ofInt64_eq a ha]
  unfold Fl.add
  have hs : sgn (!decide (b < 0)) (b.natAbs * oneK) = (-b) * (oneK : Int) := by
    rw [sgn_mul]
    congr 1
    unfold sgn
    by_cases h : b < 0
    · simp [h]; omega
    · simp [h]; omega
  have e : sgn (decide (a < 0)) (a.natAbs * oneK) + sgn (!decide (b < 0)) (b.natAbs * oneK) = (a - b) * (oneK : Int) := by
    rw [hs, sgn_mul, sgn_natAbs]; ring
  simp only [e]
  have hK : (0 : Int) < (oneK : Int) := by exact_mod_cast oneK_pos
  by_cases h0 : a - b = 0
  · simp only [h0, Int.zero_mul, if_true]
    have := toInt_fin (decide (a < 0) && !decide (b < 0)) 0
    rw [Nat.zero_mul] at this
    rw [this]
    simp [sgn]
  · have hne : (a - b) * (oneK : Int) ≠ 0 := by
      intro h; rcases Int.mul_eq_zero.1 h with h | h <;> omega
    rw [if_neg hne]
    have hsign : decide ((a - b) * (oneK : Int) < 0) = decide (a - b < 0) := by
      rw [decide_eq_decide]
      constructor
      · intro h; by_contra hc
        have : 0 ≤ (a - b) * (oneK : Int) := Int.mul_nonneg (by omega) (by omega)
        omega
      · intro h; exact Int.mul_neg_of_neg_of_pos h hK
    have habs : ((a - b) * (oneK : Int)).natAbs = (a - b).natAbs * oneK * 1 := by
      rw [Int.natAbs_mul, Int.natAbs_natCast, Nat.mul_one]
    rw [hsign, habs, round_int _ _ _ (by omega) (by unfold inInt at ha hb; omega), toInt_fin, sgn_natAbs]

/-- The sign and magnitude of a product. -/
theorem sgn_prod (a b : Int) : sgn (decide (a < 0) != decide (b < 0)) (a.natAbs * b.natAbs) = a * b := by
  unfold sgn
  have e : ((a.natAbs * b.natAbs : Nat) : Int) = |a| * |b| := by simp
  rw [e]
  by_cases h1 : a < 0 <;> by_cases h2 : b < 0 <;>
    simp [h1, h2, abs_of_neg, abs_of_nonneg, not_lt.1]

theorem mul_toInt (a b : Int) (ha : inInt a) (hb : inInt b) :
    (Fl.mul f64 (ofInt64 a) (ofInt64 b)).toInt = if inInt (a * b) then .ok (a * b) else .ub := by
  rw [ofInt64_eq a ha, ofInt64_eq b hb]
  unfold Fl.mul
  have e : a.natAbs * oneK * (b.natAbs * oneK) = a.natAbs * b.natAbs * oneK * oneK := by ring
  simp only [e]
  rcases Nat.lt_or_ge (a.natAbs * b.natAbs) (2 ^ 53) with h | h
  · rw [round_int _ _ _ oneK_pos h, toInt_fin, sgn_prod]
  · rw [if_neg]
    · refine toInt_big _ _ _ (round_cases _ _ _ _) ?_
      refine rep_le_roundMag f64 f64_pos _ _ _ oneK_pos (f64_rep_int _ (by omega)) ?_
      exact Nat.mul_le_mul_right _ (Nat.mul_le_mul_right _ (by omega))
    · have h2 := Int.natAbs_mul a b
      rw [← h2] at h
      unfold inInt; omega

/-- Truncating the rounded quotient gives the truncated quotient. -/
theorem div_trunc (x y : Nat) (hx : x ≤ 2 ^ 31) (hy : 0 < y) (hy' : y ≤ 2 ^ 31) :
    f64.roundMag (x * oneK * oneK) (y * oneK) / oneK = x / y ∧ f64.roundMag (x * oneK * oneK) (y * oneK) < f64.lim := by
  have hd : 0 < y * oneK := Nat.mul_pos hy oneK_pos
  have hq : f64.Rep (x / y * oneK) := f64_rep_int _ (by have := Nat.div_le_self x y; omega)
  have hxy : x / y * y ≤ x := Nat.div_mul_le_self x y
  have hlow : x / y * oneK ≤ f64.roundMag (x * oneK * oneK) (y * oneK) := by
    refine rep_le_roundMag f64 f64_pos _ _ _ hd hq ?_
    calc x / y * oneK * (y * oneK) = x / y * y * (oneK * oneK) := by ring
      _ ≤ x * (oneK * oneK) := Nat.mul_le_mul_right _ hxy
      _ = x * oneK * oneK := by ring
  have hhigh : f64.roundMag (x * oneK * oneK) (y * oneK) < (x / y + 1) * oneK := by
    have hnd : x * oneK * oneK / (y * oneK) = x * oneK / y := Nat.mul_div_mul_right _ _ oneK_pos
    unfold Fmt.roundMag
    simp only [hnd]
    have hs0 : max f64.g (bitLen (x * oneK / y) - f64.p) = bitLen (x * oneK / y) - 53 := Nat.max_eq_right (Nat.zero_le _)
    rw [hs0]
    -- the grid at the quotient is finer than oneK / y
    have hgrid : y * 2 ^ (bitLen (x * oneK / y) - 53) ≤ oneK := by
      rcases Nat.lt_or_ge (bitLen (x * oneK / y)) 54 with hb | hb
      · have : bitLen (x * oneK / y) - 53 = 0 := by omega
        rw [this, Nat.pow_zero, Nat.mul_one, oneK_eq]
        exact Nat.le_trans hy' (Nat.pow_le_pow_right (Nat.succ_pos 1) (by decide))
      · have hne : x * oneK / y ≠ 0 := by intro h0; rw [h0] at hb; simp [bitLen] at hb
        have h1 := pow_bitLen_le _ hne
        have h2 : 2 ^ 52 * 2 ^ (bitLen (x * oneK / y) - 53) = 2 ^ (bitLen (x * oneK / y) - 1) := by
          rw [← Nat.pow_add]; congr 1; omega
        have h3 : y * (2 ^ 52 * 2 ^ (bitLen (x * oneK / y) - 53)) ≤ x * oneK := by
          rw [h2]
          calc _ ≤ y * (x * oneK / y) := Nat.mul_le_mul_left _ h1
            _ ≤ x * oneK := Nat.mul_div_le _ _
        have h4 : x * oneK ≤ 2 ^ 31 * oneK := Nat.mul_le_mul_right _ hx
        generalize 2 ^ (bitLen (x * oneK / y) - 53) = g at h3
        have h5 : 2 ^ 52 * (y * g) ≤ 2 ^ 31 * oneK := by
          calc _ = y * (2 ^ 52 * g) := by ring
            _ ≤ _ := Nat.le_trans h3 h4
        generalize y * g = z at h5
        generalize oneK = K at h5
        omega
    generalize 2 ^ (bitLen (x * oneK / y) - 53) = g at hgrid
    by_contra hc
    have hc : (x / y + 1) * oneK ≤ rhe (x * oneK * oneK) (y * oneK * g) * g := Nat.le_of_not_lt hc
    have hg : 0 < y * oneK * g := by
      rcases Nat.eq_zero_or_pos g with h0 | h0
      · subst h0
        rw [Nat.mul_zero] at hc
        have := Nat.mul_pos (Nat.succ_pos (x / y)) oneK_pos
        exact absurd hc (Nat.not_le.2 this)
      · exact Nat.mul_pos hd h0
    have hb := (rhe_bounds (x * oneK * oneK) (y * oneK * g) hg).1
    generalize rhe (x * oneK * oneK) (y * oneK * g) = R at hb hc
    have h1 : oneK * (2 * (R * g * y)) ≤ oneK * (2 * (x * oneK) + y * g) := by
      calc _ = 2 * (R * (y * oneK * g)) := by ring
        _ ≤ _ := hb
        _ = _ := by ring
    have h2 := Nat.le_of_mul_le_mul_left h1 oneK_pos
    have h3 : (x / y + 1) * oneK * y ≤ R * g * y := Nat.mul_le_mul_right _ hc
    have h4 : x + 1 ≤ (x / y + 1) * y := by
      have := Nat.div_add_mod x y
      have := Nat.mod_lt x hy
      rw [Nat.add_mul, Nat.one_mul, Nat.mul_comm]; omega
    have h5 : oneK * (2 * (x + 1)) ≤ oneK * (2 * x + 1) := by
      calc oneK * (2 * (x + 1)) ≤ oneK * (2 * ((x / y + 1) * y)) :=
            Nat.mul_le_mul_left _ (Nat.mul_le_mul_left _ h4)
        _ = 2 * ((x / y + 1) * oneK * y) := by ring
        _ ≤ 2 * (R * g * y) := Nat.mul_le_mul_left _ h3
        _ ≤ 2 * (x * oneK) + y * g := h2
        _ ≤ 2 * (x * oneK) + oneK := Nat.add_le_add_left hgrid _
        _ = oneK * (2 * x + 1) := by ring
    have := Nat.le_of_mul_le_mul_left h5 oneK_pos
    omega
  constructor
  · exact Nat.div_eq_of_lt_le (by simpa using hlow) (by simpa using hhigh)
  · refine Nat.lt_trans hhigh (f64_lt_lim _ ?_)
    have := Nat.div_le_self x y
    omega

/-- The sign and magnitude of a truncated quotient. -/
theorem sgn_quot (a b : Int) : sgn (decide (a < 0) != decide (b < 0)) (a.natAbs / b.natAbs) = Int.tdiv a b := by
  unfold sgn
  rcases lt_or_ge a 0 with h1 | h1 <;> rcases lt_or_ge b 0 with h2 | h2
  · obtain ⟨m, rfl⟩ := Int.eq_negSucc_of_lt_zero h1
    obtain ⟨n, rfl⟩ := Int.eq_negSucc_of_lt_zero h2
    simp [Int.tdiv, Int.negSucc_lt_zero]
  · obtain ⟨m, rfl⟩ := Int.eq_negSucc_of_lt_zero h1
    obtain ⟨n, rfl⟩ := Int.eq_ofNat_of_zero_le h2
    simp [Int.tdiv, Int.negSucc_lt_zero]
  · obtain ⟨m, rfl⟩ := Int.eq_ofNat_of_zero_le h1
    obtain ⟨n, rfl⟩ := Int.eq_negSucc_of_lt_zero h2
    simp [Int.tdiv, Int.negSucc_lt_zero]
  · obtain ⟨m, rfl⟩ := Int.eq_ofNat_of_zero_le h1
    obtain ⟨n, rfl⟩ := Int.eq_ofNat_of_zero_le h2
    simp [Int.tdiv]
    intro h; exfalso; apply h; omega

theorem div_toInt (a b : Int) (ha : inInt a) (hb : inInt b) (h0 : b ≠ 0) :
    (Fl.div f64 (ofInt64 a) (ofInt64 b)).toInt = if inInt (Int.tdiv a b) then .ok (Int.tdiv a b) else .ub := by
  rw [ofInt64_eq a ha, ofInt64_eq b hb]
  unfold Fl.div
  have hb0 : 0 < b.natAbs := by omega
  have hne : b.natAbs * oneK ≠ 0 := Nat.ne_of_gt (Nat.mul_pos hb0 oneK_pos)
  simp only [if_neg hne]
  have h := div_trunc a.natAbs b.natAbs (natAbs_lt a ha) hb0 (natAbs_lt b hb)
  rw [round_eq _ _ _ _ h.2]
  show (if inInt (sgn _ (_ / oneK)) then _ else _) = _
  rw [h.1, sgn_quot]

theorem div_zero_toInt (a : Int) (ha : inInt a) : (Fl.div f64 (ofInt64 a) (ofInt64 0)).toInt = .ub := by
  rw [ofInt64_eq a ha, ofInt64_eq 0 (by decide)]
  unfold Fl.div
  simp
  split <;> rfl

end Knuckle

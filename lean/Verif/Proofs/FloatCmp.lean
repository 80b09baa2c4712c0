/-
Single-precision values and their comparison.
-/
import Verif.Proofs.IntArith

namespace Knuckle

/-- Values of type `float`. -/
def Fl.IsF32 (x : Fl) : Prop := x.toF32 = x

/-- The grid of the smallest single-precision numbers. -/
def gridK : Nat := 2 ^ 925

theorem gridK_pos : 0 < gridK := Nat.two_pow_pos _

theorem toF32_fin (s : Bool) (k : Nat) : (Fl.fin s k).toF32 = f32.round s k 1 := rfl

theorem isF32_fin (s : Bool) (k : Nat) : (Fl.fin s k).IsF32 ↔ f32.Rep k ∧ k < f32.lim := by
  unfold Fl.IsF32
  rw [toF32_fin]
  constructor
  · intro h
    rcases Nat.lt_or_ge (f32.roundMag k 1) f32.lim with hlt | hge
    · rw [round_eq _ _ _ _ hlt] at h
      injection h with _ h
      refine ⟨?_, by omega⟩
      rw [← h]; exact rep_roundMag f32 f32_pos k 1 (by omega)
    · unfold Fmt.round at h; rw [if_pos hge] at h; cases h
  · rintro ⟨hr, hlt⟩
    have e := roundMag_rep f32 k 1 (by omega) hr
    rw [Nat.mul_one] at e
    rw [round_eq _ _ _ _ (by omega), e]

theorem isF32_inf (s : Bool) : (Fl.inf s).IsF32 := rfl
theorem isF32_nan : Fl.nan.IsF32 := rfl

theorem isF32_round (s : Bool) (n d : Nat) (hd : 0 < d) : (f32.round s n d).IsF32 := by
  unfold Fmt.round
  split
  · rfl
  · rename_i h
    exact (isF32_fin _ _).2 ⟨rep_roundMag f32 f32_pos n d hd, by omega⟩

theorem isF32_toF32 (x : Fl) : x.toF32.IsF32 := by
  cases x with
  | fin s k => exact isF32_round s k 1 (by omega)
  | inf s => rfl
  | nan => rfl

theorem isF32_ofInt32 (n : Int) : (ofInt32 n).IsF32 := isF32_round _ _ _ (by omega)

/-! ### Signs -/

theorem fl_lt_neg (x y : Fl) : x.neg.lt y.neg = y.lt x := by
  cases x <;> cases y <;> simp [Fl.neg, Fl.lt]
  · rename_i a j b k
    cases a <;> cases b <;> simp [sgn] <;> omega
  · rename_i a b; cases a <;> cases b <;> rfl

theorem fl_neg_neg (x : Fl) : x.neg.neg = x := by cases x <;> simp [Fl.neg]

/-- Equality of values: the two zeros are the same. -/
def Fl.Same (x y : Fl) : Prop := x = y ∨ (∃ s t, x = .fin s 0 ∧ y = .fin t 0)

theorem lt_same_left (x x' y : Fl) (h : x.Same x') : x.lt y = x'.lt y := by
  rcases h with rfl | ⟨s, t, rfl, rfl⟩
  · rfl
  · cases y <;> simp [Fl.lt, sgn]

theorem lt_same_right (x y y' : Fl) (h : y.Same y') : x.lt y = x.lt y' := by
  rcases h with rfl | ⟨s, t, rfl, rfl⟩
  · rfl
  · cases x <;> simp [Fl.lt, sgn]

theorem sgn_not (s : Bool) (k : Nat) : sgn (!s) k = - sgn s k := by cases s <;> simp [sgn]

/-- y - x is the negation of x - y (as values). -/
theorem sub_swap (f : Fmt) (x y : Fl) : (y.sub f x).Same (x.sub f y).neg := by
  unfold Fl.sub
  cases x with
  | nan => cases y <;> exact .inl rfl
  | inf a => cases y with
    | nan => exact .inl rfl
    | inf b => cases a <;> cases b <;> exact .inl rfl
    | fin b k => exact .inl rfl
  | fin a j => cases y with
    | nan => exact .inl rfl
    | inf b => exact .inl (by simp [Fl.neg, Fl.add])
    | fin b k =>
      simp only [Fl.neg, Fl.add, sgn_not]
      have e : sgn b k + - sgn a j = -(sgn a j + - sgn b k) := by omega
      rw [e]
      generalize sgn a j + - sgn b k = z
      by_cases hz : z = 0
      · simp only [hz, Int.neg_zero, if_true]
        exact .inr ⟨_, _, rfl, rfl⟩
      · rw [if_neg (by omega), if_neg hz]
        have h1 : decide (-z < 0) = !decide (z < 0) := by
          by_cases h : z < 0
          · rw [decide_eq_true h]; simp; omega
          · rw [decide_eq_false h]; simp; omega
        rw [h1, Int.natAbs_neg]
        left
        unfold Fmt.round
        split <;> rfl

/-! ### The comparators -/

theorem lt_zero_pos (x : Fl) (e : Fl) (he : e.lt (.fin false 0) = false) (h : x.lt e.neg = true) : e.lt x = false := by
  cases x <;> cases e <;> simp_all [Fl.lt, Fl.neg, sgn]
  · rename_i a j b k
    cases a <;> cases b <;> simp_all <;> omega

/-- The float comparison, as used by both comparators. -/
theorem fl_exclusive (x y e : Fl) (he : e.lt (.fin false 0) = false) (h : (x.sub f32 y).lt e.neg = true) :
    e.lt (x.sub f32 y) = false := lt_zero_pos _ _ he h

theorem fl_mirror (x y e : Fl) : (x.sub f32 y).lt e.neg = e.lt (y.sub f32 x) := by
  rw [lt_same_right _ _ _ (sub_swap f32 x y), ← fl_lt_neg, fl_neg_neg]

theorem sgn_lt_zero (s : Bool) (k : Nat) : sgn s k < 0 ↔ s = true ∧ 0 < k := by
  cases s
  · simp [sgn]
  · simp [sgn]

/-- The difference of two representable numbers lies on the grid. -/
theorem rep_grid (k : Nat) (h : f32.Rep k) : ∃ m, k = m * gridK := by
  obtain ⟨m, e, rfl, _, he⟩ := h
  obtain ⟨t, rfl⟩ := Nat.exists_eq_add_of_le he
  refine ⟨m * 2 ^ t, ?_⟩
  rw [Nat.pow_add]
  show m * (gridK * 2 ^ t) = _
  ring

theorem round_pos_of_grid (m : Nat) (hm : 0 < m) : 0 < f32.roundMag (m * gridK) 1 := by
  have h1 : f32.Rep (1 * gridK) := ⟨1, 925, by rw [gridK], by decide, by decide⟩
  have := rep_le_roundMag f32 f32_pos (1 * gridK) (m * gridK) 1 (by omega) h1
    (by rw [Nat.mul_one]; exact Nat.mul_le_mul_right _ hm)
  exact Nat.lt_of_lt_of_le (Nat.mul_pos (by omega) gridK_pos) this

/-- With tolerance zero, the comparison of two floats other than NaN is the comparison of the numbers. -/
theorem fl_zero_tolerance (x y : Fl) (hx : x.IsF32) (hy : y.IsF32) (hx' : x ≠ .nan) (hy' : y ≠ .nan)
    (s : Bool) (hxy : ∀ b, x = .inf b → y ≠ .inf b) : (x.sub f32 y).lt (Fl.fin s 0) = x.lt y := by
  cases x with
  | nan => exact absurd rfl hx'
  | inf a => cases y with
    | nan => exact absurd rfl hy'
    | inf b =>
      have := hxy a rfl
      cases a <;> cases b <;> simp_all [Fl.sub, Fl.add, Fl.neg, Fl.lt]
    | fin b k => simp [Fl.sub, Fl.add, Fl.neg, Fl.lt]
  | fin a j => cases y with
    | nan => exact absurd rfl hy'
    | inf b => cases b <;> simp [Fl.sub, Fl.add, Fl.neg, Fl.lt]
    | fin b k =>
      obtain ⟨m, hm⟩ := rep_grid j ((isF32_fin a j).1 hx).1
      obtain ⟨n, hn⟩ := rep_grid k ((isF32_fin b k).1 hy).1
      simp only [Fl.sub, Fl.neg, Fl.add, sgn_not]
      have e : sgn a j + - sgn b k = (sgn a m - sgn b n) * (gridK : Int) := by
        rw [hm, hn, sgn_mul, sgn_mul]; ring
      have hG : (0 : Int) < (gridK : Int) := by exact_mod_cast gridK_pos
      have hlt : (sgn a j < sgn b k) ↔ sgn a m - sgn b n < 0 := by
        rw [hm, hn, sgn_mul, sgn_mul]
        rw [Int.mul_lt_mul_right hG]; omega
      have hR : (Fl.fin a j).lt (.fin b k) = decide (sgn a m - sgn b n < 0) := by
        simp only [Fl.lt, hlt]
      rw [hR, e]
      generalize sgn a m - sgn b n = z
      generalize hg : (gridK : Int) = G at hG
      by_cases hz : z = 0
      · subst hz; simp [Fl.lt, sgn]
      · have hne : z * G ≠ 0 := by
          intro h; rcases Int.mul_eq_zero.1 h with h | h <;> omega
        rw [if_neg hne]
        have hs : decide (z * G < 0) = decide (z < 0) := by
          rw [decide_eq_decide]
          constructor
          · intro h; by_contra hc
            have : 0 ≤ z * G := Int.mul_nonneg (by omega) (by omega)
            omega
          · intro h; exact Int.mul_neg_of_neg_of_pos h hG
        have ha : (z * G).natAbs = z.natAbs * gridK := by
          rw [Int.natAbs_mul, ← hg, Int.natAbs_natCast]
        rw [hs, ha]
        have hpos := round_pos_of_grid z.natAbs (by omega)
        rcases round_cases f32 (decide (z < 0)) (z.natAbs * gridK) 1 with h | h
        · rw [h]; simp [Fl.lt]
        · rw [h]
          have h0 : sgn s 0 = 0 := by cases s <;> rfl
          simp only [Fl.lt, h0, sgn_lt_zero, hpos, and_true, decide_eq_true_eq]

end Knuckle

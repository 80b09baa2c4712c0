/-
The error of sums of floats.
-/
import Verif.Spec.Sums
import Verif.Proofs.FloatError
import Verif.Proofs.Twice
import Verif.Props.Numbers
import Verif.Props.Concurrency

namespace Knuckle

open Spec

/-- The error of rounding, for numbers of any size. -/
theorem nearest_bound {p e : ℕ} (hp : 0 < p) {q r : ℚ} (h : Nearest p e q r) : |q - r| ≤ |q| * 2 ^ (-(p : ℤ)) + 2 ^ (-(e : ℤ) - 1) := by
  rcases le_or_gt ((2 : ℚ) ^ ((p : ℤ) - 1 - e)) |q| with hq | hq
  · have := nearest_relative hp h hq
    have h0 := zpos (-(e : ℤ) - 1)
    linarith
  · have := nearest_error hp (k := -(e : ℤ)) h le_rfl (hq.le.trans (zpow_le_of (by omega)))
    have h0 : 0 ≤ |q| * (2 : ℚ) ^ (-(p : ℤ)) := mul_nonneg (abs_nonneg _) (zpos _).le
    linarith

theorem negated_number {x : Fl} {q : ℚ} (h : number x = some q) : number (opposite x) = some (-q) := by
  cases x with
  | nan => cases h
  | inf b => cases h
  | fin neg k =>
    cases h
    cases neg <;> simp [opposite, number, neg_div]

theorem sum_number {F : Format} {x y z : Fl} {p q : ℚ} (hx : number x = some p) (hy : number y = some q) (h : Sum F x y z) :
    (p + q = 0 ∧ number z = some 0) ∨ ∃ neg, Rounds F neg (p + q) z := by
  cases h with
  | nanLeft => cases hx
  | nanRight => cases hy
  | opposite h => cases hx
  | infinities => cases hx
  | infLeft => cases hx
  | infRight => cases hy
  | zero h1 h2 h3 =>
    rw [hx] at h1; rw [hy] at h2; cases h1; cases h2
    exact .inl ⟨h3, by simp [number]⟩
  | number h1 h2 h3 h4 =>
    rw [hx] at h1; rw [hy] at h2; cases h1; cases h2
    exact .inr ⟨_, h4⟩

theorem rounds_finite {F : Format} (hp : 0 < F.bits) {neg : Bool} {q : ℚ} {x : Fl} (h : Rounds F neg q x)
    (hb : |q| + (|q| * 2 ^ (-(F.bits : ℤ)) + 2 ^ (-(F.small : ℤ) - 1)) < 2 ^ F.big) :
    ∃ r, number x = some r ∧ |q - r| ≤ |q| * 2 ^ (-(F.bits : ℤ)) + 2 ^ (-(F.small : ℤ) - 1) := by
  obtain ⟨r, h1, _, h2⟩ := h
  have e := nearest_bound hp h1
  rcases h2 with ⟨_, h2⟩ | ⟨h2, _⟩
  · exact ⟨r, h2, e⟩
  · have := abs_sub_abs_le_abs_sub r q
    rw [abs_sub_comm] at this
    linarith

/-- One addition: `u` is the number `q` rounded to `double`. -/
theorem add_error {v l d x : Fl} {p q u : ℚ} (hv : number v = some p) (hl : number l = some u)
    (hu : |q - u| ≤ |q| * 2 ^ (-53 : ℤ) + 2 ^ (-1075 : ℤ)) (hd : Sum double v l d) (hx : Converts d x) (hb : |p| + |q| ≤ 2 ^ 127 * (7 / 4)) :
    ∃ r, number x = some r ∧ |r - (p + q)| ≤ (2 ^ (-24 : ℤ) + 2 ^ (-51 : ℤ)) * (|p| + |q|) + 2 ^ (-149 : ℤ) := by
  have hz0 : (0 : ℚ) < 2 ^ (-1075 : ℤ) := zpos _
  have hz1 : (2 : ℚ) ^ (-1075 : ℤ) ≤ 2 ^ (-200 : ℤ) := zpow_le_of (by norm_num)
  generalize hz : (2 : ℚ) ^ (-1075 : ℤ) = z at *
  have hp0 := abs_nonneg p
  have hq0 := abs_nonneg q
  -- the sum in double
  have ht : |p + u| ≤ |p| + |q| + |q - u| := by
    have h1 := abs_add_le p u
    have h2 := abs_sub_abs_le_abs_sub u q
    rw [abs_sub_comm] at h2
    linarith
  have hbig : (2 : ℚ) ^ 128 ≤ 2 ^ 1024 := pow_le_pow_right₀ (by norm_num) (by norm_num)
  obtain ⟨w, hw, hwe⟩ : ∃ w, number d = some w ∧ |p + u - w| ≤ |p + u| * 2 ^ (-53 : ℤ) + z := by
    rcases sum_number hv hl hd with ⟨h1, h2⟩ | ⟨neg, h1⟩
    · exact ⟨0, h2, by rw [h1]; simp [hz0.le]⟩
    · have := rounds_finite (F := double) (by decide) h1 (by
        change |p + u| + (|p + u| * 2 ^ (-53 : ℤ) + 2 ^ (-1074 - 1 : ℤ)) < (2 : ℚ) ^ 1024
        refine lt_of_lt_of_le ?_ hbig
        have e : (2 : ℚ) ^ (-1074 - 1 : ℤ) = 2 ^ (-1075 : ℤ) := by norm_num
        have hz3 : (2 : ℚ) ^ (-1075 : ℤ) ≤ 2 ^ (-200 : ℤ) := zpow_le_of (by norm_num)
        rw [e]
        generalize (2 : ℚ) ^ (-1075 : ℤ) = y at hz3 ⊢
        norm_num at hu hb hz1 hz3 ⊢
        linarith)
      obtain ⟨w, h2, h3⟩ := this
      refine ⟨w, h2, h3.trans (le_of_eq ?_)⟩
      rw [← hz]; rfl
  have hw' : |w| ≤ |p + u| + |p + u - w| := by
    have := abs_sub_abs_le_abs_sub w (p + u)
    rw [abs_sub_comm] at this
    linarith
  obtain ⟨r, hr, hre⟩ : ∃ r, number x = some r ∧ |w - r| ≤ |w| * 2 ^ (-24 : ℤ) + 2 ^ (-150 : ℤ) := by
    cases hx with
    | nan => cases hw
    | inf b => cases hw
    | num h1 h2 =>
      rw [hw] at h1; cases h1
      have := rounds_finite (F := single) (by decide) h2 (by
        change |w| + (|w| * 2 ^ (-24 : ℤ) + 2 ^ (-149 - 1 : ℤ)) < (2 : ℚ) ^ 128
        norm_num at hu hb hz1 hwe ⊢
        linarith)
      obtain ⟨r, h3, h4⟩ := this
      exact ⟨r, h3, h4⟩
  refine ⟨r, hr, ?_⟩
  have h1 : |r - (p + q)| ≤ |w - r| + |p + u - w| + |q - u| := by
    have e : r - (p + q) = -(w - r) + -(p + u - w) + -(q - u) := by ring
    rw [e]
    refine (abs_add_le _ _).trans ?_
    have := abs_add_le (-(w - r)) (-(p + u - w))
    simp only [abs_neg] at this ⊢
    linarith
  norm_num at hu hb hz1 hwe hre ⊢
  linarith

/-- The numbers are added to the value, up to rounding. -/
theorem step_error {cfg : Cfg} {v : Fl} {i : Inst} {a r name : Str} {neg : Bool} {p q : ℚ} (hv : number v = some p) (ha : FloatLiteral a neg q)
    (h : Behaves cfg (.float v) name [a] (.gives i r)) (hb : |p| + |q| ≤ 2 ^ 127 * (7 / 4)) :
    (name = b!"add:" → ∃ x r, i = .float x ∧ number x = some r ∧ |r - (p + q)| ≤ (2 ^ (-24 : ℤ) + 2 ^ (-51 : ℤ)) * (|p| + |q|) + 2 ^ (-149 : ℤ)) ∧
    (name = b!"subtract:" → ∃ x r, i = .float x ∧ number x = some r ∧ |r - (p + -q)| ≤ (2 ^ (-24 : ℤ) + 2 ^ (-51 : ℤ)) * (|p| + |q|) + 2 ^ (-149 : ℤ)) := by
  generalize hy : Result.gives i r = y at h
  generalize hl : [a] = l at h
  obtain ⟨u, hu, hue⟩ := rounds_finite (F := double) (by decide) (atof_rounds ha) (by
    change |q| + (|q| * 2 ^ (-53 : ℤ) + 2 ^ (-1074 - 1 : ℤ)) < (2 : ℚ) ^ 1024
    have hbig : (2 : ℚ) ^ 129 ≤ 2 ^ 1024 := pow_le_pow_right₀ (by norm_num) (by norm_num)
    refine lt_of_lt_of_le ?_ hbig
    have hz3 : (2 : ℚ) ^ (-1074 - 1 : ℤ) ≤ 2 ^ (-200 : ℤ) := zpow_le_of (by norm_num)
    have hp0 := abs_nonneg p
    generalize (2 : ℚ) ^ (-1074 - 1 : ℤ) = y at hz3 ⊢
    norm_num at hb hz3 ⊢
    linarith)
  have hue : |q - u| ≤ |q| * 2 ^ (-53 : ℤ) + 2 ^ (-1075 : ℤ) := hue
  constructor
  · rintro rfl
    cases h with
    | @float _ _ _ m hm =>
      obtain ⟨w, e, rfl⟩ := map_gives hy.symm
      cases hm with
      | add hf =>
        cases hl
        cases e
        obtain ⟨r, h1, h2⟩ := add_error hv hu hue (sum_add f64_is _ _) (converts_toF32 _) hb
        exact ⟨_, r, rfl, h1, h2⟩
  · rintro rfl
    cases h with
    | @float _ _ _ m hm =>
      obtain ⟨w, e, rfl⟩ := map_gives hy.symm
      cases hm with
      | subtract hf =>
        cases hl
        cases e
        obtain ⟨r, h1, h2⟩ := add_error (q := -q) hv (negated_number hu) (by
          rw [abs_neg, show -q - -u = -(q - u) by ring, abs_neg]; exact hue) (difference_sub f64_is _ _) (converts_toF32 _) (by rw [abs_neg]; exact hb)
        rw [abs_neg] at h2
        exact ⟨_, r, rfl, h1, h2⟩

theorem abs_sum_le (qs : List ℚ) : |qs.sum| ≤ magnitude qs := by
  induction qs with
  | nil => simp [magnitude]
  | cons q qs ih =>
    simp only [magnitude, List.sum_cons, List.map_cons] at ih ⊢
    exact (abs_add_le _ _).trans (by linarith)

theorem magnitude_nonneg (qs : List ℚ) : 0 ≤ magnitude qs := (abs_nonneg _).trans (abs_sum_le qs)

/-- The error grows linearly. -/
theorem chain_sum {ops : List (Str × List Str × Str)} {qs : List ℚ} {i : Inst} (hq : SumOps ops qs) {v : Fl} {p S A T : ℚ} {k : ℕ}
    (h : Chain (.float v) ops i) (hv : number v = some p) (hS : |S| ≤ A) (hA : A + magnitude qs ≤ T) (hT : T ≤ 2 ^ 127)
    (hk : k + qs.length ≤ 2 ^ 22) (he : |p - S| ≤ k * (2 ^ (-23 : ℤ) * T + 2 ^ (-148 : ℤ))) :
    ∃ x r, i = .float x ∧ number x = some r ∧ |r - (S + qs.sum)| ≤ ((k + qs.length : ℕ) : ℚ) * (2 ^ (-23 : ℤ) * T + 2 ^ (-148 : ℤ)) := by
  have key : ∀ {q : ℚ} {qs : List ℚ} {p S A : ℚ} {k : ℕ}, |S| ≤ A → A + magnitude (q :: qs) ≤ T → k + (q :: qs).length ≤ 2 ^ 22 →
      |p - S| ≤ k * (2 ^ (-23 : ℤ) * T + 2 ^ (-148 : ℤ)) →
      |p| + |q| ≤ 2 ^ 127 * (7 / 4) ∧ ∀ r, |r - (p + q)| ≤ (2 ^ (-24 : ℤ) + 2 ^ (-51 : ℤ)) * (|p| + |q|) + 2 ^ (-149 : ℤ) →
        |r - (S + q)| ≤ ((k + 1 : ℕ) : ℚ) * (2 ^ (-23 : ℤ) * T + 2 ^ (-148 : ℤ)) ∧ |S + q| ≤ A + |q| ∧ A + |q| + magnitude qs ≤ T := by
    intro q qs p S A k hS hA hk he
    have hm := magnitude_nonneg qs
    have hA' : A + |q| + magnitude qs ≤ T := by simpa [magnitude, add_assoc] using hA
    have h0 := abs_nonneg S
    have h1 := abs_nonneg q
    have hk' : (k : ℚ) ≤ 2 ^ 22 := by
      have : k ≤ 2 ^ 22 := by omega
      exact_mod_cast this
    have hT0 : 0 ≤ T := by linarith
    have he' : |p - S| ≤ 2 ^ 22 * (2 ^ (-23 : ℤ) * T + 2 ^ (-148 : ℤ)) :=
      he.trans (mul_le_mul_of_nonneg_right hk' (add_nonneg (mul_nonneg (zpos _).le hT0) (zpos _).le))
    have hp : |p| + |q| ≤ T + |p - S| := by
      have := abs_sub_abs_le_abs_sub p S
      linarith
    refine ⟨by norm_num at he' hT ⊢; linarith, fun r hr => ⟨?_, (abs_add_le _ _).trans (by linarith), hA'⟩⟩
    have e : |r - (S + q)| ≤ |r - (p + q)| + |p - S| := by
      have : r - (S + q) = (r - (p + q)) + (p - S) := by ring
      rw [this]; exact abs_add_le _ _
    push_cast
    rw [add_mul, one_mul]
    have : |r - (p + q)| ≤ 2 ^ (-23 : ℤ) * T + 2 ^ (-148 : ℤ) := by
      norm_num at he' hr ⊢
      linarith
    linarith
  induction hq generalizing v p S A k with
  | nil => cases h; exact ⟨v, p, rfl, hv, by simpa using he⟩
  | @add a neg q r ops qs ha _ ih =>
    cases h with
    | @cons cfg _ i' _ _ _ _ _ hw hb _ hch =>
      obtain ⟨h1, h2⟩ := key hS hA hk he
      obtain ⟨x, r', rfl, h3, h4⟩ := (step_error hv ha hb h1).1 rfl
      obtain ⟨h5, h6, h7⟩ := h2 r' h4
      obtain ⟨y, s, g1, g2, g3⟩ := ih hch h3 h6 h7 (by simp only [List.length_cons] at hk; omega) h5
      refine ⟨y, s, g1, g2, ?_⟩
      rw [List.sum_cons, ← add_assoc]
      refine g3.trans (le_of_eq ?_)
      congr 2
      simp only [List.length_cons]; omega
  | @subtract a neg q r ops qs ha _ ih =>
    cases h with
    | @cons cfg _ i' _ _ _ _ _ hw hb _ hch =>
      obtain ⟨h1, h2⟩ := key hS hA hk he
      rw [abs_neg] at h1 h2
      obtain ⟨x, r', rfl, h3, h4⟩ := (step_error hv ha hb h1).2 rfl
      obtain ⟨h5, h6, h7⟩ := h2 r' h4
      obtain ⟨y, s, g1, g2, g3⟩ := ih hch h3 h6 h7 (by simp only [List.length_cons] at hk; omega) h5
      refine ⟨y, s, g1, g2, ?_⟩
      rw [List.sum_cons, ← add_assoc]
      refine g3.trans (le_of_eq ?_)
      congr 2
      simp only [List.length_cons]; omega

/-! ### Exact sums -/

theorem multiple_add {g : ℤ} {p q : ℚ} (hp : MultipleOf g p) (hq : MultipleOf g q) : MultipleOf g (p + q) := by
  obtain ⟨m, rfl⟩ := hp; obtain ⟨k, rfl⟩ := hq
  exact ⟨m + k, by push_cast; ring⟩

theorem multiple_grid {g : ℤ} {q : ℚ} (h1 : -149 ≤ g) (h : MultipleOf g q) (hq : |q| ≤ 2 ^ (24 + g)) :
    OnGrid 24 149 q ∧ OnGrid 53 1074 q := by
  obtain ⟨m, rfl⟩ := h
  have hm : |m| ≤ 2 ^ 24 := by
    rw [abs_mul, abs_of_pos (zpos g), zpow_add₀ (by norm_num)] at hq
    have := le_of_mul_le_mul_right hq (zpos g)
    have h2 : ((|m| : ℤ) : ℚ) ≤ ((2 ^ 24 : ℤ) : ℚ) := by rw [Int.cast_abs]; exact_mod_cast this
    exact Int.cast_le.1 h2
  exact ⟨onGrid_le (by norm_num) hm (by simpa using h1), onGrid_le (by norm_num) (hm.trans (by norm_num)) (by push_cast; omega)⟩

/-- Rounding a number of the grid. -/
theorem rounds_grid {F : Format} (hF : F = single ∨ F = double) {neg : Bool} {q : ℚ} {x : Fl} (h : Rounds F neg q x) (hg : OnGrid F.bits F.small q)
    (hb : |q| < 2 ^ F.big) : number x = some q := by
  obtain ⟨r, h1, _, h2⟩ := h
  have : r = q := nearest_unique (by rcases hF with rfl | rfl <;> decide) (by rcases hF with rfl | rfl <;> decide) h1 (nearest_self hg)
  subst this
  rcases h2 with ⟨_, h2⟩ | ⟨h2, _⟩
  · exact h2
  · linarith

theorem add_exact {g : ℤ} {v l d x : Fl} {p q : ℚ} (h1 : -149 ≤ g) (h2 : g ≤ 103) (hv : number v = some p) (hl : number l = some q)
    (hp : MultipleOf g p) (hq : MultipleOf g q) (hb : |p + q| ≤ 2 ^ (24 + g)) (hd : Sum double v l d) (hx : Converts d x) :
    number x = some (p + q) := by
  obtain ⟨g1, g2⟩ := multiple_grid h1 (multiple_add hp hq) hb
  have hlt : |p + q| < (2 : ℚ) ^ 128 := lt_of_le_of_lt hb (by
    rw [← zpow_natCast]; exact zpow_lt_of (by push_cast; omega))
  have hd' : number d = some (p + q) := by
    rcases sum_number hv hl hd with ⟨e, h3⟩ | ⟨neg, h3⟩
    · rw [e]; exact h3
    · exact rounds_grid (.inr rfl) h3 g2 (hlt.trans_le (pow_le_pow_right₀ (by norm_num) (by decide)))
  cases hx with
  | nan => cases hd'
  | inf b => cases hd'
  | num h3 h4 =>
    rw [hd'] at h3; cases h3
    exact rounds_grid (.inl rfl) h4 g1 hlt

theorem step_exact {cfg : Cfg} {v : Fl} {i : Inst} {a r name : Str} {neg : Bool} {p q : ℚ} {g : ℤ} (h1 : -149 ≤ g) (h2 : g ≤ 103)
    (hv : number v = some p) (ha : FloatLiteral a neg q) (h : Behaves cfg (.float v) name [a] (.gives i r)) (hp : MultipleOf g p)
    (hq : MultipleOf g q) (hb : |p| + |q| ≤ 2 ^ (24 + g)) :
    (name = b!"add:" → ∃ x, i = .float x ∧ number x = some (p + q)) ∧ (name = b!"subtract:" → ∃ x, i = .float x ∧ number x = some (p + -q)) := by
  generalize hy : Result.gives i r = y at h
  generalize hl : [a] = l at h
  have hqb : |q| ≤ 2 ^ (24 + g) := by have := abs_nonneg p; linarith
  have hlt : |q| < (2 : ℚ) ^ 128 := lt_of_le_of_lt hqb (by
    rw [← zpow_natCast]; exact zpow_lt_of (by push_cast; omega))
  have hu : number (atof a) = some q := rounds_grid (.inr rfl) (atof_rounds ha) (multiple_grid h1 hq hqb).2
    (hlt.trans_le (pow_le_pow_right₀ (by norm_num) (by decide)))
  constructor
  · rintro rfl
    cases h with
    | @float _ _ _ m hm =>
      obtain ⟨w, e, rfl⟩ := map_gives hy.symm
      cases hm with
      | add hf =>
        cases hl
        cases e
        exact ⟨_, rfl, add_exact h1 h2 hv hu hp hq ((abs_add_le _ _).trans hb) (sum_add f64_is _ _) (converts_toF32 _)⟩
  · rintro rfl
    cases h with
    | @float _ _ _ m hm =>
      obtain ⟨w, e, rfl⟩ := map_gives hy.symm
      cases hm with
      | subtract hf =>
        cases hl
        cases e
        refine ⟨_, rfl, add_exact h1 h2 hv (negated_number hu) hp ?_ ((abs_add_le _ _).trans (by rwa [abs_neg])) (difference_sub f64_is _ _) (converts_toF32 _)⟩
        obtain ⟨m, rfl⟩ := hq
        exact ⟨-m, by push_cast; ring⟩

theorem multiple_neg {g : ℤ} {q : ℚ} (h : MultipleOf g (-q)) : MultipleOf g q := by
  obtain ⟨m, e⟩ := h
  exact ⟨-m, by push_cast; linarith⟩

theorem chain_exact {ops : List (Str × List Str × Str)} {qs : List ℚ} {i : Inst} {g : ℤ} (h1 : -149 ≤ g) (h2 : g ≤ 103) (hq : SumOps ops qs) {v : Fl} {p : ℚ}
    (h : Chain (.float v) ops i) (hv : number v = some p) (hp : MultipleOf g p) (hm : ∀ q ∈ qs, MultipleOf g q)
    (hb : |p| + magnitude qs ≤ 2 ^ (24 + g)) : ∃ x, i = .float x ∧ number x = some (p + qs.sum) := by
  have key : ∀ {q : ℚ} {qs : List ℚ} {p : ℚ}, |p| + magnitude (q :: qs) ≤ 2 ^ (24 + g) →
      |p| + |q| ≤ 2 ^ (24 + g) ∧ |p + q| + magnitude qs ≤ 2 ^ (24 + g) := by
    intro q qs p hb
    have h3 : |p| + |q| + magnitude qs ≤ 2 ^ (24 + g) := by simpa [magnitude, add_assoc] using hb
    have h4 := magnitude_nonneg qs
    have h5 := abs_add_le p q
    constructor <;> linarith
  induction hq generalizing v p with
  | nil => cases h; exact ⟨v, rfl, by simpa using hv⟩
  | @add a neg q r ops qs ha _ ih =>
    cases h with
    | @cons cfg _ i' _ _ _ _ _ hw hbh _ hch =>
      obtain ⟨b1, b2⟩ := key hb
      obtain ⟨x, rfl, h3⟩ := (step_exact h1 h2 hv ha hbh hp (hm q (by simp)) b1).1 rfl
      obtain ⟨y, g1, g2⟩ := ih hch h3 (multiple_add hp (hm q (by simp))) (fun q' hq' => hm q' (by simp [hq'])) b2
      exact ⟨y, g1, by rw [g2, List.sum_cons, add_assoc]⟩
  | @subtract a neg q r ops qs ha _ ih =>
    cases h with
    | @cons cfg _ i' _ _ _ _ _ hw hbh _ hch =>
      obtain ⟨b1, b2⟩ := key hb
      rw [abs_neg] at b1
      obtain ⟨x, rfl, h3⟩ := (step_exact h1 h2 hv ha hbh hp (multiple_neg (hm (-q) (by simp))) b1).2 rfl
      obtain ⟨y, g1, g2⟩ := ih hch h3 (multiple_add hp (hm (-q) (by simp))) (fun q' hq' => hm q' (by simp [hq'])) b2
      exact ⟨y, g1, by rw [g2, List.sum_cons, add_assoc]⟩

end Knuckle

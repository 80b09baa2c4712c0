/-
C53–C56: floats as numbers: reading, printing, arithmetic, comparison.
-/
import Verif.Proofs.FloatError
import Verif.Props.Floats
import Verif.Props.Requests

namespace Knuckle.Props

open Spec

variable {pwd pwd' : Str} {c c' : Ctx} {s s' : Option Session}

/-! ### C53: reading literals -/

/-- C53: every float literal writes exactly one number. -/
theorem C53_a_literal_writes_one_number (a : Str) :
    (FloatValue a ↔ ∃ neg q, FloatLiteral a neg q) ∧
    ∀ neg q neg' q', FloatLiteral a neg q → FloatLiteral a neg' q' → neg = neg' ∧ q = q' :=
  ⟨floatLiteral_exists a, fun _ _ _ _ h h' => floatLiteral_unique h h'⟩

/-- C53: where a Float is expected, a literal denotes the written number rounded to `double` and then to `float`. -/
theorem C53_denotes (a : Str) (o : Obj) : Denotes b!"Float" a o ↔
    ∃ neg q d x, FloatLiteral a neg q ∧ Rounds double neg q d ∧ Converts d x ∧ o = .float x := by
  constructor
  · intro h
    generalize ht : b!"Float" = t at h
    cases h with
    | float h =>
      obtain ⟨neg, q, hq⟩ := (floatLiteral_exists a).1 h
      exact ⟨neg, q, _, _, hq, atof_rounds hq, converts_toF32 _, rfl⟩
    | _ => exact absurd ht (by decide)
  · rintro ⟨neg, q, d, x, h1, h2, h3, rfl⟩
    have := double_unique h2 (atof_rounds h1)
    subst this
    rw [converts_iff] at h3
    subst h3
    exact .float ((floatLiteral_exists a).2 ⟨neg, q, h1⟩)

/-- C53: creating a Float stores the written number rounded to `double` and then to `float`. -/
theorem C53_create [StdSort] {n a t name : Str} (hc : Reachable c) (hn : Absent c n) (hv : Variable n) (ha : FloatValue a)
    (hm : name ∈ [b!"create:withValue:", b!"createIfNotExists:withValue:"]) (h : Statement t b!"Float" name [n, a]) :
    ∃ c' neg q d x, Replies pwd c s t b!"null" c' ∧ FloatLiteral a neg q ∧ Rounds double neg q d ∧ Converts d x ∧
      Holds c' n (.float x) := by
  have hd : Denotes b!"Float" a (.float (atof a).toF32) := .float ha
  obtain ⟨neg, q, d, x, h1, h2, h3, h4⟩ := (C53_denotes a _).1 hd
  rw [h4] at hd
  obtain ⟨c', e1, _, e2, _⟩ := C29_creation_adds_one_variable (pwd := pwd) (s := s) hc
    ⟨_, _, _, h, .value (by unfold ObjectType; decide) hm hv hd⟩ hn
  exact ⟨c', neg, q, d, x, e1, h1, h2, h3, e2⟩

/-- C53: where an Integer is expected, a literal that is not an integer literal denotes the written number rounded to
`double`, without its fractional part, if that is a 32-bit integer. -/
theorem C53_denotes_integer (a : Str) (n : ℤ) (hi : ¬ IntegerValue a) : Denotes b!"Integer" a (.integer n) ↔
    ∃ neg q d r, FloatLiteral a neg q ∧ Rounds double neg q d ∧ number d = some r ∧ Truncates r n ∧ IsInt32 n := by
  constructor
  · intro h
    generalize ht : b!"Integer" = t at h
    generalize ho : Obj.integer n = o at h
    cases h with
    | integer h1 _ => exact absurd ((intLiteral_exists a).2 ⟨_, h1⟩) hi
    | truncated h1 _ h3 =>
      injection ho with ho; subst ho
      obtain ⟨neg, q, hq⟩ := (floatLiteral_exists a).1 h1
      have hr := atof_rounds hq
      cases hd : atof a with
      | nan => rw [hd] at h3; cases h3
      | inf b => rw [hd] at h3; cases h3
      | fin b k =>
        rw [hd] at h3 hr
        simp only [Fl.toInt] at h3
        split at h3
        · rename_i hin
          injection h3 with h3
          subst h3
          exact ⟨neg, q, _, _, hq, hr, number_fin b k, (truncates_iff b k _).2 rfl, (int32_iff _).2 hin⟩
        · cases h3
    | _ => exact absurd ht (by decide)
  · rintro ⟨neg, q, d, r, h1, h2, h3, h4, h5⟩
    have := double_unique h2 (atof_rounds h1)
    obtain ⟨b, k, hd, rfl⟩ := number_eq h3
    rw [truncates_iff] at h4
    refine .truncated ((floatLiteral_exists a).2 ⟨neg, q, h1⟩) hi ?_
    rw [← this, hd]
    simp only [Fl.toInt]
    rw [← h4, if_pos ((int32_iff n).1 h5)]

/-- C53: `set:` stores the written number, rounded to `double` and then to `float`. -/
theorem C53_set [StdSort] {n t a : Str} {v : Fl} {neg : Bool} {q : ℚ} (hc : Reachable c) (hn : Holds c n (.float v))
    (ha : FloatLiteral a neg q) (h : Statement t n b!"set:" [a]) :
    ∃ d x c₁, Rounds double neg q d ∧ Converts d x ∧ Replies pwd c s t b!"null" c₁ ∧ OnlyChanged c c₁ n (.float x) := by
  obtain ⟨c₁, h1, h2⟩ := answers_flt (pwd := pwd) (s := s) hc hn h (.set ((floatLiteral_exists a).2 ⟨neg, q, ha⟩))
  exact ⟨_, _, c₁, atof_rounds ha, converts_toF32 _, h1, h2⟩

/-- C53: the rounded value is determined by the written number (and the sign, if it is zero). -/
theorem C53_determined {F : Format} (hF : F = single ∨ F = double) {neg : Bool} {q : ℚ} {x y : Fl} (hx : Rounds F neg q x)
    (hy : Rounds F neg q y) : x = y := by
  rcases hF with rfl | rfl
  · exact single_unique hx hy
  · exact double_unique hx hy

/-- The value a Float literal denotes, if the written number is one of the `float` format. -/
theorem denotes_single {a : Str} {neg : Bool} {q : ℚ} {x : Fl} (ha : FloatLiteral a neg q) (h1 : OnGrid 24 149 q)
    (h2 : |q| < 2 ^ 128) (h : Denotes b!"Float" a (.float x)) : number x = some q ∧ signBit x = neg := by
  obtain ⟨neg', q', d, x', h3, h4, h5, h6⟩ := (C53_denotes a _).1 h
  injection h6 with h6; subst h6
  obtain ⟨rfl, rfl⟩ := floatLiteral_unique ha h3
  obtain ⟨r, g1, g2, g3⟩ := h4
  have : r = q := nearest_unique (p := 53) (e := 1074) (by decide) (by decide) g1 (nearest_self (single_on_double h1))
  subst this
  have hbig : |r| < 2 ^ double.big := lt_of_lt_of_le h2 (pow_le_pow_right₀ (by norm_num) (by decide))
  rcases g3 with ⟨_, g3⟩ | ⟨g3, _⟩
  · cases h5 with
    | nan => cases g3
    | inf b => cases g3
    | num k1 k2 =>
      rw [g3] at k1; injection k1 with k1; subst k1
      obtain ⟨r', j1, j2, j3⟩ := k2
      have : r' = r := nearest_unique (p := 24) (e := 149) (by decide) (by decide) j1 (nearest_self h1)
      subst this
      rcases j3 with ⟨_, j3⟩ | ⟨j3, _⟩
      · exact ⟨j3, by rw [j2, g2]⟩
      · exact absurd h2 (not_lt.2 j3)
  · exact absurd hbig (not_lt.2 g3)

/-- C53: a number of the `float` format is stored exactly. -/
theorem C53_exact [StdSort] {n t a : Str} {v : Fl} {neg : Bool} {q : ℚ} (hc : Reachable c) (hn : Holds c n (.float v))
    (ha : FloatLiteral a neg q) (h1 : OnGrid 24 149 q) (h2 : |q| < 2 ^ 128) (h : Statement t n b!"set:" [a]) :
    ∃ x c₁, Replies pwd c s t b!"null" c₁ ∧ OnlyChanged c c₁ n (.float x) ∧ number x = some q ∧ signBit x = neg := by
  obtain ⟨d, x, c₁, h3, h4, h5, h6⟩ := C53_set (pwd := pwd) (s := s) hc hn ha h
  obtain ⟨g1, g2⟩ := denotes_single ha h1 h2 ((C53_denotes a _).2 ⟨_, _, _, _, ha, h3, h4, rfl⟩)
  exact ⟨x, c₁, h5, h6, g1, g2⟩

/-- C53: the relative error of a literal in the range of normal `float`s is less than 2⁻²⁴ + 2⁻⁵². -/
theorem C53_error {a : Str} {neg : Bool} {q r : ℚ} {x : Fl} (ha : FloatLiteral a neg q) (h : Denotes b!"Float" a (.float x))
    (hr : number x = some r) (hq : (2 : ℚ) ^ (-125 : ℤ) ≤ |q|) : |r - q| ≤ |q| * (2 ^ (-24 : ℤ) + 2 ^ (-52 : ℤ)) := by
  obtain ⟨neg', q', d, x', h3, h4, h5, h6⟩ := (C53_denotes a _).1 h
  injection h6 with h6; subst h6
  obtain ⟨rfl, rfl⟩ := floatLiteral_unique ha h3
  obtain ⟨u, g1, g2, g3⟩ := h4
  have e1 : |q - u| ≤ |q| * 2 ^ (-53 : ℤ) := nearest_relative (p := 53) (e := 1074) (by decide) g1 (le_trans (zpow_le_of (by norm_num)) hq)
  cases h5 with
  | nan => cases hr
  | inf b => cases hr
  | num k1 k2 =>
    rcases g3 with ⟨_, g3⟩ | ⟨_, g3⟩
    · rw [g3] at k1; injection k1 with k1; subst k1
      obtain ⟨r', j1, j2, j3⟩ := k2
      have hu : |u| ≤ |q| * (1 + 2 ^ (-53 : ℤ)) := by
        have := abs_sub_abs_le_abs_sub u q
        rw [abs_sub_comm] at this
        linarith
      have hu' : |q| * (1 - 2 ^ (-53 : ℤ)) ≤ |u| := by
        have := abs_sub_abs_le_abs_sub q u
        linarith
      have e2 : |u - r'| ≤ |u| * 2 ^ (-24 : ℤ) := by
        refine nearest_relative (p := 24) (e := 149) (by decide) j1 (le_trans ?_ hu')
        have : (2 : ℚ) ^ (((24 : ℕ) : ℤ) - 1 - (149 : ℕ)) = 2 ^ (-125 : ℤ) * (1 / 2) := by norm_num
        rw [this]
        have h0 := zpos (-125)
        have : (1 : ℚ) / 2 ≤ 1 - 2 ^ (-53 : ℤ) := by norm_num
        calc _ ≤ 2 ^ (-125 : ℤ) * (1 - 2 ^ (-53 : ℤ)) := mul_le_mul_of_nonneg_left this h0.le
          _ ≤ _ := mul_le_mul_of_nonneg_right hq (by norm_num)
      rcases j3 with ⟨_, j3⟩ | ⟨_, j3⟩
      · rw [hr] at j3; injection j3 with j3; subst j3
        have t : |r - q| ≤ |u - r| + |q - u| := by
          have := abs_sub_le r u q
          rwa [abs_sub_comm r u, abs_sub_comm u q] at this
        have e3 : |u| * 2 ^ (-24 : ℤ) ≤ |q| * (1 + 2 ^ (-53 : ℤ)) * 2 ^ (-24 : ℤ) := mul_le_mul_of_nonneg_right hu (by norm_num)
        have h0 := abs_nonneg q
        norm_num at e1 e2 e3 ⊢
        linarith
      · rw [j3] at hr; cases hr
    · rw [g3] at k1; cases k1

/-- The order of the values, infinities included (`x` is not above `y`). -/
def NotAbove (x y : Fl) : Prop :=
  (∀ p q, number x = some p → number y = some q → p ≤ q) ∧ (x = .inf false → y = .inf false) ∧
  (y = .inf true → x = .inf true) ∧ x ≠ .nan ∧ y ≠ .nan

/-- Rounding keeps the order. -/
theorem rounds_mono {F : Format} (hF : 0 < F.bits) (hF' : 0 < F.small) {neg neg' : Bool} {q q' : ℚ} {x y : Fl}
    (hs : 0 ≤ (if neg then -1 else 1) * q) (hs' : 0 ≤ (if neg' then -1 else 1) * q') (hx : Rounds F neg q x)
    (hy : Rounds F neg' q' y) (h : q ≤ q') : NotAbove x y := by
  obtain ⟨r, g1, g2, g3⟩ := hx
  obtain ⟨r', g1', g2', g3'⟩ := hy
  have hm := nearest_mono hF hF' g1 g1' h
  have hz : Nearest F.bits F.small 0 0 := nearest_self (onGrid_zero _ _)
  have pos : ∀ {q r : ℚ}, Nearest F.bits F.small q r → 0 ≤ q → 0 ≤ r := fun hN h => nearest_mono hF hF' hz hN h
  have npos : ∀ {q r : ℚ}, Nearest F.bits F.small q r → q ≤ 0 → r ≤ 0 := fun hN h => nearest_mono hF hF' hN hz h
  refine ⟨fun p q h1 h2 => ?_, fun h1 => ?_, fun h1 => ?_, ?_, ?_⟩
  · rcases g3 with ⟨_, g3⟩ | ⟨_, g3⟩
    · rcases g3' with ⟨_, g3'⟩ | ⟨_, g3'⟩
      · rw [h1] at g3; rw [h2] at g3'; injection g3 with g3; injection g3' with g3'
        rw [g3, g3']; exact hm
      · rw [g3'] at h2; cases h2
    · rw [g3] at h1; cases h1
  · subst h1
    simp only [signBit] at g2; subst g2
    rcases g3 with ⟨_, g3⟩ | ⟨g3, _⟩
    · cases g3
    · simp only [Bool.false_eq_true, if_false, one_mul] at hs
      rw [abs_of_nonneg (pos g1 hs)] at g3
      rcases g3' with ⟨g3', _⟩ | ⟨_, g3'⟩
      · exact absurd (lt_of_le_of_lt (le_abs_self r') g3') (not_lt.2 (le_trans g3 hm))
      · rw [g3']
        cases neg'
        · rfl
        · simp only [if_true] at hs'
          have h0 := npos g1' (by linarith)
          have h2 : (0 : ℚ) < 2 ^ F.big := by positivity
          linarith
  · subst h1
    simp only [signBit] at g2'; subst g2'
    rcases g3' with ⟨_, g3'⟩ | ⟨g3', _⟩
    · cases g3'
    · simp only [if_true] at hs'
      rw [abs_of_nonpos (npos g1' (by linarith))] at g3'
      rcases g3 with ⟨g3, _⟩ | ⟨_, g3⟩
      · have := neg_le_abs r
        exact absurd (lt_of_le_of_lt this g3) (not_lt.2 (by linarith))
      · rw [g3]
        cases neg
        · simp only [Bool.false_eq_true, if_false, one_mul] at hs
          have h0 := pos g1 hs
          have h2 : (0 : ℚ) < 2 ^ F.big := by positivity
          linarith
        · rfl
  · rcases g3 with ⟨_, g3⟩ | ⟨_, g3⟩
    · rintro rfl; cases g3
    · rw [g3]; exact fun h => by cases h
  · rcases g3' with ⟨_, g3⟩ | ⟨_, g3⟩
    · rintro rfl; cases g3
    · rw [g3]; exact fun h => by cases h

theorem number_sign {x : Fl} {q : ℚ} (h : number x = some q) : 0 ≤ (if signBit x then -1 else 1) * q := by
  obtain ⟨s, k, rfl, rfl⟩ := number_eq h
  have : (0 : ℚ) ≤ (k : ℚ) / unit := div_nonneg (Nat.cast_nonneg _) unit_pos.le
  cases s <;> simp [signBit] <;> linarith

/-- Conversion keeps the order. -/
theorem converts_mono {d d' x x' : Fl} (h : NotAbove d d') (hx : Converts d x) (hx' : Converts d' x') : NotAbove x x' := by
  obtain ⟨h1, h2, h3, h4, h5⟩ := h
  cases hx with
  | nan => exact absurd rfl h4
  | inf b => cases b with
    | false =>
      have := h2 rfl; subst this
      cases hx' with
      | inf => exact ⟨fun p q e => (by cases e), fun _ => rfl, fun e => (by cases e), (fun e => by cases e), (fun e => by cases e)⟩
      | num g _ => cases g
    | true =>
      have hn : x' ≠ .nan := by
        cases hx' with
        | nan => exact absurd rfl h5
        | inf => exact fun e => by cases e
        | num _ g =>
          obtain ⟨r, _, _, ⟨_, g⟩ | ⟨_, g⟩⟩ := g
          · rintro rfl; cases g
          · rw [g]; exact fun e => by cases e
      exact ⟨fun p q e => (by cases e), fun e => (by cases e), fun _ => rfl, (fun e => by cases e), hn⟩
  | num g1 g2 =>
    have hn : x ≠ .nan := by
      obtain ⟨r, _, _, ⟨_, g⟩ | ⟨_, g⟩⟩ := g2
      · rintro rfl; cases g
      · rw [g]; exact fun e => by cases e
    cases hx' with
    | nan => exact absurd rfl h5
    | inf b => cases b with
      | true => have := h3 rfl; subst this; cases g1
      | false => exact ⟨fun p q _ e => (by cases e), fun _ => rfl, fun e => (by cases e), hn, (fun e => by cases e)⟩
    | num g1' g2' => exact rounds_mono (by decide) (by decide) (number_sign g1) (number_sign g1') g2 g2' (h1 _ _ g1 g1')

theorem floatLiteral_sgn {a : Str} {neg : Bool} {q : ℚ} (h : FloatLiteral a neg q) : 0 ≤ (if neg then -1 else 1) * q := by
  obtain ⟨u, hu, rfl⟩ := floatLiteral_sign h
  cases neg <;> simp <;> exact hu

/-- C53: reading keeps the order: a literal for a smaller or equal number does not denote a greater value. -/
theorem C53_monotone {a a' : Str} {neg neg' : Bool} {q q' : ℚ} {x x' : Fl} (ha : FloatLiteral a neg q) (ha' : FloatLiteral a' neg' q')
    (h : Denotes b!"Float" a (.float x)) (h' : Denotes b!"Float" a' (.float x')) (hq : q ≤ q') : NotAbove x x' := by
  obtain ⟨_, _, d, _, h3, h4, h5, h6⟩ := (C53_denotes a _).1 h
  injection h6 with h6; subst h6
  obtain ⟨rfl, rfl⟩ := floatLiteral_unique ha h3
  obtain ⟨_, _, d', _, h3', h4', h5', h6'⟩ := (C53_denotes a' _).1 h'
  injection h6' with h6'; subst h6'
  obtain ⟨rfl, rfl⟩ := floatLiteral_unique ha' h3'
  exact converts_mono (rounds_mono (by decide) (by decide) (floatLiteral_sgn ha) (floatLiteral_sgn ha') h4 h4' hq) h5 h5'

/-- Where doubles begin to overflow when converted: half way between the largest `float` and 2¹²⁸. -/
theorem nearest_limit : Nearest 24 149 (2 ^ 128 - 2 ^ 103) (2 ^ 128) ∧ Nearest 53 1074 (2 ^ 128 - 2 ^ 103 - 2 ^ 74) (2 ^ 128 - 2 ^ 103) := by
  have hu := unit_pos
  have two : unit = 2 ^ 1074 := unit_two
  have e1 : ∀ n : ℕ, ((n * oneK : ℕ) : ℚ) / ((1 : ℕ) * unit) = n := by
    intro n; push_cast; rw [unit_eq, one_mul, mul_div_assoc, div_self hu.ne', mul_one]
  have e2 : ∀ n : ℕ, ((n * oneK : ℕ) : ℚ) / unit = n := by
    intro n; push_cast; rw [unit_eq, mul_div_assoc, div_self hu.ne', mul_one]
  constructor
  · have h := nearest_roundMag f32 single f32_is ((2 ^ 128 - 2 ^ 103) * oneK) 1 (by omega)
    have hr : f32.roundMag ((2 ^ 128 - 2 ^ 103) * oneK) 1 = 2 ^ 128 * oneK := by decide +kernel
    rw [hr, e1, e2] at h
    have e3 : ((2 ^ 128 - 2 ^ 103 : ℕ) : ℚ) = 2 ^ 128 - 2 ^ 103 := by norm_num
    rw [e3] at h
    have e4 : ((2 ^ 128 : ℕ) : ℚ) = 2 ^ 128 := by norm_num
    rw [e4] at h; exact h
  · have h := nearest_roundMag f64 double f64_is ((2 ^ 128 - 2 ^ 103 - 2 ^ 74) * oneK) 1 (by omega)
    have hr : f64.roundMag ((2 ^ 128 - 2 ^ 103 - 2 ^ 74) * oneK) 1 = (2 ^ 128 - 2 ^ 103) * oneK := by decide +kernel
    rw [hr, e1, e2] at h
    have e3 : ((2 ^ 128 - 2 ^ 103 : ℕ) : ℚ) = 2 ^ 128 - 2 ^ 103 := by norm_num
    rw [e3] at h
    have e4 : ((2 ^ 128 - 2 ^ 103 - 2 ^ 74 : ℕ) : ℚ) = 2 ^ 128 - 2 ^ 103 - 2 ^ 74 := by norm_num
    rw [e4] at h; exact h

theorem nearest_abs {p e : ℕ} (hp : 0 < p) (he : 0 < e) {q r : ℚ} (h : Nearest p e q r) : Nearest p e |q| |r| := by
  have hz : Nearest p e 0 0 := nearest_self (onGrid_zero _ _)
  rcases le_total 0 q with h0 | h0
  · rw [abs_of_nonneg h0, abs_of_nonneg (nearest_mono hp he hz h h0)]; exact h
  · rw [abs_of_nonpos h0, abs_of_nonpos (nearest_mono hp he h hz h0)]; exact nearest_neg h

theorem single_overflow {u r : ℚ} (h : Nearest 24 149 u r) : 2 ^ 128 ≤ |r| ↔ (2 : ℚ) ^ 128 - 2 ^ 103 ≤ |u| := by
  have h' := nearest_abs (by decide) (by decide) h
  constructor
  · intro hr
    by_contra hc
    push Not at hc
    have hle := nearest_mono (by decide) (by decide) h' nearest_limit.1 hc.le
    have he : |r| = 2 ^ 128 := le_antisymm hle hr
    have hg : OnGrid 24 149 ((2 : ℚ) ^ 128 - 2 ^ 104) := ⟨2 ^ 24 - 1, 104, by norm_num, by norm_num, by norm_num⟩
    have hn := h'.2.1 _ hg
    rw [he, abs_of_nonpos (by linarith [show (2 : ℚ) ^ 103 > 0 by positivity] : |u| - 2 ^ 128 ≤ 0)] at hn
    rcases abs_cases (|u| - (2 ^ 128 - 2 ^ 104)) with ⟨e, _⟩ | ⟨e, _⟩ <;> rw [e] at hn <;> norm_num at hn <;> norm_num at hc <;> linarith
  · intro hu
    exact nearest_mono (by decide) (by decide) nearest_limit.1 h' hu

theorem double_limit {q u : ℚ} (h : Nearest 53 1074 q u) :
    (2 : ℚ) ^ 128 - 2 ^ 103 ≤ |u| ↔ (2 : ℚ) ^ 128 - 2 ^ 103 - 2 ^ 74 ≤ |q| := by
  have h' := nearest_abs (by decide) (by decide) h
  constructor
  · intro hr
    by_contra hc
    push Not at hc
    have hle := nearest_mono (by decide) (by decide) h' nearest_limit.2 hc.le
    have he : |u| = 2 ^ 128 - 2 ^ 103 := le_antisymm hle hr
    have hg : OnGrid 53 1074 ((2 : ℚ) ^ 128 - 2 ^ 103 - 2 ^ 75) := ⟨2 ^ 53 - 2 ^ 28 - 1, 75, by norm_num, by norm_num, by norm_num⟩
    have hn := h'.2.1 _ hg
    rw [he, abs_of_nonpos (by linarith [show (2 : ℚ) ^ 74 > 0 by positivity] : |q| - (2 ^ 128 - 2 ^ 103) ≤ 0)] at hn
    rcases abs_cases (|q| - (2 ^ 128 - 2 ^ 103 - 2 ^ 75)) with ⟨e, _⟩ | ⟨e, _⟩ <;> rw [e] at hn <;> norm_num at hn <;> norm_num at hc <;> linarith
  · intro hu
    exact nearest_mono (by decide) (by decide) nearest_limit.2 h' hu

/-- C53: a literal denotes an infinity exactly if the magnitude of the written number is at least 2¹²⁸ - 2¹⁰³ - 2⁷⁴. -/
theorem C53_overflow {a : Str} {neg : Bool} {q : ℚ} {x : Fl} (ha : FloatLiteral a neg q) (h : Denotes b!"Float" a (.float x)) :
    x = .inf neg ↔ (2 : ℚ) ^ 128 - 2 ^ 103 - 2 ^ 74 ≤ |q| := by
  obtain ⟨_, _, d, _, h3, h4, h5, h6⟩ := (C53_denotes a _).1 h
  injection h6 with h6; subst h6
  obtain ⟨rfl, rfl⟩ := floatLiteral_unique ha h3
  obtain ⟨u, g1, g2, g3⟩ := h4
  rw [← double_limit g1]
  rcases g3 with ⟨g3, g4⟩ | ⟨g3, rfl⟩
  · cases h5 with
    | nan => cases g4
    | inf b => cases g4
    | num k1 k2 =>
      rw [g4] at k1; injection k1 with k1; subst k1
      obtain ⟨r, j1, j2, j3⟩ := k2
      rw [← single_overflow j1]
      rcases j3 with ⟨j3, j4⟩ | ⟨j3, j4⟩
      · exact ⟨(fun e => by rw [e] at j4; cases j4), fun e => absurd j3 (not_lt.2 e)⟩
      · exact ⟨fun _ => j3, fun _ => by rw [j4, g2]⟩
  · cases h5 with
    | inf b =>
      refine ⟨fun _ => le_trans ?_ g3, fun _ => rfl⟩
      have : (2 : ℚ) ^ 128 ≤ 2 ^ double.big := pow_le_pow_right₀ (by norm_num) (by decide)
      have : (0 : ℚ) < 2 ^ 103 := by positivity
      linarith
    | num k1 _ => cases k1

example : FloatLiteral b!"-12.50e-1" true (-5 / 4) := by
  refine ⟨b!"-", b!"12.50", b!"e-1", (decimal b!"12" : ℚ) + (decimal b!"50" : ℚ) / 10 ^ (b!"50").length, -1, rfl, .inr (.inr rfl),
    .point (a := b!"12") (b := b!"50") (by unfold Digits Digit; decide) (by unfold Digits Digit; decide) (.inl (by decide)),
    .some ⟨b!"-", b!"1", rfl, .inr (.inr rfl), by decide, by unfold Digits Digit; decide, by decide⟩, by decide, ?_⟩
  rw [show decimal b!"12" = 12 from rfl, show decimal b!"50" = 50 from rfl]; norm_num

/-- A literal for 1/10, which is not a `float`. -/
theorem tenth : FloatLiteral b!".1" false (1 / 10) := by
  refine ⟨[], b!".1", [], (decimal [] : ℚ) + (decimal b!"1" : ℚ) / 10 ^ (b!"1").length, 0, rfl, .inl rfl,
    .point (a := []) (b := b!"1") (by unfold Digits Digit; decide) (by unfold Digits Digit; decide) (.inr (by decide)), .none, by decide, ?_⟩
  rw [show decimal b!"1" = 1 from rfl, show decimal [] = 0 from rfl]; norm_num

example : OnGrid 24 149 (-5 / 4 : ℚ) ∧ |(-5 / 4 : ℚ)| < 2 ^ 128 ∧ (2 : ℚ) ^ (-125 : ℤ) ≤ |(1 / 10 : ℚ)| :=
  ⟨⟨-5, -2, by norm_num, by norm_num, by norm_num⟩, by norm_num [abs_of_neg], by norm_num [abs_of_pos]⟩

example [StdSort] : ∃ d x c₁, Rounds double false (1 / 10) d ∧ Converts d x ∧ Replies [] demo none b!"f set: .1;" b!"null" c₁ ∧
    OnlyChanged demo c₁ b!"f" (.float x) :=
  C53_set (v := .fin false (3 * 2 ^ 1073)) demo_reachable (by decide +kernel) tenth (reads (by decide +kernel))

/-- C37: the tolerance becomes the given number, rounded to a float, if that is not negative (-0 is not); everything else is
refused and changes nothing. -/
theorem C37_tolerance [StdSort] {a t : Str} {x : Fl} (hs : Statement t b!"Context" b!"setFloatComparisonTolerance:" [a])
    (ha : Denotes b!"Float" a (.float x)) :
    (¬ Less x (.fin false 0) → ∃ c', Replies pwd c s t b!"null" c' ∧ c'.vars = c.vars ∧ c'.cfg = { c.cfg with eps := x }) ∧
    (Less x (.fin false 0) → JustReplies pwd c s t b!"RuntimeError: invalid argument.") := by
  have hx : FloatValue a ∧ (atof a).toF32 = x := by
    generalize hy : Obj.float x = o at ha
    generalize ht : b!"Float" = u at ha
    cases ha with
    | float h => exact ⟨h, (Obj.float.inj hy).symm⟩
    | _ => exact absurd ht (by decide)
  obtain ⟨h1, h2⟩ := C37_setFloatComparisonTolerance (pwd := pwd) (c := c) (s := s) hs
  rw [hx.2] at h1 h2
  refine ⟨fun h => h1 hx.1 ?_, fun h => h2 fun h' => ?_⟩
  · exact Bool.eq_false_iff.2 fun e => h (less_iff.2 e)
  · have := less_iff.1 h; rw [h'.2] at this; cases this

/-- C37: an argument that is not a float literal is refused. -/
theorem C37_tolerance_not_a_literal [StdSort] {a t : Str} (hs : Statement t b!"Context" b!"setFloatComparisonTolerance:" [a])
    (ha : ¬ ∃ x, Denotes b!"Float" a (.float x)) : JustReplies pwd c s t b!"RuntimeError: invalid argument." :=
  (C37_setFloatComparisonTolerance (pwd := pwd) (c := c) (s := s) hs).2 fun h => ha ⟨_, .float h.1⟩

/-- C37: `getFloatComparisonTolerance` returns the last accepted tolerance, printed with the current precision, after any
history. -/
theorem C37_last_tolerance [StdSort] {a t t₂ : Str} {x : Fl} {l₂ : List Str} {h : List (Str × Str)} (hc : Reachable c)
    (hh : History c ((t, b!"null") :: h) c') (hs : Statement t b!"Context" b!"setFloatComparisonTolerance:" [a])
    (ha : Denotes b!"Float" a (.float x))
    (hlater : ∀ q ∈ h, ¬ (q.2 = b!"null" ∧ ∃ b, Statement q.1 b!"Context" b!"setFloatComparisonTolerance:" [b]))
    (h₂ : Statement t₂ b!"Context" b!"getFloatComparisonTolerance" l₂) :
    c'.cfg.eps = x ∧ JustReplies pwd c' s t₂ (fmtFixed c'.cfg.prec x) := by
  have key : ∀ {c c' : Ctx} {h : List (Str × Str)}, Reachable c → History c h c' →
      (∀ q ∈ h, ¬ (q.2 = b!"null" ∧ ∃ b, Statement q.1 b!"Context" b!"setFloatComparisonTolerance:" [b])) → c'.cfg.eps = c.cfg.eps := by
    intro c c' h hc hh
    induction hh with
    | nil => intro _; rfl
    | cons he _ ih =>
      intro hq
      rw [ih (.step hc he) fun q hm => hq q (List.mem_cons_of_mem _ hm)]
      exact tolerance_kept hc he (hq (_, _) List.mem_cons_self)
  have e₂ := (C37_getSettings (pwd := pwd) (c := c') (s := s) (t₁ := b!"Context getFloatPrecision;") (l₁ := [])
    (reads (by decide +kernel)) h₂).2
  suffices c'.cfg.eps = x by refine ⟨this, ?_⟩; rwa [this] at e₂
  cases hh with
  | @cons pwd' _ c₁ _ s₁ s₁' _ _ _ he hh =>
    rw [key (.step hc he) hh hlater]
    have h3 := C37_tolerance (pwd := pwd') (c := c) (s := s₁) hs ha
    by_cases hp : Less x (.fin false 0)
    · obtain ⟨c₂, hr, _⟩ := h3.2 hp
      unfold Replies at hr; rw [he] at hr; cases hr
    · obtain ⟨c₂, hr, _, hcf⟩ := h3.1 hp
      unfold Replies at hr; rw [he] at hr; cases hr; rw [hcf]

/-! ### C54: printing -/

/-- The number of decimals: the precision; a negative precision, which only the command line can set, counts as 6. -/
def decimals (prec : ℤ) : ℕ := if prec < 0 then 6 else prec.toNat

theorem fmtFixed_decimals (prec : ℤ) (x : Fl) : fmtFixed prec x = fmtFixed (decimals prec) x := by
  cases x with
  | nan => rfl
  | inf b => rfl
  | fin b k =>
    have h : ¬ ((decimals prec : ℤ) < 0) := by omega
    have e : (if prec < 0 then 6 else prec.toNat) = decimals prec := rfl
    simp only [fmtFixed, if_neg h, Int.toNat_natCast, e]

theorem abs_number {v : Fl} {q : ℚ} (h : number v = some q) : ∃ k, v = .fin (signBit v) k ∧ |q| = k / unit ∧ q = (if signBit v then -1 else 1) * |q| := by
  obtain ⟨s, k, rfl, rfl⟩ := number_eq h
  have : (0 : ℚ) ≤ (k : ℚ) / unit := div_nonneg (Nat.cast_nonneg _) unit_pos.le
  have e : |(if s then (-1 : ℚ) else 1) * ((k : ℚ) / unit)| = k / unit := by rw [sign_mul_abs, abs_of_nonneg this]
  exact ⟨k, rfl, e, by rw [e]; rfl⟩

/-- C54: `get` of a finite float replies the decimal number with as many decimals as the precision says that is nearest to
the value (of two equally near ones the one whose last digit is even), with a minus sign if the sign bit is set, and without superfluous zeros in
front. -/
theorem C54_get [StdSort] {n t : Str} {v : Fl} {q : ℚ} (hc : Reachable c) (hn : Holds c n (.float v)) (hq : number v = some q)
    (h : Statement t n b!"get" []) :
    ∃ r m, JustReplies pwd c s t r ∧ FixedText r (signBit v) (decimals c.cfg.prec) m ∧
      NearestInt (|q| * 10 ^ decimals c.cfg.prec) m := by
  have hj := justReplies_of hc hn (answers_flt (pwd := pwd) (s := s) hc hn h .get)
  rw [fmtFixed_decimals] at hj
  obtain ⟨k, hk, e, _⟩ := abs_number hq
  obtain ⟨m, h1, h2⟩ := fmtFixed_text (decimals c.cfg.prec) (by omega) (signBit v) k
  rw [← hk] at h1
  rw [Int.toNat_natCast] at h1 h2
  exact ⟨_, m, hj, h1, by rw [e]; exact h2⟩

/-- C54: what the other floats print as. -/
theorem C54_get_special [StdSort] {n t : Str} {v : Fl} (hc : Reachable c) (hn : Holds c n (.float v)) (h : Statement t n b!"get" []) :
    (v = .inf false → JustReplies pwd c s t b!"inf") ∧ (v = .inf true → JustReplies pwd c s t b!"-inf") ∧
    (v = .nan → JustReplies pwd c s t b!"-nan") := by
  have hj := justReplies_of hc hn (answers_flt (pwd := pwd) (s := s) hc hn h .get)
  refine ⟨?_, ?_, ?_⟩ <;> rintro rfl <;> exact hj

/-- C54: infinities and NaN cannot be written: what they print as is not a float literal. -/
theorem C54_special_not_literal : ∀ r ∈ [b!"inf", b!"-inf", b!"-nan"], ¬ FloatValue r := by
  intro r hr h
  have := (isFloatValue_iff r).2 h
  simp only [List.mem_cons, List.not_mem_nil, or_false] at hr
  rcases hr with rfl | rfl | rfl <;> exact absurd this (by decide +kernel)

theorem nearestInt_half {x : ℚ} {m : ℤ} (h : NearestInt x m) : |x - m| ≤ 1 / 2 := le_trans (h.1 (round x)) (abs_sub_round x)

theorem nearestInt_int {i m : ℤ} (h : NearestInt (i : ℚ) m) : m = i := by
  have := h.1 i
  rw [sub_self, abs_zero] at this
  have := abs_nonpos_iff.1 this
  have : (i : ℚ) = m := by linarith
  exact_mod_cast this.symm

theorem text_error {q : ℚ} {b : Bool} {p : ℕ} {m : ℤ} (hb : q = (if b then -1 else 1) * |q|) (h : NearestInt (|q| * 10 ^ p) m) :
    |(if b then -1 else 1) * ((m : ℚ) / 10 ^ p) - q| ≤ 1 / 2 / 10 ^ p := by
  have hp : (0 : ℚ) < 10 ^ p := by positivity
  have h1 := nearestInt_half h
  have e : (if b then (-1 : ℚ) else 1) * ((m : ℚ) / 10 ^ p) - q = (if b then (-1 : ℚ) else 1) * (-((|q| * 10 ^ p - m) / 10 ^ p)) := by
    conv_lhs => rw [hb]
    have : |q| = |q| * 10 ^ p / 10 ^ p := by rw [mul_div_assoc, div_self hp.ne', mul_one]
    rw [← mul_sub]
    congr 1
    conv_lhs => rw [this]
    rw [← sub_div, ← neg_div]; congr 1; ring
  rw [e, sign_mul_abs, abs_neg, abs_div, abs_of_pos hp]
  exact div_le_div_of_nonneg_right h1 hp.le

/-- C54: the reply is a float literal for a number that differs from the value by at most half a unit of the last decimal. -/
theorem C54_reply_is_literal [StdSort] {n t r : Str} {v : Fl} {q : ℚ} (hc : Reachable c) (hn : Holds c n (.float v))
    (hq : number v = some q) (h : Statement t n b!"get" []) (hr : JustReplies pwd c s t r) :
    ∃ q', FloatLiteral r (signBit v) q' ∧ |q' - q| ≤ 1 / 2 / 10 ^ decimals c.cfg.prec := by
  obtain ⟨r', m, h1, h2, h3⟩ := C54_get (pwd := pwd) (s := s) hc hn hq h
  obtain ⟨_, hd, _⟩ := h1
  obtain ⟨_, he, _⟩ := hr
  have : r' = r := by
    unfold Replies at hd he; rw [hd] at he
    injection he with he; injection he with _ he; injection he
  subst this
  obtain ⟨k, _, _, e⟩ := abs_number hq
  exact ⟨_, fixedText_literal h2, text_error (m := (m : ℤ)) e h3⟩

/-- A single multiplied by a power of ten from 10¹⁴⁹ on is an integer. -/
theorem grid_decimal {q : ℚ} (h : OnGrid 24 149 q) {p : ℕ} (hp : 149 ≤ p) : ∃ i : ℤ, |q| * 10 ^ p = i := by
  obtain ⟨m, k, rfl, _, hk⟩ := h
  refine ⟨|m| * (2 ^ (k + p).toNat * 5 ^ p), ?_⟩
  rw [abs_mul, abs_of_pos (zpos k)]
  push_cast
  have e : (10 : ℚ) ^ p = 2 ^ (p : ℤ) * 5 ^ p := by rw [zpow_natCast, ← mul_pow]; norm_num
  rw [e, mul_assoc, ← mul_assoc ((2 : ℚ) ^ k), ← zpow_add₀ (by norm_num), ← zpow_natCast (2 : ℚ) (k + p).toNat, Int.toNat_of_nonneg (by omega)]

/-- C54: with a precision of at least 149 the reply is exactly the value. -/
theorem C54_exact [StdSort] {n t r : Str} {v : Fl} {q : ℚ} (hc : Reachable c) (hn : Holds c n (.float v))
    (hq : number v = some q) (hp : 149 ≤ c.cfg.prec) (h : Statement t n b!"get" []) (hr : JustReplies pwd c s t r) :
    FloatLiteral r (signBit v) q := by
  obtain ⟨r', m, h1, h2, h3⟩ := C54_get (pwd := pwd) (s := s) hc hn hq h
  obtain ⟨_, hd, _⟩ := h1
  obtain ⟨_, he, _⟩ := hr
  have : r' = r := by
    unfold Replies at hd he; rw [hd] at he
    injection he with he; injection he with _ he; injection he
  subst this
  have hdec : 149 ≤ decimals c.cfg.prec := by unfold decimals; rw [if_neg (by omega)]; omega
  obtain ⟨i, hi⟩ := grid_decimal (single_number (holds_wellTyped hc hn) hq).1 hdec
  rw [hi] at h3
  have := nearestInt_int h3
  have hl := fixedText_literal h2
  obtain ⟨k, _, _, e⟩ := abs_number hq
  have hm : ((m : ℕ) : ℚ) / 10 ^ decimals c.cfg.prec = |q| := by
    have : ((m : ℕ) : ℚ) = i := by exact_mod_cast congrArg (fun z : ℤ => (z : ℚ)) this
    rw [this, ← hi, mul_div_assoc, div_self (by positivity), mul_one]
  rw [hm, ← e] at hl
  exact hl

/-- The round trip of a value through a literal that is near enough. -/
theorem denotes_near {a : Str} {neg : Bool} {q D δ : ℚ} {v x : Fl} (ha : FloatLiteral a neg D) (hv : v.toF32 = v) (hs : signBit v = neg)
    (hq : number v = some q) (hD : |D - q| ≤ δ) (hsep : ∀ x, OnGrid 24 149 x → x ≠ q → 4 * δ < |x - q|)
    (h : Denotes b!"Float" a (.float x)) : x = v := by
  obtain ⟨hg, hb⟩ := single_number hv hq
  obtain ⟨_, _, d, _, h3, h4, h5, h6⟩ := (C53_denotes a _).1 h
  injection h6 with h6; subst h6
  obtain ⟨rfl, rfl⟩ := floatLiteral_unique ha h3
  obtain ⟨u, g1, g2, g3⟩ := h4
  have key : ∀ r, Nearest 24 149 u r → r = q := fun r hr => twice_near hg (single_on_double hg) g1 hr hD hsep
  have hu : |u| < 2 ^ double.big := by
    -- the double is within 2δ of a single, hence not too large
    by_contra hc
    push Not at hc
    obtain ⟨r, hr⟩ : ∃ r, Nearest 24 149 u r := by
      obtain ⟨k, hk⟩ := onGrid_units (by decide) g1.1
      have := nearest_roundMag f32 single f32_is k 1 (by omega)
      rw [Nat.cast_one, one_mul, ← hk] at this
      rcases abs_choice u with e | e
      · rw [e] at this; exact ⟨_, this⟩
      · rw [e] at this; exact ⟨_, by have := nearest_neg this; rw [neg_neg] at this; exact this⟩
    have e := key r hr
    have := (single_overflow hr).2 (le_trans (by
      have h1 : (2 : ℚ) ^ 128 ≤ 2 ^ double.big := pow_le_pow_right₀ (by norm_num) (by decide)
      have h2 : (0 : ℚ) < 2 ^ 103 := by positivity
      linarith) hc)
    rw [e] at this
    exact absurd hb (not_lt.2 this)
  rcases g3 with ⟨_, g3⟩ | ⟨g3, _⟩
  · cases h5 with
    | nan => cases g3
    | inf b => cases g3
    | num k1 k2 =>
      rw [g3] at k1; injection k1 with k1; subst k1
      obtain ⟨r, j1, j2, j3⟩ := k2
      have := key r j1
      subst this
      rcases j3 with ⟨_, j3⟩ | ⟨j3, _⟩
      · obtain ⟨sb, k, rfl, e1⟩ := number_eq j3
        obtain ⟨sb', k', rfl, e2⟩ := number_eq hq
        rw [g2, ← hs] at j2
        simp only [signBit] at j2
        subst j2
        rw [e1] at e2
        have hu' := unit_pos.ne'
        have : (k : ℚ) = k' := by cases sb <;> simp [div_left_inj' hu'] at e2 <;> exact_mod_cast e2
        rw [Nat.cast_inj.1 this]
      · exact absurd hb (not_lt.2 j3)
  · exact absurd hu (not_lt.2 g3)

/-- C54: round trip: with a precision of at least 46, the reply of `get` for a finite float can be given to `set:` of any float variable,
which then holds the same value, the sign of zero included. -/
theorem C54_round_trip [StdSort] {n n' t t' r : Str} {v w : Fl} {q : ℚ} (hc : Reachable c) (hn : Holds c n (.float v))
    (hn' : Holds c n' (.float w)) (hq : number v = some q) (hp : 46 ≤ c.cfg.prec) (h : Statement t n b!"get" [])
    (hr : JustReplies pwd c s t r) (h' : Statement t' n' b!"set:" [r]) :
    ∃ c₁, Replies pwd c s t' b!"null" c₁ ∧ OnlyChanged c c₁ n' (.float v) := by
  obtain ⟨D, hl, hD⟩ := C54_reply_is_literal hc hn hq h hr
  obtain ⟨d, x, c₁, h3, h4, h5, h6⟩ := C53_set (pwd := pwd) (s := s) hc hn' hl h'
  have hden : Denotes b!"Float" r (.float x) := (C53_denotes r _).2 ⟨_, _, _, _, hl, h3, h4, rfl⟩
  have hw := holds_wellTyped hc hn
  have hg := (single_number hw hq).1
  have := denotes_near hl hw rfl hq hD (fun x hx hne => ?_) hden
  · subst this; exact ⟨c₁, h5, h6⟩
  · refine lt_of_lt_of_le ?_ (grid_apart_min hg hx hne)
    have hdec : 46 ≤ decimals c.cfg.prec := by unfold decimals; rw [if_neg (by omega)]; omega
    have h10 : (10 : ℚ) ^ 46 ≤ 10 ^ decimals c.cfg.prec := pow_le_pow_right₀ (by norm_num) hdec
    calc 4 * (1 / 2 / 10 ^ decimals c.cfg.prec : ℚ) ≤ 4 * (1 / 2 / 10 ^ 46) :=
          mul_le_mul_of_nonneg_left (div_le_div_of_nonneg_left (by norm_num) (by positivity) h10) (by norm_num)
      _ < _ := by norm_num

/-- C54: the same for smaller precisions if the value is large enough compared with the unit of the last decimal: 2 · 10⁻ᵖ less than
|value| · 2⁻²⁵.  (So 8 decimals suffice for values of magnitude 1 and more.) -/
theorem C54_round_trip_large [StdSort] {n n' t t' r : Str} {v w : Fl} {q : ℚ} (hc : Reachable c) (hn : Holds c n (.float v))
    (hn' : Holds c n' (.float w)) (hq : number v = some q) (hp : 2 / 10 ^ decimals c.cfg.prec < |q| * 2 ^ (-25 : ℤ))
    (h : Statement t n b!"get" []) (hr : JustReplies pwd c s t r) (h' : Statement t' n' b!"set:" [r]) :
    ∃ c₁, Replies pwd c s t' b!"null" c₁ ∧ OnlyChanged c c₁ n' (.float v) := by
  obtain ⟨D, hl, hD⟩ := C54_reply_is_literal hc hn hq h hr
  obtain ⟨d, x, c₁, h3, h4, h5, h6⟩ := C53_set (pwd := pwd) (s := s) hc hn' hl h'
  have hden : Denotes b!"Float" r (.float x) := (C53_denotes r _).2 ⟨_, _, _, _, hl, h3, h4, rfl⟩
  have hw := holds_wellTyped hc hn
  have hg := (single_number hw hq).1
  have hd : (0 : ℚ) < 2 / 10 ^ decimals c.cfg.prec := by positivity
  have hpos : 0 < |q| := by
    rcases lt_or_eq_of_le (abs_nonneg q) with h0 | h0
    · exact h0
    · rw [← h0, zero_mul] at hp; exact absurd hp (not_lt.2 hd.le)
  obtain ⟨j, hj1, hj2⟩ := exists_mem_Ico_zpow hpos (by norm_num : (1 : ℚ) < 2)
  have := denotes_near hl hw rfl hq hD (fun x hx hne => ?_) hden
  · subst this; exact ⟨c₁, h5, h6⟩
  · refine lt_of_lt_of_le ?_ (grid_apart hg hx hne hj1 (by decide))
    have e1 : (2 : ℚ) ^ (j - (24 : ℕ)) = 2 ^ (j + 1) * 2 ^ (-25 : ℤ) := by
      rw [← zpow_add₀ (by norm_num)]; congr 1; push_cast; ring
    rw [e1]
    have e2 : 4 * (1 / 2 / 10 ^ decimals c.cfg.prec : ℚ) = 2 / 10 ^ decimals c.cfg.prec := by ring
    rw [e2]
    exact lt_trans hp (mul_lt_mul_of_pos_right hj2 (zpos _))

/-! Cases: 1.5 with three decimals; and with 50 decimals, enough for every value. -/

theorem demo_f : number (.fin false (3 * 2 ^ 1073)) = some (3 / 2 : ℚ) := by
  rw [number_fin]
  have : ((3 * 2 ^ 1073 : ℕ) : ℚ) / unit = 3 / 2 := by
    rw [unit_two]
    push_cast
    rw [show (2 : ℚ) ^ 1074 = 2 * 2 ^ 1073 from pow_succ' 2 1073]
    field_simp
  rw [this]; simp

/-- The demonstration with 50 decimals. -/
def precise : Ctx := { demo with cfg := { demo.cfg with prec := 50 } }

theorem precise_reachable [StdSort] : Reachable precise :=
  after_reachable (pwd := []) (s := none) (ts := [b!"Context setFloatPrecision: 50;"]) demo_reachable (by kernel_rfl)

example [StdSort] : ∃ r m, JustReplies [] demo none b!"f get;" r ∧ FixedText r false 3 m ∧ NearestInt (|3 / 2| * 10 ^ 3) m :=
  C54_get (n := b!"f") (v := .fin false (3 * 2 ^ 1073)) demo_reachable (by decide +kernel) demo_f (reads (by decide +kernel))

example [StdSort] : ∃ r c₁, JustReplies [] precise none b!"f get;" r ∧ 46 ≤ precise.cfg.prec ∧
    Replies [] precise none b!"f set: 1.50000000000000000000000000000000000000000000000000;" b!"null" c₁ ∧
    OnlyChanged precise c₁ b!"f" (.float (.fin false (3 * 2 ^ 1073))) := by
  have hr : JustReplies [] precise none b!"f get;" b!"1.50000000000000000000000000000000000000000000000000" :=
    ⟨precise, by unfold Replies; kernel_rfl, rfl, rfl⟩
  obtain ⟨c₁, h1, h2⟩ := C54_round_trip (pwd := []) (s := none) (n := b!"f") (n' := b!"f") (v := .fin false (3 * 2 ^ 1073))
    (w := .fin false (3 * 2 ^ 1073)) precise_reachable (by decide +kernel) (by decide +kernel) demo_f (by decide)
    (reads (by decide +kernel)) hr (t' := b!"f set: 1.50000000000000000000000000000000000000000000000000;") (reads (by decide +kernel))
  exact ⟨_, c₁, hr, by decide, h1, h2⟩

/-! ### C55: arithmetic -/

/-- The arithmetic messages to floats and the operations they stand for. -/
def fltOps : List (Str × (Format → Fl → Fl → Fl → Prop)) :=
  [(b!"add:", Sum), (b!"subtract:", Difference), (b!"multiplyBy:", Product), (b!"divideBy:", Spec.Quotient)]

/-- C55: arithmetic on a float is done in `double` with the literal rounded to `double`, and the result is rounded to `float`. -/
theorem C55_arithmetic [StdSort] {n t a name : Str} {v : Fl} {neg : Bool} {q : ℚ} {op : Format → Fl → Fl → Fl → Prop} (hc : Reachable c)
    (hn : Holds c n (.float v)) (ha : FloatLiteral a neg q) (hop : (name, op) ∈ fltOps) (h : Statement t n name [a]) :
    ∃ l d x c₁, Rounds double neg q l ∧ op double v l d ∧ Converts d x ∧ Replies pwd c s t b!"null" c₁ ∧
      OnlyChanged c c₁ n (.float x) := by
  have hf := (floatLiteral_exists a).2 ⟨neg, q, ha⟩
  simp only [fltOps, List.mem_cons, Prod.mk.injEq, List.not_mem_nil, or_false] at hop
  rcases hop with ⟨rfl, rfl⟩ | ⟨rfl, rfl⟩ | ⟨rfl, rfl⟩ | ⟨rfl, rfl⟩
  · obtain ⟨c₁, h1, h2⟩ := answers_flt (pwd := pwd) (s := s) hc hn h (.add hf)
    exact ⟨_, _, _, c₁, atof_rounds ha, sum_add f64_is _ _, converts_toF32 _, h1, h2⟩
  · obtain ⟨c₁, h1, h2⟩ := answers_flt (pwd := pwd) (s := s) hc hn h (.subtract hf)
    exact ⟨_, _, _, c₁, atof_rounds ha, difference_sub f64_is _ _, converts_toF32 _, h1, h2⟩
  · obtain ⟨c₁, h1, h2⟩ := answers_flt (pwd := pwd) (s := s) hc hn h (.multiplyBy hf)
    exact ⟨_, _, _, c₁, atof_rounds ha, product_mul f64_is _ _, converts_toF32 _, h1, h2⟩
  · obtain ⟨c₁, h1, h2⟩ := answers_flt (pwd := pwd) (s := s) hc hn h (.divideBy hf)
    exact ⟨_, _, _, c₁, atof_rounds ha, quotient_div f64_is _ _, converts_toF32 _, h1, h2⟩

/-- C55: the operations have exactly one result. -/
theorem C55_determined {F : Format} (hF : F = single ∨ F = double) {name : Str} {op : Format → Fl → Fl → Fl → Prop} (hop : (name, op) ∈ fltOps)
    (x y : Fl) : ∃! z, op F x y z := by
  have key : ∀ (f : Fmt), f.Is F → ∃! z, op F x y z := by
    intro f hF
    simp only [fltOps, List.mem_cons, Prod.mk.injEq, List.not_mem_nil, or_false] at hop
    rcases hop with ⟨_, rfl⟩ | ⟨_, rfl⟩ | ⟨_, rfl⟩ | ⟨_, rfl⟩
    · exact ⟨_, sum_add hF x y, fun z h => (sum_iff hF).1 h⟩
    · exact ⟨_, difference_sub hF x y, fun z h => (difference_iff hF).1 h⟩
    · exact ⟨_, product_mul hF x y, fun z h => (product_iff hF).1 h⟩
    · exact ⟨_, quotient_div hF x y, fun z h => (quotient_iff hF).1 h⟩
  rcases hF with rfl | rfl
  · exact key f32 f32_is
  · exact key f64 f64_is

/-- The value of an integer as a `double`. -/
theorem number_ofInt64 {n : ℤ} (h : IsInt32 n) : number (ofInt64 n) = some (n : ℚ) := by
  rw [ofInt64_eq n ((int32_iff n).1 h), number_fin, sgn_unit, sgn_mul, sgn_natAbs]
  push_cast
  rw [unit_eq, mul_div_assoc, div_self unit_pos.ne', mul_one]

theorem truncated_answers [StdSort] {n t : Str} (d : Fl) (hA : Answers pwd c s t n ((truncated d).map .integer)) :
    ((∃ r m c₁, number d = some r ∧ Truncates r m ∧ IsInt32 m ∧ Replies pwd c s t b!"null" c₁ ∧ OnlyChanged c c₁ n (.integer m)) ∨
       ((∀ r m, number d = some r → Truncates r m → ¬ IsInt32 m) ∧ execute pwd c s t = .ub)) := by
  cases d with
  | nan => exact .inr ⟨fun r m e => (by cases e), hA⟩
  | inf b => exact .inr ⟨fun r m e => (by cases e), hA⟩
  | fin b k =>
    by_cases hin : inInt (sgn b (k / oneK))
    · have e : (Fl.fin b k).toInt = .ok (sgn b (k / oneK)) := by simp only [Fl.toInt, if_pos hin]
      simp only [truncated, e] at hA
      obtain ⟨c₁, h1, h2⟩ := hA
      exact .inl ⟨_, _, c₁, number_fin b k, (truncates_iff b k _).2 rfl, (int32_iff _).2 hin, h1, h2⟩
    · have e : (Fl.fin b k).toInt = .ub := by simp only [Fl.toInt, if_neg hin]
      simp only [truncated, e] at hA
      refine .inr ⟨fun r m e hm => ?_, hA⟩
      rw [number_fin] at e; injection e with e; subst e
      rw [truncates_iff] at hm
      rw [hm, int32_iff]; exact hin

attribute [local irreducible] Spec.truncated in
/-- C55: arithmetic on an integer with a literal that is not an integer is done in `double`; the result loses its fractional
part.  It is undefined behaviour exactly if that is not a 32-bit integer. -/
theorem C55_integer_arithmetic [StdSort] {n t a name : Str} {v : ℤ} {neg : Bool} {q : ℚ} {op : Format → Fl → Fl → Fl → Prop} (hc : Reachable c)
    (hn : Holds c n (.integer v)) (ha : FloatLiteral a neg q) (hi : ¬ IntegerValue a) (hop : (name, op) ∈ fltOps)
    (h : Statement t n name [a]) :
    ∃ k l d, number k = some (v : ℚ) ∧ Rounds double neg q l ∧ op double k l d ∧
      ((∃ r m c₁, number d = some r ∧ Truncates r m ∧ IsInt32 m ∧ Replies pwd c s t b!"null" c₁ ∧ OnlyChanged c c₁ n (.integer m)) ∨
       ((∀ r m, number d = some r → Truncates r m → ¬ IsInt32 m) ∧ execute pwd c s t = .ub)) := by
  have hf := (floatLiteral_exists a).2 ⟨neg, q, ha⟩
  have hv : IsInt32 v := holds_wellTyped hc hn
  have hN : NumDenotes a (.flt (atof a)) := .flt hf hi
  generalize hg : atof a = y at hN
  refine ⟨ofInt64 v, y, ?_⟩
  have hy : Rounds double neg q y := hg ▸ atof_rounds ha
  simp only [fltOps, List.mem_cons, Prod.mk.injEq, List.not_mem_nil, or_false] at hop
  rcases hop with ⟨rfl, rfl⟩ | ⟨rfl, rfl⟩ | ⟨rfl, rfl⟩ | ⟨rfl, rfl⟩
  · have hA := answers_int (pwd := pwd) (s := s) hc hn h (IntSays.add hN)
    rw [intMeaning] at hA
    exact ⟨Fl.add f64 (ofInt64 v) y, number_ofInt64 hv, hy, sum_add f64_is _ _, truncated_answers _ hA⟩
  · have hA := answers_int (pwd := pwd) (s := s) hc hn h (IntSays.subtract hN)
    rw [intMeaning] at hA
    exact ⟨Fl.sub f64 (ofInt64 v) y, number_ofInt64 hv, hy, difference_sub f64_is _ _, truncated_answers _ hA⟩
  · have hA := answers_int (pwd := pwd) (s := s) hc hn h (IntSays.multiplyBy hN)
    rw [intMeaning] at hA
    exact ⟨Fl.mul f64 (ofInt64 v) y, number_ofInt64 hv, hy, product_mul f64_is _ _, truncated_answers _ hA⟩
  · have hA := answers_int (pwd := pwd) (s := s) hc hn h (IntSays.divideBy hN)
    rw [intMeaning] at hA
    exact ⟨Fl.div f64 (ofInt64 v) y, number_ofInt64 hv, hy, quotient_div f64_is _ _, truncated_answers _ hA⟩

example [StdSort] : ∃ l d x c₁, Rounds double false (1 / 10) l ∧ Product double (.fin false (3 * 2 ^ 1073)) l d ∧ Converts d x ∧
    Replies [] demo none b!"f multiplyBy: .1;" b!"null" c₁ ∧ OnlyChanged demo c₁ b!"f" (.float x) :=
  C55_arithmetic (name := b!"multiplyBy:") (op := Product) demo_reachable (by decide +kernel) tenth
    (List.mem_of_getElem? (i := 2) rfl) (reads (by decide +kernel))

theorem tenth_not_integer : ¬ IntegerValue b!".1" := fun h => absurd ((isIntegerValue_iff _).2 h) (by decide +kernel)

example [StdSort] : ∃ k l d, number k = some ((-7 : ℤ) : ℚ) ∧ Rounds double false (1 / 10) l ∧ Spec.Quotient double k l d ∧
      ((∃ r m c₁, number d = some r ∧ Truncates r m ∧ IsInt32 m ∧ Replies [] demo none b!"i divideBy: .1;" b!"null" c₁ ∧
          OnlyChanged demo c₁ b!"i" (.integer m)) ∨
       ((∀ r m, number d = some r → Truncates r m → ¬ IsInt32 m) ∧ execute [] demo none b!"i divideBy: .1;" = .ub)) :=
  C55_integer_arithmetic (name := b!"divideBy:") (op := Spec.Quotient) demo_reachable (by decide +kernel) tenth tenth_not_integer
    (List.mem_of_getElem? (i := 3) rfl) (reads (by decide +kernel))

/-! ### C56: comparisons -/

/-- The reply `r` says whether `P`. -/
def Tells (r : Str) (P : Prop) : Prop := (P ∧ r = b!"true") ∨ (¬ P ∧ r = b!"false")

theorem tells_truth {P Q : Prop} [Decidable P] (h : P ↔ Q) : Tells (truth P) Q := by
  unfold Tells truth
  by_cases hp : P
  · rw [if_pos hp]; exact .inl ⟨h.1 hp, rfl⟩
  · rw [if_neg hp]; exact .inr ⟨fun hq => hp (h.2 hq), rfl⟩

/-- The comparison messages; what they say about the difference `z` of the two values and the tolerance `eps`. -/
def fltRels : List (Str × (Fl → Fl → Prop)) :=
  [(b!"isLessThan?", fun eps z => Less z (opposite eps)),
   (b!"isGreaterThan?", fun eps z => Less eps z),
   (b!"isEqualTo?", fun eps z => ¬ Less z (opposite eps) ∧ ¬ Less eps z),
   (b!"isLessThanOrEqualTo?", fun eps z => Less z (opposite eps) ∨ ¬ Less eps z),
   (b!"isGreaterThanOrEqualTo?", fun eps z => Less eps z ∨ ¬ Less z (opposite eps))]

theorem opposite_eq (x : Fl) : opposite x = x.neg := by cases x <;> rfl

theorem below_iff (eps x y : Fl) : below eps x y ↔ Less (x.sub f32 y) (opposite eps) := by
  rw [less_iff, opposite_eq]

theorem above_iff (eps x y : Fl) : above eps x y ↔ Less eps (x.sub f32 y) := by rw [less_iff]

/-- C56: a float is compared with a literal by the difference of the two as `float`s, rounded to `float`, with the
tolerance. -/
theorem C56_comparison [StdSort] {n t a name : Str} {v : Fl} {neg : Bool} {q : ℚ} {rel : Fl → Fl → Prop} (hc : Reachable c)
    (hn : Holds c n (.float v)) (ha : FloatLiteral a neg q) (hrel : (name, rel) ∈ fltRels) (h : Statement t n name [a]) :
    ∃ l w z r, Rounds double neg q l ∧ Converts l w ∧ Difference single v w z ∧ JustReplies pwd c s t r ∧
      Tells r (rel c.cfg.eps z) := by
  have hf := (floatLiteral_exists a).2 ⟨neg, q, ha⟩
  refine ⟨atof a, (atof a).toF32, v.sub f32 (atof a).toF32, ?_⟩
  have key : ∀ {P : Prop} [Decidable P], JustReplies pwd c s t (truth P) → (P ↔ rel c.cfg.eps (v.sub f32 (atof a).toF32)) →
      ∃ r, Rounds double neg q (atof a) ∧ Converts (atof a) (atof a).toF32 ∧ Difference single v (atof a).toF32 (v.sub f32 (atof a).toF32) ∧
        JustReplies pwd c s t r ∧ Tells r (rel c.cfg.eps (v.sub f32 (atof a).toF32)) :=
    fun hj he => ⟨_, atof_rounds ha, converts_toF32 _, difference_sub f32_is _ _, hj, tells_truth he⟩
  simp only [fltRels, List.mem_cons, Prod.mk.injEq, List.not_mem_nil, or_false] at hrel
  rcases hrel with ⟨rfl, rfl⟩ | ⟨rfl, rfl⟩ | ⟨rfl, rfl⟩ | ⟨rfl, rfl⟩ | ⟨rfl, rfl⟩
  · exact key (justReplies_of hc hn (answers_flt (pwd := pwd) (s := s) hc hn h (.lt hf))) (below_iff _ _ _)
  · exact key (justReplies_of hc hn (answers_flt (pwd := pwd) (s := s) hc hn h (.gt hf))) (above_iff _ _ _)
  · exact key (justReplies_of hc hn (answers_flt (pwd := pwd) (s := s) hc hn h (.eq hf))) (by rw [below_iff, above_iff])
  · exact key (justReplies_of hc hn (answers_flt (pwd := pwd) (s := s) hc hn h (.le hf))) (by rw [below_iff, above_iff])
  · exact key (justReplies_of hc hn (answers_flt (pwd := pwd) (s := s) hc hn h (.ge hf))) (by rw [below_iff, above_iff])

/-- The value of an integer as a `float`. -/
theorem rounds_ofInt32 (n : ℤ) : Rounds single (decide (n < 0)) (n : ℚ) (ofInt32 n) := by
  have := rounds_round f32 single f32_is (decide (n < 0)) (n.natAbs * oneK) 1 (by omega)
  rw [Nat.cast_one, one_mul, sgn_unit, sgn_mul, sgn_natAbs] at this
  push_cast at this
  rwa [unit_eq, mul_div_assoc, div_self unit_pos.ne', mul_one] at this

/-- C56: an integer is compared with a literal that is not an integer in the same way, after rounding it to `float`. -/
theorem C56_comparison_integer [StdSort] {n t a name : Str} {v : ℤ} {neg : Bool} {q : ℚ} {rel : Fl → Fl → Prop} (hc : Reachable c)
    (hn : Holds c n (.integer v)) (ha : FloatLiteral a neg q) (hi : ¬ IntegerValue a) (hrel : (name, rel) ∈ fltRels)
    (h : Statement t n name [a]) :
    ∃ k l w z r, Rounds single (decide (v < 0)) v k ∧ Rounds double neg q l ∧ Converts l w ∧ Difference single k w z ∧
      JustReplies pwd c s t r ∧ Tells r (rel c.cfg.eps z) := by
  have hf := (floatLiteral_exists a).2 ⟨neg, q, ha⟩
  refine ⟨ofInt32 v, atof a, (atof a).toF32, (ofInt32 v).sub f32 (atof a).toF32, ?_⟩
  have key : ∀ {P : Prop} [Decidable P], JustReplies pwd c s t (truth P) → (P ↔ rel c.cfg.eps ((ofInt32 v).sub f32 (atof a).toF32)) →
      ∃ r, Rounds single (decide (v < 0)) v (ofInt32 v) ∧ Rounds double neg q (atof a) ∧ Converts (atof a) (atof a).toF32 ∧
        Difference single (ofInt32 v) (atof a).toF32 ((ofInt32 v).sub f32 (atof a).toF32) ∧
        JustReplies pwd c s t r ∧ Tells r (rel c.cfg.eps ((ofInt32 v).sub f32 (atof a).toF32)) :=
    fun hj he => ⟨_, rounds_ofInt32 v, atof_rounds ha, converts_toF32 _, difference_sub f32_is _ _, hj, tells_truth he⟩
  simp only [fltRels, List.mem_cons, Prod.mk.injEq, List.not_mem_nil, or_false] at hrel
  rcases hrel with ⟨rfl, rfl⟩ | ⟨rfl, rfl⟩ | ⟨rfl, rfl⟩ | ⟨rfl, rfl⟩ | ⟨rfl, rfl⟩
  · exact key (justReplies_of hc hn (answers_int (pwd := pwd) (s := s) hc hn h (.lt (.flt hf hi)))) (below_iff _ _ _)
  · exact key (justReplies_of hc hn (answers_int (pwd := pwd) (s := s) hc hn h (.gt (.flt hf hi)))) (above_iff _ _ _)
  · exact key (justReplies_of hc hn (answers_int (pwd := pwd) (s := s) hc hn h (.eq (.flt hf hi)))) (by rw [below_iff, above_iff])
  · exact key (justReplies_of hc hn (answers_int (pwd := pwd) (s := s) hc hn h (.le (.flt hf hi)))) (by rw [below_iff, above_iff])
  · exact key (justReplies_of hc hn (answers_int (pwd := pwd) (s := s) hc hn h (.ge (.flt hf hi)))) (by rw [below_iff, above_iff])

theorem number_opposite {x : Fl} {q : ℚ} (h : number x = some q) : number (opposite x) = some (-q) := by
  obtain ⟨s, k, rfl, rfl⟩ := number_eq h
  simp only [opposite]
  rw [number_fin]
  cases s <;> simp

/-- If the difference of two numbers, rounded to `float`, is below minus the tolerance, so is the exact difference. -/
theorem difference_sound {x y z eps : Fl} {p q e : ℚ} (hx : number x = some p) (hy : number y = some q) (he : eps.toF32 = eps)
    (hne : number eps = some e) (hz : Difference single x y z) (hl : Less z (opposite eps)) : p + e < q := by
  obtain ⟨hg, _⟩ := single_number he hne
  have hge := onGrid_neg hg
  have hy' := number_opposite hy
  have ho := number_opposite hne
  unfold Difference at hz
  generalize opposite eps = oe at ho hl
  generalize opposite y = oy at hy' hz
  have conv : ∀ {r : ℚ}, number z = some r → r < -e := by
    intro r hr
    cases hl with
    | numbers h1 h2 h => rw [hr] at h1; rw [ho] at h2; injection h1 with h1; injection h2 with h2; rw [h1, h2]; exact h
    | fromMinusInf => cases hr
    | toInf => cases ho
  by_cases h0 : p + -q = 0
  · cases hz with
    | zero h1 h2 h3 =>
      have := conv (r := 0) (by rw [number_fin]; simp)
      linarith
    | number h1 h2 h3 => rw [hx] at h1; rw [hy'] at h2; injection h1 with h1; injection h2 with h2; subst h1; subst h2; exact absurd h0 h3
    | _ => simp_all [Spec.number]
  · cases hz with
    | zero h1 h2 h3 => rw [hx] at h1; rw [hy'] at h2; injection h1 with h1; injection h2 with h2; subst h1; subst h2; exact absurd h3 h0
    | number h1 h2 h3 h4 =>
      rw [hx] at h1; rw [hy'] at h2; injection h1 with h1; injection h2 with h2; subst h1; subst h2
      by_contra hc
      push Not at hc
      obtain ⟨r, g1, g2, g3⟩ := h4
      have hm : -e ≤ r := nearest_mono (p := 24) (e := 149) (by decide) (by decide) (nearest_self hge) g1 (by linarith)
      rcases g3 with ⟨_, g3⟩ | ⟨g3, g4⟩
      · have := conv g3
        linarith
      · cases hl with
        | numbers k1 => rw [g4] at k1; cases k1
        | fromMinusInf k1 k2 =>
          injection g4 with g4
          have : p + -q < 0 := by simpa using g4.symm
          have hr : r ≤ 0 := nearest_mono (p := 24) (e := 149) (by decide) (by decide) g1 (nearest_self (onGrid_zero _ _)) this.le
          rw [abs_of_nonpos hr] at g3
          have hb := (single_number he hne).2
          have := le_abs_self e
          have h5 : (2 : ℚ) ^ single.big = 2 ^ 128 := rfl
          rw [h5] at g3
          linarith
        | toInf => cases ho
    | _ => simp_all [Spec.number]

/-- C56: the answer "less" is sound: if `isLessThan?` replies true, the value is less than that of the literal by more than
the tolerance; likewise for `isGreaterThan?`. -/
theorem C56_less_is_sound [StdSort] {n t a : Str} {v w : Fl} {p q e : ℚ} (hc : Reachable c) (hn : Holds c n (.float v))
    (ha : Denotes b!"Float" a (.float w)) (hp : number v = some p) (hq : number w = some q) (he : number c.cfg.eps = some e) :
    (Statement t n b!"isLessThan?" [a] → JustReplies pwd c s t b!"true" → p + e < q) ∧
    (Statement t n b!"isGreaterThan?" [a] → JustReplies pwd c s t b!"true" → q + e < p) := by
  have heps := (reachable_inv hc).eps
  cases ha with | float ha =>
  have same : ∀ {r}, JustReplies pwd c s t r → JustReplies pwd c s t b!"true" → r = b!"true" := by
    rintro r ⟨_, hd, _⟩ ⟨_, he, _⟩
    unfold Replies at hd he; rw [hd] at he
    injection he with he; injection he with _ he; injection he
  constructor
  · intro h hr
    have hj := same (justReplies_of hc hn (answers_flt (pwd := pwd) (s := s) hc hn h (.lt ha))) hr
    have hb : below c.cfg.eps v (atof a).toF32 := by
      by_contra hb; rw [truth_false hb] at hj; exact absurd hj (by decide)
    exact difference_sound hp hq heps he (difference_sub f32_is _ _) ((below_iff _ _ _).1 hb)
  · intro h hr
    have hj := same (justReplies_of hc hn (answers_flt (pwd := pwd) (s := s) hc hn h (.gt ha))) hr
    have hb : above c.cfg.eps v (atof a).toF32 := by
      by_contra hb; rw [truth_false hb] at hj; exact absurd hj (by decide)
    rw [← C17_mirror_values] at hb
    exact difference_sound hq hp heps he (difference_sub f32_is _ _) ((below_iff _ _ _).1 hb)

example [StdSort] : ∃ l w z r, Rounds double false (1 / 10) l ∧ Converts l w ∧ Difference single (.fin false (3 * 2 ^ 1073)) w z ∧
    JustReplies [] demo none b!"f isGreaterThan? .1;" r ∧ Tells r (Less demo.cfg.eps z) :=
  C56_comparison (n := b!"f") (name := b!"isGreaterThan?") (rel := fun eps z => Less eps z) demo_reachable (by decide +kernel) tenth
    (List.mem_of_getElem? (i := 1) rfl) (reads (by decide +kernel))

end Knuckle.Props

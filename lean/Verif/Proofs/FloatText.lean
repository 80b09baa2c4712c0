/-
Reading and printing floats.
-/
import Verif.Proofs.Rounding
import Verif.Proofs.NonFloat
import Verif.Proofs.FloatCmp

namespace Knuckle

open Spec

/-! ### Rounding: uniqueness, conversion -/

theorem rounds_unique {F : Format} (hp : 0 < F.bits) (he : 0 < F.small) {neg : Bool} {q : ℚ} {x y : Fl} (hx : Rounds F neg q x)
    (hy : Rounds F neg q y) : x = y := by
  obtain ⟨r, h1, h2, h3⟩ := hx
  obtain ⟨r', g1, g2, g3⟩ := hy
  have := nearest_unique hp he h1 g1
  subst this
  rcases h3 with ⟨h3, h4⟩ | ⟨h3, rfl⟩
  · rcases g3 with ⟨_, g4⟩ | ⟨g3, _⟩
    · cases x with
      | nan => cases h4
      | inf a => cases h4
      | fin a j => cases y with
        | nan => cases g4
        | inf a => cases g4
        | fin b k =>
          simp only [signBit] at h2 g2
          subst h2; subst g2
          rw [number_fin] at h4 g4
          have e := Option.some.inj (h4.trans g4.symm)
          have hu := unit_pos.ne'
          have : (j : ℚ) = k := by
            cases b <;> simp [div_left_inj' hu] at e <;> exact_mod_cast e
          rw [Nat.cast_inj.1 this]
    · exact absurd h3 (not_lt.2 g3)
  · rcases g3 with ⟨g3, _⟩ | ⟨_, rfl⟩
    · exact absurd g3 (not_lt.2 h3)
    · rfl

theorem double_unique {neg : Bool} {q : ℚ} {x y : Fl} (hx : Rounds double neg q x) (hy : Rounds double neg q y) : x = y :=
  rounds_unique (by decide) (by decide) hx hy

theorem single_unique {neg : Bool} {q : ℚ} {x y : Fl} (hx : Rounds single neg q x) (hy : Rounds single neg q y) : x = y :=
  rounds_unique (by decide) (by decide) hx hy

theorem number_eq {x : Fl} {q : ℚ} (h : number x = some q) : ∃ s k, x = .fin s k ∧ q = (if s then -1 else 1) * ((k : ℚ) / unit) := by
  cases x with
  | nan => cases h
  | inf a => cases h
  | fin s k => rw [number_fin] at h; exact ⟨s, k, rfl, (Option.some.inj h).symm⟩

theorem converts_toF32 (x : Fl) : Converts x x.toF32 := by
  cases x with
  | nan => exact .nan
  | inf a => exact .inf a
  | fin s k =>
    have := rounds_round f32 single f32_is s k 1 (by omega)
    rw [Nat.cast_one, one_mul] at this
    exact .num (number_fin s k) this

theorem converts_iff {x y : Fl} : Converts x y ↔ y = x.toF32 := by
  constructor
  · intro h
    have h' := converts_toF32 x
    cases h with
    | nan => rfl
    | inf a => rfl
    | @num _ _ q h1 h2 =>
      generalize he : x.toF32 = z at h'
      cases h' with
      | nan => cases h1
      | inf a => cases h1
      | @num _ _ q' g1 g2 =>
        rw [h1] at g1; cases g1
        exact single_unique h2 g2
  · rintro rfl; exact converts_toF32 x

/-! ### Literals -/

theorem spanSign_append (sg r : Str) (hs : Sign sg) (hr : r.head? ≠ some c!"-" ∧ r.head? ≠ some c!"+") :
    spanSign (sg ++ r) = (decide (sg = b!"-"), r) := by
  rcases hs with rfl | rfl | rfl
  · rw [List.nil_append]
    cases r with
    | nil => rfl
    | cons c cs =>
      have h1 : (c == c!"-") = false := beq_false_of_ne (fun e => hr.1 (by rw [e]; rfl))
      have h2 : (c == c!"+") = false := beq_false_of_ne (fun e => hr.2 (by rw [e]; rfl))
      simp [spanSign, h1, h2]
  · rfl
  · rfl

theorem mantissa_head {m e : Str} {u : ℚ} (hm : MantissaValue m u) : (m ++ e).head? ≠ some c!"-" ∧ (m ++ e).head? ≠ some c!"+" := by
  have key : ∀ c : Byte, Digit c ∨ c = c!"." → some c ≠ some c!"-" ∧ some c ≠ some c!"+" := by
    intro c hc
    constructor <;> intro h <;> injection h with h <;> subst h <;> revert hc <;> unfold Digit <;> decide
  cases hm with
  | whole h1 h2 =>
    cases m with
    | nil => exact absurd rfl h1
    | cons c cs => exact key c (.inl (h2 c (by simp)))
  | @point a b h1 h2 h3 =>
    cases a with
    | nil => exact key _ (.inr rfl)
    | cons c cs => exact key c (.inl (h1 c (by simp)))

theorem not_digit_point : ¬ Digit c!"." := by unfold Digit; decide

theorem exponent_head {e : Str} {n : ℤ} (he : ExponentValue e n) : ∀ c, e.head? = some c → ¬ Digit c ∧ c ≠ c!"." := by
  cases he with
  | none => intro c h; cases h
  | some h => intro c h; injection h with h; subst h; exact ⟨not_digit_e, by decide⟩

/-- The exponent the model reads. -/
def exOf (r : Str) : Int := match r with
  | c :: cs => if c == c!"e" then decInt cs else 0
  | [] => 0

theorem exOf_eq {e : Str} {n : ℤ} (he : ExponentValue e n) : exOf e = n := by
  cases he with
  | none => rfl
  | some h => simp only [exOf]; rw [if_pos (by decide), decInt_eq _ _ h]

/-- The decimals the model reads. -/
def fracOf (r : Str) : Str × Str := match r with
  | c :: cs => if c == c!"." then spanDigits cs else ([], r)
  | [] => ([], [])

theorem decParts_eq (s : Str) : decParts s = ((spanSign s).1,
    (spanDigits (spanSign s).2).1 ++ (fracOf (spanDigits (spanSign s).2).2).1,
    (fracOf (spanDigits (spanSign s).2).2).1.length, exOf (fracOf (spanDigits (spanSign s).2).2).2) := rfl

/-- What the model reads in a float literal. -/
theorem decParts_literal {sg m e : Str} {u : ℚ} {n : ℤ} (hs : Sign sg) (hm : MantissaValue m u) (he : ExponentValue e n) :
    ∃ ds fl, decParts (sg ++ (m ++ e)) = (decide (sg = b!"-"), ds, fl, n) ∧ u = (decimal ds : ℚ) / 10 ^ fl := by
  have hh := exponent_head he
  rw [decParts_eq, spanSign_append _ _ hs (mantissa_head hm)]
  cases hm with
  | whole h1 h2 =>
    rw [spanDigits_all m e h2 fun c hc => (hh c hc).1]
    have hf : fracOf e = ([], e) := by
      cases e with
      | nil => rfl
      | cons c cs => simp only [fracOf]; rw [if_neg]; simpa using (hh c rfl).2
    simp only [hf, exOf_eq he]
    exact ⟨_, _, rfl, by simp⟩
  | @point a b h1 h2 h3 =>
    have e1 : a ++ c!"." :: b ++ e = a ++ (c!"." :: (b ++ e)) := by simp
    rw [e1, spanDigits_all a _ h1 fun c hc => by injection hc with hc; subst hc; exact not_digit_point]
    have hf : fracOf (c!"." :: (b ++ e)) = (b, e) := by
      simp only [fracOf]; rw [if_pos (by decide), spanDigits_all b e h2 fun c hc => (hh c hc).1]
    simp only [hf, exOf_eq he]
    refine ⟨_, _, rfl, ?_⟩
    rw [decimal_append]
    push_cast
    rw [add_div, mul_div_assoc, div_self (by positivity), mul_one]

theorem rounds_roundDec (neg : Bool) (m : ℕ) (e : ℤ) :
    Rounds double neg ((if neg then -1 else 1) * ((m : ℚ) * 10 ^ e)) (roundDec neg m e) := by
  have hu := unit_pos.ne'
  unfold roundDec
  by_cases h : 0 ≤ e
  · rw [if_pos h]
    have := rounds_round f64 double f64_is neg (m * 10 ^ e.toNat * oneK) 1 (by omega)
    have e1 : ((m * 10 ^ e.toNat * oneK : ℕ) : ℚ) / ((1 : ℕ) * unit) = m * 10 ^ e := by
      push_cast
      rw [one_mul, unit_eq, mul_div_assoc, div_self hu, mul_one, ← zpow_natCast, Int.toNat_of_nonneg h]
    rwa [e1] at this
  · rw [if_neg h]
    have := rounds_round f64 double f64_is neg (m * oneK) (10 ^ (-e).toNat) (Nat.pow_pos (by omega))
    have e1 : ((m * oneK : ℕ) : ℚ) / ((10 ^ (-e).toNat : ℕ) * unit) = m * 10 ^ e := by
      push_cast
      rw [unit_eq, mul_div_mul_right _ _ hu, ← zpow_natCast, Int.toNat_of_nonneg (by omega), zpow_neg]
      rw [div_inv_eq_mul]
    rwa [e1] at this

/-- Reading a literal gives the nearest double. -/
theorem atof_rounds {s : Str} {neg : Bool} {q : ℚ} (h : FloatLiteral s neg q) : Rounds double neg q (atof s) := by
  obtain ⟨sg, m, e, u, n, rfl, hs, hm, he, hneg, rfl⟩ := h
  obtain ⟨ds, fl, e1, e2⟩ := decParts_literal hs hm he
  have : atof (sg ++ (m ++ e)) = roundDec neg (decimal ds) (n - (fl : ℤ)) := by
    unfold atof
    rw [e1]
    have : decide (sg = b!"-") = neg := by
      cases neg
      · exact decide_eq_false (fun h => by simpa using hneg.2 h)
      · exact decide_eq_true (hneg.1 rfl)
    simp only [this, digitsVal_eq]
  rw [this, e2]
  have := rounds_roundDec neg (decimal ds) (n - (fl : ℤ))
  rw [zpow_sub₀ (by norm_num), zpow_natCast] at this
  have e3 : (decimal ds : ℚ) / 10 ^ fl * 10 ^ n = decimal ds * (10 ^ n / 10 ^ fl) := by
    rw [div_mul_eq_mul_div, mul_div_assoc]
  rwa [e3]

/-- Every float literal writes exactly one number. -/
theorem floatLiteral_exists (s : Str) : FloatValue s ↔ ∃ neg q, FloatLiteral s neg q := by
  constructor
  · rintro ⟨sg, m, e, rfl, hs, hm, he⟩
    obtain ⟨u, hu⟩ : ∃ u, MantissaValue m u := by
      rcases hm with ⟨h1, h2⟩ | ⟨a, b, rfl, h1, h2, h3⟩
      · exact ⟨_, .whole h1 h2⟩
      · exact ⟨_, .point h1 h2 h3⟩
    obtain ⟨n, hn⟩ : ∃ n, ExponentValue e n := by
      rcases he with rfl | ⟨x, rfl, hx⟩
      · exact ⟨0, .none⟩
      · obtain ⟨n, hn⟩ := (intLiteral_exists x).1 hx
        exact ⟨n, .some hn⟩
    exact ⟨decide (sg = b!"-"), _, sg, m, e, u, n, rfl, hs, hu, hn, by simp, rfl⟩
  · rintro ⟨neg, q, sg, m, e, u, n, rfl, hs, hm, he, _, _⟩
    refine ⟨sg, m, e, rfl, hs, ?_, ?_⟩
    · cases hm with
      | whole h1 h2 => exact .inl ⟨h1, h2⟩
      | point h1 h2 h3 => exact .inr ⟨_, _, rfl, h1, h2, h3⟩
    · cases he with
      | none => exact .inl rfl
      | some h => exact .inr ⟨_, rfl, (intLiteral_exists _).2 ⟨_, h⟩⟩

theorem floatLiteral_unique {s : Str} {neg neg' : Bool} {q q' : ℚ} (h : FloatLiteral s neg q) (h' : FloatLiteral s neg' q') :
    neg = neg' ∧ q = q' := by
  obtain ⟨sg, m, e, u, n, rfl, hs, hm, he, hneg, rfl⟩ := h
  obtain ⟨sg', m', e', u', n', e0, hs', hm', he', hneg', rfl⟩ := h'
  obtain ⟨ds, fl, e1, e2⟩ := decParts_literal hs hm he
  obtain ⟨ds', fl', e1', e2'⟩ := decParts_literal hs' hm' he'
  rw [← e0, e1] at e1'
  simp only [Prod.mk.injEq] at e1'
  obtain ⟨g1, g2, g3, g4⟩ := e1'
  have : neg = neg' := by
    rw [decide_eq_decide] at g1
    rw [← hneg, ← hneg'] at g1
    cases neg <;> cases neg' <;> simp_all
  subst this; subst g2; subst g3; subst g4
  rw [e2, e2']; exact ⟨rfl, rfl⟩

/-- The sign of the written number. -/
theorem floatLiteral_sign {s : Str} {neg : Bool} {q : ℚ} (h : FloatLiteral s neg q) : ∃ u : ℚ, 0 ≤ u ∧ q = (if neg then -1 else 1) * u := by
  obtain ⟨sg, m, e, u, n, rfl, hs, hm, he, hneg, rfl⟩ := h
  refine ⟨_, ?_, rfl⟩
  have : 0 ≤ u := by cases hm <;> positivity
  positivity

/-! ### Printing -/

theorem rhe_nearestInt (n d : ℕ) (hd : 0 < d) : NearestInt ((n : ℚ) / d) (rhe n d) := by
  have hdq : (0 : ℚ) < d := by exact_mod_cast hd
  have dist : ∀ k : ℤ, |(n : ℚ) / d - k| = (|(n : ℤ) - k * d| : ℤ) / (d : ℚ) := by
    intro k
    have : (n : ℚ) / d - k = ((n : ℤ) - k * d : ℤ) / d := by push_cast; field_simp
    rw [this, abs_div, abs_of_pos hdq, Int.cast_abs]
  have main : ∀ m : ℤ, |(n : ℤ) - (rhe n d : ℤ) * d| ≤ |(n : ℤ) - m * d| ∧
      (m ≠ rhe n d → |(n : ℤ) - m * d| = |(n : ℤ) - (rhe n d : ℤ) * d| → rhe n d % 2 = 0) := by
    intro m
    rcases le_or_gt 0 m with hm | hm
    · obtain ⟨k, rfl⟩ := Int.eq_ofNat_of_zero_le hm
      obtain ⟨h1, h2⟩ := rhe_nearest n d k hd
      exact ⟨h1, fun hne => h2 (fun e => hne (by rw [e]))⟩
    · obtain ⟨h1, h2⟩ := rhe_nearest n d 0 hd
      rw [Nat.cast_zero, zero_mul, sub_zero, Nat.abs_cast] at h1
      have : (n : ℤ) < n - m * d := by
        have := Int.mul_neg_of_neg_of_pos hm (by exact_mod_cast hd : (0 : ℤ) < d)
        omega
      rw [abs_of_nonneg (by omega : (0 : ℤ) ≤ n - m * d)]
      constructor
      · omega
      · intro _ he; omega
  refine ⟨fun m => ?_, fun m hne he => ?_⟩
  · have h := dist (rhe n d : ℤ)
    rw [h, dist m]
    refine div_le_div_of_nonneg_right ?_ hdq.le
    exact_mod_cast (main m).1
  · have h := dist (rhe n d : ℤ)
    rw [h, dist m, div_left_inj' hdq.ne'] at he
    have := (main m).2 hne (by exact_mod_cast he)
    omega

/-- How a finite float prints. -/
theorem fmtFixed_text (prec : ℤ) (hp : 0 ≤ prec) (neg : Bool) (k : ℕ) :
    ∃ m : ℕ, FixedText (fmtFixed prec (.fin neg k)) neg prec.toNat m ∧ NearestInt ((k : ℚ) / unit * 10 ^ prec.toNat) m := by
  refine ⟨rhe (k * 10 ^ prec.toNat) oneK, ?_, ?_⟩
  · generalize hM : rhe (k * 10 ^ prec.toNat) oneK = M
    have e0 : ¬ prec < 0 := by omega
    obtain ⟨g1, g2, g3, g4⟩ := natStr_spec (M / 10 ^ prec.toNat)
    have hz : (natStr (M / 10 ^ prec.toNat)).head? = some c!"0" → natStr (M / 10 ^ prec.toNat) = b!"0" := by
      intro h; rw [g4 h]; rfl
    by_cases h0 : prec.toNat = 0
    · refine ⟨natStr (M / 10 ^ prec.toNat), [], ?_, g1, g2, hz, (by intro c hc; cases hc), by simp [h0], ?_⟩
      · have hM' : rhe (k * 10 ^ prec.toNat) oneK = M := hM
        simp only [fmtFixed, if_neg e0]
        rw [hM', if_pos h0]
        cases neg <;> simp <;> omega
      · rw [g3, h0]; simp [decimal]
    · have hm : M % 10 ^ prec.toNat < 10 ^ prec.toNat := Nat.mod_lt _ (Nat.pow_pos (by omega))
      obtain ⟨h1, h2, h3⟩ := padZeros_spec prec.toNat _ hm (by omega)
      refine ⟨natStr (M / 10 ^ prec.toNat), padZeros prec.toNat (natStr (M % 10 ^ prec.toNat)), ?_, g1, g2, hz, h2, h1, ?_⟩
      · simp only [fmtFixed, if_neg e0, hM, if_neg h0]
        cases neg <;> simp
      · rw [g3, h3, Nat.mul_comm]; exact (Nat.div_add_mod _ _).symm
  · have := rhe_nearestInt (k * 10 ^ prec.toNat) oneK oneK_pos
    rw [unit_eq] at this
    have e : ((k * 10 ^ prec.toNat : ℕ) : ℚ) / unit = (k : ℚ) / unit * 10 ^ prec.toNat := by
      push_cast; rw [div_mul_eq_mul_div]
    rwa [e] at this

/-- A printed number is a literal for the number it shows. -/
theorem fixedText_literal {s : Str} {neg : Bool} {p m : ℕ} (h : FixedText s neg p m) :
    FloatLiteral s neg ((if neg then -1 else 1) * ((m : ℚ) / 10 ^ p)) := by
  obtain ⟨ip, fp, rfl, h1, h2, _, h4, h5, rfl⟩ := h
  have hsg : Sign (if neg then b!"-" else []) := by cases neg <;> simp [Sign]
  have hneg : neg = true ↔ (if neg then b!"-" else []) = b!"-" := by cases neg <;> decide
  by_cases hp : p = 0
  · have hfp : fp = [] := by rw [← List.length_eq_zero_iff, h5, hp]
    refine ⟨_, ip, [], (decimal ip : ℚ), 0, by simp [hp], hsg, .whole h2 h1, .none, hneg, ?_⟩
    subst hfp; simp [decimal, hp]
  · refine ⟨_, ip ++ c!"." :: fp, [], (decimal ip : ℚ) + (decimal fp : ℚ) / 10 ^ fp.length, 0, by simp [hp], hsg, .point h1 h4 (.inl h2), .none, hneg, ?_⟩
    rw [h5]
    push_cast
    rw [add_div, mul_div_assoc, div_self (by positivity), mul_one, mul_one]

/-! ### Singles -/

/-- The value of a finite `float` is a number of the single format. -/
theorem single_number {v : Fl} {q : ℚ} (hv : v.toF32 = v) (hq : number v = some q) : OnGrid 24 149 q ∧ |q| < 2 ^ 128 := by
  obtain ⟨s, k, rfl, rfl⟩ := number_eq hq
  obtain ⟨h1, h2⟩ := (isF32_fin s k).1 hv
  have hu := unit_pos
  refine ⟨?_, ?_⟩
  · have : OnGrid 24 149 ((k : ℚ) / unit) := (onGrid_nat (f := f32) rfl rfl k).2 h1
    cases s
    · simpa using this
    · simpa using onGrid_neg this
  · rw [sign_mul_abs, abs_of_nonneg (div_nonneg (Nat.cast_nonneg _) hu.le), div_lt_iff₀ hu, unit_two, ← pow_add]
    have : k < 2 ^ 1202 := h2
    exact_mod_cast this

/-- A number of the format is rounded to itself. -/
theorem rounds_exact {F : Format} {neg : Bool} {k : ℕ} (h : OnGrid F.bits F.small ((if neg then -1 else 1) * ((k : ℚ) / unit)))
    (hb : (k : ℚ) / unit < 2 ^ F.big) : Rounds F neg ((if neg then -1 else 1) * ((k : ℚ) / unit)) (.fin neg k) := by
  refine ⟨_, nearest_self h, rfl, .inl ⟨?_, number_fin _ _⟩⟩
  rwa [sign_mul_abs, abs_of_nonneg (div_nonneg (Nat.cast_nonneg _) unit_pos.le)]

end Knuckle

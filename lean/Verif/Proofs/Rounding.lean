/-
The model's rounding is rounding to the nearest number of the format.
-/
import Verif.Spec.Reals
import Verif.Proofs.IntArith
import Mathlib.Tactic.FieldSimp
import Mathlib.Tactic.Positivity
import Mathlib.Tactic.Push

namespace Knuckle

open Spec

/-! ### Uniqueness of the nearest number -/

theorem onGrid_mono {p e p' e' : ℕ} {r : ℚ} (hp : p ≤ p') (he : e ≤ e') (h : OnGrid p e r) : OnGrid p' e' r := by
  obtain ⟨m, k, h1, h2, h3⟩ := h
  exact ⟨m, k, h1, lt_of_lt_of_le h2 (pow_le_pow_right₀ (by norm_num) hp), by omega⟩

theorem onGrid_neg {p e : ℕ} {r : ℚ} (h : OnGrid p e r) : OnGrid p e (-r) := by
  obtain ⟨m, k, h1, h2, h3⟩ := h
  exact ⟨-m, k, by rw [h1]; push_cast; ring, by rwa [abs_neg], h3⟩

theorem onGrid_neg_iff {p e : ℕ} {r : ℚ} : OnGrid p e (-r) ↔ OnGrid p e r :=
  ⟨fun h => by simpa using onGrid_neg h, onGrid_neg⟩

theorem onGrid_zero (p e : ℕ) : OnGrid p e 0 := ⟨0, 0, by simp, by simp, by omega⟩

theorem zpow_split {a b : ℤ} (h : a ≤ b) : ((2 : ℚ) ^ b) = ((2 ^ (b - a).toNat : ℤ) : ℚ) * 2 ^ a := by
  obtain ⟨n, rfl⟩ := Int.le.dest h
  have : (a + (n : ℤ) - a).toNat = n := by omega
  rw [this, zpow_add₀ (by norm_num), zpow_natCast]; push_cast; ring

theorem half_zpow (k : ℤ) : (2 : ℚ) ^ (k - 1) = 2 ^ k / 2 := by
  rw [zpow_sub₀ (by norm_num), zpow_one]

theorem zpos (k : ℤ) : (0 : ℚ) < 2 ^ k := by positivity

/-- Between two numbers of the coarser grid there is one of the finer grid. -/
theorem between {p e : ℕ} (hp : 0 < p) (he : 0 < e) {a b : ℚ} (ha : OnGrid (p - 1) (e - 1) a) (hb : OnGrid (p - 1) (e - 1) b)
    (h : a < b) : ∃ r, OnGrid p e r ∧ a < r ∧ r < b := by
  obtain ⟨m, k, rfl, h2, h3⟩ := ha
  obtain ⟨m', k', rfl, h2', h3'⟩ := hb
  have e2 : (2 : ℤ) ^ p = 2 * 2 ^ (p - 1) := by
    obtain ⟨n, rfl⟩ := Nat.exists_eq_succ_of_ne_zero (by omega : p ≠ 0)
    rw [Nat.succ_sub_one, pow_succ]; ring
  rcases le_total k k' with hk | hk
  · refine ⟨(2 * m + 1 : ℤ) * 2 ^ (k - 1), ⟨2 * m + 1, k - 1, rfl, ?_, by omega⟩, ?_, ?_⟩
    · rw [e2]; rw [abs_lt] at h2 ⊢; omega
    · rw [half_zpow]; have := zpos k; push_cast; linarith
    · rw [zpow_split hk] at h ⊢
      rw [half_zpow]
      have hz := zpos k
      rw [← mul_assoc, ← Int.cast_mul] at h ⊢
      generalize m' * 2 ^ (k' - k).toNat = M at h ⊢
      have : (m : ℚ) < M := lt_of_mul_lt_mul_right h hz.le
      have : m + 1 ≤ M := by exact_mod_cast this
      have : (m : ℚ) + 1 ≤ M := by exact_mod_cast this
      have := mul_le_mul_of_nonneg_right this hz.le
      push_cast
      linarith
  · refine ⟨(2 * m' - 1 : ℤ) * 2 ^ (k' - 1), ⟨2 * m' - 1, k' - 1, rfl, ?_, by omega⟩, ?_, ?_⟩
    · rw [e2]; rw [abs_lt] at h2' ⊢; omega
    · rw [zpow_split hk] at h ⊢
      rw [half_zpow]
      have hz := zpos k'
      rw [← mul_assoc, ← Int.cast_mul] at h ⊢
      generalize m * 2 ^ (k - k').toNat = M at h ⊢
      have : (M : ℚ) < m' := lt_of_mul_lt_mul_right h hz.le
      have : M + 1 ≤ m' := by exact_mod_cast this
      have : (M : ℚ) + 1 ≤ m' := by exact_mod_cast this
      have := mul_le_mul_of_nonneg_right this hz.le
      push_cast
      linarith
    · rw [half_zpow]; have := zpos k'; push_cast; linarith

theorem nearest_unique_lt {p e : ℕ} (hp : 0 < p) (he : 0 < e) {q a b : ℚ} (ha : Nearest p e q a) (hb : Nearest p e q b)
    (h : a < b) : False := by
  have hd : |q - a| = |q - b| := le_antisymm (ha.2.1 _ hb.1) (hb.2.1 _ ha.1)
  have h1 := ha.2.2 b hb.1 h.ne' hd.symm
  have h2 := hb.2.2 a ha.1 h.ne hd
  obtain ⟨r, hr, har, hrb⟩ := between hp he h1 h2 h
  have := ha.2.1 r hr
  rcases abs_cases (q - a) with ⟨e1, _⟩ | ⟨e1, _⟩ <;> rcases abs_cases (q - b) with ⟨e2, _⟩ | ⟨e2, _⟩ <;>
    rcases abs_cases (q - r) with ⟨e3, _⟩ | ⟨e3, _⟩ <;> linarith

theorem nearest_unique {p e : ℕ} (hp : 0 < p) (he : 0 < e) {q a b : ℚ} (ha : Nearest p e q a) (hb : Nearest p e q b) :
    a = b := by
  rcases lt_trichotomy a b with h | h | h
  · exact (nearest_unique_lt hp he ha hb h).elim
  · exact h
  · exact (nearest_unique_lt hp he hb ha h).elim

theorem nearest_self {p e : ℕ} {q : ℚ} (h : OnGrid p e q) : Nearest p e q q := by
  refine ⟨h, fun r' _ => by rw [sub_self, abs_zero]; exact abs_nonneg _, fun r' _ hne he => ?_⟩
  rw [sub_self, abs_zero, abs_eq_zero, sub_eq_zero] at he
  exact absurd he.symm hne

theorem nearest_neg {p e : ℕ} {q r : ℚ} (h : Nearest p e q r) : Nearest p e (-q) (-r) := by
  have key : ∀ r', |-q - -r'| = |q - r'| := fun r' => by rw [← abs_neg (q - r')]; congr 1; ring
  have key' : ∀ r', |-q - r'| = |q - -r'| := fun r' => by rw [← abs_neg (q - -r')]; congr 1; ring
  refine ⟨onGrid_neg h.1, fun r' h' => ?_, fun r' h' hne he => ?_⟩
  · rw [key, key']; exact h.2.1 _ (onGrid_neg h')
  · rw [key, key'] at he
    exact onGrid_neg (h.2.2 _ (onGrid_neg h') (fun e => hne (by rw [← e]; ring)) he)

/-- Rounding is monotone. -/
theorem nearest_mono {p e : ℕ} (hp : 0 < p) (he : 0 < e) {q q' a b : ℚ} (ha : Nearest p e q a) (hb : Nearest p e q' b) (h : q ≤ q') : a ≤ b := by
  by_contra hc
  push Not at hc
  have h1 := ha.2.1 b hb.1
  have h2 := hb.2.1 a ha.1
  have : q = q' := by
    rcases abs_cases (q - a) with ⟨e1, _⟩ | ⟨e1, _⟩ <;> rcases abs_cases (q - b) with ⟨e2, _⟩ | ⟨e2, _⟩ <;>
    rcases abs_cases (q' - a) with ⟨e3, _⟩ | ⟨e3, _⟩ <;> rcases abs_cases (q' - b) with ⟨e4, _⟩ | ⟨e4, _⟩ <;> linarith
  subst this
  exact hc.ne (nearest_unique hp he hb ha)

/-! ### Magnitudes -/

theorem rhe_nearest (n d m : Nat) (hd : 0 < d) :
    |(n : ℤ) - rhe n d * d| ≤ |(n : ℤ) - m * d| ∧
    (m ≠ rhe n d → |(n : ℤ) - m * d| = |(n : ℤ) - rhe n d * d| → rhe n d % 2 = 0) := by
  have hR := rhe_le_succ n d
  have hdm : (n : ℤ) = d * (n / d : ℕ) + (n % d : ℕ) := by exact_mod_cast (Nat.div_add_mod n d).symm
  have hm := Nat.mod_lt n hd
  have hdef : rhe n d = if 2 * (n % d) < d then n / d else if d < 2 * (n % d) then n / d + 1 else if n / d % 2 = 0 then n / d else n / d + 1 := rfl
  generalize n / d = q at *
  generalize n % d = r at *
  have key : ∀ M : ℕ, M ≤ q ∨ q + 1 ≤ M := fun M => by omega
  have low : ∀ M : ℕ, M ≤ q → (n : ℤ) - M * d = ((q - M : ℕ) : ℤ) * d + r := by
    intro M h; rw [hdm]; push_cast [h]; ring
  have high : ∀ M : ℕ, q + 1 ≤ M → (n : ℤ) - M * d = -(((M - (q + 1) : ℕ) : ℤ) * d + (d - r)) := by
    intro M h; rw [hdm]; push_cast [h]; ring
  have absL : ∀ M : ℕ, M ≤ q → |(n : ℤ) - M * d| = ((q - M : ℕ) : ℤ) * d + r := by
    intro M h; rw [low M h, abs_of_nonneg]; positivity
  have absH : ∀ M : ℕ, q + 1 ≤ M → |(n : ℤ) - M * d| = ((M - (q + 1) : ℕ) : ℤ) * d + (d - r) := by
    intro M h; rw [high M h, abs_neg, abs_of_nonneg]
    have : (0 : ℤ) ≤ ((M - (q + 1) : ℕ) : ℤ) * d := by positivity
    omega
  have big : ∀ t : ℕ, t = 0 ∨ (d : ℤ) ≤ (t : ℤ) * d := by
    intro t
    rcases Nat.eq_zero_or_pos t with h | h
    · exact .inl h
    · right
      have : (1 : ℤ) * d ≤ t * d := mul_le_mul_of_nonneg_right (by exact_mod_cast h) (by positivity)
      linarith
  have aq := absL q le_rfl
  have aq1 := absH (q + 1) le_rfl
  simp only [Nat.sub_self, Nat.cast_zero, zero_mul, zero_add] at aq aq1
  rcases (by omega : rhe n d = q ∨ rhe n d = q + 1) with hr | hr
  · rw [hr]
    rw [hr] at hdef
    have h2 : 2 * r < d ∨ (2 * r = d ∧ q % 2 = 0) := by
      split at hdef
      · left; assumption
      · split at hdef
        · omega
        · split at hdef
          · right; omega
          · omega
    rw [aq]
    rcases key m with hk | hk
    · rw [absL m hk]
      rcases big (q - m) with h | h
      · have : m = q := by omega
        subst this; simp
      · constructor
        · omega
        · intro _ he; omega
    · rw [absH m hk]
      have : (0 : ℤ) ≤ ((m - (q + 1) : ℕ) : ℤ) * d := by positivity
      constructor
      · omega
      · intro _ he; omega
  · rw [hr]
    rw [hr] at hdef
    have h2 : d < 2 * r ∨ (2 * r = d ∧ q % 2 = 1) := by
      split at hdef
      · omega
      · split at hdef
        · left; assumption
        · split at hdef
          · omega
          · right; omega
    rw [aq1]
    rcases key m with hk | hk
    · rw [absL m hk]
      have : (0 : ℤ) ≤ ((q - m : ℕ) : ℤ) * d := by positivity
      constructor
      · omega
      · intro _ he; omega
    · rw [absH m hk]
      rcases big (m - (q + 1)) with h | h
      · have : m = q + 1 := by omega
        subst this; simp
      · constructor
        · omega
        · intro _ he; omega

/-- The format with one bit less. -/
def Fmt.coarse (f : Fmt) : Fmt := ⟨f.p - 1, f.g + 1, f.lim⟩

theorem roundMag_nearest (f : Fmt) (hp : 2 ≤ f.p) (n d k : Nat) (hd : 0 < d) (hk : f.Rep k) :
    |(n : ℤ) - f.roundMag n d * d| ≤ |(n : ℤ) - k * d| ∧
    (k ≠ f.roundMag n d → |(n : ℤ) - k * d| = |(n : ℤ) - f.roundMag n d * d| → f.coarse.Rep (f.roundMag n d)) := by
  obtain ⟨m, t, rfl, hm, ht⟩ := hk
  have hrep : rhe n (d * 2 ^ max f.g (bitLen (n / d) - f.p)) ≤ 2 ^ f.p := by
    have hs2 : bitLen (n / d) ≤ f.p + max f.g (bitLen (n / d) - f.p) := by omega
    generalize max f.g (bitLen (n / d) - f.p) = s at hs2
    have hlt : n / d < 2 ^ (f.p + s) := Nat.lt_of_lt_of_le (lt_pow_bitLen _) (Nat.pow_le_pow_right (by omega) hs2)
    have h1 : n ≤ 2 ^ f.p * (d * 2 ^ s) := by
      have := (Nat.div_lt_iff_lt_mul hd).1 hlt
      rw [Nat.pow_add] at this
      have e : 2 ^ f.p * (d * 2 ^ s) = 2 ^ f.p * 2 ^ s * d := by ring
      omega
    have hpos : 0 < d * 2 ^ s := Nat.mul_pos hd (Nat.two_pow_pos s)
    have := rhe_mono _ _ (d * 2 ^ s) hpos h1
    rwa [rhe_exact _ _ hpos] at this
  unfold Fmt.roundMag
  simp only
  have hsd : max f.g (bitLen (n / d) - f.p) = max f.g (bitLen (n / d) - f.p) := rfl
  generalize hS : max f.g (bitLen (n / d) - f.p) = s at hrep ⊢
  have hD : 0 < d * 2 ^ s := Nat.mul_pos hd (Nat.two_pow_pos s)
  have eR : (n : ℤ) - ((rhe n (d * 2 ^ s) * 2 ^ s : ℕ) : ℤ) * d = (n : ℤ) - rhe n (d * 2 ^ s) * (d * 2 ^ s : ℕ) := by
    push_cast; ring
  rw [eR]
  have even : rhe n (d * 2 ^ s) % 2 = 0 → f.coarse.Rep (rhe n (d * 2 ^ s) * 2 ^ s) := by
    intro he
    generalize rhe n (d * 2 ^ s) = R at hrep he
    have hs : f.g ≤ s := by omega
    rcases Nat.eq_or_lt_of_le hrep with h | h
    · refine ⟨1, f.p + s, by rw [h, Nat.pow_add]; ring, ?_, ?_⟩
      · show 1 < 2 ^ (f.p - 1)
        exact Nat.one_lt_two_pow (by omega)
      · show f.g + 1 ≤ f.p + s
        omega
    · refine ⟨R / 2, s + 1, ?_, ?_, ?_⟩
      · rw [Nat.pow_succ]
        have : R = R / 2 * 2 := by omega
        calc R * 2 ^ s = (R / 2 * 2) * 2 ^ s := by rw [← this]
          _ = _ := by ring
      · show R / 2 < 2 ^ (f.p - 1)
        have : 2 ^ f.p = 2 * 2 ^ (f.p - 1) := by
          obtain ⟨j, hj⟩ := Nat.exists_eq_succ_of_ne_zero (by omega : f.p ≠ 0)
          rw [hj, Nat.succ_sub_one, Nat.pow_succ]; ring
        omega
      · show f.g + 1 ≤ s + 1
        omega
  rcases Nat.lt_or_ge t s with hts | hts
  · -- below the binade of n / d
    have hs : s = bitLen (n / d) - f.p := by omega
    have hb : bitLen (n / d) - 1 = (f.p - 1) + s := by omega
    have hn0 : n / d ≠ 0 := by intro h0; rw [h0] at hs; simp [bitLen] at hs; omega
    have hL : 2 ^ (f.p - 1) * 2 ^ s ≤ n / d := by
      have := pow_bitLen_le _ hn0; rwa [hb, Nat.pow_add] at this
    have hkL : m * 2 ^ t < 2 ^ (f.p - 1) * 2 ^ s := by
      have e1 : 2 ^ f.p * 2 ^ t ≤ 2 ^ (f.p - 1) * 2 ^ s := by
        rw [← Nat.pow_add, ← Nat.pow_add]; exact Nat.pow_le_pow_right (by omega) (by omega)
      have : m * 2 ^ t < 2 ^ f.p * 2 ^ t := Nat.mul_lt_mul_of_pos_right hm (Nat.two_pow_pos t)
      omega
    have hLn : 2 ^ (f.p - 1) * 2 ^ s * d ≤ n := (Nat.le_div_iff_mul_le hd).1 hL
    have hkn : m * 2 ^ t * d < 2 ^ (f.p - 1) * 2 ^ s * d := Nat.mul_lt_mul_of_pos_right hkL hd
    have h1 := (rhe_nearest n (d * 2 ^ s) (2 ^ (f.p - 1)) hD).1
    have e2 : (n : ℤ) - ((2 ^ (f.p - 1) : ℕ) : ℤ) * (d * 2 ^ s : ℕ) = (n : ℤ) - ((2 ^ (f.p - 1) * 2 ^ s * d : ℕ) : ℤ) := by
      push_cast; ring
    rw [e2] at h1
    have e3 : (n : ℤ) - ((m * 2 ^ t : ℕ) : ℤ) * d = (n : ℤ) - ((m * 2 ^ t * d : ℕ) : ℤ) := by push_cast; ring
    rw [e3]
    generalize 2 ^ (f.p - 1) * 2 ^ s * d = L at *
    generalize m * 2 ^ t * d = K at *
    rw [abs_of_nonneg (by omega : (0 : ℤ) ≤ (n : ℤ) - (L : ℤ))] at h1
    rw [abs_of_nonneg (by omega : (0 : ℤ) ≤ (n : ℤ) - (K : ℤ))]
    constructor
    · omega
    · intro _ he; omega
  · -- on the grid of n / d
    obtain ⟨j, rfl⟩ := Nat.exists_eq_add_of_le hts
    have e4 : m * 2 ^ (s + j) = (m * 2 ^ j) * 2 ^ s := by rw [Nat.pow_add]; ring
    rw [e4]
    have e5 : (n : ℤ) - ((m * 2 ^ j * 2 ^ s : ℕ) : ℤ) * d = (n : ℤ) - ((m * 2 ^ j : ℕ) : ℤ) * (d * 2 ^ s : ℕ) := by
      push_cast; ring
    rw [e5]
    obtain ⟨h1, h2⟩ := rhe_nearest n (d * 2 ^ s) (m * 2 ^ j) hD
    refine ⟨h1, fun hne he => even (h2 ?_ he)⟩
    rintro h; exact hne (by rw [h])

/-! ### Formats -/

/-- A model format is a format of the specification. -/
structure Fmt.Is (f : Fmt) (F : Format) : Prop where
  bits : f.p = F.bits
  grid : f.g + F.small = 1074
  lim : f.lim = 2 ^ (1074 + F.big)
  two : 2 ≤ F.bits
  small : 0 < F.small

theorem f64_is : f64.Is double := ⟨rfl, rfl, rfl, by decide, by decide⟩
theorem f32_is : f32.Is single := ⟨rfl, rfl, rfl, by decide, by decide⟩

/-- Units. -/
def unit : ℚ := 2 ^ 1074

theorem unit_pos : 0 < unit := by unfold unit; positivity

theorem unit_two : unit = 2 ^ 1074 := rfl

theorem unit_eq : (oneK : ℚ) = unit := by unfold unit oneK; push_cast; rfl

theorem onGrid_nat {f : Fmt} {p e : ℕ} (hp : f.p = p) (he : f.g + e = 1074) (k : ℕ) : OnGrid p e (k / unit) ↔ f.Rep k := by
  constructor
  · rintro ⟨m, j, h1, h2, h3⟩
    have hj : -(e : ℤ) ≤ j := h3
    have hsplit : (2 : ℚ) ^ j = 2 ^ (j + 1074).toNat / unit := by
      unfold unit
      rw [eq_div_iff (by positivity), ← zpow_natCast, ← zpow_natCast, ← zpow_add₀ (by norm_num)]
      congr 1; omega
    rw [hsplit, mul_div_assoc', div_left_inj' unit_pos.ne'] at h1
    have h1 : (k : ℤ) = m * 2 ^ (j + 1074).toNat := by exact_mod_cast h1
    have hm : 0 ≤ m := by
      by_contra hc
      have : m * 2 ^ (j + 1074).toNat < 0 := Int.mul_neg_of_neg_of_pos (by omega) (by positivity)
      omega
    refine ⟨m.toNat, (j + 1074).toNat, ?_, ?_, by omega⟩
    · have : ((m.toNat : ℕ) : ℤ) = m := Int.toNat_of_nonneg hm
      have h4 : (k : ℤ) = ((m.toNat * 2 ^ (j + 1074).toNat : ℕ) : ℤ) := by push_cast; rw [this]; exact h1
      exact_mod_cast h4
    · rw [hp]
      rw [abs_of_nonneg hm] at h2
      have : ((m.toNat : ℕ) : ℤ) < ((2 ^ p : ℕ) : ℤ) := by push_cast; omega
      exact_mod_cast this
  · rintro ⟨m, t, rfl, hm, ht⟩
    refine ⟨m, (t : ℤ) - 1074, ?_, ?_, by omega⟩
    · unfold unit
      rw [zpow_sub₀ (by norm_num), zpow_natCast]
      push_cast
      rw [mul_div_assoc]
      congr 1
    · rw [hp] at hm
      rw [abs_of_nonneg (by positivity)]
      exact_mod_cast hm

attribute [irreducible] unit

/-- A number of a format is a natural number of units, up to the sign. -/
theorem onGrid_units {p e : ℕ} (he : e ≤ 1074) {r : ℚ} (h : OnGrid p e r) : ∃ k : ℕ, |r| = k / unit := by
  obtain ⟨m, j, rfl, _, h3⟩ := h
  refine ⟨m.natAbs * 2 ^ (j + 1074).toNat, ?_⟩
  rw [abs_mul, abs_of_pos (zpos j)]
  rw [unit_two, eq_div_iff (by positivity)]
  push_cast
  rw [mul_assoc, Nat.cast_natAbs, Int.cast_abs]
  congr 1
  rw [← zpow_natCast, ← zpow_natCast, ← zpow_add₀ (by norm_num)]
  congr 1; omega

theorem nearest_roundMag (f : Fmt) (F : Format) (hF : f.Is F) (n d : ℕ) (hd : 0 < d) :
    Nearest F.bits F.small ((n : ℚ) / (d * unit)) (f.roundMag n d / unit) := by
  have hpos : f.Pos := by unfold Fmt.Pos; have := hF.two; have := hF.bits; omega
  have hp2 : 2 ≤ f.p := by rw [hF.bits]; exact hF.two
  have hu := unit_pos
  have hdq : (0 : ℚ) < d := by exact_mod_cast hd
  have hsm : F.small ≤ 1074 := by have := hF.grid; omega
  have dist : ∀ k : ℕ, |(n : ℚ) / (d * unit) - k / unit| = (|(n : ℤ) - k * d| : ℤ) / (d * unit) := by
    intro k
    have : (n : ℚ) / (d * unit) - k / unit = ((n : ℤ) - k * d : ℤ) / (d * unit) := by
      push_cast; field_simp
    rw [this, abs_div, abs_of_pos (mul_pos hdq hu), Int.cast_abs]
  have hq : (0 : ℚ) ≤ (n : ℚ) / (d * unit) := div_nonneg (Nat.cast_nonneg _) (mul_pos hdq hu).le
  have main : ∀ k : ℕ, f.Rep k → |(n : ℚ) / (d * unit) - (f.roundMag n d : ℕ) / unit| ≤ |(n : ℚ) / (d * unit) - k / unit| := by
    intro k hk
    rw [dist, dist]
    refine div_le_div_of_nonneg_right ?_ (mul_pos hdq hu).le
    exact_mod_cast (roundMag_nearest f hp2 n d k hd hk).1
  refine ⟨(onGrid_nat hF.bits hF.grid _).2 (rep_roundMag f hpos n d hd), fun r' hr' => ?_, fun r' hr' hne he => ?_⟩
  · obtain ⟨k, hk⟩ := onGrid_units hsm hr'
    have hg : OnGrid F.bits F.small (k / unit) := by
      rw [← hk]; rcases abs_choice r' with h | h <;> rw [h]
      · exact hr'
      · exact onGrid_neg hr'
    refine le_trans (main k ((onGrid_nat hF.bits hF.grid k).1 hg)) ?_
    rw [← hk]
    rcases abs_cases r' with ⟨h1, h2⟩ | ⟨h1, h2⟩
    · rw [h1]
    · rw [h1]
      generalize (n : ℚ) / (d * unit) = q at hq ⊢
      rw [abs_le]
      have : |q - r'| = q - r' := abs_of_nonneg (by linarith)
      rw [this]; constructor <;> linarith
  · have hcg : f.coarse.g + (F.small - 1) = 1074 := by
      have := hF.grid; have := hF.small; show f.g + 1 + (F.small - 1) = 1074; omega
    have hcp : f.coarse.p = F.bits - 1 := by show f.p - 1 = _; rw [hF.bits]
    rw [onGrid_nat hcp hcg]
    obtain ⟨k, hk⟩ := onGrid_units hsm hr'
    have hg : OnGrid F.bits F.small (k / unit) := by
      rw [← hk]; rcases abs_choice r' with h | h <;> rw [h]
      · exact hr'
      · exact onGrid_neg hr'
    have hrep := (onGrid_nat hF.bits hF.grid k).1 hg
    rcases abs_cases r' with ⟨h1, h2⟩ | ⟨h1, h2⟩
    · have hr : r' = k / unit := by rw [← hk, h1]
      rw [hr] at he hne
      refine (roundMag_nearest f hp2 n d k hd hrep).2 (fun h => hne (by rw [h])) ?_
      rw [dist, dist, div_left_inj' (mul_pos hdq hu).ne'] at he
      exact_mod_cast he
    · exfalso
      have m1 := main k hrep
      rw [← hk, h1] at m1
      have m0 := main 0 (rep_zero f)
      rw [Nat.cast_zero, zero_div, sub_zero] at m0
      rw [← he] at m1 m0
      generalize (n : ℚ) / (d * unit) = q at hq m1 m0
      rw [abs_of_nonneg hq, abs_of_nonneg (by linarith : 0 ≤ q - r')] at m0
      linarith

theorem number_fin (neg : Bool) (k : ℕ) : number (.fin neg k) = some ((if neg then -1 else 1) * ((k : ℚ) / unit)) := by
  rw [unit_two]; unfold number
  cases neg <;> simp [neg_div]

theorem sign_mul_abs (neg : Bool) (q : ℚ) : |(if neg then (-1 : ℚ) else 1) * q| = |q| := by
  cases neg <;> simp

/-- The model's rounding is the rounding of the specification. -/
theorem rounds_round (f : Fmt) (F : Format) (hF : f.Is F) (neg : Bool) (n d : ℕ) (hd : 0 < d) :
    Rounds F neg ((if neg then -1 else 1) * ((n : ℚ) / (d * unit))) (f.round neg n d) := by
  have hN := nearest_roundMag f F hF n d hd
  refine ⟨(if neg then -1 else 1) * (f.roundMag n d / unit), ?_, ?_, ?_⟩
  · cases neg
    · simpa using hN
    · simpa using nearest_neg hN
  · rcases round_cases f neg n d with h | h <;> rw [h] <;> rfl
  · have hu := unit_pos
    rw [sign_mul_abs, abs_of_nonneg (div_nonneg (Nat.cast_nonneg _) hu.le)]
    have key : ((f.roundMag n d : ℚ) / unit < 2 ^ F.big) ↔ f.roundMag n d < f.lim := by
      rw [div_lt_iff₀ hu, hF.lim, unit_two, ← pow_add, Nat.add_comm F.big]
      exact_mod_cast Iff.rfl
    unfold Fmt.round
    by_cases h : f.lim ≤ f.roundMag n d
    · rw [if_pos h]
      right
      refine ⟨?_, rfl⟩
      rw [← not_lt, key]; omega
    · rw [if_neg h]
      left
      exact ⟨key.2 (by omega), number_fin _ _⟩

end Knuckle

/-
Decimal texts of integers.
-/
import Verif.Proofs.Values

namespace Knuckle

open Spec

/-- A decimal digit. -/
theorem digit_val (d : Nat) (h : d < 10) : (UInt8.ofNat (48 + d)).toNat = 48 + d := by
  rw [UInt8.toNat_ofNat']; omega

theorem digit_ofNat (d : Nat) (h : d < 10) : Digit (UInt8.ofNat (48 + d)) := by
  have := digit_val d h
  constructor
  · rw [UInt8.le_iff_toNat_le, this]; simp
  · rw [UInt8.le_iff_toNat_le, this]; simp; omega

theorem decimal_append (a b : Str) : decimal (a ++ b) = decimal a * 10 ^ b.length + decimal b := by
  induction a with
  | nil => simp [decimal]
  | cons c cs ih => simp only [List.cons_append, decimal, List.length_append, ih, Nat.pow_add]; ring

theorem decimal_one (d : Nat) (h : d < 10) : decimal [UInt8.ofNat (48 + d)] = d := by
  simp only [decimal, digit_val d h, List.length_nil]; omega

theorem natStrF_spec : ∀ fuel n, n < fuel →
    Digits (natStrF fuel n) ∧ natStrF fuel n ≠ [] ∧ decimal (natStrF fuel n) = n ∧
      ((natStrF fuel n).head? = some c!"0" → n = 0) := by
  intro fuel
  induction fuel with
  | zero => intro n h; omega
  | succ f ih =>
    intro n h
    simp only [natStrF]
    by_cases hn : n < 10
    · rw [if_pos hn]
      refine ⟨?_, by simp, decimal_one n hn, ?_⟩
      · intro c hc; rw [List.mem_singleton.1 hc]; exact digit_ofNat n hn
      · intro hh
        have : UInt8.ofNat (48 + n) = c!"0" := by simpa using hh
        have := congrArg UInt8.toNat this
        rw [digit_val n hn] at this
        simp at this; omega
    · rw [if_neg hn]
      obtain ⟨h1, h2, h3, h4⟩ := ih (n / 10) (by omega)
      have hd : n % 10 < 10 := Nat.mod_lt _ (by omega)
      refine ⟨?_, by simp, ?_, ?_⟩
      · intro c hc
        rcases List.mem_append.1 hc with hc | hc
        · exact h1 c hc
        · rw [List.mem_singleton.1 hc]; exact digit_ofNat _ hd
      · rw [decimal_append, h3, decimal_one _ hd, List.length_singleton]; omega
      · intro hh
        have : (natStrF f (n / 10)).head? = some c!"0" := by
          cases he : natStrF f (n / 10) with
          | nil => exact absurd he h2
          | cons x xs => rw [he] at hh; simpa using hh
        have := h4 this
        omega

theorem natStr_spec (n : Nat) : Digits (natStr n) ∧ natStr n ≠ [] ∧ decimal (natStr n) = n ∧
    ((natStr n).head? = some c!"0" → n = 0) := natStrF_spec (n + 1) n (by omega)

theorem natStr_zero : natStr 0 = b!"0" := rfl

theorem intStr_literal (n : Int) : IntLiteral (intStr n) n := by
  obtain ⟨h1, h2, h3, _⟩ := natStr_spec n.natAbs
  unfold intStr
  by_cases hn : n < 0
  · rw [if_pos hn]
    exact ⟨b!"-", natStr n.natAbs, rfl, .inr (.inr rfl), h2, h1, by rw [if_pos rfl, h3]; omega⟩
  · rw [if_neg hn]
    exact ⟨[], natStr n.natAbs, rfl, .inl rfl, h2, h1, by rw [if_neg (by decide), h3]; omega⟩

theorem natStr_inj (n m : Nat) (h : natStr n = natStr m) : n = m := by
  rw [← (natStr_spec n).2.2.1, h, (natStr_spec m).2.2.1]

theorem intStr_inj (n m : Int) (h : intStr n = intStr m) : n = m :=
  intLiteral_unique _ n m (intStr_literal n) (by rw [h]; exact intStr_literal m)

end Knuckle

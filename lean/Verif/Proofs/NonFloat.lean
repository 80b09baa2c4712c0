/-
The order of values that are not floats, and the decimals of printed floats.
-/
import Verif.Proofs.Changes
import Verif.Proofs.Compare

namespace Knuckle

open Spec

theorem less_sto (eps : Fl) (t : Str) (ht : t ≠ b!"Float") : STOn (less eps) (HasType t) where
  irr := fun a ha => by rw [less_natLt eps t a a ha ha ht]; exact (natLt_sto t ht).irr a ha
  tr := fun a b c ha hb hc => by
    rw [less_natLt eps t a b ha hb ht, less_natLt eps t b c hb hc ht, less_natLt eps t a c ha hc ht]
    exact (natLt_sto t ht).tr a b c ha hb hc
  tot := fun a b ha hb => by
    rw [less_natLt eps t a b ha hb ht, less_natLt eps t b a hb ha ht]
    exact (natLt_sto t ht).tot a b ha hb

theorem swo_nonfloat (eps : Fl) (t : Str) (ht : t ≠ b!"Float") (l : List Obj) (hl : ∀ x ∈ l, HasType t x) :
    StrictWeakOrder (less eps) l := by
  have h := (less_sto eps t ht).swo
  refine ⟨fun a ha => ?_, fun a ha b hb c hc => ?_, fun a ha b hb c hc h1 h2 h3 h4 => ?_⟩
  · rw [h.irr a (hl a ha)]; decide
  · exact h.tr a b c (hl a ha) (hl b hb) (hl c hc)
  · have := h.inc a b c (hl a ha) (hl b hb) (hl c hc) (by simpa using h1) (by simpa using h2) (by simpa using h3) (by simpa using h4)
    simp [this.1, this.2]

theorem searchable_nonfloat (eps : Fl) (t : Str) (ht : t ≠ b!"Float") (l : List Obj) (hl : ∀ x ∈ l, HasType t x)
    (ha : l.Pairwise fun a b => natLt a b) (k : Obj) (hk : HasType t k) : Searchable (less eps) l k := by
  refine ⟨swo_nonfloat eps t ht _ ?_, ?_⟩
  · intro x hx; rcases List.mem_cons.1 hx with rfl | hx
    · exact hk
    · exact hl x hx
  · refine List.Pairwise.imp_of_mem ?_ ha
    intro a b h1 h2 h3; rw [less_natLt eps t a b (hl a h1) (hl b h2) ht]; exact h3

theorem tied_nonfloat (eps : Fl) (t : Str) (ht : t ≠ b!"Float") {a b : Obj} (ha : HasType t a) (hb : HasType t b) :
    tied (less eps) a b = true ↔ a = b := by
  unfold tied
  constructor
  · intro h; simp only [Bool.and_eq_true, Bool.not_eq_true'] at h
    exact (less_sto eps t ht).tot a b ha hb h.1 h.2
  · rintro rfl; rw [(less_sto eps t ht).irr a ha]; rfl

/-! ### Printing -/

theorem natStrF_length : ∀ fuel n p, n < fuel → n < 10 ^ p → 0 < p → (natStrF fuel n).length ≤ p := by
  intro fuel
  induction fuel with
  | zero => intro n p h; omega
  | succ f ih =>
    intro n p h hp h0
    simp only [natStrF]
    by_cases hn : n < 10
    · rw [if_pos hn]; simp only [List.length_singleton]; omega
    · rw [if_neg hn]
      have hp2 : 1 < p := by
        rcases Nat.lt_or_ge 1 p with h | h
        · exact h
        · have : p = 1 := by omega
          subst this; omega
      have := ih (n / 10) (p - 1) (by omega) (by
        rw [Nat.div_lt_iff_lt_mul (by omega)]
        calc n < 10 ^ p := hp
          _ = 10 ^ (p - 1) * 10 := by rw [← Nat.pow_succ]; congr 1; omega) (by omega)
      rw [List.length_append, List.length_singleton]; omega

theorem natStr_length (n p : Nat) (h : n < 10 ^ p) (h0 : 0 < p) : (natStr n).length ≤ p :=
  natStrF_length (n + 1) n p (by omega) h h0

theorem decimal_zeros (k : Nat) (s : Str) : decimal (List.replicate k c!"0" ++ s) = decimal s := by
  induction k with
  | zero => simp
  | succ k ih => simp [List.replicate_succ, decimal, ih]

theorem padZeros_spec (p n : Nat) (h : n < 10 ^ p) (h0 : 0 < p) :
    (padZeros p (natStr n)).length = p ∧ Digits (padZeros p (natStr n)) ∧ decimal (padZeros p (natStr n)) = n := by
  have hl := natStr_length n p h h0
  obtain ⟨h1, h2, h3, _⟩ := natStr_spec n
  refine ⟨?_, ?_, ?_⟩
  · unfold padZeros; rw [List.length_append, List.length_replicate]; omega
  · intro c hc
    rcases List.mem_append.1 hc with hc | hc
    · rw [(List.mem_replicate.1 hc).2]; exact ⟨by decide, by decide⟩
    · exact h1 c hc
  · unfold padZeros; rw [decimal_zeros, h3]

/-- The parts of a printed finite float. -/
theorem fmtFixed_fin (p : Int) (hp : 0 < p) (sg : Bool) (k : Nat) : ∃ ip fp,
    fmtFixed p (.fin sg k) = (if sg then b!"-" else []) ++ (ip ++ c!"." :: fp) ∧ ip ≠ [] ∧ Digits ip ∧ Digits fp ∧
    fp.length = p.toNat ∧ decimal (ip ++ fp) = rhe (k * 10 ^ p.toNat) oneK := by
  have e1 : ¬ p < 0 := by omega
  have e2 : p.toNat ≠ 0 := by omega
  have hm : rhe (k * 10 ^ p.toNat) oneK % 10 ^ p.toNat < 10 ^ p.toNat := Nat.mod_lt _ (Nat.pow_pos (by omega))
  obtain ⟨h1, h2, h3⟩ := padZeros_spec p.toNat _ hm (by omega)
  obtain ⟨g1, g2, g3, _⟩ := natStr_spec (rhe (k * 10 ^ p.toNat) oneK / 10 ^ p.toNat)
  refine ⟨_, _, ?_, g2, g1, h2, h1, ?_⟩
  · simp only [fmtFixed, if_neg e1, if_neg e2]
    cases sg <;> simp
  · rw [decimal_append, g3, h1, h3]
    rw [Nat.mul_comm]
    exact Nat.div_add_mod _ _

end Knuckle

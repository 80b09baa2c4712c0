/-
The comparators on values of one type.
-/
import Verif.Proofs.Values
import Verif.Proofs.FloatCmp

namespace Knuckle

open Spec

theorem strLt_eq (a b : Str) : strLt a b = decide (a < b) := by
  rw [Bool.eq_iff_iff, decide_eq_true_eq]
  induction a generalizing b with
  | nil => cases b <;> simp [strLt]
  | cons x xs ih =>
    cases b with
    | nil => simp [strLt]
    | cons y ys =>
      rw [List.cons_lt_cons_iff, ← ih]
      simp only [strLt]
      by_cases h1 : x < y
      · simp [h1]
      · by_cases h2 : y < x
        · have : x ≠ y := by rintro rfl; exact h1 h2
          simp [h1, h2, this]
        · have : x = y := by
            have : ∀ p q : UInt8, ¬ p < q → ¬ q < p → p = q := by intro p q; grind
            exact this x y h1 h2
          subst this; simp

theorem schar_inj (a b : Byte) (h : schar a = schar b) : a = b := by
  have key : a.toNat = b.toNat := by
    unfold schar at h
    have ha := a.toNat_lt; have hb := b.toNat_lt
    have h1 : (a < 128) ↔ a.toNat < 128 := by rw [UInt8.lt_iff_toNat_lt]; rfl
    have h2 : (b < 128) ↔ b.toNat < 128 := by rw [UInt8.lt_iff_toNat_lt]; rfl
    simp only [h1, h2] at h
    split at h <;> split at h <;> omega
  exact UInt8.toNat_inj.1 key

/-- Values of one type: the five cases. -/
theorem hasType_cases {P : Obj → Obj → Prop} (t : Str) (a b : Obj) (ha : HasType t a) (hb : HasType t b)
    (h1 : ∀ x y, P (.boolean x) (.boolean y)) (h2 : ∀ x y, P (.character x) (.character y))
    (h3 : ∀ x y, inInt x → inInt y → P (.integer x) (.integer y))
    (h4 : ∀ x y, x.IsF32 → y.IsF32 → P (.float x) (.float y)) (h5 : ∀ x y, P (.string x) (.string y)) : P a b := by
  obtain ⟨ta, oa⟩ := ha
  obtain ⟨tb, ob⟩ := hb
  have e : a.type = b.type := ta.trans tb.symm
  cases a <;> cases b <;> first
    | exact h1 _ _
    | exact h2 _ _
    | exact h3 _ _ ((int32_iff _).1 oa) ((int32_iff _).1 ob)
    | exact h4 _ _ oa ob
    | exact h5 _ _
    | (simp [Obj.type] at e; done)

theorem lessThan_ok (eps : Fl) (t : Str) (a b : Obj) (ha : HasType t a) (hb : HasType t b) :
    lessThan eps a b = .ok (ltB eps a b) := by
  refine hasType_cases (P := fun a b => lessThan eps a b = .ok (ltB eps a b)) t a b ha hb ?_ ?_ ?_ ?_ ?_ <;>
    intros <;> simp only [ltB, lessThan] <;> (split <;> simp_all)

theorem comparable_of (eps : Fl) (t : Str) (l : List Obj) (h : ∀ x ∈ l, HasType t x) : comparable eps l = true := by
  unfold comparable
  rw [List.all_eq_true]; intro a ha
  rw [List.all_eq_true]; intro b hb
  rw [lessThan_ok eps t a b (h a ha) (h b hb)]

theorem beqObj (a b : Obj) : (a == b) = decide (a = b) := by
  by_cases h : a = b <;> simp [h]

/-- `isEqualTo?` between values of one type. -/
theorem equalTo_same (eps : Fl) (t : Str) (a b : Obj) (ha : HasType t a) (hb : HasType t b) :
    equalTo eps a b = .ok (same eps a b) := by
  refine hasType_cases (P := fun a b => equalTo eps a b = .ok (same eps a b)) t a b ha hb ?_ ?_ ?_ ?_ ?_
  · intro x y; cases x <;> cases y <;> rfl
  · intro x y
    simp only [equalTo, lessThan, greaterThan, same, Res.bind_ok]
    by_cases h : x = y
    · subst h; simp
    · have : schar x ≠ schar y := fun e => h (schar_inj x y e)
      by_cases h1 : schar x < schar y
      · simp [h1, h]
      · have : schar y < schar x := by omega
        simp [h1, this, h]
  · intro x y _ _
    simp only [equalTo, lessThan, greaterThan, same, Res.bind_ok]
    by_cases h : x = y
    · subst h; simp
    · by_cases h1 : x < y
      · simp [h1, h]
      · have : y < x := by omega
        simp [h1, this, h]
  · intro x y _ _
    simp only [equalTo, lessThan, greaterThan, same, Res.bind_ok]
    cases (x.sub f32 y).lt eps.neg <;> cases eps.lt (x.sub f32 y) <;> rfl
  · intro x y
    simp only [equalTo, lessThan, greaterThan, same, Res.bind_ok]
    by_cases h : x = y
    · subst h; simp [strLt_irrefl]
    · cases h1 : strLt x y
      · cases h2 : strLt y x
        · exact absurd (strLt_total x y h1 h2) h
        · simp [h]
      · simp [h]

/-- The order used for values of a type other than Float is the natural one. -/
theorem ltB_natLt (eps : Fl) (t : Str) (a b : Obj) (ha : HasType t a) (hb : HasType t b) (ht : t ≠ b!"Float") :
    ltB eps a b = natLt a b := by
  have hta := ha.1
  revert hta
  refine hasType_cases (P := fun a b => a.type = t → ltB eps a b = natLt a b) t a b ha hb ?_ ?_ ?_ ?_ ?_
  · intro x y _; cases x <;> cases y <;> rfl
  · intro x y _; simp only [ltB, lessThan, natLt]; split <;> simp_all
  · intro x y _ _ _; simp only [ltB, lessThan, natLt]; split <;> simp_all
  · intro x y _ _ h; exact absurd h.symm ht
  · intro x y _; simp only [ltB, lessThan, natLt, strLt_eq]; split <;> simp_all

theorem natLt_irr (t : Str) (a : Obj) (ha : HasType t a) : natLt a a = false := by
  refine hasType_cases (P := fun a _ => natLt a a = false) t a a ha ha ?_ ?_ ?_ ?_ ?_ <;> intros
  · rename_i x y; cases x <;> rfl
  all_goals simp [natLt]

theorem natLt_tot (t : Str) (a b : Obj) (ha : HasType t a) (hb : HasType t b) (ht : t ≠ b!"Float")
    (h1 : natLt a b = false) (h2 : natLt b a = false) : a = b := by
  have hta := ha.1
  revert hta h1 h2
  refine hasType_cases (P := fun a b => natLt a b = false → natLt b a = false → a.type = t → a = b) t a b ha hb ?_ ?_ ?_ ?_ ?_
  · intro x y h1 h2 _; cases x <;> cases y <;> first | rfl | (simp [natLt] at h1 h2; done)
  · intro x y h1 h2 _; simp only [natLt, decide_eq_false_iff_not] at h1 h2; rw [schar_inj x y (by omega)]
  · intro x y _ _ h1 h2 _; simp only [natLt, decide_eq_false_iff_not] at h1 h2
    rw [show x = y by omega]
  · intro x y _ _ _ _ h; exact absurd h.symm ht
  · intro x y h1 h2 _; simp only [natLt] at h1 h2; rw [← strLt_eq] at h1 h2
    rw [strLt_total x y h1 h2]

theorem natLt_trans (t : Str) (a b c : Obj) (ha : HasType t a) (hb : HasType t b) (hc : HasType t c)
    (h1 : natLt a b = true) (h2 : natLt b c = true) : natLt a c = true := by
  have e1 : a.type = b.type := ha.1.trans hb.1.symm
  have e2 : b.type = c.type := hb.1.trans hc.1.symm
  cases a <;> cases b <;> first
    | (simp [Obj.type] at e1; done)
    | (cases c <;> first
      | (simp [Obj.type] at e2; done)
      | (simp only [natLt] at *; simp_all; done)
      | (simp only [natLt, decide_eq_true_eq] at *; omega)
      | (simp only [natLt, ← strLt_eq] at *; exact strLt_trans _ _ _ h1 h2))

theorem natLt_sto (t : Str) (ht : t ≠ b!"Float") : STOn natLt (HasType t) where
  irr := natLt_irr t
  tr := natLt_trans t
  tot := fun a b ha hb => natLt_tot t a b ha hb ht

theorem ltB_sto (eps : Fl) (t : Str) (ht : t ≠ b!"Float") : STOn (ltB eps) (HasType t) where
  irr := fun a ha => by rw [ltB_natLt eps t a a ha ha ht]; exact natLt_irr t a ha
  tr := fun a b c ha hb hc => by
    rw [ltB_natLt eps t a b ha hb ht, ltB_natLt eps t b c hb hc ht, ltB_natLt eps t a c ha hc ht]
    exact natLt_trans t a b c ha hb hc
  tot := fun a b ha hb => by
    rw [ltB_natLt eps t a b ha hb ht, ltB_natLt eps t b a hb ha ht]
    exact natLt_tot t a b ha hb ht

theorem swoOn_of (eps : Fl) (t : Str) (ht : t ≠ b!"Float") (l : List Obj) (h : ∀ x ∈ l, HasType t x) :
    swoOn (ltB eps) l = true := by
  have hs := (ltB_sto eps t ht).swo
  unfold swoOn
  simp only [Bool.and_eq_true, List.all_eq_true]
  refine ⟨⟨fun a ha => ?_, fun a ha b hb c hc => ?_⟩, fun a ha b hb c hc => ?_⟩
  · simp [hs.irr a (h a ha)]
  · cases h1 : ltB eps a b <;> cases h2 : ltB eps b c <;> simp
    exact hs.tr a b c (h a ha) (h b hb) (h c hc) h1 h2
  · cases h1 : ltB eps a b <;> cases h2 : ltB eps b a <;> cases h3 : ltB eps b c <;> cases h4 : ltB eps c b <;> simp
    exact hs.inc a b c (h a ha) (h b hb) (h c hc) h1 h2 h3 h4

theorem ascending_iff (lt : Obj → Obj → Bool) (l : List Obj) : ascending lt l = true ↔ Asc lt l := by
  induction l with
  | nil => simp [ascending]
  | cons x xs ih => simp [ascending, ih, List.pairwise_cons]

/-- For a type other than Float the guard of the ordered containers is passed. -/
theorem orderGuard_ok (eps : Fl) (t : Str) (ht : t ≠ b!"Float") (l : List Obj) (k : Obj) (h : ∀ x ∈ l, HasType t x)
    (hk : HasType t k) (ha : Asc natLt l) : orderGuard eps l k = .ok () := by
  have hall : ∀ x ∈ k :: l, HasType t x := by
    intro x hx; rcases List.mem_cons.1 hx with rfl | hx
    · exact hk
    · exact h x hx
  unfold orderGuard
  rw [comparable_of eps t _ hall, swoOn_of eps t ht _ hall]
  have : ascending (ltB eps) l = true := by
    rw [ascending_iff]
    refine List.Pairwise.imp_of_mem ?_ ha
    intro a b hma hmb hab
    rw [ltB_natLt eps t a b (h a hma) (h b hmb) ht]; exact hab
  rw [this]; rfl

/-- Set and map operations only depend on the comparator where they use it. -/
theorem setInsert_congr {κ : Type} (lt lt' : κ → κ → Bool) (k : κ) (l : List κ)
    (h : ∀ x ∈ l, lt x k = lt' x k ∧ lt k x = lt' k x) : setInsert lt k l = setInsert lt' k l := by
  induction l with
  | nil => rfl
  | cons x xs ih =>
    simp only [setInsert, (h x (by simp)).1, (h x (by simp)).2, ih fun y hy => h y (by simp [hy])]

theorem setErase_congr {κ : Type} (lt lt' : κ → κ → Bool) (k : κ) (l : List κ)
    (h : ∀ x ∈ l, lt x k = lt' x k ∧ lt k x = lt' k x) : setErase lt k l = setErase lt' k l := by
  induction l with
  | nil => rfl
  | cons x xs ih =>
    simp only [setErase, (h x (by simp)).1, (h x (by simp)).2, ih fun y hy => h y (by simp [hy])]

theorem setFind_congr {κ : Type} (lt lt' : κ → κ → Bool) (k : κ) (l : List κ)
    (h : ∀ x ∈ l, lt x k = lt' x k ∧ lt k x = lt' k x) : setFind lt k l = setFind lt' k l := by
  induction l with
  | nil => rfl
  | cons x xs ih =>
    simp only [setFind, (h x (by simp)).1, (h x (by simp)).2, ih fun y hy => h y (by simp [hy])]

theorem mapInsert_congr {κ α : Type} (lt lt' : κ → κ → Bool) (k : κ) (v : α) (l : List (κ × α))
    (h : ∀ x ∈ l, lt x.1 k = lt' x.1 k ∧ lt k x.1 = lt' k x.1) : mapInsert lt k v l = mapInsert lt' k v l := by
  induction l with
  | nil => rfl
  | cons x xs ih =>
    simp only [mapInsert, (h x (by simp)).1, (h x (by simp)).2, ih fun y hy => h y (by simp [hy])]

theorem mapErase_congr {κ α : Type} (lt lt' : κ → κ → Bool) (k : κ) (l : List (κ × α))
    (h : ∀ x ∈ l, lt x.1 k = lt' x.1 k ∧ lt k x.1 = lt' k x.1) : mapErase lt k l = mapErase lt' k l := by
  induction l with
  | nil => rfl
  | cons x xs ih =>
    simp only [mapErase, (h x (by simp)).1, (h x (by simp)).2, ih fun y hy => h y (by simp [hy])]

theorem mapFind_congr {κ α : Type} (lt lt' : κ → κ → Bool) (k : κ) (l : List (κ × α))
    (h : ∀ x ∈ l, lt x.1 k = lt' x.1 k ∧ lt k x.1 = lt' k x.1) : mapFind lt k l = mapFind lt' k l := by
  induction l with
  | nil => rfl
  | cons x xs ih =>
    simp only [mapFind, (h x (by simp)).1, (h x (by simp)).2, ih fun y hy => h y (by simp [hy])]

end Knuckle

/-
Orders, and ordered lists as sets and maps.
-/
import Verif.Model.Context

namespace Knuckle

theorem find?_congr' {α : Type} (l : List α) (p q : α → Bool) (h : ∀ x ∈ l, p x = q x) : l.find? p = l.find? q := by
  induction l with
  | nil => rfl
  | cons x xs ih =>
    rw [List.find?_cons, List.find?_cons, h x (by simp), ih fun y hy => h y (by simp [hy])]

/-! ### The order of byte strings -/

theorem strLt_irrefl (a : Str) : strLt a a = false := by
  induction a with
  | nil => rfl
  | cons x xs ih => simp [strLt, ih]

theorem strLt_trans (a b c : Str) : strLt a b = true → strLt b c = true → strLt a c = true := by
  induction a generalizing b c with
  | nil =>
    intro h1 h2
    cases c with
    | nil => cases b <;> simp [strLt] at h2
    | cons z zs => simp [strLt]
  | cons x xs ih =>
    intro h1 h2
    cases b with
    | nil => simp [strLt] at h1
    | cons y ys =>
      cases c with
      | nil => simp [strLt] at h2
      | cons z zs =>
        simp only [strLt] at h1 h2 ⊢
        have ih := ih ys zs
        grind

theorem strLt_asymm (a b : Str) (h : strLt a b = true) : strLt b a = false := by
  cases h' : strLt b a with
  | false => rfl
  | true => have := strLt_trans a b a h h'; rw [strLt_irrefl] at this; cases this

theorem strLt_total (a b : Str) (h1 : strLt a b = false) (h2 : strLt b a = false) : a = b := by
  induction a generalizing b with
  | nil => cases b with
    | nil => rfl
    | cons y ys => simp [strLt] at h1
  | cons x xs ih =>
    cases b with
    | nil => simp [strLt] at h2
    | cons y ys =>
      simp only [strLt] at h1 h2
      have : x = y ∧ strLt xs ys = false ∧ strLt ys xs = false := by
        have : ∀ p q : UInt8, ¬ p < q → ¬ q < p → p = q := by intro p q; grind
        by_cases hxy : x < y
        · simp [hxy] at h1
        · by_cases hyx : y < x
          · simp [hyx] at h2
          · simp [hxy, hyx] at h1 h2; exact ⟨this x y hxy hyx, h1, h2⟩
      rw [this.1, ih ys this.2.1 this.2.2]

/-! ### Strict weak orders on a set of keys -/

/-- `lt` is a strict weak order on the keys in `S`. -/
structure SWOn {κ : Type} (lt : κ → κ → Bool) (S : κ → Prop) : Prop where
  irr : ∀ a, S a → lt a a = false
  tr : ∀ a b c, S a → S b → S c → lt a b = true → lt b c = true → lt a c = true
  inc : ∀ a b c, S a → S b → S c → lt a b = false → lt b a = false → lt b c = false → lt c b = false →
    lt a c = false ∧ lt c a = false

/-- `lt` is a strict total order on the keys in `S`. -/
structure STOn {κ : Type} (lt : κ → κ → Bool) (S : κ → Prop) : Prop where
  irr : ∀ a, S a → lt a a = false
  tr : ∀ a b c, S a → S b → S c → lt a b = true → lt b c = true → lt a c = true
  tot : ∀ a b, S a → S b → lt a b = false → lt b a = false → a = b

theorem STOn.swo {κ : Type} {lt : κ → κ → Bool} {S : κ → Prop} (h : STOn lt S) : SWOn lt S where
  irr := h.irr
  tr := h.tr
  inc := by
    intro a b c ha hb hc h1 h2 h3 h4
    have e1 := h.tot a b ha hb h1 h2
    have e2 := h.tot b c hb hc h3 h4
    subst e1 e2
    exact ⟨h.irr _ ha, h.irr _ ha⟩

theorem SWOn.asymm {κ : Type} {lt : κ → κ → Bool} {S : κ → Prop} (h : SWOn lt S) {a b : κ} (ha : S a) (hb : S b)
    (hab : lt a b = true) : lt b a = false := by
  cases h' : lt b a with
  | false => rfl
  | true => have := h.tr a b a ha hb ha hab h'; rw [h.irr a ha] at this; cases this

theorem SWOn.mono {κ : Type} {lt : κ → κ → Bool} {S T : κ → Prop} (h : SWOn lt S) (hs : ∀ a, T a → S a) : SWOn lt T where
  irr := fun a ha => h.irr a (hs a ha)
  tr := fun a b c ha hb hc => h.tr a b c (hs a ha) (hs b hb) (hs c hc)
  inc := fun a b c ha hb hc => h.inc a b c (hs a ha) (hs b hb) (hs c hc)

theorem strLt_sto (S : Str → Prop) : STOn strLt S where
  irr := fun a _ => strLt_irrefl a
  tr := fun a b c _ _ _ => strLt_trans a b c
  tot := fun a b _ _ => strLt_total a b

/-- Neither is below the other. -/
def eqv {κ : Type} (lt : κ → κ → Bool) (a b : κ) : Bool := !lt a b && !lt b a

theorem eqv_iff {κ : Type} {lt : κ → κ → Bool} {S : κ → Prop} (h : STOn lt S) {a b : κ} (ha : S a) (hb : S b) :
    eqv lt a b = true ↔ a = b := by
  unfold eqv
  constructor
  · intro e; simp at e; exact h.tot a b ha hb e.1 e.2
  · rintro rfl; simp [h.irr a ha]

/-- Strictly ascending keys. -/
abbrev Asc {κ : Type} (lt : κ → κ → Bool) (l : List κ) : Prop := l.Pairwise fun a b => lt a b = true

/-! ### Ordered lists as sets -/

section
variable {κ : Type} {lt : κ → κ → Bool} {S : κ → Prop}

theorem setFind_eq (h : SWOn lt S) (k : κ) (hk : S k) (l : List κ) (hl : ∀ x ∈ l, S x) (ha : Asc lt l) :
    setFind lt k l = l.any (eqv lt k) := by
  induction l with
  | nil => rfl
  | cons x xs ih =>
    have hx := hl x (by simp)
    have hxs : ∀ y ∈ xs, S y := fun y hy => hl y (by simp [hy])
    replace ha := List.pairwise_cons.1 ha
    simp only [setFind, List.any_cons]
    split
    · rename_i h1
      rw [ih hxs ha.2]; simp [eqv, h1]
    · rename_i h1
      split
      · rename_i h2
        symm; simp only [Bool.or_eq_false_iff, List.any_eq_false]
        refine ⟨by simp [eqv, h2], fun y hy => ?_⟩
        have := h.tr k x y hk hx (hxs y hy) h2 (ha.1 y hy)
        simp [eqv, this]
      · rename_i h2; simp [eqv, h1, h2]

theorem setErase_eq (h : SWOn lt S) (k : κ) (hk : S k) (l : List κ) (hl : ∀ x ∈ l, S x) (ha : Asc lt l) :
    setErase lt k l = l.filter fun x => !eqv lt k x := by
  induction l with
  | nil => rfl
  | cons x xs ih =>
    have hx := hl x (by simp)
    have hxs : ∀ y ∈ xs, S y := fun y hy => hl y (by simp [hy])
    replace ha := List.pairwise_cons.1 ha
    simp only [setErase]
    split
    · rename_i h1
      rw [ih hxs ha.2, List.filter_cons_of_pos (by simp [eqv, h1])]
    · rename_i h1
      split
      · rename_i h2
        symm; rw [List.filter_eq_self]
        intro y hy
        rcases List.mem_cons.1 hy with rfl | hy
        · simp [eqv, h2]
        · have := h.tr k x y hk hx (hxs y hy) h2 (ha.1 y hy)
          simp [eqv, this]
      · rename_i h2
        rw [List.filter_cons_of_neg (by simp [eqv, h1, h2])]
        symm; rw [List.filter_eq_self]
        intro y hy
        cases h3 : eqv lt k y with
        | false => rfl
        | true =>
          simp [eqv] at h3
          have := h.inc x k y hx hk (hxs y hy) (by simpa using h1) (by simpa using h2) h3.1 h3.2
          rw [ha.1 y hy] at this; exact absurd this.1 (by simp)

theorem setInsert_mem (k : κ) (l : List κ) (y : κ) (hy : y ∈ setInsert lt k l) : y = k ∨ y ∈ l := by
  induction l with
  | nil => simp [setInsert] at hy; exact .inl hy
  | cons x xs ih =>
    simp only [setInsert] at hy
    split at hy
    · rcases List.mem_cons.1 hy with rfl | hy
      · simp
      · rcases ih hy with h | h <;> simp [h]
    · split at hy
      · rcases List.mem_cons.1 hy with rfl | hy
        · simp
        · exact .inr hy
      · exact .inr hy

theorem setInsert_mem_old (k : κ) (l : List κ) (y : κ) (hy : y ∈ l) : y ∈ setInsert lt k l := by
  induction l with
  | nil => simp at hy
  | cons x xs ih =>
    simp only [setInsert]
    split
    · rcases List.mem_cons.1 hy with rfl | hy
      · simp
      · simp [ih hy]
    · split
      · simp [List.mem_cons.1 hy]
      · exact hy

theorem setInsert_asc (h : SWOn lt S) (k : κ) (hk : S k) (l : List κ) (hl : ∀ x ∈ l, S x) (ha : Asc lt l) :
    Asc lt (setInsert lt k l) := by
  induction l with
  | nil => simp [setInsert]
  | cons x xs ih =>
    have hx := hl x (by simp)
    have hxs : ∀ y ∈ xs, S y := fun y hy => hl y (by simp [hy])
    have ha' := List.pairwise_cons.1 ha
    simp only [setInsert]
    split
    · rename_i h1
      refine List.pairwise_cons.2 ⟨fun y hy => ?_, ih hxs ha'.2⟩
      rcases setInsert_mem k xs y hy with rfl | hy
      · exact h1
      · exact ha'.1 y hy
    · split
      · rename_i h2
        refine List.pairwise_cons.2 ⟨fun y hy => ?_, ha⟩
        rcases List.mem_cons.1 hy with rfl | hy
        · exact h2
        · exact h.tr k x y hk hx (hxs y hy) h2 (ha'.1 y hy)
      · exact ha

theorem setInsert_present (h : SWOn lt S) (k : κ) (hk : S k) (l : List κ) (hl : ∀ x ∈ l, S x) (ha : Asc lt l)
    (hp : l.any (eqv lt k) = true) : setInsert lt k l = l := by
  induction l with
  | nil => simp at hp
  | cons x xs ih =>
    have hx := hl x (by simp)
    have hxs : ∀ y ∈ xs, S y := fun y hy => hl y (by simp [hy])
    have ha' := List.pairwise_cons.1 ha
    simp only [setInsert]
    split
    · rename_i h1
      rw [ih hxs ha'.2]
      simpa [eqv, h1] using hp
    · split
      · rename_i h2
        simp only [List.any_cons, Bool.or_eq_true] at hp
        rcases hp with hp | hp
        · simp [eqv, h2] at hp
        · obtain ⟨y, hy, he⟩ := List.any_eq_true.1 hp
          have := h.tr k x y hk hx (hxs y hy) h2 (ha'.1 y hy)
          simp [eqv, this] at he
      · rfl

theorem setInsert_mem_new (k : κ) (l : List κ) (hp : l.any (eqv lt k) = false) : k ∈ setInsert lt k l := by
  induction l with
  | nil => simp [setInsert]
  | cons x xs ih =>
    simp only [List.any_cons, Bool.or_eq_false_iff] at hp
    simp only [setInsert]
    split
    · simp [ih hp.2]
    · rename_i h1
      split
      · simp
      · rename_i h2
        simp [eqv, h1, h2] at hp

/-- In a total order, insertion adds exactly the key. -/
theorem setInsert_mem_iff (h : STOn lt S) (k : κ) (hk : S k) (l : List κ) (hl : ∀ x ∈ l, S x) (y : κ) :
    y ∈ setInsert lt k l ↔ y = k ∨ y ∈ l := by
  constructor
  · exact setInsert_mem k l y
  · rintro (rfl | hy)
    · cases hp : l.any (eqv lt y) with
      | false => exact setInsert_mem_new y l hp
      | true =>
        obtain ⟨z, hz, he⟩ := List.any_eq_true.1 hp
        have := (eqv_iff h hk (hl z hz)).1 he
        subst this
        exact setInsert_mem_old _ _ _ hz
    · exact setInsert_mem_old k l y hy

/-! ### Ordered lists as maps -/

variable {α : Type}

theorem mapFind_eq (h : SWOn lt S) (k : κ) (hk : S k) (l : List (κ × α)) (hl : ∀ x ∈ l, S x.1)
    (ha : Asc lt (l.map (·.1))) :
    mapFind lt k l = (l.find? fun x => eqv lt k x.1).map (·.2) := by
  induction l with
  | nil => rfl
  | cons x xs ih =>
    have hx := hl x (by simp)
    have hxs : ∀ y ∈ xs, S y.1 := fun y hy => hl y (by simp [hy])
    replace ha := List.pairwise_cons.1 ha
    simp only [mapFind]
    split
    · rename_i h1
      rw [ih hxs ha.2, List.find?_cons_of_neg (by simp [eqv, h1])]
    · rename_i h1
      split
      · rename_i h2
        symm; rw [Option.map_eq_none_iff, List.find?_eq_none]
        intro y hy
        rcases List.mem_cons.1 hy with rfl | hy
        · simp [eqv, h2]
        · have := h.tr k x.1 y.1 hk hx (hxs y hy) h2 (ha.1 y.1 (List.mem_map_of_mem hy))
          simp [eqv, this]
      · rename_i h2
        rw [List.find?_cons_of_pos (by simp [eqv, h1, h2])]; rfl

theorem mapErase_eq (h : SWOn lt S) (k : κ) (hk : S k) (l : List (κ × α)) (hl : ∀ x ∈ l, S x.1)
    (ha : Asc lt (l.map (·.1))) :
    mapErase lt k l = l.filter fun x => !eqv lt k x.1 := by
  induction l with
  | nil => rfl
  | cons x xs ih =>
    have hx := hl x (by simp)
    have hxs : ∀ y ∈ xs, S y.1 := fun y hy => hl y (by simp [hy])
    replace ha := List.pairwise_cons.1 ha
    simp only [mapErase]
    split
    · rename_i h1
      rw [ih hxs ha.2, List.filter_cons_of_pos (by simp [eqv, h1])]
    · rename_i h1
      split
      · rename_i h2
        symm; rw [List.filter_eq_self]
        intro y hy
        rcases List.mem_cons.1 hy with rfl | hy
        · simp [eqv, h2]
        · have := h.tr k x.1 y.1 hk hx (hxs y hy) h2 (ha.1 y.1 (List.mem_map_of_mem hy))
          simp [eqv, this]
      · rename_i h2
        rw [List.filter_cons_of_neg (by simp [eqv, h1, h2])]
        symm; rw [List.filter_eq_self]
        intro y hy
        cases h3 : eqv lt k y.1 with
        | false => rfl
        | true =>
          simp [eqv] at h3
          have := h.inc x.1 k y.1 hx hk (hxs y hy) (by simpa using h1) (by simpa using h2) h3.1 h3.2
          rw [ha.1 y.1 (List.mem_map_of_mem hy)] at this; exact absurd this.1 (by simp)

/-- The keys after `mapInsert` are those of a set insertion. -/
theorem mapInsert_keys (k : κ) (v : α) (l : List (κ × α)) :
    (mapInsert lt k v l).map (·.1) = setInsert lt k (l.map (·.1)) := by
  induction l with
  | nil => rfl
  | cons x xs ih =>
    simp only [mapInsert, List.map_cons, setInsert]
    split
    · simp [ih]
    · split <;> simp

theorem mapErase_keys (k : κ) (l : List (κ × α)) :
    (mapErase lt k l).map (·.1) = setErase lt k (l.map (·.1)) := by
  induction l with
  | nil => rfl
  | cons x xs ih =>
    simp only [mapErase, List.map_cons, setErase]
    split
    · simp [ih]
    · split <;> simp

theorem mapFind_isSome (k : κ) (l : List (κ × α)) :
    (mapFind lt k l).isSome = setFind lt k (l.map (·.1)) := by
  induction l with
  | nil => rfl
  | cons x xs ih =>
    simp only [mapFind, List.map_cons, setFind]
    split
    · exact ih
    · split <;> simp

/-- Every entry after an insertion is an old one, or has the new value and an old or the new key. -/
theorem mapInsert_mem (k : κ) (v : α) (l : List (κ × α)) (y : κ × α) (hy : y ∈ mapInsert lt k v l) :
    y ∈ l ∨ (y.2 = v ∧ (y.1 = k ∨ y.1 ∈ l.map (·.1))) := by
  induction l with
  | nil => simp [mapInsert] at hy; simp [hy]
  | cons x xs ih =>
    simp only [mapInsert] at hy
    split at hy
    · rcases List.mem_cons.1 hy with rfl | hy
      · simp
      · rcases ih hy with h | ⟨h1, h2⟩
        · simp [h]
        · right; refine ⟨h1, ?_⟩; rcases h2 with h2 | h2
          · exact .inl h2
          · right; simp only [List.map_cons, List.mem_cons]; exact .inr h2
    · split at hy
      · rcases List.mem_cons.1 hy with rfl | hy
        · simp
        · exact .inl hy
      · rcases List.mem_cons.1 hy with rfl | hy
        · simp
        · simp [hy]

theorem mapErase_mem (k : κ) (l : List (κ × α)) (y : κ × α) (hy : y ∈ mapErase lt k l) : y ∈ l := by
  induction l with
  | nil => simp [mapErase] at hy
  | cons x xs ih =>
    simp only [mapErase] at hy
    split at hy
    · rcases List.mem_cons.1 hy with rfl | hy
      · simp
      · simp [ih hy]
    · split at hy
      · exact hy
      · simp [hy]

/-- Looking a key up after an insertion, in a total order. -/
theorem mapFind_mapInsert (h : STOn lt S) (k k' : κ) (v : α) (l : List (κ × α)) (hk : S k) (hk' : S k')
    (hl : ∀ x ∈ l, S x.1) (ha : Asc lt (l.map (·.1))) [DecidableEq κ] :
    mapFind lt k' (mapInsert lt k v l) = if k' = k then some v else mapFind lt k' l := by
  induction l with
  | nil =>
    simp only [mapInsert, mapFind]
    by_cases e : k' = k
    · subst e; simp [h.irr k' hk']
    · simp only [e, if_false]
      split
      · rfl
      · split
        · rfl
        · rename_i h1 h2; exact absurd (h.tot k' k hk' hk (by simpa using h2) (by simpa using h1)) e
  | cons x xs ih =>
    have hx := hl x (by simp)
    have hxs : ∀ y ∈ xs, S y.1 := fun y hy => hl y (by simp [hy])
    replace ha := List.pairwise_cons.1 ha
    simp only [mapInsert]
    split
    · rename_i h1
      simp only [mapFind]
      rw [ih hxs ha.2]
      by_cases e : k' = k
      · subst e; simp [h1]
      · simp only [e, if_false]
    · rename_i h1
      split
      · rename_i h2
        by_cases e : k' = k
        · subst e; simp [mapFind, h.irr k' hk']
        · simp only [e, if_false]
          rw [mapFind]
          split
          · rfl
          · rename_i h3
            split
            · rename_i h4
              have : lt k' x.1 = true := h.tr k' k x.1 hk' hk hx h4 h2
              simp [mapFind, this, h.swo.asymm hk' hx this]
            · rename_i h4; exact absurd (h.tot k' k hk' hk (by simpa using h4) (by simpa using h3)) e
      · rename_i h2
        have e := h.tot x.1 k hx hk (by simpa using h1) (by simpa using h2)
        simp only [mapFind]
        rw [e]
        by_cases e' : k' = k
        · subst e'; simp [h.irr k' hk']
        · simp only [e', if_false]
          split
          · rfl
          · split
            · rfl
            · rename_i h3 h4; exact absurd (h.tot k' k hk' hk (by simpa using h4) (by simpa using h3)) e'

/-- Looking a key up after a removal, in a total order. -/
theorem mapFind_mapErase (h : STOn lt S) (k k' : κ) (l : List (κ × α)) (hk : S k) (hk' : S k')
    (hl : ∀ x ∈ l, S x.1) (ha : Asc lt (l.map (·.1))) [DecidableEq κ] :
    mapFind lt k' (mapErase lt k l) = if k' = k then none else mapFind lt k' l := by
  have hl' : ∀ x ∈ mapErase lt k l, S x.1 := fun x hx => hl x (mapErase_mem k l x hx)
  have ha' : Asc lt ((mapErase lt k l).map (·.1)) := by
    rw [mapErase_keys, setErase_eq h.swo k hk _ (by simpa using fun a b hab => hl (a, b) hab) ha]
    exact List.Pairwise.filter _ ha
  rw [mapFind_eq h.swo k' hk' _ hl' ha', mapFind_eq h.swo k' hk' l hl ha, mapErase_eq h.swo k hk l hl ha]
  by_cases e : k' = k
  · subst e
    simp only [if_true, Option.map_eq_none_iff, List.find?_eq_none, List.mem_filter]
    rintro x ⟨_, hx⟩; simpa using hx
  · simp only [e, if_false]
    congr 1
    rw [List.find?_filter]
    refine find?_congr' l _ _ fun x hx => ?_
    cases h1 : eqv lt k' x.1 with
    | false => simp
    | true =>
      have := (eqv_iff h hk' (hl x hx)).1 h1
      subst this
      have : eqv lt k x.1 = false := by
        rw [Bool.eq_false_iff]; intro h2; exact e ((eqv_iff h hk hk').1 h2).symm
      simp [this]

end

/-! ### The variables of a context -/

/-- In an ordered list of variables, `std::map::find` is the lookup of the name. -/
theorem mapFind_lookup {α : Type} (n : Str) (l : List (Str × α)) (ha : Asc strLt (l.map (·.1))) :
    mapFind strLt n l = l.lookup n := by
  rw [mapFind_eq (strLt_sto fun _ => True).swo n trivial l (fun _ _ => trivial) ha]
  induction l with
  | nil => rfl
  | cons x xs ih =>
    replace ha := List.pairwise_cons.1 ha
    obtain ⟨m, i⟩ := x
    rw [List.lookup_cons]
    by_cases e : n = m
    · subst e
      rw [List.find?_cons_of_pos (by simp [eqv, strLt_irrefl])]; simp
    · rw [List.find?_cons_of_neg, ih ha.2]
      · rw [show (n == m) = false from beq_false_of_ne e]
      · intro h; exact e ((eqv_iff (strLt_sto fun _ => True) trivial trivial).1 h)

end Knuckle

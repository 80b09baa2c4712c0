/-
Every message to a set or dictionary has its meaning.
-/
import Verif.Proofs.Vector

namespace Knuckle

open Spec

theorem ltB_less (eps : Fl) (t : Str) (a b : Obj) (ha : HasType t a) (hb : HasType t b) : ltB eps a b = less eps a b := by
  refine hasType_cases (P := fun a b => ltB eps a b = less eps a b) t a b ha hb ?_ ?_ ?_ ?_ ?_
  · intro x y; cases x <;> cases y <;> rfl
  · intro x y; simp only [ltB, lessThan, less, natLt]; split <;> simp_all
  · intro x y _ _; simp only [ltB, lessThan, less, natLt]; split <;> simp_all
  · intro x y _ _
    simp only [ltB, lessThan, less, below]
    cases (Fl.sub f32 x y).lt eps.neg <;> simp
  · intro x y; simp only [ltB, lessThan, less, natLt, strLt_eq]; split <;> simp_all

theorem swoOn_iff (lt lt' : Obj → Obj → Bool) (l : List Obj) (h : ∀ a ∈ l, ∀ b ∈ l, lt a b = lt' a b) :
    swoOn lt l = true ↔ StrictWeakOrder lt' l := by
  unfold swoOn StrictWeakOrder
  simp only [Bool.and_eq_true, List.all_eq_true]
  rw [and_assoc]
  refine and_congr ?_ (and_congr ?_ ?_)
  · refine forall_congr' fun a => forall_congr' fun ha => ?_
    rw [h a ha a ha]; simp
  · refine forall_congr' fun a => forall_congr' fun ha => forall_congr' fun b => forall_congr' fun hb =>
      forall_congr' fun c => forall_congr' fun hc => ?_
    rw [h a ha b hb, h b hb c hc, h a ha c hc]
    cases lt' a b <;> cases lt' b c <;> cases lt' a c <;> simp
  · refine forall_congr' fun a => forall_congr' fun ha => forall_congr' fun b => forall_congr' fun hb =>
      forall_congr' fun c => forall_congr' fun hc => ?_
    rw [h a ha b hb, h b hb c hc, h a ha c hc, h b hb a ha, h c hc b hb, h c hc a ha]
    cases lt' a b <;> cases lt' b c <;> cases lt' a c <;> cases lt' b a <;> cases lt' c b <;> cases lt' c a <;> simp

open Classical in
theorem orderGuard_eq (eps : Fl) (t : Str) (l : List Obj) (k : Obj) (hl : ∀ x ∈ l, HasType t x) (hk : HasType t k) :
    orderGuard eps l k = if Searchable (less eps) l k then .ok () else .ub := by
  have hall : ∀ x ∈ k :: l, HasType t x := by
    intro x hx; rcases List.mem_cons.1 hx with rfl | hx
    · exact hk
    · exact hl x hx
  have e : (swoOn (ltB eps) (k :: l) && ascending (ltB eps) l) = true ↔ Searchable (less eps) l k := by
    rw [Bool.and_eq_true, swoOn_iff (ltB eps) (less eps) _ (fun a ha b hb => ltB_less eps t a b (hall a ha) (hall b hb)),
      ascending_iff]
    refine and_congr Iff.rfl ?_
    constructor <;> refine fun h => List.Pairwise.imp_of_mem ?_ h <;> intro a b ha hb hab
    · rw [← ltB_less eps t a b (hl a ha) (hl b hb)]; exact hab
    · rw [ltB_less eps t a b (hl a ha) (hl b hb)]; exact hab
  unfold orderGuard
  rw [comparable_of eps t _ hall]
  simp only [Bool.not_true, Bool.false_eq_true, if_false]
  by_cases h : Searchable (less eps) l k
  · rw [if_pos h, if_pos (e.2 h)]
  · rw [if_neg h, if_neg fun x => h (e.1 x)]

/-- A strict weak order on the members of a list. -/
theorem swoOn_of_searchable {lt : Obj → Obj → Bool} {l : List Obj} {k : Obj} (h : Searchable lt l k) :
    SWOn lt (fun x => x ∈ k :: l) := by
  obtain ⟨⟨h1, h2, h3⟩, _⟩ := h
  refine ⟨fun a ha => by simpa using h1 a ha, fun a b c ha hb hc => h2 a ha b hb c hc, fun a b c ha hb hc x y z w => ?_⟩
  have := h3 a ha b hb c hc (by simp [x]) (by simp [y]) (by simp [z]) (by simp [w])
  simpa using this

theorem tied_eqv (lt : Obj → Obj → Bool) (a b : Obj) : eqv lt a b = tied lt a b := rfl

section
variable {κ α : Type} {lt : κ → κ → Bool} {S : κ → Prop}

theorem filter_all {p : κ → Bool} {l : List κ} (h : ∀ x ∈ l, p x = true) : l.filter p = l := List.filter_eq_self.2 h

theorem filter_none {p : κ → Bool} {l : List κ} (h : ∀ x ∈ l, p x = false) : l.filter p = [] := by
  rw [List.filter_eq_nil_iff]; intro x hx; simp [h x hx]

/-- Insertion of a key no element is tied with. -/
theorem mapInsert_new (h : SWOn lt S) (k : κ) (v : α) (hk : S k) (l : List (κ × α)) (hl : ∀ x ∈ l, S x.1)
    (ha : Asc lt (l.map (·.1))) (hp : ∀ x ∈ l, eqv lt k x.1 = false) :
    mapInsert lt k v l = l.filter (fun x => lt x.1 k) ++ (k, v) :: l.filter (fun x => lt k x.1) := by
  induction l with
  | nil => rfl
  | cons x xs ih =>
    have hx := hl x (by simp)
    have hxs : ∀ y ∈ xs, S y.1 := fun y hy => hl y (by simp [hy])
    replace ha := List.pairwise_cons.1 ha
    simp only [mapInsert]
    cases h1 : lt x.1 k with
    | true =>
      rw [if_pos rfl, ih hxs ha.2 (fun y hy => hp y (by simp [hy])), List.filter_cons, if_pos h1, List.filter_cons,
        if_neg (by rw [h.asymm hx hk h1]; simp), List.cons_append]
    | false =>
      have h2 : lt k x.1 = true := by
        have := hp x (by simp); unfold eqv at this; simp [h1] at this; exact this
      rw [if_neg (by simp), if_pos h2, List.filter_cons, if_neg (by simp [h1]), List.filter_cons, if_pos h2]
      have up : ∀ y ∈ xs, lt k y.1 = true := fun y hy =>
        h.tr k x.1 y.1 hk hx (hxs y hy) h2 (ha.1 y.1 (List.mem_map.2 ⟨y, hy, rfl⟩))
      rw [filter_all up, filter_none (fun y hy => h.asymm hk (hxs y hy) (up y hy))]; rfl

/-- Assignment to a key some element is tied with. -/
theorem mapInsert_old (h : SWOn lt S) (k : κ) (v : α) (hk : S k) (l : List (κ × α)) (hl : ∀ x ∈ l, S x.1)
    (ha : Asc lt (l.map (·.1))) (hp : ∃ x ∈ l, eqv lt k x.1 = true) :
    mapInsert lt k v l = l.map fun x => if eqv lt k x.1 then (x.1, v) else x := by
  induction l with
  | nil => obtain ⟨x, hx, _⟩ := hp; simp at hx
  | cons x xs ih =>
    have hx := hl x (by simp)
    have hxs : ∀ y ∈ xs, S y.1 := fun y hy => hl y (by simp [hy])
    replace ha := List.pairwise_cons.1 ha
    have up : ∀ y ∈ xs, lt x.1 y.1 = true := fun y hy => ha.1 y.1 (List.mem_map.2 ⟨y, hy, rfl⟩)
    obtain ⟨y, hy, hyk⟩ := hp
    simp only [mapInsert]
    cases h1 : lt x.1 k with
    | true =>
      have e : eqv lt k x.1 = false := by unfold eqv; simp [h1]
      have hp' : ∃ y ∈ xs, eqv lt k y.1 = true := by
        rcases List.mem_cons.1 hy with rfl | hy
        · rw [e] at hyk; cases hyk
        · exact ⟨y, hy, hyk⟩
      rw [if_pos rfl, ih hxs ha.2 hp', List.map_cons, if_neg (by simp [e])]
    | false =>
      have h2 : lt k x.1 = false := by
        rcases List.mem_cons.1 hy with rfl | hy
        · unfold eqv at hyk; simp at hyk; exact hyk.1
        · cases h2 : lt k x.1 with
          | false => rfl
          | true =>
            have := h.tr k x.1 y.1 hk hx (hxs y hy) h2 (up y hy)
            unfold eqv at hyk; simp [this] at hyk
      have e : eqv lt k x.1 = true := by unfold eqv; simp [h1, h2]
      rw [if_neg (by simp), if_neg (by simp [h2]), List.map_cons, if_pos e]
      congr 1
      symm
      conv_rhs => rw [← List.map_id xs]
      refine List.map_congr_left fun y hy => ?_
      have : eqv lt k y.1 = false := by
        cases h3 : eqv lt k y.1 with
        | false => rfl
        | true =>
          unfold eqv at h3; simp at h3
          have := h.inc x.1 k y.1 hx hk (hxs y hy) h1 h2 h3.1 h3.2
          rw [up y hy] at this; cases this.1
      rw [if_neg (by simp [this])]; rfl

theorem setInsert_new (h : SWOn lt S) (k : κ) (hk : S k) (l : List κ) (hl : ∀ x ∈ l, S x)
    (ha : Asc lt l) (hp : ∀ x ∈ l, eqv lt k x = false) :
    setInsert lt k l = l.filter (fun x => lt x k) ++ k :: l.filter (fun x => lt k x) := by
  induction l with
  | nil => rfl
  | cons x xs ih =>
    have hx := hl x (by simp)
    have hxs : ∀ y ∈ xs, S y := fun y hy => hl y (by simp [hy])
    replace ha := List.pairwise_cons.1 ha
    simp only [setInsert]
    cases h1 : lt x k with
    | true =>
      rw [if_pos rfl, ih hxs ha.2 (fun y hy => hp y (by simp [hy])), List.filter_cons, if_pos h1, List.filter_cons,
        if_neg (by rw [h.asymm hx hk h1]; simp), List.cons_append]
    | false =>
      have h2 : lt k x = true := by
        have := hp x (by simp); unfold eqv at this; simp [h1] at this; exact this
      rw [if_neg (by simp), if_pos h2, List.filter_cons, if_neg (by simp [h1]), List.filter_cons, if_pos h2]
      have up : ∀ y ∈ xs, lt k y = true := fun y hy => h.tr k x y hk hx (hxs y hy) h2 (ha.1 y hy)
      rw [filter_all up, filter_none (fun y hy => h.asymm hk (hxs y hy) (up y hy))]; rfl

end

theorem set_says (cfg : Cfg) (t : Str) (l : List Obj) (hl : ∀ x ∈ l, HasType t x) (name : Str) (args : List Str)
    (m : SetMsg) (h : SetSays t name args m) : dispatch l (setTable cfg t l) name args = (setMeaning cfg l m).run l := by
  cases h with
  | get => show Run.ret l (setRepr cfg.prec l) = _; rw [setRepr_eq]; rfl
  | isEmpty => exact congrArg (Run.ret l) (boolStr_truth _ _ (by simp))
  | size => rfl
  | clear => rfl
  | @contains a o ha =>
    obtain ⟨h1, h2⟩ := gsi_denotes t a o ha
    have c := fun x hx => And.intro (ltB_less cfg.eps t x o (hl x hx) h2) (ltB_less cfg.eps t o x h2 (hl x hx))
    show op1 l (fun a => do
      let o ← getSharedInstance t a
      orderGuard cfg.eps l o
      .ok (l, boolStr (setFind (ltB cfg.eps) o l))) [a] = _
    simp only [op1, h1, Res.bind_ok, orderGuard_eq cfg.eps t l o hl h2, setMeaning]
    split
    · rename_i hs
      rw [Res.bind_ok, setFind_congr _ _ _ _ c,
        setFind_eq (swoOn_of_searchable hs) o (by simp) l (fun x hx => by simp [hx]) hs.2]
      exact congrArg (Run.ret l) (boolStr_truth _ _ (by simp [tied_eqv]))
    · rfl
  | @add a o ha =>
    obtain ⟨h1, h2⟩ := gsi_denotes t a o ha
    have c := fun x hx => And.intro (ltB_less cfg.eps t x o (hl x hx) h2) (ltB_less cfg.eps t o x h2 (hl x hx))
    show op1 l (fun a => do
      let o ← getSharedInstance t a
      orderGuard cfg.eps l o
      .ok (setInsert (ltB cfg.eps) o l, b!"null")) [a] = _
    simp only [op1, h1, Res.bind_ok, orderGuard_eq cfg.eps t l o hl h2, setMeaning]
    split
    · rename_i hs
      rw [Res.bind_ok, setInsert_congr _ _ _ _ c]
      split
      · rename_i hp
        rw [setInsert_present (swoOn_of_searchable hs) o (by simp) l (fun x hx => by simp [hx]) hs.2
          (by simpa [tied_eqv] using hp)]; rfl
      · rename_i hp
        rw [setInsert_new (swoOn_of_searchable hs) o (by simp) l (fun x hx => by simp [hx]) hs.2
          (by simpa [tied_eqv] using hp)]; rfl
    · rfl
  | @remove a o ha =>
    obtain ⟨h1, h2⟩ := gsi_denotes t a o ha
    have c := fun x hx => And.intro (ltB_less cfg.eps t x o (hl x hx) h2) (ltB_less cfg.eps t o x h2 (hl x hx))
    show op1 l (fun a => do
      let o ← getSharedInstance t a
      orderGuard cfg.eps l o
      .ok (setErase (ltB cfg.eps) o l, b!"null")) [a] = _
    simp only [op1, h1, Res.bind_ok, orderGuard_eq cfg.eps t l o hl h2, setMeaning]
    split
    · rename_i hs
      rw [Res.bind_ok, setErase_congr _ _ _ _ c,
        setErase_eq (swoOn_of_searchable hs) o (by simp) l (fun x hx => by simp [hx]) hs.2]; rfl
    · rfl

theorem dict_says (cfg : Cfg) (t u : Str) (l : List (Obj × Obj)) (hl : ∀ x ∈ l, HasType t x.1) (name : Str)
    (args : List Str) (m : DictMsg) (h : DictSays t u name args m) :
    dispatch l (dictTable cfg t u l) name args = (dictMeaning cfg l m).run l := by
  have hl' : ∀ x ∈ l.map (·.1), HasType t x := by
    intro x hx; obtain ⟨y, hy, rfl⟩ := List.mem_map.1 hx; exact hl y hy
  have hm : ∀ k, ∀ x ∈ l, x.1 ∈ k :: l.map (·.1) := fun k x hx => by
    simp only [List.mem_cons, List.mem_map]; exact .inr ⟨x, hx, rfl⟩
  cases h with
  | get => show Run.ret l (dictRepr cfg.prec l) = _; rw [dictRepr_eq]; rfl
  | isEmpty => exact congrArg (Run.ret l) (boolStr_truth _ _ (by simp))
  | size => rfl
  | clear => rfl
  | keys => show Run.ret l (vectorRepr cfg.prec (l.map (·.1))) = _; rw [vectorRepr_eq]; rfl
  | values => show Run.ret l (vectorRepr cfg.prec (l.map (·.2))) = _; rw [vectorRepr_eq]; rfl
  | @containsKey a o ha =>
    obtain ⟨h1, h2⟩ := gsi_denotes t a o ha
    have c := fun x hx => And.intro (ltB_less cfg.eps t x o (hl' x hx) h2) (ltB_less cfg.eps t o x h2 (hl' x hx))
    show op1 l (fun a => do
      let k ← getSharedInstance t a
      orderGuard cfg.eps (l.map (·.1)) k
      .ok (l, boolStr (mapFind (ltB cfg.eps) k l).isSome)) [a] = _
    simp only [op1, h1, Res.bind_ok, orderGuard_eq cfg.eps t _ o hl' h2, setMeaning, dictMeaning]
    split
    · rename_i hs
      rw [Res.bind_ok, mapFind_isSome, setFind_congr _ _ _ _ c,
        setFind_eq (swoOn_of_searchable hs) o (by simp) _ (fun x hx => by simp only [List.mem_cons, hx, or_true]) hs.2]
      exact congrArg (Run.ret l) (boolStr_truth _ _ (by simp [tied_eqv]))
    · rfl
  | @getValueForKey a o ha =>
    obtain ⟨h1, h2⟩ := gsi_denotes t a o ha
    have c := fun x hx => And.intro (ltB_less cfg.eps t x.1 o (hl x hx) h2) (ltB_less cfg.eps t o x.1 h2 (hl x hx))
    show dictGet cfg t l [a] = _
    simp only [dictGet, op1, h1, Res.bind_ok, orderGuard_eq cfg.eps t _ o hl' h2, dictMeaning]
    split
    · rename_i hs
      rw [Res.bind_ok, mapFind_congr _ _ _ _ c,
        mapFind_eq (swoOn_of_searchable hs) o (by simp) l (hm o) hs.2]
      show (match (l.find? fun x : Obj × Obj => tied (less cfg.eps) o x.1).map (fun x : Obj × Obj => x.2) with
        | some v => Res.ok (l, v.repr cfg.prec) | none => .ok (l, b!"null")).run l = _
      cases l.find? fun x => tied (less cfg.eps) o x.1 <;> rfl
    · rfl
  | @associate a v b k ha hb =>
    obtain ⟨h1, h2⟩ := gsi_denotes t b k hb
    have c := fun x hx => And.intro (ltB_less cfg.eps t x.1 k (hl x hx) h2) (ltB_less cfg.eps t k x.1 h2 (hl x hx))
    show dictAssociate cfg t u l [a, b] = _
    simp only [dictAssociate, op2, h1, (gsi_denotes u a v ha).1, Res.bind_ok, orderGuard_eq cfg.eps t _ k hl' h2, dictMeaning]
    split
    · rename_i hs
      rw [Res.bind_ok, mapInsert_congr _ _ _ _ _ c]
      split
      · rename_i hp
        rw [mapInsert_old (swoOn_of_searchable hs) k v (by simp) l (hm k) hs.2 (by simpa [tied_eqv] using hp)]; rfl
      · rename_i hp
        rw [mapInsert_new (swoOn_of_searchable hs) k v (by simp) l (hm k) hs.2 (by simpa [tied_eqv] using hp)]; rfl
    · rfl
  | @removeKey a o ha =>
    obtain ⟨h1, h2⟩ := gsi_denotes t a o ha
    have c := fun x hx => And.intro (ltB_less cfg.eps t x.1 o (hl x hx) h2) (ltB_less cfg.eps t o x.1 h2 (hl x hx))
    show op1 l (fun a => do
      let k ← getSharedInstance t a
      orderGuard cfg.eps (l.map (·.1)) k
      .ok (mapErase (ltB cfg.eps) k l, b!"null")) [a] = _
    simp only [op1, h1, Res.bind_ok, orderGuard_eq cfg.eps t _ o hl' h2, dictMeaning]
    split
    · rename_i hs
      rw [Res.bind_ok, mapErase_congr _ _ _ _ c,
        mapErase_eq (swoOn_of_searchable hs) o (by simp) l (hm o) hs.2]; rfl
    · rfl

end Knuckle

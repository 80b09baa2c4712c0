/-
Every vector message has its meaning.
-/
import Verif.Proofs.Compare
import Verif.Spec.Messages

namespace Knuckle

open Spec

/-- The end of an operator that has the given meaning. -/
def _root_.Knuckle.Spec.Result.run {σ : Type} (old : σ) : Result σ → Run σ
  | .gives v r => .ret v r
  | .refuses => .thr old .invalidArgument
  | .undefined => .ub

theorem int_denotes (a : Str) (n : Int) (h : Denotes b!"Integer" a (.integer n)) : integerLit a = .ok n :=
  integerLit_denotes a n h

theorem boolStr_truth (b : Bool) (p : Prop) [Decidable p] (h : b = true ↔ p) : boolStr b = truth p := by
  unfold boolStr truth
  by_cases hp : p
  · rw [if_pos hp, if_pos (h.2 hp)]
  · rw [if_neg hp, if_neg fun e => hp (h.1 e)]

theorem joinComma_eq (l : List Str) : joinComma l = List.intercalate b!"," l := by
  induction l with
  | nil => rfl
  | cons x xs ih =>
    cases xs with
    | nil => simp [joinComma, List.intercalate, List.intersperse]
    | cons y ys =>
      simp only [joinComma, ih]
      simp [List.intercalate, List.intersperse]

theorem vectorRepr_eq (p : Int) (l : List Obj) : vectorRepr p l = vectorText p l := by
  unfold vectorRepr vectorText listText; rw [joinComma_eq]; rfl

theorem setRepr_eq (p : Int) (l : List Obj) : setRepr p l = setText p l := by
  unfold setRepr setText listText; rw [joinComma_eq]; rfl

theorem dictRepr_eq (p : Int) (l : List (Obj × Obj)) : dictRepr p l = dictText p l := by
  unfold dictRepr dictText listText; rw [joinComma_eq]
  simp [List.intercalate, List.intersperse]

section
variable {eps : Fl} {t : Str} {o : Obj} (ho : HasType t o)
include ho

theorem findFrom_eq (l : List Obj) (hl : ∀ x ∈ l, HasType t x) (i : Nat) :
    findFrom eps o l i = .ok ((l.findIdx? (same eps · o)).map (· + i)) := by
  induction l generalizing i with
  | nil => rfl
  | cons x xs ih =>
    rw [findFrom, equalTo_same eps t x o (hl x (by simp)) ho, Res.bind_ok, List.findIdx?_cons,
      ih (fun y hy => hl y (by simp [hy]))]
    cases same eps x o
    · simp only [Bool.false_eq_true, if_false, Option.map_map]
      congr 2; funext k; simp; omega
    · simp

theorem countLoop_eq (l : List Obj) (hl : ∀ x ∈ l, HasType t x) (n : Nat) :
    countLoop eps o l n = .ok (n + l.countP (same eps · o)) := by
  induction l generalizing n with
  | nil => rfl
  | cons x xs ih =>
    have hxs : ∀ y ∈ xs, HasType t y := fun y hy => hl y (by simp [hy])
    rw [countLoop, equalTo_same eps t x o (hl x (by simp)) ho, Res.bind_ok, List.countP_cons, ih hxs, ih hxs]
    cases same eps x o
    · simp
    · simp; omega

omit ho in
theorem natStr_ne_nil (n : Nat) : natStr n ≠ [] := by
  unfold natStr; rw [natStrF]; split <;> simp

omit ho in
theorem intStr_nat (n : Nat) : intStr (n : Int) = natStr n := by
  unfold intStr; rw [if_neg (by omega)]; rfl

theorem indexesLoop_eq (l : List Obj) (hl : ∀ x ∈ l, HasType t x) (i : Nat) (pre : List Str) (hpre : ∀ s ∈ pre, s ≠ []) :
    indexesLoop eps o l i (joinComma pre) =
      .ok (joinComma (pre ++ ((l.zipIdx i).filter fun x => same eps x.1 o).map fun x => intStr x.2)) := by
  induction l generalizing i pre with
  | nil => simp [indexesLoop]
  | cons x xs ih =>
    have hxs : ∀ y ∈ xs, HasType t y := fun y hy => hl y (by simp [hy])
    rw [indexesLoop, equalTo_same eps t x o (hl x (by simp)) ho, Res.bind_ok, List.zipIdx_cons, List.filter_cons]
    cases same eps x o
    · simp only [Bool.false_eq_true, if_false]
      exact ih hxs (i + 1) pre hpre
    · simp only [if_true, List.map_cons]
      have key : (if (joinComma pre).length > 0 then joinComma pre ++ [c!","] else joinComma pre) ++ natStr i =
          joinComma (pre ++ [intStr i]) := by
        rw [intStr_nat]
        have jn : ∀ p : List Str, (∀ s ∈ p, s ≠ []) → p ≠ [] → (joinComma p).length > 0 ∧
            joinComma p ++ [c!","] ++ natStr i = joinComma (p ++ [natStr i]) := by
          intro p
          induction p with
          | nil => intro _ h; exact absurd rfl h
          | cons a as ih =>
            intro h _
            have ha := h a (by simp)
            cases as with
            | nil => exact ⟨by simp only [joinComma]; exact List.length_pos_iff.2 ha, by simp [joinComma]⟩
            | cons b bs =>
              have := ih (fun s hs => h s (by simp [hs])) (by simp)
              refine ⟨by simp [joinComma], ?_⟩
              have e : joinComma ((a :: b :: bs) ++ [natStr i]) = a ++ c!"," :: joinComma ((b :: bs) ++ [natStr i]) := by
                simp [joinComma]
              rw [e, ← this.2]; simp [joinComma]
        by_cases hp : pre = []
        · subst hp; simp [joinComma]
        · rw [if_pos (jn pre hpre hp).1, (jn pre hpre hp).2]
      rw [key, ih hxs (i + 1) (pre ++ [intStr i])]
      · simp
      · intro s hs
        rcases List.mem_append.1 hs with hs | hs
        · exact hpre s hs
        · simp only [List.mem_singleton] at hs
          rw [hs, intStr_nat]; exact natStr_ne_nil i

theorem removeFirstLoop_eq (pre l : List Obj) (hl : ∀ x ∈ l, HasType t x) :
    removeFirstLoop eps o pre l = .ok (pre ++ l.eraseP (same eps · o)) := by
  induction l generalizing pre with
  | nil => simp [removeFirstLoop]
  | cons x xs ih =>
    have hxs : ∀ y ∈ xs, HasType t y := fun y hy => hl y (by simp [hy])
    rw [removeFirstLoop, equalTo_same eps t x o (hl x (by simp)) ho, Res.bind_ok, List.eraseP_cons, ih _ hxs]
    cases same eps x o <;> simp

theorem removeAllLoop_eq (pre l : List Obj) (hl : ∀ x ∈ l, HasType t x) :
    removeAllLoop eps o pre l = .ret (pre ++ l.filter fun x => !same eps x o) b!"null" := by
  induction l generalizing pre with
  | nil => simp [removeAllLoop]
  | cons x xs ih =>
    have hxs : ∀ y ∈ xs, HasType t y := fun y hy => hl y (by simp [hy])
    rw [removeAllLoop, equalTo_same eps t x o (hl x (by simp)) ho, List.filter_cons]
    cases same eps x o <;> simp [ih _ hxs]

theorem replaceFirstLoop_eq (b : Str) (r : Obj) (hr : Denotes t b r) (pre l : List Obj) (hl : ∀ x ∈ l, HasType t x) :
    replaceFirstLoop eps t b o pre l =
      .ok (pre ++ match l.findIdx? (same eps · o) with | none => l | some k => l.set k r) := by
  induction l generalizing pre with
  | nil => simp [replaceFirstLoop]
  | cons x xs ih =>
    have hxs : ∀ y ∈ xs, HasType t y := fun y hy => hl y (by simp [hy])
    rw [replaceFirstLoop, equalTo_same eps t x o (hl x (by simp)) ho, Res.bind_ok, List.findIdx?_cons, ih _ hxs,
      (gsi_denotes t b r hr).1]
    cases same eps x o
    · simp only [Bool.false_eq_true, if_false]
      cases xs.findIdx? (same eps · o) <;> simp
    · simp

theorem replaceAllLoop_eq (b : Str) (r : Obj) (hr : Denotes t b r) (pre l : List Obj) (hl : ∀ x ∈ l, HasType t x) :
    replaceAllLoop eps t b o pre l = .ret (pre ++ l.map fun x => if same eps x o then r else x) b!"null" := by
  induction l generalizing pre with
  | nil => simp [replaceAllLoop]
  | cons x xs ih =>
    have hxs : ∀ y ∈ xs, HasType t y := fun y hy => hl y (by simp [hy])
    rw [replaceAllLoop, equalTo_same eps t x o (hl x (by simp)) ho]
    cases h : same eps x o
    · simp [ih _ hxs, h]
    · simp [ih _ hxs, (gsi_denotes t b r hr).1, h]

end

theorem findIdx?_isSome {α : Type} (l : List α) (p : α → Bool) : (l.findIdx? p).isSome = true ↔ ∃ x ∈ l, p x = true := by
  simp [List.findIdx?_isSome]

theorem indexReply_eq (o : Option Nat) : indexReply o = indexText o := by cases o <;> rfl

theorem checkFrom_eq (len : Nat) (i : Int) :
    checkFrom len i = if 0 ≤ i ∧ i ≤ len then .ok () else .err .invalidArgument := by
  unfold checkFrom
  by_cases h : 0 ≤ i ∧ i ≤ len
  · rw [if_pos h, if_neg (by simp; omega)]
  · rw [if_neg h, if_pos (by simp; omega)]

theorem checkAt_eq (len : Nat) (i : Int) :
    checkAt len i = if 0 ≤ i ∧ i < len then .ok () else .err .invalidArgument := by
  unfold checkAt
  by_cases h : 0 ≤ i ∧ i < len
  · rw [if_pos h, if_neg (by simp; omega)]
  · rw [if_neg h, if_pos (by simp; omega)]

theorem checkRange_eq (len : Nat) (i j : Int) :
    checkRange len i j = if 0 ≤ i ∧ i ≤ j ∧ j ≤ len then .ok () else .err .invalidArgument := by
  unfold checkRange
  by_cases h : 0 ≤ i ∧ i ≤ j ∧ j ≤ len
  · rw [if_pos h, if_neg (by simp; omega), if_neg (by simp; omega), if_neg (by simp; omega)]
  · rw [if_neg h]
    split
    · rfl
    · split
      · rfl
      · split
        · rfl
        · rename_i h1 h2 h3
          simp at h1 h2 h3; omega

theorem minNat (n : Int) (hn : 0 ≤ n) (k : Nat) : (min n (k : Int)).toNat = min n.toNat k := by omega

theorem take_min {α : Type} (l : List α) (n : Nat) : l.take (min n l.length) = l.take n := by
  rw [← List.take_eq_take_min]

theorem drop_sub_min {α : Type} (l : List α) (n : Nat) : l.drop (l.length - min n l.length) = l.drop (l.length - n) := by
  congr 1; omega

theorem insertIdx_eq {α : Type} (l : List α) (k : Nat) (o : α) (h : k ≤ l.length) :
    l.insertIdx k o = l.take k ++ o :: l.drop k := by
  induction l generalizing k with
  | nil => simp at h; subst h; rfl
  | cons x xs ih =>
    cases k with
    | zero => rfl
    | succ k => simp at h; simp [ih k h]

/-- A message to a vector does what it means. -/
theorem vec_says [StdSort] (cfg : Cfg) (t : Str) (l : List Obj) (hl : ∀ x ∈ l, HasType t x) (name : Str)
    (args : List Str) (m : VecMsg) (h : VecSays t name args m) :
    dispatch l (vectorTable cfg t l) name args = (vecMeaning cfg l m).run l := by
  have hd : ∀ k, ∀ x ∈ l.drop k, HasType t x := fun k x hx => hl x (List.mem_of_mem_drop hx)
  cases h with
  | get => show Run.ret l (vectorRepr cfg.prec l) = _; rw [vectorRepr_eq]; rfl
  | isEmpty =>
    show Run.ret l (boolStr (l.length == 0)) = .ret l (truth (l = []))
    rw [boolStr_truth _ (l = []) (by simp)]
  | @contains a o ha =>
    obtain ⟨h1, h2⟩ := gsi_denotes t a o ha
    show vecContains cfg t l [a] = _
    simp only [vecContains, op1, h1, Res.bind_ok, findFrom_eq h2 l hl, Res.run, vecMeaning, Result.run]
    exact congrArg (Run.ret l) (boolStr_truth _ _ (by simp))
  | @containsFrom a o b i ha hb =>
    obtain ⟨h1, h2⟩ := gsi_denotes t a o ha
    show vecContainsFrom cfg t l [a, b] = _
    simp only [vecContainsFrom, op2, h1, int_denotes b i hb, Res.bind_ok, checkFrom_eq, vecMeaning]
    split
    · rw [Res.bind_ok, findFrom_eq h2 _ (hd _)]
      simp only [Res.bind_ok, Res.run, Result.run]
      exact congrArg (Run.ret l) (boolStr_truth _ _ (by simp))
    · rfl
  | @count a o ha =>
    obtain ⟨h1, h2⟩ := gsi_denotes t a o ha
    show vecCount cfg t l [a] = _
    simp [vecCount, op1, h1, countLoop_eq h2 l hl, Res.run, vecMeaning, Result.run]
  | @atIndex a i ha =>
    show vecAtIndex cfg l [a] = _
    simp only [vecAtIndex, op1, int_denotes a i ha, Res.bind_ok, checkAt_eq, vecMeaning]
    split
    · rename_i h
      rw [List.getElem?_eq_getElem (show i.toNat < l.length by omega)]; rfl
    · rfl
  | @firstIndexOf a o ha =>
    obtain ⟨h1, h2⟩ := gsi_denotes t a o ha
    show vecFirstIndexOf cfg t l [a] = _
    simp [vecFirstIndexOf, op1, h1, findFrom_eq h2 l hl, Res.run, vecMeaning, Result.run, indexReply_eq]
  | @firstIndexOfFrom a o b i ha hb =>
    obtain ⟨h1, h2⟩ := gsi_denotes t a o ha
    show vecFirstIndexOfFrom cfg t l [a, b] = _
    simp only [vecFirstIndexOfFrom, op2, h1, int_denotes b i hb, Res.bind_ok, checkFrom_eq, vecMeaning]
    split
    · rw [Res.bind_ok, findFrom_eq h2 _ (hd _)]
      simp only [Res.bind_ok, Res.run, Result.run, indexReply_eq]
    · rfl
  | @allIndexesOf a o ha =>
    obtain ⟨h1, h2⟩ := gsi_denotes t a o ha
    show vecAllIndexesOf cfg t l [a] = _
    simp only [vecAllIndexesOf, op1, h1, Res.bind_ok, vecMeaning]
    have := indexesLoop_eq (eps := cfg.eps) h2 l hl 0 [] (by simp)
    simp only [joinComma, List.nil_append] at this
    rw [this]
    simp only [Res.bind_ok, Res.run, Result.run, joinComma_eq]; rfl
  | size => rfl
  | @first a n ha =>
    show vecFirst cfg l [a] = _
    simp only [vecFirst, op1, int_denotes a n ha, Res.bind_ok, vecMeaning]
    by_cases h : 0 ≤ n
    · rw [if_neg (by omega), if_pos h, minNat n h, take_min, vectorRepr_eq]; rfl
    · rw [if_pos (by omega), if_neg h]; rfl
  | @last a n ha =>
    show vecLast cfg l [a] = _
    simp only [vecLast, op1, int_denotes a n ha, Res.bind_ok, vecMeaning]
    by_cases h : 0 ≤ n
    · rw [if_neg (by omega), if_pos h, minNat n h, drop_sub_min, vectorRepr_eq]; rfl
    · rw [if_pos (by omega), if_neg h]; rfl
  | @slice a i ha =>
    show vecSlice cfg l [a] = _
    simp only [vecSlice, op1, int_denotes a i ha, Res.bind_ok, checkFrom_eq, vecMeaning, vectorRepr_eq]
    split <;> rfl
  | @sliceTo a i b j ha hb =>
    show vecSliceTo cfg l [a, b] = _
    simp only [vecSliceTo, op2, int_denotes a i ha, int_denotes b j hb, Res.bind_ok, checkRange_eq, vecMeaning, vectorRepr_eq]
    split <;> rfl
  | @pushBack a o ha =>
    show vecPushBack t l [a] = _
    simp [vecPushBack, op1, (gsi_denotes t a o ha).1, Res.run, vecMeaning, Result.run]
  | @pushFront a o ha =>
    show vecPushFront t l [a] = _
    simp [vecPushFront, op1, (gsi_denotes t a o ha).1, Res.run, vecMeaning, Result.run]
  | popBack =>
    show vecPopBack cfg l [] = _
    simp only [vecPopBack, op0, vecMeaning, List.getLast?_eq_getElem?]
    by_cases h : l = []
    · subst h; rfl
    · rw [if_neg (by simpa using h)]
      have : l.length - 1 < l.length := by have := List.length_pos_iff.2 h; omega
      rw [List.getElem?_eq_getElem this, List.dropLast_eq_take]; rfl
  | popFront =>
    show vecPopFront cfg l [] = _
    cases l <;> rfl
  | @popAtIndex a i ha =>
    show vecPopAtIndex cfg l [a] = _
    simp only [vecPopAtIndex, op1, int_denotes a i ha, Res.bind_ok, checkAt_eq, vecMeaning]
    split
    · rename_i h
      rw [List.getElem?_eq_getElem (show i.toNat < l.length by omega), List.eraseIdx_eq_take_drop_succ]; rfl
    · rfl
  | @insert a o b i ha hb =>
    show vecInsert t l [a, b] = _
    simp only [vecInsert, op2, (gsi_denotes t a o ha).1, int_denotes b i hb, Res.bind_ok, checkFrom_eq, vecMeaning]
    split
    · rename_i h
      rw [insertIdx_eq _ _ _ (by omega)]; rfl
    · rfl
  | @erase a i ha =>
    show vecErase l [a] = _
    simp only [vecErase, op1, int_denotes a i ha, Res.bind_ok, checkFrom_eq, vecMeaning]
    split <;> rfl
  | @eraseTo a i b j ha hb =>
    show vecEraseTo l [a, b] = _
    simp only [vecEraseTo, op2, int_denotes a i ha, int_denotes b j hb, Res.bind_ok, checkRange_eq, vecMeaning]
    split <;> rfl
  | @removeFirst a o ha =>
    obtain ⟨h1, h2⟩ := gsi_denotes t a o ha
    show vecRemoveFirst cfg t l [a] = _
    simp [vecRemoveFirst, op1, h1, removeFirstLoop_eq h2 [] l hl, Res.run, vecMeaning, Result.run]
  | @removeFirstFrom a o b i ha hb =>
    obtain ⟨h1, h2⟩ := gsi_denotes t a o ha
    show vecRemoveFirstFrom cfg t l [a, b] = _
    simp only [vecRemoveFirstFrom, op2, h1, int_denotes b i hb, Res.bind_ok, checkFrom_eq, vecMeaning]
    split
    · simp [removeFirstLoop_eq h2 _ _ (hd _), Res.run, Result.run]
    · rfl
  | @removeAll a o ha =>
    obtain ⟨h1, h2⟩ := gsi_denotes t a o ha
    show vecRemoveAll cfg t l [a] = _
    simp [vecRemoveAll, h1, removeAllLoop_eq h2 [] l hl, vecMeaning, Result.run]
  | @replaceFirst a o b r ha hb =>
    obtain ⟨h1, h2⟩ := gsi_denotes t a o ha
    show vecReplaceFirst cfg t l [a, b] = _
    simp only [vecReplaceFirst, op2, h1, (gsi_denotes t b r hb).1, Res.bind_ok, replaceFirstLoop_eq h2 b r hb [] l hl,
      vecMeaning, List.nil_append]
    cases l.findIdx? (same cfg.eps · o) <;> rfl
  | @replaceFirstFrom a o b i c r ha hb hc =>
    obtain ⟨h1, h2⟩ := gsi_denotes t a o ha
    show vecReplaceFirstFrom cfg t l [a, b, c] = _
    simp only [vecReplaceFirstFrom, op3, h1, (gsi_denotes t c r hc).1, int_denotes b i hb, Res.bind_ok, checkFrom_eq,
      vecMeaning]
    split
    · rename_i h
      rw [Res.bind_ok, replaceFirstLoop_eq h2 c r hc _ _ (hd _), Res.bind_ok]
      cases hf : (l.drop i.toNat).findIdx? (same cfg.eps · o) with
      | none => simp [Res.run, Result.run]
      | some k =>
        simp only [Res.run, Result.run]
        congr 1
        conv_rhs => rw [← List.take_append_drop i.toNat l]
        rw [List.set_append_right _ _ (by simp)]
        congr 2
        simp
        try omega
    · rfl
  | @replaceAll a o b r ha hb =>
    obtain ⟨h1, h2⟩ := gsi_denotes t a o ha
    show vecReplaceAll cfg t l [a, b] = _
    simp [vecReplaceAll, h1, (gsi_denotes t b r hb).1, replaceAllLoop_eq h2 b r hb [] l hl, vecMeaning, Result.run]
  | reverse => rfl
  | clear => rfl

end Knuckle

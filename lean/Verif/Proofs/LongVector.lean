/-
Vectors with 2^31 elements or more.
-/
import Verif.Proofs.IndexedVector
import Verif.Proofs.Vector
import Verif.Spec.LongVectors

namespace Knuckle.Idx

open Knuckle.Spec

section
variable {l : List Obj} (h1 : 2147483648 ≤ l.length) (h2 : l.length < 4294967296)
include h1 h2

theorem count_long : count l = (l.length : Int) - 4294967296 := by
  unfold count toInt
  rw [Nat.mod_eq_of_lt h2, if_neg (by omega)]

theorem checkFrom_long (i : Int) : checkFrom l i = .throws .invalidArgument := by
  unfold checkFrom
  rw [if_pos (by rw [count_long h1 h2]; simp; omega)]

theorem checkAt_long (i : Int) : checkAt l i = .throws .invalidArgument := by
  unfold checkAt
  rw [if_pos (by rw [count_long h1 h2]; simp; omega)]

theorem checkBoth_long (i j : Int) : checkBoth l i j = .throws .invalidArgument := by
  unfold checkBoth
  rw [if_pos (by rw [count_long h1 h2]; simp; omega)]

theorem begin_long (n : Int) : begin l (min n (count l)) = .ub := by
  unfold begin
  rw [if_neg (by rw [count_long h1 h2]; omega)]

theorem endMinus_long (n : Int) : endMinus l (min n (count l)) = .ub := by
  unfold endMinus
  rw [if_neg (by rw [count_long h1 h2]; omega)]

theorem lastElem_long : ((int (count l - 1)).bind fun i => elem l i) = .ub := by
  rw [count_long h1 h2]
  by_cases he : l.length = 2147483648
  · have : int ((l.length : Int) - 4294967296 - 1) = .ub := by
      unfold int; rw [if_neg (by omega)]
    rw [this]; rfl
  · rw [int_ok (by omega) (by omega), bind_ok]
    unfold elem
    have := toSize_neg (x := (l.length : Int) - 4294967296 - 1) (by omega) (by omega)
    rw [List.getElem?_eq_none (by omega)]

theorem removeLoop_long (eps : Fl) (o : Obj) : removeLoop eps o 0 l = .ok l := by
  have : removeBody eps o 0 l = .ok none := by
    unfold removeBody; rw [count_long h1 h2, if_neg (by omega)]
  rw [removeLoop, this]

theorem replaceLoop_long (eps : Fl) (t b : Str) (o : Obj) : replaceLoop eps t b o 0 l = .ok l := by
  unfold replaceLoop
  exact up_stop (by rw [count_long h1 h2, if_neg (by omega)])

theorem replaceEach_long (eps : Fl) (t b : Str) (o : Obj) : replaceEach eps t b o l = .ok l := by
  unfold replaceEach
  exact up_stop (by rw [replaceBody, count_long h1 h2, if_neg (by omega)])

end

theorem countLoop_total (eps : Fl) {t : Str} {o : Obj} (ho : HasType t o) : ∀ (l : List Obj) (n : Nat), (∀ x ∈ l, HasType t x) → n < 2147483648 →
    countLoop eps o l n = if n + l.countP (same eps · o) < 2147483648 then .ok ((n + l.countP (same eps · o) : Nat) : Int) else .ub := by
  intro l
  induction l with
  | nil => intro n _ hn; rw [countLoop, List.countP_nil, if_pos (by omega)]; rfl
  | cons x xs ih =>
    intro n hl hn
    have hxs : ∀ y ∈ xs, HasType t y := fun y hy => hl y (by simp [hy])
    rw [countLoop, equalTo_same eps t x o (hl x (by simp)) ho, lift_ok, bind_def, bind_ok, List.countP_cons]
    cases same eps x o with
    | false =>
      simp only [Bool.false_eq_true, if_false, Nat.add_zero]
      exact ih n hxs hn
    | true =>
      simp only [if_true]
      by_cases hn' : n = 2147483647
      · have : int ((n : Int) + 1) = .ub := by unfold int; rw [if_neg (by omega)]
        rw [this, if_neg (by omega)]; rfl
      · rw [int_ok (by omega) (by omega), bind_def, bind_ok, show (n : Int) + 1 = ((n + 1 : Nat) : Int) by omega, ih (n + 1) hxs (by omega),
          show n + 1 + xs.countP (same eps · o) = n + (xs.countP (same eps · o) + 1) by omega]

theorem toInt_wrapped {k : Nat} (h : k < 4294967296) : toInt k = wrapped k := by
  unfold toInt wrapped
  rw [Nat.mod_eq_of_lt h]

theorem vecReceive_long [StdSort] {l : List Obj} (h1 : 2147483648 ≤ l.length) (h2 : l.length < 4294967296) (hf : FitsAll l) (cfg : Cfg) {t : Str}
    (hl : ∀ x ∈ l, HasType t x) {name : Str} {args : List Str} (ha : ∀ a ∈ args, Fits a) {m : VecMsg} (h : VecSays t name args m) :
    vecReceive cfg t l name args = longVecMeaning cfg l m := by
  have keep : ∀ {m : VecMsg}, VecSays t name args m → vecReceive cfg t l name args = fromRun (dispatch l (Knuckle.vectorTable cfg t l) name args) →
      vecReceive cfg t l name args = told (vecMeaning cfg l m) := by
    intro m h e
    rw [e, vec_says cfg t l hl name args m h, fromRun_result]
  have lit : ∀ {a : Str} {o : Obj}, Denotes t a o → a ∈ args → getSharedInstance t a = .ok o ∧ HasType t o := by
    intro a o hd hm
    obtain ⟨g1, g2⟩ := gsi_denotes t a o hd
    exact ⟨by rw [getSharedInstance_eq t (ha a hm), g1]; rfl, g2⟩
  have num : ∀ {a : Str} {i : Int}, Denotes b!"Integer" a (.integer i) → a ∈ args → integerLit a = .ok i := by
    intro a i hd hm
    rw [integerLit_eq (ha a hm), int_denotes a i hd]; rfl
  have hcount := count_long h1 h2
  cases h with
  | get =>
    refine keep .get ?_
    show op0 (do let r ← vectorRepr cfg.prec l; .ok (l, r)) [] = fromRun (Knuckle.op0 l (Res.ok (l, Knuckle.vectorRepr cfg.prec l)) [])
    exact op0_eq (by rw [vectorRepr_eq _ hf]; rfl) []
  | isEmpty => exact keep .isEmpty rfl
  | @contains a o ho => exact keep (.contains ho) (vecContains_eq _ _ _ _ ha)
  | @containsFrom a o b i ho hi =>
    show vecContainsFrom cfg t l [a, b] = _
    rw [vecContainsFrom, op2, (lit ho (by simp)).1, bind_def, bind_ok, num hi (by simp), bind_def, bind_ok, checkFrom_long h1 h2, bind_def, bind_throws]; rfl
  | @count a o ho =>
    show vecCount cfg t l [a] = _
    rw [vecCount, op1, (lit ho (by simp)).1, bind_def, bind_ok, show (0 : Int) = ((0 : Nat) : Int) from rfl,
      countLoop_total cfg.eps (lit ho (by simp)).2 l 0 hl (by omega), Nat.zero_add, longVecMeaning]
    split <;> rfl
  | @atIndex a i hi =>
    show vecAtIndex cfg l [a] = _
    rw [vecAtIndex, op1, num hi (by simp), bind_def, bind_ok, checkAt_long h1 h2, bind_def, bind_throws]; rfl
  | @firstIndexOf a o ho =>
    show vecFirstIndexOf cfg t l [a] = _
    rw [vecFirstIndexOf, op1, (lit ho (by simp)).1, bind_def, bind_ok, findFrom_eq (lit ho (by simp)).2 l hl 0, lift_ok, bind_def, bind_ok, longVecMeaning]
    congr 2
    cases hk : l.findIdx? (same cfg.eps · o) with
    | none => rfl
    | some k =>
      have hk' : k < l.length := (List.findIdx?_eq_some_iff_getElem.1 hk).1
      show intStr (toInt (k + 0)) = intStr (wrapped k)
      rw [toInt_wrapped (by omega), Nat.add_zero]
  | @firstIndexOfFrom a o b i ho hi =>
    show vecFirstIndexOfFrom cfg t l [a, b] = _
    rw [vecFirstIndexOfFrom, op2, (lit ho (by simp)).1, bind_def, bind_ok, num hi (by simp), bind_def, bind_ok, checkFrom_long h1 h2, bind_def, bind_throws]; rfl
  | @allIndexesOf a o ho =>
    refine keep (.allIndexesOf ho) ?_
    show vecAllIndexesOf cfg t l [a] = fromRun (Knuckle.vecAllIndexesOf cfg t l [a])
    exact op1_eq [a] ha fun a h => by rw [getSharedInstance_eq t h]; exact lift_step fun o => lift_step fun k => rfl
  | size =>
    show Ix.ok (l, intStr (Idx.count l)) = _
    rw [hcount]; rfl
  | @first a n hn =>
    show vecFirst cfg l [a] = _
    rw [vecFirst, op1, num hn (by simp), bind_def, bind_ok, longVecMeaning, begin_long h1 h2, bind_def, bind_ub]
    by_cases h0 : 0 ≤ n
    · rw [if_neg (by omega), if_pos h0]
    · rw [if_pos (by omega), if_neg h0]
  | @last a n hn =>
    show vecLast cfg l [a] = _
    rw [vecLast, op1, num hn (by simp), bind_def, bind_ok, longVecMeaning, endMinus_long h1 h2, bind_def, bind_ub]
    by_cases h0 : 0 ≤ n
    · rw [if_neg (by omega), if_pos h0]
    · rw [if_pos (by omega), if_neg h0]
  | @slice a i hi =>
    show vecSlice cfg l [a] = _
    rw [vecSlice, op1, num hi (by simp), bind_def, bind_ok, checkFrom_long h1 h2, bind_def, bind_throws]; rfl
  | @sliceTo a i b j hi hj =>
    show vecSliceTo cfg l [a, b] = _
    rw [vecSliceTo, op2, num hi (by simp), bind_def, bind_ok, num hj (by simp), bind_def, bind_ok, checkBoth_long h1 h2, bind_def, bind_throws]; rfl
  | @pushBack a o ho =>
    refine keep (.pushBack ho) ?_
    show vecPushBack t l [a] = fromRun (Knuckle.vecPushBack t l [a])
    exact op1_eq [a] ha fun a h => by rw [getSharedInstance_eq t h]; exact lift_step fun o => rfl
  | @pushFront a o ho =>
    refine keep (.pushFront ho) ?_
    show vecPushFront t l [a] = fromRun (Knuckle.vecPushFront t l [a])
    exact op1_eq [a] ha fun a h => by rw [getSharedInstance_eq t h]; exact lift_step fun o => rfl
  | popBack =>
    show vecPopBack cfg l [] = _
    rw [vecPopBack, op0, if_neg (by simp only [beq_iff_eq]; omega)]
    have := lastElem_long h1 h2
    rw [bind_def]
    cases hi : int (Idx.count l - 1) with
    | ok i =>
      rw [hi, bind_ok] at this
      rw [bind_ok, this]; rfl
    | throws e => rw [hi] at this; cases this
    | outOfRange => rw [hi] at this; cases this
    | ub => rfl
    | stack => rw [hi] at this; cases this
    | stuck => rw [hi] at this; cases this
  | popFront =>
    refine keep .popFront ?_
    show vecPopFront cfg l [] = fromRun (Knuckle.vecPopFront cfg l [])
    refine op0_eq ?_ []
    have hn : 0 < l.length := by omega
    have ho := List.getElem?_eq_getElem hn
    rw [lift_ite, if_neg (by simp only [beq_iff_eq]; omega), if_neg (by simp only [beq_iff_eq]; omega), show (0 : Int) = ((0 : Nat) : Int) from rfl,
      elem_nat ho, bind_def, bind_ok, begin_nat (by omega), bind_def, bind_ok, eraseOne_lt hn, bind_def, bind_ok,
      repr_eq _ (hf _ (List.mem_of_getElem? ho)), bind_def, bind_ok, ho]
    rfl
  | @popAtIndex a i hi =>
    show vecPopAtIndex cfg l [a] = _
    rw [vecPopAtIndex, op1, num hi (by simp), bind_def, bind_ok, checkAt_long h1 h2, bind_def, bind_throws]; rfl
  | @insert a o b i ho hi =>
    show vecInsert t l [a, b] = _
    rw [vecInsert, op2, (lit ho (by simp)).1, bind_def, bind_ok, num hi (by simp), bind_def, bind_ok, checkFrom_long h1 h2, bind_def, bind_throws]; rfl
  | @erase a i hi =>
    show vecErase l [a] = _
    rw [vecErase, op1, num hi (by simp), bind_def, bind_ok, checkFrom_long h1 h2, bind_def, bind_throws]; rfl
  | @eraseTo a i b j hi hj =>
    show vecEraseTo l [a, b] = _
    rw [vecEraseTo, op2, num hi (by simp), bind_def, bind_ok, num hj (by simp), bind_def, bind_ok, checkBoth_long h1 h2, bind_def, bind_throws]; rfl
  | @removeFirst a o ho =>
    refine keep (.removeFirst ho) ?_
    show vecRemoveFirst cfg t l [a] = fromRun (Knuckle.vecRemoveFirst cfg t l [a])
    exact op1_eq [a] ha fun a h => by rw [getSharedInstance_eq t h]; exact lift_step fun o => lift_step fun k => rfl
  | @removeFirstFrom a o b i ho hi =>
    show vecRemoveFirstFrom cfg t l [a, b] = _
    rw [vecRemoveFirstFrom, op2, (lit ho (by simp)).1, bind_def, bind_ok, num hi (by simp), bind_def, bind_ok, checkFrom_long h1 h2, bind_def, bind_throws]; rfl
  | @removeAll a o ho =>
    show vecRemoveAll cfg t l [a] = _
    rw [vecRemoveAll, op1, (lit ho (by simp)).1, bind_def, bind_ok, removeLoop_long h1 h2, bind_def, bind_ok]; rfl
  | @replaceFirst a o b r ho hr =>
    show vecReplaceFirst cfg t l [a, b] = _
    rw [vecReplaceFirst, op2, (lit ho (by simp)).1, bind_def, bind_ok, (lit hr (by simp)).1, bind_def, bind_ok, replaceLoop_long h1 h2, bind_def, bind_ok]; rfl
  | @replaceFirstFrom a o b i c r ho hi hr =>
    show vecReplaceFirstFrom cfg t l [a, b, c] = _
    rw [vecReplaceFirstFrom, op3, (lit ho (by simp)).1, bind_def, bind_ok, (lit hr (by simp)).1, bind_def, bind_ok, num hi (by simp), bind_def, bind_ok,
      checkFrom_long h1 h2, bind_def, bind_throws]; rfl
  | @replaceAll a o b r ho hr =>
    show vecReplaceAll cfg t l [a, b] = _
    rw [vecReplaceAll, op2, (lit ho (by simp)).1, bind_def, bind_ok, (lit hr (by simp)).1, bind_def, bind_ok, replaceEach_long h1 h2, bind_def, bind_ok]; rfl
  | reverse => exact keep .reverse rfl
  | clear => exact keep .clear rfl

end Knuckle.Idx

/-
The index model of vectors and the list model agree on vectors with fewer than 2^31 elements.
-/
import Verif.Model.IndexedVector
import Verif.Proofs.IndexedString

namespace Knuckle.Idx

/-- A string element is short. -/
def FitsObj : Obj → Prop
  | .string v => Fits v
  | _ => True

/-- So are all elements. -/
def FitsAll (l : List Obj) : Prop := ∀ o ∈ l, FitsObj o

theorem lift_ub {α : Type} : lift (Res.ub : Res α) = .ub := rfl

theorem floatLit_eq {s : Str} (hs : Fits s) : floatLit s = lift (Knuckle.floatLit s) := by
  unfold floatLit Knuckle.floatLit
  rw [isFloatValue_eq hs, not_ok, bind_def, bind_ok, lift_ite, lift_err, lift_ok]

theorem getSharedInstance_eq (t : Str) {a : Str} (ha : Fits a) : getSharedInstance t a = lift (Knuckle.getSharedInstance t a) := by
  unfold getSharedInstance Knuckle.getSharedInstance
  rw [lift_ite, lift_ite, lift_ite, lift_ite, lift_ite, characterLit_eq, integerLit_eq ha, floatLit_eq ha, stringLit_eq ha]
  refine ite_congr rfl (fun _ => lift_step fun _ => rfl) fun _ => ?_
  refine ite_congr rfl (fun _ => lift_step fun _ => rfl) fun _ => ?_
  refine ite_congr rfl (fun _ => lift_step fun _ => rfl) fun _ => ?_
  refine ite_congr rfl (fun _ => lift_step fun _ => rfl) fun _ => ?_
  exact ite_congr rfl (fun _ => lift_step fun _ => rfl) fun _ => rfl

theorem repr_eq (prec : Int) {o : Obj} (h : FitsObj o) : repr prec o = .ok (o.repr prec) := by
  cases o with
  | string v => exact quoted_eq h
  | _ => rfl

theorem reprs_eq (prec : Int) : ∀ {l : List Obj}, FitsAll l → reprs prec l = .ok (l.map (Obj.repr prec)) := by
  intro l
  induction l with
  | nil => intro _; rfl
  | cons o l ih =>
    intro h
    rw [reprs, repr_eq prec (h o (by simp)), bind_def, bind_ok, ih fun x hx => h x (by simp [hx]), bind_def, bind_ok]
    rfl

theorem vectorRepr_eq (prec : Int) {l : List Obj} (h : FitsAll l) : vectorRepr prec l = .ok (Knuckle.vectorRepr prec l) := by
  unfold vectorRepr Knuckle.vectorRepr
  rw [reprs_eq prec h, bind_def, bind_ok]

theorem fitsAll_take {l : List Obj} (h : FitsAll l) (n : Nat) : FitsAll (l.take n) := fun o ho => h o (List.mem_of_mem_take ho)
theorem fitsAll_drop {l : List Obj} (h : FitsAll l) (n : Nat) : FitsAll (l.drop n) := fun o ho => h o (List.mem_of_mem_drop ho)

theorem count_eq {l : List Obj} (h : l.length < 2147483648) : count l = l.length := by
  unfold count toInt
  rw [Nat.mod_eq_of_lt (by omega), if_pos h]

theorem elem_nat {l : List Obj} {i : Nat} {o : Obj} (h : l[i]? = some o) : elem l (i : Int) = .ok o := by
  unfold elem; rw [toSize_nat, h]

theorem begin_nat {l : List Obj} {i : Nat} (h : i ≤ l.length) : begin l (i : Int) = .ok i := by
  unfold begin; rw [if_pos (by omega), Int.toNat_natCast]

theorem between_le {l : List Obj} {p q : Nat} (h : p ≤ q) : between l p q = .ok ((l.take q).drop p) := if_pos h
theorem eraseBetween_le {l : List Obj} {p q : Nat} (h : p ≤ q) : eraseBetween l p q = .ok (l.take p ++ l.drop q) := if_pos h
theorem eraseOne_lt {l : List Obj} {p : Nat} (h : p < l.length) : eraseOne l p = .ok (l.take p ++ l.drop (p + 1)) := if_pos h

section
variable {l : List Obj} (hl : l.length < 2147483648)
include hl

theorem checkFrom_cases (i : Int) : (∃ n : Nat, i = n ∧ n ≤ l.length ∧ checkFrom l i = .ok () ∧ Knuckle.checkFrom l.length i = .ok ()) ∨
    (checkFrom l i = .throws .invalidArgument ∧ Knuckle.checkFrom l.length i = .err .invalidArgument) := by
  unfold checkFrom Knuckle.checkFrom
  rw [count_eq hl]
  by_cases h1 : (decide (i < 0) || decide (i > (l.length : Int))) = true
  · right; rw [if_pos h1, if_pos h1]; exact ⟨rfl, rfl⟩
  · left
    rw [if_neg h1, if_neg h1]
    simp at h1
    obtain ⟨n, rfl⟩ := Int.eq_ofNat_of_zero_le h1.1
    exact ⟨n, rfl, by omega, rfl, rfl⟩

theorem checkAt_cases (i : Int) : (∃ (n : Nat) (o : Obj), i = n ∧ l[n]? = some o ∧ n < l.length ∧ checkAt l i = .ok () ∧ Knuckle.checkAt l.length i = .ok ()) ∨
    (checkAt l i = .throws .invalidArgument ∧ Knuckle.checkAt l.length i = .err .invalidArgument) := by
  unfold checkAt Knuckle.checkAt
  rw [count_eq hl]
  by_cases h1 : (decide (i < 0) || decide (i ≥ (l.length : Int))) = true
  · right; rw [if_pos h1, if_pos h1]; exact ⟨rfl, rfl⟩
  · left
    rw [if_neg h1, if_neg h1]
    simp at h1
    obtain ⟨n, rfl⟩ := Int.eq_ofNat_of_zero_le h1.1
    have hn : n < l.length := by omega
    exact ⟨n, l[n], rfl, List.getElem?_eq_getElem hn, hn, rfl, rfl⟩

theorem checkBoth_cases (i j : Int) : (∃ a b : Nat, i = a ∧ j = b ∧ a ≤ b ∧ b ≤ l.length ∧ checkBoth l i j = .ok () ∧
      Knuckle.checkRange l.length i j = .ok ()) ∨
    (checkBoth l i j = .throws .invalidArgument ∧ Knuckle.checkRange l.length i j = .err .invalidArgument) := by
  unfold checkBoth Knuckle.checkRange
  rw [count_eq hl]
  by_cases h1 : (decide (i < 0) || decide (i > (l.length : Int))) = true
  · right; rw [if_pos h1, if_pos h1]; exact ⟨rfl, rfl⟩
  by_cases h2 : (decide (j < 0) || decide (j > (l.length : Int))) = true
  · right; rw [if_neg h1, if_neg h1, if_pos h2, if_pos h2]; exact ⟨rfl, rfl⟩
  rw [if_neg h1, if_neg h1, if_neg h2, if_neg h2]
  simp at h1 h2
  rw [int_ok (by omega) (by omega), bind_def, bind_ok]
  by_cases h3 : j - i < 0
  · right; rw [if_pos h3, if_pos h3]; exact ⟨rfl, rfl⟩
  left
  obtain ⟨a, rfl⟩ := Int.eq_ofNat_of_zero_le h1.1
  obtain ⟨b, rfl⟩ := Int.eq_ofNat_of_zero_le h2.1
  exact ⟨a, b, rfl, rfl, by omega, by omega, if_neg h3, if_neg h3⟩

end

theorem vecContains_eq (cfg : Cfg) (t : Str) (l : List Obj) (args : List Str) (ha : ∀ a ∈ args, Fits a) :
    vecContains cfg t l args = fromRun (Knuckle.vecContains cfg t l args) := by
  refine op1_eq args ha fun a h => ?_
  rw [getSharedInstance_eq t h]
  exact lift_step fun o => lift_step fun k => rfl

theorem countLoop_eq (eps : Fl) (o : Obj) : ∀ (l : List Obj) (n : Nat), n + l.length < 2147483648 →
    countLoop eps o l n = (lift (Knuckle.countLoop eps o l n)).bind fun m => .ok ((m : Nat) : Int) := by
  intro l
  induction l with
  | nil => intro n _; rfl
  | cons x xs ih =>
    intro n hn
    rw [List.length_cons] at hn
    rw [countLoop, Knuckle.countLoop]
    cases equalTo eps x o with
    | err e => rfl
    | ub => rfl
    | ok b =>
      rw [lift_ok, bind_def, bind_ok, Res.bind_ok]
      cases b with
      | false => exact ih n (by omega)
      | true =>
        simp only [if_true]
        rw [int_ok (by omega) (by omega), bind_def, bind_ok]
        exact ih (n + 1) (by omega)

theorem findFrom_le (eps : Fl) (o : Obj) : ∀ (l : List Obj) (n k : Nat), findFrom eps o l n = .ok (some k) → k < n + l.length := by
  intro l
  induction l with
  | nil => intro n k h; cases h
  | cons x xs ih =>
    intro n k h
    rw [findFrom] at h
    rw [List.length_cons]
    cases he : equalTo eps x o with
    | err e => rw [he] at h; cases h
    | ub => rw [he] at h; cases h
    | ok b =>
      rw [he, Res.bind_ok] at h
      cases b with
      | true => cases h; omega
      | false => have := ih (n + 1) k h; omega

theorem indexReply_eq (eps : Fl) (o : Obj) (l : List Obj) (n : Nat) (hn : n + l.length ≤ 2147483648) {k : Option Nat} (h : findFrom eps o l n = .ok k) :
    indexReply k = Knuckle.indexReply k := by
  cases k with
  | none => rfl
  | some k =>
    have := findFrom_le eps o l n k h
    show intStr (toInt k) = intStr k
    unfold toInt
    rw [Nat.mod_eq_of_lt (by omega), if_pos (by omega)]

theorem lift_cases {α β : Type} {x : Res α} {f : α → Ix β} {g : α → Res β} (h : ∀ a, x = .ok a → f a = lift (g a)) : (lift x >>= f) = lift (x >>= g) := by
  rw [lift_bind, bind_def]
  cases x with
  | ok a => exact h a rfl
  | err e => rfl
  | ub => rfl

section
variable {l : List Obj} (hl : l.length < 2147483648)
include hl

theorem vecContainsFrom_eq (cfg : Cfg) (t : Str) (args : List Str) (ha : ∀ a ∈ args, Fits a) :
    vecContainsFrom cfg t l args = fromRun (Knuckle.vecContainsFrom cfg t l args) := by
  refine op2_eq args ha fun a b h h' => ?_
  rw [getSharedInstance_eq t h]
  refine lift_step fun o => ?_
  rw [integerLit_eq h']
  refine lift_step fun i => ?_
  rcases checkFrom_cases hl i with ⟨n, rfl, hn, e1, e2⟩ | ⟨e1, e2⟩
  · rw [e1, e2, bind_def, bind_ok, begin_nat hn, bind_def, bind_ok, Res.bind_ok, Int.toNat_natCast]
    exact lift_step fun k => rfl
  · rw [e1, e2]; rfl

theorem vecCount_eq (cfg : Cfg) (t : Str) (args : List Str) (ha : ∀ a ∈ args, Fits a) :
    vecCount cfg t l args = fromRun (Knuckle.vecCount cfg t l args) := by
  refine op1_eq args ha fun a h => ?_
  rw [getSharedInstance_eq t h]
  refine lift_step fun o => ?_
  rw [show (0 : Int) = ((0 : Nat) : Int) from rfl, countLoop_eq cfg.eps o l 0 (by omega)]
  cases Knuckle.countLoop cfg.eps o l 0 with
  | ok n => rfl
  | err e => rfl
  | ub => rfl

theorem vecAtIndex_eq (hf : FitsAll l) (cfg : Cfg) (args : List Str) (ha : ∀ a ∈ args, Fits a) :
    vecAtIndex cfg l args = fromRun (Knuckle.vecAtIndex cfg l args) := by
  refine op1_eq args ha fun a h => ?_
  rw [integerLit_eq h]
  refine lift_step fun i => ?_
  rcases checkAt_cases hl i with ⟨n, o, rfl, ho, hn, e1, e2⟩ | ⟨e1, e2⟩
  · rw [e1, e2, bind_def, bind_ok, elem_nat ho, bind_def, bind_ok, repr_eq _ (hf o (List.mem_of_getElem? ho)), bind_def, bind_ok, Res.bind_ok, Int.toNat_natCast, ho]
    rfl
  · rw [e1, e2]; rfl

theorem vecFirstIndexOf_eq (cfg : Cfg) (t : Str) (args : List Str) (ha : ∀ a ∈ args, Fits a) :
    vecFirstIndexOf cfg t l args = fromRun (Knuckle.vecFirstIndexOf cfg t l args) := by
  refine op1_eq args ha fun a h => ?_
  rw [getSharedInstance_eq t h]
  refine lift_step fun o => ?_
  refine lift_cases fun k hk => ?_
  rw [indexReply_eq _ _ _ _ (by omega) hk]; rfl

theorem vecFirstIndexOfFrom_eq (cfg : Cfg) (t : Str) (args : List Str) (ha : ∀ a ∈ args, Fits a) :
    vecFirstIndexOfFrom cfg t l args = fromRun (Knuckle.vecFirstIndexOfFrom cfg t l args) := by
  refine op2_eq args ha fun a b h h' => ?_
  rw [getSharedInstance_eq t h]
  refine lift_step fun o => ?_
  rw [integerLit_eq h']
  refine lift_step fun i => ?_
  rcases checkFrom_cases hl i with ⟨n, rfl, hn, e1, e2⟩ | ⟨e1, e2⟩
  · rw [e1, e2, bind_def, bind_ok, begin_nat hn, bind_def, bind_ok, Res.bind_ok, Int.toNat_natCast]
    refine lift_cases fun k hk => ?_
    rw [indexReply_eq _ _ _ _ (by rw [List.length_drop]; omega) hk]; rfl
  · rw [e1, e2]; rfl

theorem vecFirst_eq (hf : FitsAll l) (cfg : Cfg) (args : List Str) (ha : ∀ a ∈ args, Fits a) :
    vecFirst cfg l args = fromRun (Knuckle.vecFirst cfg l args) := by
  refine op1_eq args ha fun a h => ?_
  rw [integerLit_eq h]
  refine lift_step fun i => ?_
  rw [lift_ite, lift_err]
  split
  · rfl
  rename_i hc
  obtain ⟨n, rfl⟩ := Int.eq_ofNat_of_zero_le (Int.not_lt.1 hc)
  rw [count_eq hl, show min ((n : Nat) : Int) (l.length : Int) = ((min n l.length : Nat) : Int) by omega, begin_nat (by omega), bind_def, bind_ok,
    between_le (by omega), bind_def, bind_ok, List.drop_zero, vectorRepr_eq _ (fitsAll_take hf _), bind_def, bind_ok, Int.toNat_natCast]
  rfl

theorem vecLast_eq (hf : FitsAll l) (cfg : Cfg) (args : List Str) (ha : ∀ a ∈ args, Fits a) :
    vecLast cfg l args = fromRun (Knuckle.vecLast cfg l args) := by
  refine op1_eq args ha fun a h => ?_
  rw [integerLit_eq h]
  refine lift_step fun i => ?_
  rw [lift_ite, lift_err]
  split
  · rfl
  rename_i hc
  obtain ⟨n, rfl⟩ := Int.eq_ofNat_of_zero_le (Int.not_lt.1 hc)
  rw [count_eq hl, show min ((n : Nat) : Int) (l.length : Int) = ((min n l.length : Nat) : Int) by omega]
  unfold endMinus
  rw [if_pos (by omega), bind_def, bind_ok, between_le (by omega), bind_def, bind_ok, List.take_length, vectorRepr_eq _ (fitsAll_drop hf _), bind_def, bind_ok]
  rfl

theorem vecSlice_eq (hf : FitsAll l) (cfg : Cfg) (args : List Str) (ha : ∀ a ∈ args, Fits a) :
    vecSlice cfg l args = fromRun (Knuckle.vecSlice cfg l args) := by
  refine op1_eq args ha fun a h => ?_
  rw [integerLit_eq h]
  refine lift_step fun i => ?_
  rcases checkFrom_cases hl i with ⟨n, rfl, hn, e1, e2⟩ | ⟨e1, e2⟩
  · rw [e1, e2, bind_def, bind_ok, begin_nat hn, bind_def, bind_ok, between_le hn, bind_def, bind_ok, List.take_length, vectorRepr_eq _ (fitsAll_drop hf _),
      bind_def, bind_ok, Res.bind_ok, Int.toNat_natCast]
    rfl
  · rw [e1, e2]; rfl

theorem vecSliceTo_eq (hf : FitsAll l) (cfg : Cfg) (args : List Str) (ha : ∀ a ∈ args, Fits a) :
    vecSliceTo cfg l args = fromRun (Knuckle.vecSliceTo cfg l args) := by
  refine op2_eq args ha fun a b h h' => ?_
  rw [integerLit_eq h]
  refine lift_step fun i => ?_
  rw [integerLit_eq h']
  refine lift_step fun j => ?_
  rcases checkBoth_cases hl i j with ⟨m, n, rfl, rfl, hmn, hn, e1, e2⟩ | ⟨e1, e2⟩
  · rw [e1, e2, bind_def, bind_ok, begin_nat (by omega), bind_def, bind_ok, begin_nat hn, bind_def, bind_ok, between_le hmn, bind_def, bind_ok,
      vectorRepr_eq _ (fitsAll_drop (fitsAll_take hf _) _), bind_def, bind_ok, Res.bind_ok, Int.toNat_natCast, Int.toNat_natCast]
    rfl
  · rw [e1, e2]; rfl

theorem vecPopBack_eq (hf : FitsAll l) (cfg : Cfg) (args : List Str) : vecPopBack cfg l args = fromRun (Knuckle.vecPopBack cfg l args) := by
  refine op0_eq ?_ args
  rw [lift_ite]
  split
  · rfl
  rename_i hc
  have h0 : l.length ≠ 0 := by simpa using hc
  have hn : l.length - 1 < l.length := by omega
  have ho := List.getElem?_eq_getElem hn
  rw [count_eq hl, int_ok (by omega) (by omega), bind_def, bind_ok, show (l.length : Int) - 1 = ((l.length - 1 : Nat) : Int) by omega, elem_nat ho,
    bind_def, bind_ok, repr_eq _ (hf _ (List.mem_of_getElem? ho)), bind_def, bind_ok, ho]
  rfl

theorem vecPopFront_eq (hf : FitsAll l) (cfg : Cfg) (args : List Str) : vecPopFront cfg l args = fromRun (Knuckle.vecPopFront cfg l args) := by
  refine op0_eq ?_ args
  rw [lift_ite]
  split
  · rfl
  rename_i hc
  have h0 : l.length ≠ 0 := by simpa using hc
  have hn : 0 < l.length := by omega
  have ho := List.getElem?_eq_getElem hn
  rw [show (0 : Int) = ((0 : Nat) : Int) from rfl, elem_nat ho, bind_def, bind_ok, begin_nat (by omega), bind_def, bind_ok, eraseOne_lt hn, bind_def, bind_ok,
    repr_eq _ (hf _ (List.mem_of_getElem? ho)), bind_def, bind_ok, ho]
  rfl

theorem vecPopAtIndex_eq (hf : FitsAll l) (cfg : Cfg) (args : List Str) (ha : ∀ a ∈ args, Fits a) :
    vecPopAtIndex cfg l args = fromRun (Knuckle.vecPopAtIndex cfg l args) := by
  refine op1_eq args ha fun a h => ?_
  rw [integerLit_eq h]
  refine lift_step fun i => ?_
  rcases checkAt_cases hl i with ⟨n, o, rfl, ho, hn, e1, e2⟩ | ⟨e1, e2⟩
  · rw [e1, e2, bind_def, bind_ok, elem_nat ho, bind_def, bind_ok, begin_nat (by omega), bind_def, bind_ok, eraseOne_lt hn, bind_def, bind_ok,
      repr_eq _ (hf o (List.mem_of_getElem? ho)), bind_def, bind_ok, Res.bind_ok, Int.toNat_natCast, ho]
    rfl
  · rw [e1, e2]; rfl

theorem vecInsert_eq (t : Str) (args : List Str) (ha : ∀ a ∈ args, Fits a) : vecInsert t l args = fromRun (Knuckle.vecInsert t l args) := by
  refine op2_eq args ha fun a b h h' => ?_
  rw [getSharedInstance_eq t h]
  refine lift_step fun o => ?_
  rw [integerLit_eq h']
  refine lift_step fun i => ?_
  rcases checkFrom_cases hl i with ⟨n, rfl, hn, e1, e2⟩ | ⟨e1, e2⟩
  · rw [e1, e2, bind_def, bind_ok, begin_nat hn, bind_def, bind_ok, Res.bind_ok, Int.toNat_natCast]; rfl
  · rw [e1, e2]; rfl

theorem vecErase_eq (args : List Str) (ha : ∀ a ∈ args, Fits a) : vecErase l args = fromRun (Knuckle.vecErase l args) := by
  refine op1_eq args ha fun a h => ?_
  rw [integerLit_eq h]
  refine lift_step fun i => ?_
  rcases checkFrom_cases hl i with ⟨n, rfl, hn, e1, e2⟩ | ⟨e1, e2⟩
  · rw [e1, e2, bind_def, bind_ok, begin_nat hn, bind_def, bind_ok, eraseBetween_le hn, bind_def, bind_ok, Res.bind_ok, Int.toNat_natCast, List.drop_length,
      List.append_nil]
    rfl
  · rw [e1, e2]; rfl

theorem vecEraseTo_eq (args : List Str) (ha : ∀ a ∈ args, Fits a) : vecEraseTo l args = fromRun (Knuckle.vecEraseTo l args) := by
  refine op2_eq args ha fun a b h h' => ?_
  rw [integerLit_eq h]
  refine lift_step fun i => ?_
  rw [integerLit_eq h']
  refine lift_step fun j => ?_
  rcases checkBoth_cases hl i j with ⟨m, n, rfl, rfl, hmn, hn, e1, e2⟩ | ⟨e1, e2⟩
  · rw [e1, e2, bind_def, bind_ok, begin_nat (by omega), bind_def, bind_ok, begin_nat hn, bind_def, bind_ok, eraseBetween_le hmn, bind_def, bind_ok,
      Res.bind_ok, Int.toNat_natCast, Int.toNat_natCast]
    rfl
  · rw [e1, e2]; rfl

theorem vecRemoveFirstFrom_eq (cfg : Cfg) (t : Str) (args : List Str) (ha : ∀ a ∈ args, Fits a) :
    vecRemoveFirstFrom cfg t l args = fromRun (Knuckle.vecRemoveFirstFrom cfg t l args) := by
  refine op2_eq args ha fun a b h h' => ?_
  rw [getSharedInstance_eq t h]
  refine lift_step fun o => ?_
  rw [integerLit_eq h']
  refine lift_step fun i => ?_
  rcases checkFrom_cases hl i with ⟨n, rfl, hn, e1, e2⟩ | ⟨e1, e2⟩
  · rw [e1, e2, bind_def, bind_ok, begin_nat hn, bind_def, bind_ok, Res.bind_ok, Int.toNat_natCast]
    exact lift_step fun k => rfl
  · rw [e1, e2]; rfl

end

theorem removeLoop_eq (eps : Fl) (o : Obj) : ∀ (suf pre : List Obj), pre.length + suf.length < 2147483648 →
    ((removeLoop eps o pre.length (pre ++ suf)).bind fun t => .ok (t, b!"null")) = fromRun (removeAllLoop eps o pre suf) := by
  intro suf
  induction suf with
  | nil =>
    intro pre h
    have hb : removeBody eps o pre.length (pre ++ []) = .ok none := by
      unfold removeBody
      rw [List.append_nil, count_eq (by simpa using h), if_neg (by omega)]
    rw [removeLoop, hb]
    simp [removeAllLoop, fromRun]
  | cons x xs ih =>
    intro pre h
    rw [List.length_cons] at h
    have hx : (pre ++ x :: xs)[pre.length]? = some x := by simp
    have hlen : (pre ++ x :: xs).length = pre.length + (xs.length + 1) := by simp
    rw [removeLoop, removeAllLoop]
    have hb : removeBody eps o pre.length (pre ++ x :: xs) = (lift (equalTo eps x o)).bind fun b =>
        if b then .ok (some ((pre.length : Int), pre ++ xs)) else .ok (some (((pre ++ [x]).length : Int), pre ++ x :: xs)) := by
      unfold removeBody
      rw [count_eq (by omega), if_pos (by omega), elem_nat hx, bind_def, bind_ok]
      cases equalTo eps x o with
      | err e => rw [lift_err, bind_def, bind_throws, bind_throws]
      | ub => rw [lift_ub, bind_def, bind_ub, bind_ub]
      | ok b =>
        rw [lift_ok, bind_def, bind_ok, bind_ok]
        cases b with
        | false =>
          rw [if_neg (by simp), if_neg (by simp), int_ok (by omega) (by omega), bind_def, bind_ok]
          simp
        | true =>
          rw [if_pos rfl, if_pos rfl, begin_nat (by omega), bind_def, bind_ok, eraseOne_lt (by omega), bind_def, bind_ok, int_ok (by omega) (by omega),
            bind_def, bind_ok, int_ok (by omega) (by omega), bind_def, bind_ok, Int.sub_add_cancel]
          simp
    rw [hb]
    cases equalTo eps x o with
    | err e => rfl
    | ub => rfl
    | ok b =>
      rw [lift_ok, bind_ok]
      cases b with
      | true =>
        simp only [if_true]
        rw [if_pos (by simp only [List.length_append, List.length_cons]; omega)]
        exact ih pre (by omega)
      | false =>
        simp only [Bool.false_eq_true, if_false]
        rw [if_pos (by simp only [List.length_append, List.length_cons, List.length_nil]; omega), show pre ++ x :: xs = (pre ++ [x]) ++ xs by simp]
        exact ih (pre ++ [x]) (by simp only [List.length_append, List.length_cons, List.length_nil]; omega)

theorem replaceLoop_eq (eps : Fl) (t : Str) {b : Str} (hb : Fits b) (o : Obj) : ∀ (suf pre : List Obj), pre.length + suf.length < 2147483648 →
    replaceLoop eps t b o pre.length (pre ++ suf) = lift (replaceFirstLoop eps t b o pre suf) := by
  intro suf
  induction suf with
  | nil =>
    intro pre h
    unfold replaceLoop
    rw [up_stop (b := pre) (by rw [List.append_nil, count_eq (by simpa using h), if_neg (by omega)])]
    rfl
  | cons x xs ih =>
    intro pre h
    rw [List.length_cons] at h
    have hx : (pre ++ x :: xs)[pre.length]? = some x := by simp
    have hlen : (pre ++ x :: xs).length = pre.length + (xs.length + 1) := by simp
    unfold replaceLoop
    rw [replaceFirstLoop, up, count_eq (by omega), if_pos (by omega), elem_nat hx, bind_def, bind_ok]
    cases he : equalTo eps x o with
    | err e => rfl
    | ub => rfl
    | ok e =>
      rw [lift_ok, bind_def, bind_ok, Res.bind_ok]
      cases e with
      | true =>
        rw [if_pos rfl, if_pos rfl, getSharedInstance_eq t hb]
        cases Knuckle.getSharedInstance t b with
        | err e => rfl
        | ub => rfl
        | ok n =>
          rw [lift_ok, bind_def, bind_ok, Res.bind_ok]
          unfold assign
          rw [toSize_nat, if_pos (by omega), bind_def, bind_ok]
          simp
      | false =>
        rw [if_neg (by simp), if_neg (by simp)]
        simp only []
        rw [if_pos (by omega), show pre ++ x :: xs = (pre ++ [x]) ++ xs by simp, show (pre.length : Int) + 1 = ((pre ++ [x]).length : Int) by simp]
        exact ih (pre ++ [x]) (by simp only [List.length_append, List.length_cons, List.length_nil]; omega)

theorem replaceEach_eq (eps : Fl) (t : Str) {b : Str} (hb : Fits b) (o : Obj) (l : List Obj) (hl : l.length < 2147483648) :
    ((replaceEach eps t b o l).bind fun t => .ok (t, b!"null")) = fromRun (replaceAllLoop eps t b o [] l) := by
  unfold replaceEach
  suffices h : ∀ (suf pre : List Obj), pre.length + suf.length < 2147483648 →
      ((up (replaceBody eps t b o) (pre.length : Int) (pre ++ suf)).bind fun t => Ix.ok (t, b!"null")) = fromRun (replaceAllLoop eps t b o pre suf) from
    h l [] (by simpa using hl)
  intro suf
  induction suf with
  | nil =>
    intro pre h
    rw [up_stop (b := pre) (by rw [replaceBody, List.append_nil, count_eq (by simpa using h), if_neg (by omega)])]
    rfl
  | cons x xs ih =>
    intro pre h
    rw [List.length_cons] at h
    have hx : (pre ++ x :: xs)[pre.length]? = some x := by simp
    have hlen : (pre ++ x :: xs).length = pre.length + (xs.length + 1) := by simp
    have hb : replaceBody eps t b o pre.length (pre ++ x :: xs) = (lift (equalTo eps x o)).bind fun e =>
        if e then (lift (Knuckle.getSharedInstance t b)).bind fun n => .ok (.next ((pre ++ [n]) ++ xs)) else .ok (.next ((pre ++ [x]) ++ xs)) := by
      rw [replaceBody, count_eq (by omega), if_pos (by omega), elem_nat hx, bind_def, bind_ok, getSharedInstance_eq t hb]
      cases equalTo eps x o with
      | err e => rfl
      | ub => rfl
      | ok e =>
        rw [lift_ok, bind_def, bind_ok, bind_ok]
        cases e with
        | false => rw [if_neg (by simp), if_neg (by simp)]; simp
        | true =>
          rw [if_pos rfl, if_pos rfl]
          cases Knuckle.getSharedInstance t b with
          | err e => rfl
          | ub => rfl
          | ok n =>
            rw [lift_ok, bind_def, bind_ok, bind_ok]
            unfold assign
            rw [toSize_nat, if_pos (by omega), bind_def, bind_ok]
            simp
    rw [replaceAllLoop, up, hb]
    cases he : equalTo eps x o with
    | err e => rfl
    | ub => rfl
    | ok e =>
      rw [lift_ok, bind_ok]
      cases e with
      | true =>
        rw [if_pos rfl]
        cases Knuckle.getSharedInstance t b with
        | err e => rfl
        | ub => rfl
        | ok n =>
          rw [lift_ok, bind_ok]
          simp only []
          rw [if_pos (by omega), show (pre.length : Int) + 1 = ((pre ++ [n]).length : Int) by simp]
          exact ih (pre ++ [n]) (by simp only [List.length_append, List.length_cons, List.length_nil]; omega)
      | false =>
        rw [if_neg (by simp)]
        simp only []
        rw [if_pos (by omega), show (pre.length : Int) + 1 = ((pre ++ [x]).length : Int) by simp]
        exact ih (pre ++ [x]) (by simp only [List.length_append, List.length_cons, List.length_nil]; omega)

section
variable {l : List Obj} (hl : l.length < 2147483648)
include hl

theorem vecRemoveAll_eq (cfg : Cfg) (t : Str) (args : List Str) (ha : ∀ a ∈ args, Fits a) :
    vecRemoveAll cfg t l args = fromRun (Knuckle.vecRemoveAll cfg t l args) := by
  match args, ha with
  | [], _ => rfl
  | a :: b :: c, _ => rfl
  | [a], ha =>
    rw [vecRemoveAll, op1, Knuckle.vecRemoveAll, getSharedInstance_eq t (ha a (by simp))]
    cases Knuckle.getSharedInstance t a with
    | err e => rfl
    | ub => rfl
    | ok o => rw [lift_ok, bind_def, bind_ok]; exact removeLoop_eq cfg.eps o l [] (by simpa using hl)

theorem vecReplaceAll_eq (cfg : Cfg) (t : Str) (args : List Str) (ha : ∀ a ∈ args, Fits a) :
    vecReplaceAll cfg t l args = fromRun (Knuckle.vecReplaceAll cfg t l args) := by
  match args, ha with
  | [], _ => rfl
  | [a], _ => rfl
  | a :: b :: c :: d, _ => rfl
  | [a, b], ha =>
    rw [vecReplaceAll, op2, Knuckle.vecReplaceAll, getSharedInstance_eq t (ha a (by simp)), getSharedInstance_eq t (ha b (by simp))]
    cases Knuckle.getSharedInstance t a with
    | err e => rfl
    | ub => rfl
    | ok o =>
      rw [lift_ok, bind_def, bind_ok]
      cases Knuckle.getSharedInstance t b with
      | err e => rfl
      | ub => rfl
      | ok r => rw [lift_ok, bind_def, bind_ok]; exact replaceEach_eq cfg.eps t (ha b (by simp)) o l hl

theorem vecReplaceFirst_eq (cfg : Cfg) (t : Str) (args : List Str) (ha : ∀ a ∈ args, Fits a) :
    vecReplaceFirst cfg t l args = fromRun (Knuckle.vecReplaceFirst cfg t l args) := by
  refine op2_eq args ha fun a b h h' => ?_
  rw [getSharedInstance_eq t h]
  refine lift_step fun o => ?_
  rw [getSharedInstance_eq t h']
  refine lift_step fun _ => ?_
  rw [show (0 : Int) = (([] : List Obj).length : Int) from rfl]
  have := replaceLoop_eq cfg.eps t h' o l [] (by simpa using hl)
  rw [List.nil_append] at this
  rw [this]
  exact lift_step fun k => rfl

theorem vecReplaceFirstFrom_eq (cfg : Cfg) (t : Str) (args : List Str) (ha : ∀ a ∈ args, Fits a) :
    vecReplaceFirstFrom cfg t l args = fromRun (Knuckle.vecReplaceFirstFrom cfg t l args) := by
  refine op3_eq args ha fun a b c h h' h'' => ?_
  rw [getSharedInstance_eq t h]
  refine lift_step fun o => ?_
  rw [getSharedInstance_eq t h'']
  refine lift_step fun _ => ?_
  rw [integerLit_eq h']
  refine lift_step fun i => ?_
  rcases checkFrom_cases hl i with ⟨n, rfl, hn, e1, e2⟩ | ⟨e1, e2⟩
  · rw [e1, e2, bind_def, bind_ok, Res.bind_ok, Int.toNat_natCast]
    have := replaceLoop_eq cfg.eps t h'' o (l.drop n) (l.take n) (by rw [List.length_take, List.length_drop]; omega)
    rw [List.take_append_drop, List.length_take, Nat.min_eq_left hn] at this
    rw [this]
    exact lift_step fun k => rfl
  · rw [e1, e2]; rfl

theorem vecReceive_eq [StdSort] (hf : FitsAll l) (cfg : Cfg) (t name : Str) (args : List Str) (ha : ∀ a ∈ args, Fits a) :
    vecReceive cfg t l name args = fromRun (dispatch l (Knuckle.vectorTable cfg t l) name args) := by
  unfold vecReceive vectorTable Knuckle.vectorTable
  refine find_cons (op0_eq (by rw [vectorRepr_eq _ hf]; rfl) _) ?_
  refine find_cons (op0_eq (by rfl) _) ?_
  refine find_cons (vecContains_eq _ _ _ _ ha) (find_cons (vecContainsFrom_eq hl _ _ _ ha) (find_cons (vecCount_eq hl _ _ _ ha)
    (find_cons (vecAtIndex_eq hl hf _ _ ha) (find_cons (vecFirstIndexOf_eq hl _ _ _ ha) (find_cons (vecFirstIndexOfFrom_eq hl _ _ _ ha) ?_)))))
  refine find_cons (op1_eq _ ha fun a h => by rw [getSharedInstance_eq t h]; exact lift_step fun o => lift_step fun k => rfl) ?_
  refine find_cons (op0_eq (by rw [count_eq hl]; rfl) _) ?_
  refine find_cons (vecFirst_eq hl hf _ _ ha) (find_cons (vecLast_eq hl hf _ _ ha) (find_cons (vecSlice_eq hl hf _ _ ha) (find_cons (vecSliceTo_eq hl hf _ _ ha) ?_)))
  refine find_cons (op1_eq _ ha fun a h => by rw [getSharedInstance_eq t h]; exact lift_step fun o => rfl) ?_
  refine find_cons (op1_eq _ ha fun a h => by rw [getSharedInstance_eq t h]; exact lift_step fun o => rfl) ?_
  refine find_cons (vecPopBack_eq hl hf _ _) (find_cons (vecPopFront_eq hl hf _ _) (find_cons (vecPopAtIndex_eq hl hf _ _ ha) (find_cons (vecInsert_eq hl _ _ ha)
    (find_cons (vecErase_eq hl _ ha) (find_cons (vecEraseTo_eq hl _ ha) ?_)))))
  refine find_cons (op1_eq _ ha fun a h => by rw [getSharedInstance_eq t h]; exact lift_step fun o => lift_step fun k => rfl) ?_
  refine find_cons (vecRemoveFirstFrom_eq hl _ _ _ ha) (find_cons (vecRemoveAll_eq hl _ _ _ ha) (find_cons (vecReplaceFirst_eq hl _ _ _ ha)
    (find_cons (vecReplaceFirstFrom_eq hl _ _ _ ha) (find_cons (vecReplaceAll_eq hl _ _ _ ha) ?_))))
  refine find_cons (op0_eq (by rw [lift_ite, lift_ite]; rfl) _) ?_
  exact find_cons (op0_eq (by rfl) _) (find_cons (op0_eq (by rfl) _) rfl)

end

end Knuckle.Idx

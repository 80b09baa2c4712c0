/-
The index model of strings and the list model agree on strings shorter than 2^31 bytes; longer strings.
-/
import Verif.Model.IndexedString
import Verif.Proofs.IndexedParser
import Verif.Proofs.Scalars
import Verif.Proofs.Storage
import Verif.Spec.LongStrings

namespace Knuckle.Idx

theorem lift_bind {α β : Type} (x : Res α) (f : α → Res β) : lift (x >>= f) = (lift x).bind fun a => lift (f a) := by
  cases x <;> rfl

@[simp] theorem lift_ok {α : Type} (a : α) : lift (Res.ok a) = .ok a := rfl
@[simp] theorem lift_err {α : Type} (e : Exc) : lift (Res.err e : Res α) = .throws e := rfl

theorem lift_ite {α : Type} (c : Prop) [Decidable c] (x y : Res α) : lift (if c then x else y) = if c then lift x else lift y := by split <;> rfl

/-- The end of an operator of the list model, as one of this model. -/
def fromRun {σ : Type} : Run σ → Ix (σ × Str)
  | .ret s r => .ok (s, r)
  | .thr _ e => .throws e
  | .ub => .ub

theorem fromRun_run {σ : Type} (v : σ) (x : Res (σ × Str)) : fromRun (x.run v) = lift x := by
  cases x <;> rfl

theorem op0_eq {σ : Type} {v : σ} {f : Ix (σ × Str)} {g : Res (σ × Str)} (h : f = lift g) (args : List Str) :
    op0 f args = fromRun (Knuckle.op0 v g args) := by
  cases args with
  | nil => rw [op0, Knuckle.op0, fromRun_run, h]
  | cons a l => rfl

theorem op1_eq {σ : Type} {v : σ} {f : Str → Ix (σ × Str)} {g : Str → Res (σ × Str)} (args : List Str) (ha : ∀ a ∈ args, Fits a)
    (h : ∀ a, Fits a → f a = lift (g a)) : op1 f args = fromRun (Knuckle.op1 v g args) := by
  match args with
  | [] => rfl
  | [a] => rw [op1, Knuckle.op1, fromRun_run, h a (ha a (by simp))]
  | a :: b :: l => rfl

theorem op2_eq {σ : Type} {v : σ} {f : Str → Str → Ix (σ × Str)} {g : Str → Str → Res (σ × Str)} (args : List Str) (ha : ∀ a ∈ args, Fits a)
    (h : ∀ a b, Fits a → Fits b → f a b = lift (g a b)) : op2 f args = fromRun (Knuckle.op2 v g args) := by
  match args with
  | [] => rfl
  | [a] => rfl
  | [a, b] => rw [op2, Knuckle.op2, fromRun_run, h a b (ha a (by simp)) (ha b (by simp))]
  | a :: b :: c :: l => rfl

theorem op3_eq {σ : Type} {v : σ} {f : Str → Str → Str → Ix (σ × Str)} {g : Str → Str → Str → Res (σ × Str)} (args : List Str) (ha : ∀ a ∈ args, Fits a)
    (h : ∀ a b c, Fits a → Fits b → Fits c → f a b c = lift (g a b c)) : op3 f args = fromRun (Knuckle.op3 v g args) := by
  match args with
  | [] => rfl
  | [a] => rfl
  | [a, b] => rfl
  | [a, b, c] => rw [op3, Knuckle.op3, fromRun_run, h a b c (ha a (by simp)) (ha b (by simp)) (ha c (by simp))]
  | a :: b :: c :: d :: l => rfl

theorem numArg_eq {s : Str} (hs : Fits s) : numArg s = lift (Knuckle.numArg s) := by
  unfold numArg Knuckle.numArg
  rw [isIntegerValue_eq hs, bind_def, bind_ok, lift_ite, lift_ok]

theorem integerLit_eq {s : Str} (hs : Fits s) : integerLit s = lift (Knuckle.integerLit s) := by
  unfold integerLit Knuckle.integerLit
  rw [isIntegerValue_eq hs, isFloatValue_eq hs, not_ok, not_ok, and_ok_ok, bind_def, bind_ok, lift_ite, lift_err, lift_bind, numArg_eq hs, bind_def]

theorem stringLit_eq {s : Str} (hs : Fits s) : stringLit s = lift (Knuckle.stringLit s) := by
  have hs' : s.length < 2147483648 := hs
  unfold stringLit Knuckle.stringLit unquote
  rw [isStringValue_eq hs, not_ok, bind_def, bind_ok, lift_ite, lift_err, lift_ok]
  by_cases h : Knuckle.isStringValue s = true
  · rw [h, if_neg (by simp), if_neg (by simp)]
    have h2 : 2 ≤ s.length := by
      unfold Knuckle.isStringValue at h
      by_contra hc
      rw [if_pos (by omega)] at h
      cases h
    rw [size_eq hs, int_ok (by omega) (by omega), bind_def, bind_ok, show (1 : Int) = ((1 : Nat) : Int) from rfl,
      show (s.length : Int) - 2 = ((s.length - 2 : Nat) : Int) by omega, substr2_nat (by omega), bind_def, bind_ok,
      unescape_eq (fits_take (fits_drop hs _) _)]
    rfl
  · rw [if_pos (by simpa using h), if_pos (by simpa using h)]

theorem characterLit_eq (s : Str) : characterLit s = lift (Knuckle.characterLit s) := by
  unfold characterLit Knuckle.characterLit
  rw [isCharacterValue_eq, not_ok, bind_def, bind_ok, lift_ite, lift_err, lift_ok]
  by_cases h : Knuckle.isCharacterValue s = true
  · rw [h, if_neg (by simp), if_neg (by simp)]
    have h2 : s.length = 3 := by
      unfold Knuckle.isCharacterValue at h
      by_contra hc
      simp [hc] at h
    rw [show (1 : Int) = ((1 : Nat) : Int) from rfl, at_nat (by omega)]
  · rw [if_pos (by simpa using h), if_pos (by simpa using h)]

theorem quoted_eq {v : Str} (hv : Fits v) : quoted v = .ok (Knuckle.quoted v) := by
  unfold quoted Knuckle.quoted
  rw [escape_eq hv, bind_def, bind_ok]

theorem bind_throws {α β : Type} (e : Exc) (f : α → Ix β) : (Ix.throws e : Ix α).bind f = .throws e := rfl

theorem bind_ub {α β : Type} (f : α → Ix β) : (Ix.ub : Ix α).bind f = .ub := rfl

/-- After the same first step. -/
theorem lift_step {α β : Type} {x : Res α} {f : α → Ix β} {g : α → Res β} (h : ∀ a, f a = lift (g a)) : (lift x >>= f) = lift (x >>= g) := by
  rw [lift_bind, bind_def]
  cases x with
  | ok a => exact h a
  | err e => rfl
  | ub => rfl

theorem substrR_zero (v : Str) (n : Nat) : substrR v 0 n = .ok (v.take n) := by simp [substrR]

theorem substrR_le {v : Str} {p n : Nat} (h : p ≤ v.length) : substrR v p n = .ok ((v.drop p).take n) := by
  unfold substrR; rw [if_neg (by omega)]

section
variable {v : Str} (hv : Fits v)
include hv

theorem strAtIndex_eq (args : List Str) (ha : ∀ a ∈ args, Fits a) : strAtIndex v args = fromRun (Knuckle.strAtIndex v args) := by
  refine op1_eq args ha fun a h => ?_
  rw [integerLit_eq h]
  refine lift_step fun i => ?_
  rw [size_eq hv, lift_ite, lift_err, lift_ok]
  split
  · rfl
  rename_i hc
  simp at hc
  obtain ⟨n, rfl⟩ := Int.eq_ofNat_of_zero_le hc.1
  rw [at_nat (by omega), bind_def, bind_ok]
  rfl

theorem strFirst_eq (args : List Str) (ha : ∀ a ∈ args, Fits a) : strFirst v args = fromRun (Knuckle.strFirst v args) := by
  refine op1_eq args ha fun a h => ?_
  rw [integerLit_eq h]
  refine lift_step fun i => ?_
  rw [size_eq hv, lift_ite, lift_err]
  split
  · rfl
  rename_i hc
  obtain ⟨n, rfl⟩ := Int.eq_ofNat_of_zero_le (Int.not_lt.1 hc)
  rw [show min ((n : Nat) : Int) (v.length : Int) = ((min n v.length : Nat) : Int) by omega, substr2_zero, bind_def, bind_ok, quoted_eq (fits_take hv _),
    bind_def, bind_ok, Int.toNat_natCast, substrR_zero]
  rfl

theorem strLast_eq (args : List Str) (ha : ∀ a ∈ args, Fits a) : strLast v args = fromRun (Knuckle.strLast v args) := by
  have hv' : v.length < 2147483648 := hv
  refine op1_eq args ha fun a h => ?_
  rw [integerLit_eq h]
  refine lift_step fun i => ?_
  rw [size_eq hv, lift_ite, lift_err]
  split
  · rfl
  rename_i hc
  obtain ⟨n, rfl⟩ := Int.eq_ofNat_of_zero_le (Int.not_lt.1 hc)
  rw [show (v.length : Int) - min ((n : Nat) : Int) (v.length : Int) = ((v.length - min n v.length : Nat) : Int) by omega, int_ok (by omega) (by omega),
    bind_def, bind_ok, substr1_nat (by omega), bind_def, bind_ok, quoted_eq (fits_drop hv _), bind_def, bind_ok, Int.toNat_natCast,
    substrR_le (by omega), List.take_of_length_le (by simp)]
  rfl

theorem strSubstringFrom_eq (args : List Str) (ha : ∀ a ∈ args, Fits a) : strSubstringFrom v args = fromRun (Knuckle.strSubstringFrom v args) := by
  refine op1_eq args ha fun a h => ?_
  rw [integerLit_eq h]
  refine lift_step fun i => ?_
  rw [size_eq hv, lift_ite, lift_err]
  split
  · rfl
  rename_i hc
  simp at hc
  obtain ⟨n, rfl⟩ := Int.eq_ofNat_of_zero_le hc.1
  rw [substr1_nat (by omega), bind_def, bind_ok, quoted_eq (fits_drop hv _), bind_def, bind_ok, Int.toNat_natCast,
    substrR_le (by omega), List.take_of_length_le (by simp)]
  rfl

theorem checkRange_eq (i j : Int) : (∃ a b : Nat, i = a ∧ j = b ∧ a ≤ b ∧ b ≤ v.length ∧ checkRange v i j = .ok ((b - a : Nat) : Int) ∧
      Knuckle.checkRange v.length i j = .ok ()) ∨
    (checkRange v i j = .throws .invalidArgument ∧ Knuckle.checkRange v.length i j = .err .invalidArgument) := by
  have hv' : v.length < 2147483648 := hv
  unfold checkRange Knuckle.checkRange
  rw [size_eq hv]
  by_cases h1 : (decide (i < 0) || decide (i > (v.length : Int))) = true
  · right; rw [if_pos h1, if_pos h1]; exact ⟨rfl, rfl⟩
  by_cases h2 : (decide (j < 0) || decide (j > (v.length : Int))) = true
  · right; rw [if_neg h1, if_neg h1, if_pos h2, if_pos h2]; exact ⟨rfl, rfl⟩
  rw [if_neg h1, if_neg h1, if_neg h2, if_neg h2]
  simp at h1 h2
  rw [int_ok (by omega) (by omega), bind_def, bind_ok]
  by_cases h3 : j - i < 0
  · right; rw [if_pos h3, if_pos h3]; exact ⟨rfl, rfl⟩
  left
  obtain ⟨a, rfl⟩ := Int.eq_ofNat_of_zero_le h1.1
  obtain ⟨b, rfl⟩ := Int.eq_ofNat_of_zero_le h2.1
  refine ⟨a, b, rfl, rfl, by omega, by omega, ?_, ?_⟩
  · rw [if_neg h3]; congr 1; omega
  · rw [if_neg h3]

theorem strSubstringFromTo_eq (args : List Str) (ha : ∀ a ∈ args, Fits a) : strSubstringFromTo v args = fromRun (Knuckle.strSubstringFromTo v args) := by
  refine op2_eq args ha fun a b h h' => ?_
  rw [integerLit_eq h]
  refine lift_step fun i => ?_
  rw [integerLit_eq h']
  refine lift_step fun j => ?_
  rcases checkRange_eq hv i j with ⟨m, n, rfl, rfl, hmn, hn, e1, e2⟩ | ⟨e1, e2⟩
  · rw [e1, e2, bind_def, bind_ok, substr2_nat (by omega), bind_def, bind_ok, quoted_eq (fits_take (fits_drop hv _) _), bind_def, bind_ok, Res.bind_ok,
      substrR_le (by omega), Res.bind_ok, Int.toNat_natCast, show ((n : Int) - m).toNat = n - m by omega]
    rfl
  · rw [e1, e2]; rfl

theorem strPopBack_eq (args : List Str) : strPopBack v args = fromRun (Knuckle.strPopBack v args) := by
  refine op0_eq ?_ args
  rw [lift_ite]
  split
  · rfl
  rename_i hc
  have h0 : v.length ≠ 0 := by simpa using hc
  rw [last_eq hv h0, bind_def, bind_ok, init_eq hv h0, bind_def, bind_ok, substrR_zero]
  rfl

theorem strPopFront_eq (args : List Str) : strPopFront v args = fromRun (Knuckle.strPopFront v args) := by
  have hv' : v.length < 2147483648 := hv
  refine op0_eq ?_ args
  rw [lift_ite]
  split
  · rfl
  rename_i hc
  have h0 : v.length ≠ 0 := by simpa using hc
  rw [show (0 : Int) = ((0 : Nat) : Int) from rfl, at_nat (by omega), bind_def, bind_ok, size_eq hv, int_ok (by omega) (by omega), bind_def, bind_ok,
    show (1 : Int) = ((1 : Nat) : Int) from rfl, show (v.length : Int) - ((1 : Nat) : Int) = ((v.length - 1 : Nat) : Int) by omega,
    substr2_nat (by omega), bind_def, bind_ok, substrR_le (by omega)]
  rfl

theorem strPopAtIndex_eq (args : List Str) (ha : ∀ a ∈ args, Fits a) : strPopAtIndex v args = fromRun (Knuckle.strPopAtIndex v args) := by
  refine op1_eq args ha fun a h => ?_
  rw [integerLit_eq h]
  refine lift_step fun i => ?_
  rw [size_eq hv, lift_ite, lift_err, lift_ok]
  split
  · rfl
  rename_i hc
  simp at hc
  obtain ⟨n, rfl⟩ := Int.eq_ofNat_of_zero_le hc.1
  rw [at_nat (by omega), bind_def, bind_ok]
  unfold eraseIter
  rw [if_pos (by omega), bind_def, bind_ok]
  rfl

theorem strInsert_eq (args : List Str) (ha : ∀ a ∈ args, Fits a) : strInsert v args = fromRun (Knuckle.strInsert v args) := by
  refine op2_eq args ha fun a b h h' => ?_
  rw [isStringValue_eq h, not_ok, bind_def, bind_ok, lift_ite, lift_err]
  split
  · rfl
  rw [integerLit_eq h']
  refine lift_step fun i => ?_
  rw [size_eq hv, lift_ite, lift_err]
  split
  · rfl
  rename_i hc
  simp at hc
  obtain ⟨n, rfl⟩ := Int.eq_ofNat_of_zero_le hc.1
  rw [stringLit_eq h]
  refine lift_step fun w => ?_
  unfold insertAt
  rw [toSize_nat, if_pos (by omega), bind_def, bind_ok, Int.toNat_natCast, if_neg (by omega)]
  rfl

theorem strErase_eq (args : List Str) (ha : ∀ a ∈ args, Fits a) : strErase v args = fromRun (Knuckle.strErase v args) := by
  refine op1_eq args ha fun a h => ?_
  rw [integerLit_eq h]
  refine lift_step fun i => ?_
  rw [size_eq hv, lift_ite, lift_err]
  split
  · rfl
  rename_i hc
  simp at hc
  obtain ⟨n, rfl⟩ := Int.eq_ofNat_of_zero_le hc.1
  unfold erase1
  rw [toSize_nat, if_pos (by omega), bind_def, bind_ok, Int.toNat_natCast, if_neg (by omega)]
  rfl

theorem strEraseTo_eq (args : List Str) (ha : ∀ a ∈ args, Fits a) : strEraseTo v args = fromRun (Knuckle.strEraseTo v args) := by
  refine op2_eq args ha fun a b h h' => ?_
  rw [integerLit_eq h]
  refine lift_step fun i => ?_
  rw [integerLit_eq h']
  refine lift_step fun j => ?_
  rcases checkRange_eq hv i j with ⟨m, n, rfl, rfl, hmn, hn, e1, e2⟩ | ⟨e1, e2⟩
  · rw [e1, e2, bind_def, bind_ok, Res.bind_ok]
    unfold erase2
    rw [toSize_nat, toSize_nat, if_pos (by omega), bind_def, bind_ok, Int.toNat_natCast, if_neg (by omega), show ((n : Int) - m).toNat = n - m by omega]
    rfl
  · rw [e1, e2]; rfl

end

theorem strCmp_eq {v : Str} (cmp : Obj → Obj → Res Bool) (args : List Str) (ha : ∀ a ∈ args, Fits a) :
    strCmp cmp v args = fromRun (Knuckle.stringCmp cmp v args) := by
  refine op1_eq args ha fun a h => ?_
  rw [stringLit_eq h]
  refine lift_step fun w => ?_
  refine lift_step fun b => ?_
  rfl

theorem find_cons {σ : Type} {n : Str} {op : List Str → Ix (σ × Str)} {op' : List Str → Run σ} {t t'} {v : σ} {name : Str} {args : List Str}
    (h : op args = fromRun (op' args)) (ht : find t name args = fromRun (dispatch v t' name args)) :
    find ((n, op) :: t) name args = fromRun (dispatch v ((n, op') :: t') name args) := by
  rw [find, dispatch]
  split
  · exact h
  · exact ht

theorem receive_eq {v : Str} (hv : Fits v) (eps : Fl) (name : Str) (args : List Str) (ha : ∀ a ∈ args, Fits a) :
    receive eps v name args = fromRun (dispatch v (Knuckle.stringTable eps v) name args) := by
  unfold receive stringTable Knuckle.stringTable
  refine find_cons (op0_eq (by rw [quoted_eq hv]; rfl) _) ?_
  refine find_cons (op1_eq _ ha fun a h => by rw [stringLit_eq h]; exact lift_step fun w => rfl) ?_
  refine find_cons (op0_eq (by rfl) _) ?_
  refine find_cons (op1_eq _ ha fun a h => by rw [stringLit_eq h]; exact lift_step fun w => by rw [startsWith_eq hv]; rfl) ?_
  refine find_cons (op1_eq _ ha fun a h => by rw [stringLit_eq h]; exact lift_step fun w => by rw [endsWith_eq hv]; rfl) ?_
  refine find_cons (strCmp_eq _ _ ha) (find_cons (strCmp_eq _ _ ha) (find_cons (strCmp_eq _ _ ha) (find_cons (strCmp_eq _ _ ha) (find_cons (strCmp_eq _ _ ha) ?_))))
  refine find_cons (op0_eq (by rw [size_eq hv]; rfl) _) ?_
  refine find_cons (strAtIndex_eq hv _ ha) (find_cons (strFirst_eq hv _ ha) (find_cons (strLast_eq hv _ ha) (find_cons (strSubstringFrom_eq hv _ ha)
    (find_cons (strSubstringFromTo_eq hv _ ha) ?_))))
  refine find_cons (op1_eq _ ha fun a h => by rw [characterLit_eq]; exact lift_step fun w => rfl) ?_
  refine find_cons (op1_eq _ ha fun a h => by rw [characterLit_eq]; exact lift_step fun w => rfl) ?_
  refine find_cons (strPopBack_eq hv _) (find_cons (strPopFront_eq hv _) (find_cons (strPopAtIndex_eq hv _ ha) ?_))
  refine find_cons (op1_eq _ ha fun a h => by rw [stringLit_eq h]; exact lift_step fun w => rfl) ?_
  refine find_cons (strInsert_eq hv _ ha) (find_cons (strErase_eq hv _ ha) (find_cons (strEraseTo_eq hv _ ha) ?_))
  exact find_cons (op0_eq (by rfl) _) rfl

theorem fromRun_result {σ : Type} (v : σ) (r : Spec.Result σ) : fromRun (r.run v) = Spec.told r := by cases r <;> rfl

/-! ### Long strings -/

section
variable {v : Str} (h1 : 2147483648 ≤ v.length) (h2 : v.length < 4294967296)
include h1 h2

theorem escape_long (c : Byte) : escape v c = .ok [] := by
  unfold escape
  exact up_stop (by rw [size_long h1 h2, if_neg (by omega)])

theorem quoted_long : quoted v = .ok b!"\"\"" := by
  unfold quoted
  rw [escape_long h1 h2, bind_def, bind_ok]; rfl

theorem whole_long : substr2 v 0 (size v) = .ok v := by
  unfold substr2
  rw [toSize_zero, if_pos (by omega), List.drop_zero, List.take_of_length_le]
  rw [size_long h1 h2]
  have := toSize_neg (x := (v.length : Int) - 4294967296) (by omega) (by omega)
  omega

theorem last_long : last v = .ub := by
  unfold last
  rw [size_long h1 h2]
  by_cases he : v.length = 2147483648
  · have : int ((v.length : Int) - 4294967296 - 1) = .ub := by
      unfold int; rw [if_neg (by omega)]
    rw [this]; rfl
  · rw [int_ok (by omega) (by omega), bind_def, bind_ok]
    unfold «at»
    have := toSize_neg (x := (v.length : Int) - 4294967296 - 1) (by omega) (by omega)
    rw [if_neg (by omega)]

theorem checkRange_long {i j : Int} : checkRange v i j = .throws .invalidArgument := by
  unfold checkRange
  rw [if_pos (by rw [size_long h1 h2]; simp; omega)]

open Knuckle.Spec in
theorem receive_long (eps : Fl) {name : Str} {args : List Str} (ha : ∀ a ∈ args, Fits a) {m : StrMsg} (h : StrSays name args m) :
    receive eps v name args = longMeaning v m := by
  have keep : ∀ {m : StrMsg}, StrSays name args m → receive eps v name args = fromRun (dispatch v (Knuckle.stringTable eps v) name args) →
      receive eps v name args = told (strMeaning v m) := by
    intro m h e
    rw [e, str_says eps v name args m h, fromRun_result]
  have hsize := size_long h1 h2
  cases h with
  | get =>
    show op0 (do let r ← quoted v; .ok (v, r)) [] = _
    rw [op0, quoted_long h1 h2, bind_def, bind_ok]; rfl
  | @set a w hw =>
    refine keep (.set hw) ?_
    show op1 (fun a => do let w ← stringLit a; .ok (w, b!"null")) [a] = fromRun (Knuckle.op1 v (fun a => do Res.ok (← Knuckle.stringLit a, b!"null")) [a])
    refine op1_eq [a] ha fun a h => ?_
    rw [stringLit_eq h]; exact lift_step fun w => rfl
  | isEmpty => exact keep .isEmpty rfl
  | @startsWith a w hw =>
    have hwl : Fits w := fits_le (ha a (by simp)) (by have := stringLit_length hw; omega)
    refine keep (.startsWith hw) ?_
    show op1 (fun a => do let w ← stringLit a; let b ← startsWith v w; .ok (v, boolStr b)) [a] =
      fromRun (Knuckle.op1 v (fun a => do Res.ok (v, boolStr (Knuckle.startsWith v (← Knuckle.stringLit a)))) [a])
    rw [op1, Knuckle.op1, fromRun_run, stringLit_eq (ha a (by simp)), stringLit_denotes a w hw, lift_ok, bind_def, bind_ok, startsWith_fits hwl, bind_def, bind_ok]
    rfl
  | @endsWith a w hw =>
    have hwl : w.length < 2147483648 := fits_le (ha a (by simp)) (by have := stringLit_length hw; omega)
    show op1 (fun a => do let w ← stringLit a; let b ← endsWith v w; .ok (v, boolStr b)) [a] = _
    rw [op1, stringLit_eq (ha a (by simp)), stringLit_denotes a w hw, lift_ok, bind_def, bind_ok]
    unfold endsWith
    rw [if_neg (by omega)]
    simp only [longMeaning]
    by_cases hn : w = []
    · rw [if_pos hn, up_stop (b := true) (by rw [hn]; rfl), bind_def, bind_ok]; rfl
    · rw [if_neg hn]
      have hpos : 0 < w.length := by cases w with | nil => exact absurd rfl hn | cons c cs => simp
      have : up (fun i (_ : Unit) => do
          if i < size w then
            let j ← int (size v - i)
            let j ← int (j - 1)
            let a ← «at» v j
            let k ← int (size w - i)
            let k ← int (k - 1)
            let b ← «at» w k
            if a != b then .ok (.stop false) else .ok (.next ())
          else .ok (.stop true)) 0 () = (.ub : Ix Bool) := by
        rw [up]
        rw [size_eq hwl, if_pos (by omega), hsize, int_ok (by omega) (by omega), bind_def, bind_ok]
        by_cases he : v.length = 2147483648
        · have : int ((v.length : Int) - 4294967296 - 0 - 1) = .ub := by
            unfold int; rw [if_neg (by omega)]
          rw [this]; rfl
        · rw [int_ok (by omega) (by omega), bind_def, bind_ok]
          have : «at» v ((v.length : Int) - 4294967296 - 0 - 1) = .ub := by
            unfold «at»
            have := toSize_neg (x := (v.length : Int) - 4294967296 - 0 - 1) (by omega) (by omega)
            rw [if_neg (by omega)]
          rw [this]; rfl
      rw [this]; rfl
  | @eq a w hw => exact keep (.eq hw) (strCmp_eq _ _ ha)
  | @lt a w hw => exact keep (.lt hw) (strCmp_eq _ _ ha)
  | @le a w hw => exact keep (.le hw) (strCmp_eq _ _ ha)
  | @gt a w hw => exact keep (.gt hw) (strCmp_eq _ _ ha)
  | @ge a w hw => exact keep (.ge hw) (strCmp_eq _ _ ha)
  | length =>
    show Ix.ok (v, intStr (size v)) = _
    rw [hsize]; rfl
  | @atIndex a i hi =>
    show strAtIndex v [a] = _
    unfold strAtIndex
    rw [op1, integerLit_eq (ha a (by simp)), int_denotes a i hi, lift_ok, bind_def, bind_ok, hsize, if_pos (by simp; omega)]; rfl
  | @first a n hn =>
    show strFirst v [a] = _
    unfold strFirst
    rw [op1, integerLit_eq (ha a (by simp)), int_denotes a n hn, lift_ok, bind_def, bind_ok]
    simp only [longMeaning]
    by_cases h0 : 0 ≤ n
    · rw [if_neg (by omega), if_pos h0, show min n (size v) = size v by omega, whole_long h1 h2, bind_def, bind_ok, quoted_long h1 h2, bind_def, bind_ok]
    · rw [if_pos (by omega), if_neg h0]
  | @last a n hn =>
    show strLast v [a] = _
    unfold strLast
    rw [op1, integerLit_eq (ha a (by simp)), int_denotes a n hn, lift_ok, bind_def, bind_ok]
    simp only [longMeaning]
    by_cases h0 : 0 ≤ n
    · have hw : substr1 v 0 = .ok v := by unfold substr1; simp
      rw [if_neg (by omega), if_pos h0, show size v - min n (size v) = 0 by omega, int_ok (by omega) (by omega), bind_def, bind_ok, hw, bind_def, bind_ok,
        quoted_long h1 h2, bind_def, bind_ok]
    · rw [if_pos (by omega), if_neg h0]
  | @substring a i hi =>
    show strSubstringFrom v [a] = _
    unfold strSubstringFrom
    rw [op1, integerLit_eq (ha a (by simp)), int_denotes a i hi, lift_ok, bind_def, bind_ok, hsize, if_pos (by simp; omega)]; rfl
  | @substringTo a i b j hi hj =>
    show strSubstringFromTo v [a, b] = _
    unfold strSubstringFromTo
    rw [op2, integerLit_eq (ha a (by simp)), int_denotes a i hi, lift_ok, bind_def, bind_ok, integerLit_eq (ha b (by simp)), int_denotes b j hj, lift_ok,
      bind_def, bind_ok, checkRange_long h1 h2]; rfl
  | @pushBack c =>
    refine keep .pushBack ?_
    show op1 (fun a => do let w ← characterLit a; .ok (v ++ [w], b!"null")) [[c!"'", c, c!"'"]] = fromRun (Knuckle.op1 v (fun a => do Res.ok (v ++ [← Knuckle.characterLit a], b!"null")) [[c!"'", c, c!"'"]])
    refine op1_eq _ ha fun a h => ?_
    rw [characterLit_eq]; exact lift_step fun w => rfl
  | @pushFront c =>
    refine keep .pushFront ?_
    show op1 (fun a => do let w ← characterLit a; .ok ([w] ++ v, b!"null")) [[c!"'", c, c!"'"]] = fromRun (Knuckle.op1 v (fun a => do Res.ok ([← Knuckle.characterLit a] ++ v, b!"null")) [[c!"'", c, c!"'"]])
    refine op1_eq _ ha fun a h => ?_
    rw [characterLit_eq]; exact lift_step fun w => rfl
  | popBack =>
    show strPopBack v [] = _
    unfold strPopBack
    rw [op0, if_neg (by simp only [beq_iff_eq]; omega), last_long h1 h2]; rfl
  | popFront =>
    simp only [longMeaning]
    by_cases he : v.length = 2147483648
    · rw [if_pos he]
      show strPopFront v [] = _
      unfold strPopFront
      rw [op0, if_neg (by simp only [beq_iff_eq]; omega), show (0 : Int) = ((0 : Nat) : Int) from rfl, at_nat (by omega), bind_def, bind_ok]
      have : int (size v - 1) = .ub := by
        unfold int; rw [if_neg (by omega)]
      rw [this]; rfl
    · rw [if_neg he]
      refine keep .popFront ?_
      show strPopFront v [] = fromRun (Knuckle.strPopFront v [])
      refine op0_eq ?_ []
      rw [lift_ite, if_neg (by simp only [beq_iff_eq]; omega), if_neg (by simp only [beq_iff_eq]; omega), show (0 : Int) = ((0 : Nat) : Int) from rfl, at_nat (by omega), bind_def, bind_ok,
        int_ok (by omega) (by omega), bind_def, bind_ok, show (1 : Int) = ((1 : Nat) : Int) from rfl]
      have : substr2 v ((1 : Nat) : Int) (size v - ((1 : Nat) : Int)) = .ok ((v.drop 1).take (v.length - 1)) := by
        unfold substr2
        rw [toSize_nat, if_pos (by omega), List.take_of_length_le, List.take_of_length_le (by simp)]
        have := toSize_neg (x := size v - ((1 : Nat) : Int)) (by omega) (by omega)
        rw [List.length_drop]
        omega
      rw [this, bind_def, bind_ok, substrR_le (by omega)]
      rfl
  | @popAtIndex a i hi =>
    show strPopAtIndex v [a] = _
    unfold strPopAtIndex
    rw [op1, integerLit_eq (ha a (by simp)), int_denotes a i hi, lift_ok, bind_def, bind_ok, hsize, if_pos (by simp; omega)]; rfl
  | @concatenate a w hw =>
    refine keep (.concatenate hw) ?_
    show op1 (fun a => do let w ← stringLit a; .ok (v ++ w, b!"null")) [a] = fromRun (Knuckle.op1 v (fun a => do Res.ok (v ++ (← Knuckle.stringLit a), b!"null")) [a])
    refine op1_eq [a] ha fun a h => ?_
    rw [stringLit_eq h]; exact lift_step fun w => rfl
  | @insert a w b i hw hi =>
    show strInsert v [a, b] = _
    unfold strInsert
    have hv : Knuckle.isStringValue a = true := by
      have := stringLit_denotes a w hw
      unfold Knuckle.stringLit at this
      by_contra hc
      rw [if_pos (by simpa using hc)] at this
      cases this
    rw [op2, isStringValue_eq (ha a (by simp)), hv, not_ok, bind_def, bind_ok, if_neg (by simp), integerLit_eq (ha b (by simp)), int_denotes b i hi, lift_ok,
      bind_def, bind_ok, hsize, if_pos (by simp; omega)]; rfl
  | @erase a i hi =>
    show strErase v [a] = _
    unfold strErase
    rw [op1, integerLit_eq (ha a (by simp)), int_denotes a i hi, lift_ok, bind_def, bind_ok, hsize, if_pos (by simp; omega)]; rfl
  | @eraseTo a i b j hi hj =>
    show strEraseTo v [a, b] = _
    unfold strEraseTo
    rw [op2, integerLit_eq (ha a (by simp)), int_denotes a i hi, lift_ok, bind_def, bind_ok, integerLit_eq (ha b (by simp)), int_denotes b j hj, lift_ok,
      bind_def, bind_ok, checkRange_long h1 h2]; rfl
  | clear => exact keep .clear rfl

end

end Knuckle.Idx

/-
The index model of the string functions and the list model agree.
-/
import Verif.Model.Indexed
import Mathlib.Tactic.Ring

namespace Knuckle.Idx

/-- Short enough for `int`. -/
def Fits (s : Str) : Prop := s.length < 2147483648

@[simp] theorem bind_def {α β : Type} (a : Ix α) (f : α → Ix β) : (a >>= f) = a.bind f := rfl
@[simp] theorem pure_def {α : Type} (a : α) : (pure a : Ix α) = .ok a := rfl
theorem bind_ok {α β : Type} (a : α) (f : α → Ix β) : (Ix.ok a).bind f = f a := rfl
@[simp] theorem and_ok (a : Bool) (b : Ix Bool) : Ix.and (.ok a) b = if a then b else .ok false := rfl
@[simp] theorem or_ok (a : Bool) (b : Ix Bool) : Ix.or (.ok a) b = if a then .ok true else b := rfl
@[simp] theorem not_ok (a : Bool) : Ix.not (.ok a) = .ok (!a) := rfl

theorem and_ok_ok (a b : Bool) : Ix.and (.ok a) (.ok b) = .ok (a && b) := by cases a <;> rfl
theorem or_ok_ok (a b : Bool) : Ix.or (.ok a) (.ok b) = .ok (a || b) := by cases a <;> rfl

theorem size_eq {s : Str} (h : Fits s) : size s = s.length := by
  unfold size toInt
  have h : s.length < 2147483648 := h
  have : s.length % 4294967296 = s.length := Nat.mod_eq_of_lt (by omega)
  rw [this, if_pos h]

@[simp] theorem toSize_nat (n : Nat) : toSize (n : Int) = n := by
  unfold toSize
  rw [if_pos (by omega)]; simp

@[simp] theorem toSize_zero : toSize 0 = 0 := toSize_nat 0

theorem int_ok {x : Int} (h : -2147483648 ≤ x) (h' : x ≤ 2147483647) : int x = .ok x := if_pos ⟨h, h'⟩

theorem at_pre (pre : Str) (c : Byte) (cs : Str) : «at» (pre ++ c :: cs) (pre.length : Int) = .ok c := by
  unfold «at»
  rw [toSize_nat, if_pos (by simp)]
  simp

theorem at_nat {s : Str} {i : Nat} (h : i ≤ s.length) : «at» s (i : Int) = .ok (s.getD i 0) := by
  unfold «at»
  rw [toSize_nat, if_pos h]

theorem substr1_nat {s : Str} {i : Nat} (h : i ≤ s.length) : substr1 s (i : Int) = .ok (s.drop i) := by
  unfold substr1
  rw [toSize_nat, if_pos h]

theorem substr2_nat {s : Str} {i n : Nat} (h : i ≤ s.length) : substr2 s (i : Int) (n : Int) = .ok ((s.drop i).take n) := by
  unfold substr2
  rw [toSize_nat, toSize_nat, if_pos h]

theorem substr2_zero (s : Str) (n : Nat) : substr2 s 0 (n : Int) = .ok (s.take n) := by
  have := substr2_nat (s := s) (i := 0) (n := n) (by omega)
  simpa using this

theorem substr_pre (pre suf : Str) : substr2 (pre ++ suf) 0 (pre.length : Int) = .ok pre := by
  rw [substr2_zero]; simp

theorem substr_post (pre : Str) (c : Byte) (cs : Str) : substr1 (pre ++ c :: cs) ((pre.length : Int) + 1) = .ok cs := by
  have := substr1_nat (s := pre ++ c :: cs) (i := pre.length + 1) (by simp)
  rw [show ((pre.length : Int) + 1) = ((pre.length + 1 : Nat) : Int) by omega, this]
  congr 1
  rw [show pre ++ c :: cs = (pre ++ [c]) ++ cs by simp, List.drop_left' (by simp)]

section
variable {s pre cs : Str} {c : Byte}

theorem at_cons (e : s = pre ++ c :: cs) : «at» s (pre.length : Int) = .ok c := by rw [e]; exact at_pre _ _ _

theorem substr_to {suf : Str} (e : s = pre ++ suf) : substr2 s 0 (pre.length : Int) = .ok pre := by rw [e]; exact substr_pre _ _

theorem substr_from (e : s = pre ++ c :: cs) : substr1 s ((pre.length : Int) + 1) = .ok cs := by rw [e]; exact substr_post _ _ _

theorem lt_cons (e : s = pre ++ c :: cs) : (pre.length : Int) < s.length := by rw [e]; simp

theorem ltrim_length (s : Str) : (Knuckle.ltrim s).length ≤ s.length := by
  induction s with
  | nil => simp [Knuckle.ltrim]
  | cons d ds ih => unfold Knuckle.ltrim; split <;> simp <;> omega

theorem ltrim_drop (s : Str) : s.drop (s.length - (Knuckle.ltrim s).length) = Knuckle.ltrim s := by
  induction s with
  | nil => rfl
  | cons c cs ih =>
    unfold Knuckle.ltrim
    split
    · have := ltrim_length cs
      rw [show (c :: cs).length - (Knuckle.ltrim cs).length = (cs.length - (Knuckle.ltrim cs).length) + 1 by simp; omega, List.drop_succ_cons, ih]
    · simp

theorem rtrim_length (s : Str) : (Knuckle.rtrim s).length ≤ s.length := by
  unfold Knuckle.rtrim
  have := ltrim_length s.reverse
  simpa using this

end

section
variable {σ β : Type}

theorem up_next {body : Int → σ → Ix (Flow σ β)} {i : Int} {st st' : σ} (h : body i st = .ok (.next st')) (hi : i < 2147483647) :
    up body i st = up body (i + 1) st' := by
  rw [up, h]; exact if_pos hi

theorem up_stop {body : Int → σ → Ix (Flow σ β)} {i : Int} {st : σ} {b : β} (h : body i st = .ok (.stop b)) : up body i st = .ok b := by
  rw [up, h]

theorem down_next {body : Int → σ → Ix (Flow σ β)} {i : Int} {st st' : σ} (h : body i st = .ok (.next st')) (hi : -2147483648 < i) :
    down body i st = down body (i - 1) st' := by
  rw [down, h]; exact if_pos hi

theorem down_stop {body : Int → σ → Ix (Flow σ β)} {i : Int} {st : σ} {b : β} (h : body i st = .ok (.stop b)) : down body i st = .ok b := by
  rw [down, h]

/-- A loop to the right over a text, as a recursion over what has been visited and what has not; `I` is an invariant. -/
theorem up_inv {body : Int → σ → Ix (Flow σ β)} {s : Str} (hs : Fits s) (I : Str → σ → Prop) (F : Str → Str → σ → β)
    (hnil : ∀ st, I s st → body s.length st = .ok (.stop (F s [] st)))
    (hcons : ∀ pre c cs st, s = pre ++ c :: cs → I pre st →
      (∃ st', body pre.length st = .ok (.next st') ∧ I (pre ++ [c]) st' ∧ F pre (c :: cs) st = F (pre ++ [c]) cs st') ∨
      body pre.length st = .ok (.stop (F pre (c :: cs) st))) :
    ∀ (suf pre : Str) (st : σ), s = pre ++ suf → I pre st → up body pre.length st = .ok (F pre suf st)
  | [], pre, st, e, hI => by
    rw [List.append_nil] at e
    subst e
    exact up_stop (hnil st hI)
  | c :: cs, pre, st, e, hI => by
    rcases hcons pre c cs st e hI with ⟨st', h1, hI', h2⟩ | h1
    · rw [up_next h1 (by have := congrArg List.length e; simp at this; unfold Fits at hs; omega)]
      have := up_inv hs I F hnil hcons cs (pre ++ [c]) st' (by simp [e]) hI'
      rw [List.length_append, List.length_singleton] at this
      rw [h2, ← this]
      congr 1
    · exact up_stop h1

/-- The same without an invariant. -/
theorem up_list {body : Int → σ → Ix (Flow σ β)} {s : Str} (hs : Fits s) (F : Str → Str → σ → β)
    (hnil : ∀ st, body s.length st = .ok (.stop (F s [] st)))
    (hcons : ∀ pre c cs st, s = pre ++ c :: cs → (∃ st', body pre.length st = .ok (.next st') ∧ F pre (c :: cs) st = F (pre ++ [c]) cs st') ∨
      body pre.length st = .ok (.stop (F pre (c :: cs) st))) (suf pre : Str) (st : σ) (e : s = pre ++ suf) :
    up body pre.length st = .ok (F pre suf st) :=
  up_inv hs (fun _ _ => True) F (fun st _ => hnil st)
    (fun pre c cs st e _ => (hcons pre c cs st e).imp (fun ⟨st', h1, h2⟩ => ⟨st', h1, trivial, h2⟩) id) suf pre st e trivial

/-- A loop to the left. -/
theorem down_list {body : Int → σ → Ix (Flow σ β)} {s base : Str} (hs : Fits s) (F : Str → σ → β)
    (hnil : ∀ st, body ((base.length : Int) - 1) st = .ok (.stop (F [] st)))
    (hcons : ∀ c l suf st, s = base ++ (l.reverse ++ c :: suf) →
      (∃ st', body ((base.length : Int) + l.length) st = .ok (.next st') ∧ F (c :: l) st = F l st') ∨
      body ((base.length : Int) + l.length) st = .ok (.stop (F (c :: l) st))) :
    ∀ (l suf : Str) (st : σ), s = base ++ (l.reverse ++ suf) → down body ((base.length : Int) + l.length - 1) st = .ok (F l st)
  | [], suf, st, e => by
    rw [show ((base.length : Int) + ([] : Str).length - 1) = (base.length : Int) - 1 by simp]
    exact down_stop (hnil st)
  | c :: l, suf, st, e => by
    have e' : s = base ++ (l.reverse ++ c :: suf) := by simpa using e
    have i : ((base.length : Int) + (c :: l).length - 1) = (base.length : Int) + l.length := by simp; ring
    rw [i]
    rcases hcons c l suf st e' with ⟨st', h1, h2⟩ | h1
    · rw [down_next h1 (by omega), h2]
      exact down_list hs F hnil hcons l (c :: suf) st' e'
    · exact down_stop h1

end

/-! ### `src/str_utils.cpp` -/

theorem ltrim_eq {s : Str} (hs : Fits s) : ltrim s = .ok (Knuckle.ltrim s) := by
  unfold ltrim
  rw [bind_def, show (0 : Int) = (([] : Str).length : Int) from rfl,
    up_list hs (fun pre suf _ => ((pre.length + (suf.length - (Knuckle.ltrim suf).length) : Nat) : Int))
      (by intro st; simp [size_eq hs]) ?_ s [] () rfl]
  · simp only [List.length_nil, Nat.zero_add, bind_ok]
    rw [substr1_nat (by omega), ltrim_drop]
  · intro pre c cs st e
    simp only [size_eq hs, lt_cons e, decide_true, and_ok, if_true, at_cons e, bind_ok, bind_def]
    cases h : isSpace c
    · right; simp [Knuckle.ltrim, h]
    · left
      have := ltrim_length cs
      exact ⟨(), rfl, by simp [Knuckle.ltrim, h]; omega⟩

theorem rtrim_eq {s : Str} (hs : Fits s) : rtrim s = .ok (Knuckle.rtrim s) := by
  unfold rtrim
  have hs' : s.length < 2147483648 := hs
  rw [bind_def, size_eq hs, int_ok (by omega) (by omega), bind_ok, bind_def,
    show ((s.length : Int) - 1) = ((([] : Str).length : Int) + (s.reverse).length - 1) by simp,
    down_list hs (base := []) (fun l _ => ((Knuckle.ltrim l).length : Int) - 1)
      (by intro st; simp [Knuckle.ltrim]) ?_ s.reverse [] () (by simp)]
  · have h1 := ltrim_length s.reverse
    rw [List.length_reverse] at h1
    simp only [bind_ok, bind_def, Int.sub_add_cancel]
    rw [int_ok (by omega) (by omega), bind_ok, substr2_zero]
    unfold Knuckle.rtrim
    congr 1
    have := ltrim_drop s.reverse
    rw [← this, List.drop_reverse]
    simp
  · intro c l suf st e
    have hat : «at» s (l.length : Int) = .ok c := by
      have := at_cons (s := s) (pre := l.reverse) (c := c) (cs := suf) (by simpa using e)
      simpa using this
    simp only [List.length_nil, Nat.cast_zero, Int.zero_add, hat, bind_ok, bind_def, and_ok,
      show (0 : Int) ≤ l.length by omega, decide_true, if_true]
    cases h : isSpace c
    · right; simp [Knuckle.ltrim, h]
    · left; exact ⟨(), rfl, by simp [Knuckle.ltrim, h]⟩

theorem fits_ltrim {s : Str} (h : Fits s) : Fits (Knuckle.ltrim s) := lt_of_le_of_lt (ltrim_length s) h
theorem fits_rtrim {s : Str} (h : Fits s) : Fits (Knuckle.rtrim s) := lt_of_le_of_lt (rtrim_length s) h

theorem trim_eq {s : Str} (hs : Fits s) : trim s = .ok (Knuckle.trim s) := by
  unfold trim
  rw [bind_def, ltrim_eq hs, bind_ok, rtrim_eq (fits_ltrim hs)]
  rfl

theorem fits_trim {s : Str} (h : Fits s) : Fits (Knuckle.trim s) := fits_rtrim (fits_ltrim h)

theorem escape_eq {s : Str} {c : Byte} (hs : Fits s) : escape s c = .ok (Knuckle.escape c s) := by
  unfold escape
  rw [show (0 : Int) = (([] : Str).length : Int) from rfl,
    up_list hs (fun _ suf r => r ++ Knuckle.escape c suf) (by intro st; simp [size_eq hs, Knuckle.escape]) ?_ s [] [] rfl]
  · rfl
  · intro pre x cs st e
    simp only [size_eq hs, lt_cons e, if_true, at_cons e, bind_ok, bind_def]
    left
    refine ⟨_, rfl, ?_⟩
    rw [Knuckle.escape]
    split <;> simp

theorem unescape_eq {s : Str} {c : Byte} (hs : Fits s) : unescape s c = .ok (Knuckle.unescape c s) := by
  unfold unescape
  have hs' : s.length < 2147483648 := hs
  rw [show (0 : Int) = (([] : Str).length : Int) from rfl,
    up_list hs (fun _ suf r => r ++ Knuckle.unescape c suf) (by intro st; simp [size_eq hs, Knuckle.unescape]) ?_ s [] [] rfl]
  · rfl
  · intro pre x cs st e
    have hl := lt_cons e
    simp only [size_eq hs, hl, if_true, at_cons e, bind_ok, bind_def]
    rw [int_ok (x := (s.length : Int) - 1) (by omega) (by omega), int_ok (x := (pre.length : Int) + 1) (by omega) (by omega)]
    simp only [bind_ok, and_ok]
    left
    cases cs with
    | nil =>
      have : ¬ (pre.length : Int) < s.length - 1 := by rw [e]; simp
      refine ⟨st ++ [x], ?_, by simp [Knuckle.unescape]⟩
      simp only [this, decide_false, Bool.false_eq_true, if_false, bind_ok]
    | cons y ys =>
      have h1 : (pre.length : Int) < s.length - 1 := by rw [e]; simp; omega
      have h2 : «at» s ((pre.length : Int) + 1) = .ok y := by
        have := at_cons (s := s) (pre := pre ++ [x]) (c := y) (cs := ys) (by simp [e])
        rw [← this]; congr 1; simp
      refine ⟨if x == c!"\\" && y == c then st else st ++ [x], ?_, ?_⟩
      · simp only [h1, decide_true, if_true, h2, bind_ok]
        cases ha : x == c!"\\" <;> cases hb : y == c <;> simp
      · rw [Knuckle.unescape]
        cases ha : x == c!"\\" <;> cases hb : y == c <;> simp

theorem removeSpaces_eq {s : Str} (hs : Fits s) : removeSpaces s = .ok (Knuckle.removeSpaces s) := by
  unfold removeSpaces
  rw [show (0 : Int) = (([] : Str).length : Int) from rfl,
    up_list hs (fun _ suf r => r ++ Knuckle.removeSpaces suf) (by intro st; simp [size_eq hs, Knuckle.removeSpaces]) ?_ s [] [] rfl]
  · rfl
  · intro pre x cs st e
    simp only [size_eq hs, lt_cons e, if_true, at_cons e, bind_ok, bind_def]
    left
    rw [Knuckle.removeSpaces]
    split
    · exact ⟨_, rfl, rfl⟩
    · exact ⟨_, rfl, by simp⟩

/-- A loop that looks for a position at which the result is known. -/
theorem up_any {β : Type} {body : Int → Unit → Ix (Flow Unit β)} {n : Nat} {x y : β} (hn : n < 2147483648) (f : Nat → Bool)
    (hend : body n () = .ok (.stop y)) (hb : ∀ i, i < n → body i () = if f i then .ok (.stop x) else .ok (.next ())) :
    ∀ k a, a + k = n → up body a () = .ok (if (List.range' a k).any f then x else y)
  | 0, a, e => by
    rw [Nat.add_zero] at e; subst e
    exact up_stop hend
  | k + 1, a, e => by
    have h := hb a (by omega)
    cases hf : f a with
    | true =>
      rw [hf] at h
      rw [up_stop h]; simp [List.range'_succ, hf]
    | false =>
      rw [hf] at h
      rw [up_next h (by omega)]
      have := up_any hn f hend hb k (a + 1) (by omega)
      rw [show ((a : Int) + 1) = ((a + 1 : Nat) : Int) by omega, this, List.range'_succ, List.any_cons, hf, Bool.false_or]

theorem up_all {body : Int → Unit → Ix (Flow Unit Bool)} {n : Nat} (hn : n < 2147483648) (f : Nat → Bool)
    (hend : body n () = .ok (.stop true)) (hb : ∀ i, i < n → body i () = if f i then .ok (.next ()) else .ok (.stop false)) (k a : Nat)
    (e : a + k = n) : up body a () = .ok ((List.range' a k).all f) := by
  rw [up_any hn (fun i => !f i) hend (fun i hi => by rw [hb i hi]; cases f i <;> rfl) k a e, List.all_eq_not_any_not]
  cases (List.range' a k).any fun i => !f i <;> rfl

theorem startsWith_fits {s p : Str} (hp : Fits p) : startsWith s p = .ok (Knuckle.startsWith s p) := by
  unfold startsWith Knuckle.startsWith
  split
  · rfl
  have := up_all (n := p.length) hp (fun i => s.getD i 0 == p.getD i 0) (body := fun i (_ : Unit) => do
    if i < size p then
      let a ← «at» s i
      let b ← «at» p i
      if a != b then .ok (.stop false) else .ok (.next ())
    else .ok (.stop true)) (by simp [size_eq hp]) (by
      intro i hi
      rw [size_eq hp, if_pos (by omega), at_nat (by omega), at_nat (by omega)]
      simp only [bind_def, bind_ok]
      by_cases h : s.getD i 0 = p.getD i 0
      · simp only [bne, beq_iff_eq.2 h]; rfl
      · simp only [bne, beq_eq_false_iff_ne.2 h]; rfl) p.length 0 (by simp)
  rw [List.range_eq_range']
  exact this

theorem startsWith_eq {s p : Str} (hs : Fits s) : startsWith s p = .ok (Knuckle.startsWith s p) := by
  rcases Nat.lt_or_ge s.length p.length with h | h
  · unfold startsWith Knuckle.startsWith
    rw [if_pos h, if_pos h]
  · exact startsWith_fits (lt_of_le_of_lt h hs)

theorem endsWith_eq {s p : Str} (hs : Fits s) : endsWith s p = .ok (Knuckle.endsWith s p) := by
  unfold endsWith Knuckle.endsWith
  split
  · rfl
  rename_i hl
  have hp : Fits p := lt_of_le_of_lt (Nat.not_lt.1 hl) hs
  have hs' : s.length < 2147483648 := hs
  have := up_all (n := p.length) hp (fun i => s.getD (s.length - i - 1) 0 == p.getD (p.length - i - 1) 0) (body := fun i (_ : Unit) => do
    if i < size p then
      let j ← int (size s - i)
      let j ← int (j - 1)
      let a ← «at» s j
      let k ← int (size p - i)
      let k ← int (k - 1)
      let b ← «at» p k
      if a != b then .ok (.stop false) else .ok (.next ())
    else .ok (.stop true)) (by simp [size_eq hp]) (by
      intro i hi
      rw [size_eq hp, size_eq hs, if_pos (by omega), int_ok (by omega) (by omega), int_ok (x := (p.length : Int) - i) (by omega) (by omega)]
      simp only [bind_def, bind_ok]
      rw [int_ok (by omega) (by omega), int_ok (x := (p.length : Int) - i - 1) (by omega) (by omega)]
      simp only [bind_ok]
      rw [show (s.length : Int) - i - 1 = ((s.length - i - 1 : Nat) : Int) by omega, show (p.length : Int) - i - 1 = ((p.length - i - 1 : Nat) : Int) by omega,
        at_nat (by omega), at_nat (by omega)]
      simp only [bind_ok]
      by_cases h : s.getD (s.length - i - 1) 0 = p.getD (p.length - i - 1) 0
      · simp only [bne, beq_iff_eq.2 h]; rfl
      · simp only [bne, beq_eq_false_iff_ne.2 h]; rfl) p.length 0 (by simp)
  rw [List.range_eq_range']
  exact this

end Knuckle.Idx

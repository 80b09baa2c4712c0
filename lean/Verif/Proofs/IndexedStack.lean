/-
How many calls of `is_keyword_message` the stack must have room for: exactly the number counted in `Model/Depth.lean`.
-/
import Verif.Proofs.IndexedParser
import Verif.Proofs.Depth

namespace Knuckle.Idx

/-- The result, if the stack has room for the calls. -/
def within {α : Type} (depth : Nat) (r : Tracked α) : Ix α := if r.2.1 ≤ depth then .ok r.1 else .stack

theorem up_stack {σ β : Type} {body : Int → σ → Ix (Flow σ β)} {i : Int} {st : σ} (h : body i st = .stack) : up body i st = .stack := by
  rw [up, h]

/-- The body of the loop of `is_keyword_message`. -/
def keywordBody (rec : Str → Ix Bool) (s : Str) (i : Int) (_ : Unit) : Ix (Flow Unit Bool) := do
  if i < size s then
    let c ← «at» s i
    if ← Ix.and (Ix.and (.ok (isSpace c)) ((substr2 s 0 i).bind isKeywordMessagePart))
        ((int (i + 1)).bind fun j => (substr1 s j).bind fun t => (ltrim t).bind rec) then .ok (.stop true)
    else .ok (.next ())
  else .ok (.stop false)

theorem keywordLoop_within {depth : Nat} {rec : Str → Ix Bool} {recD : Str → Tracked Bool} {s : Str} (hs : Fits s)
    (hrec : ∀ t, Fits t → t.length < s.length → rec t = within depth (recD t)) : ∀ (suf pre : Str), s = pre ++ suf →
    up (keywordBody rec s) pre.length () = within depth (keywordLoopD recD pre suf)
  | [], pre, e => by
    rw [List.append_nil] at e
    subst e
    rw [up_stop (b := false)]
    · rfl
    · unfold keywordBody; rw [size_eq hs, if_neg (by omega)]
  | c :: cs, pre, e => by
    have hlt := lt_cons e
    have hs' : s.length < 2147483648 := hs
    have hpre : Fits pre := fits_le hs (by rw [e]; simp)
    have hcs : Fits cs := fits_le hs (by rw [e]; simp; omega)
    have hcl : cs.length < s.length := by rw [e]; simp; omega
    have hm := ltrim_length cs
    have next := keywordLoop_within hs hrec cs (pre ++ [c]) (by simp [e])
    rw [show ((pre ++ [c]).length : Int) = (pre.length : Int) + 1 by simp] at next
    have hb : keywordBody rec s pre.length () = ((if isSpace c && Knuckle.isKeywordMessagePart pre then rec (Knuckle.ltrim cs) else .ok false).bind fun b =>
        if b then Ix.ok (.stop true) else Ix.ok (.next ())) := by
      unfold keywordBody
      rw [size_eq hs, if_pos hlt, at_cons e, bind_def, bind_ok, substr_to e, bind_ok, isKeywordMessagePart_eq hpre, and_ok_ok, int_ok (by omega) (by omega),
        bind_ok, substr_from e, bind_ok, ltrim_eq hcs, bind_ok, and_ok, bind_def]
    rw [keywordLoopD]
    split
    · rename_i h
      rw [if_pos h, hrec _ (fits_ltrim hcs) (by omega)] at hb
      unfold within at hb ⊢
      by_cases hd : (recD (Knuckle.ltrim cs)).2.1 ≤ depth
      · rw [if_pos hd, bind_ok] at hb
        by_cases ht : (recD (Knuckle.ltrim cs)).1 = true
        · rw [if_pos ht] at hb
          rw [up_stop hb]
          simp only []
          rw [if_pos ht, if_pos hd, ht]
        · rw [if_neg ht] at hb
          rw [up_next hb (by omega), next]
          simp only []
          rw [if_neg ht]
          simp only [Nat.max_le, hd, true_and, within]
      · rw [if_neg hd] at hb
        rw [up_stack hb]
        simp only []
        by_cases ht : (recD (Knuckle.ltrim cs)).1 = true
        · rw [if_pos ht, if_neg hd]
        · rw [if_neg ht, if_neg (by simp only [Nat.max_le]; tauto)]
    · rename_i h
      rw [if_neg h, bind_ok, if_neg (by simp)] at hb
      rw [up_next hb (by omega), next]

theorem isKeywordMessage_within : ∀ (depth fuel : Nat) {s : Str}, Fits s → s.length < fuel → isKeywordMessage depth s = within depth (isKeywordMessageD fuel s)
  | _, 0, s, _, h => by omega
  | 0, fuel + 1, s, hs, h => by
    rw [isKeywordMessage, isKeywordMessageD]
    unfold within
    split
    · rw [if_neg (by simp)]
    · rw [if_neg (by simp only []; omega)]
  | depth + 1, fuel + 1, s, hs, h => by
    rw [isKeywordMessage, isKeywordMessageD, isKeywordMessagePart_eq hs, bind_def, bind_ok]
    split
    · unfold within; rw [if_pos (by simp)]
    · have := keywordLoop_within (depth := depth) (rec := isKeywordMessage depth) (recD := isKeywordMessageD fuel) hs
        (fun t ht hl => isKeywordMessage_within depth fuel ht (by omega)) s [] rfl
      refine Eq.trans ?_ (this.trans ?_)
      · rfl
      · unfold within
        simp only []
        by_cases hd : (keywordLoopD (isKeywordMessageD fuel) [] s).2.1 ≤ depth
        · rw [if_pos hd, if_pos (by omega)]
        · rw [if_neg hd, if_neg (by omega)]

/-- The body of the loop of `is_statement`. -/
def statementBody (depth : Nat) (t : Str) (i : Int) (_ : Unit) : Ix (Flow Unit Bool) := do
  if i < size t then
    let c ← «at» t i
    if ← Ix.and (.ok (isSpace c)) ((substr2 t 0 i).bind isActor) then
      let j ← int (i + 1)
      let m ← substr1 t j
      let m ← ltrim m
      let b ← Ix.or (isUnaryMessage m) (isKeywordMessage depth m)
      .ok (.stop b)
    else .ok (.next ())
  else .ok (.stop false)

theorem statementLoop_within {depth : Nat} {s : Str} (hs : Fits s) : ∀ (suf pre : Str), s = pre ++ suf →
    up (statementBody depth s) pre.length () = within depth (statementLoopD pre suf)
  | [], pre, e => by
    rw [List.append_nil] at e
    subst e
    rw [up_stop (b := false)]
    · rw [statementLoopD]; unfold within; rw [if_pos (by simp)]
    · unfold statementBody; rw [size_eq hs, if_neg (by omega)]
  | c :: cs, pre, e => by
    have hlt := lt_cons e
    have hs' : s.length < 2147483648 := hs
    have hpre : Fits pre := fits_le hs (by rw [e]; simp)
    have hcs : Fits cs := fits_le hs (by rw [e]; simp; omega)
    have next := statementLoop_within (depth := depth) hs cs (pre ++ [c]) (by simp [e])
    rw [show ((pre ++ [c]).length : Int) = (pre.length : Int) + 1 by simp] at next
    have hb : statementBody depth s pre.length () = if isSpace c && Knuckle.isActor pre then
        (Ix.or (.ok (Knuckle.isUnaryMessage (Knuckle.ltrim cs))) (isKeywordMessage depth (Knuckle.ltrim cs))).bind fun b => Ix.ok (.stop b)
        else Ix.ok (.next ()) := by
      unfold statementBody
      rw [size_eq hs, if_pos hlt, at_cons e, bind_def, bind_ok, substr_to e, bind_ok, isActor_eq hpre, and_ok_ok, bind_def, bind_ok]
      rw [int_ok (by omega) (by omega), bind_def, bind_ok, substr_from e, bind_def, bind_ok, ltrim_eq hcs, bind_def, bind_ok, isUnaryMessage_eq (fits_ltrim hcs), bind_def]
    rw [statementLoopD]
    split
    · rename_i h
      rw [if_pos h, or_ok] at hb
      simp only []
      split
      · rename_i hu
        rw [if_pos hu, bind_ok] at hb
        rw [up_stop hb]
        unfold within; rw [if_pos (by simp)]
      · rename_i hu
        rw [if_neg hu, isKeywordMessage_within depth _ (fits_ltrim hcs) (Nat.lt_succ_self _)] at hb
        unfold within at hb ⊢
        by_cases hd : (isKeywordMessageD ((Knuckle.ltrim cs).length + 1) (Knuckle.ltrim cs)).2.1 ≤ depth
        · rw [if_pos hd, bind_ok] at hb
          rw [up_stop hb, if_pos hd]
        · rw [if_neg hd] at hb
          rw [up_stack hb, if_neg hd]
    · rename_i h
      rw [if_neg h] at hb
      rw [up_next hb (by omega), next]

theorem isStatement_within (depth : Nat) {s : Str} (hs : Fits s) : isStatement depth s = within depth (isStatementD s) := by
  unfold isStatement isStatementD
  have ht := fits_trim hs
  rw [trim_eq hs, bind_def, bind_ok]
  have hlast : Ix.or (.ok ((Knuckle.trim s).length == 0)) ((last (Knuckle.trim s)).bind fun c => .ok (c != c!";")) =
      .ok ((Knuckle.trim s).length == 0 || (Knuckle.trim s).getD ((Knuckle.trim s).length - 1) 0 != c!";") := by
    by_cases h0 : (Knuckle.trim s).length = 0
    · simp [h0]
    · rw [last_eq ht h0, bind_ok, or_ok_ok]
  rw [hlast, bind_def, bind_ok]
  simp only []
  split
  · unfold within; rw [if_pos (by simp)]
  rename_i h1
  have h0 : (Knuckle.trim s).length ≠ 0 := by
    intro h0; simp [h0] at h1
  rw [init_eq ht h0, bind_def, bind_ok, rtrim_eq (fits_take ht _), bind_def, bind_ok]
  have hf : Fits (core s) := fits_le hs (core_length s)
  exact statementLoop_within hf (core s) [] rfl

theorem isStatement_room {depth : Nat} {s : Str} (hs : Fits s) (h : (parseD s).2.1 ≤ depth) : isStatement depth s = .ok (Knuckle.isStatement s) := by
  rw [isStatement_within depth hs, within, if_pos (show (isStatementD s).2.1 ≤ depth from h), isStatementD_fst]

theorem parse_stack {depth : Nat} {s : Str} (hs : Fits s) (h : depth < (parseD s).2.1) : parse depth s = .stack := by
  unfold parse
  rw [isStatement_within depth hs, within, if_neg (show ¬ (isStatementD s).2.1 ≤ depth from Nat.not_le.2 h)]
  rfl

end Knuckle.Idx

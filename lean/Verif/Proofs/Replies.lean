/-
The form of replies.
-/
import Verif.Proofs.Does
import Verif.Proofs.Decimal

namespace Knuckle

open Spec

/-- The reply begins with a byte that no error text begins with, and contains the capital letter of "RuntimeError" only in quotes or
brackets. -/
def OkReply (r : Str) : Prop := ∃ b l, r = b :: l ∧ b ∈ b!"ntf0123456789-'\"[{(i" ∧ (b ∈ b!"'\"[{(" ∨ c!"R" ∉ l)

theorem okReply_null : OkReply b!"null" := ⟨_, _, rfl, by decide, by simp⟩
theorem okReply_truth (p : Prop) [Decidable p] : OkReply (truth p) := by
  unfold truth; split
  · exact ⟨_, _, rfl, by decide, by simp⟩
  · exact ⟨_, _, rfl, by decide, by simp⟩

theorem digit_ok {b : Byte} (h : Digit b) : b ∈ b!"ntf0123456789-'\"[{(i" := by
  unfold Digit at h
  have key : ∀ b : Byte, c!"0" ≤ b → b ≤ c!"9" → b ∈ b!"ntf0123456789-'\"[{(i" := by
    intro b h1 h2
    rw [UInt8.le_iff_toNat_le] at h1 h2
    have h1 : 48 ≤ b.toNat := h1
    have h2 : b.toNat ≤ 57 := h2
    have : b = UInt8.ofNat b.toNat := by simp
    have h3 : b.toNat = 48 ∨ b.toNat = 49 ∨ b.toNat = 50 ∨ b.toNat = 51 ∨ b.toNat = 52 ∨ b.toNat = 53 ∨ b.toNat = 54 ∨
      b.toNat = 55 ∨ b.toNat = 56 ∨ b.toNat = 57 := by omega
    rw [this]
    rcases h3 with h | h | h | h | h | h | h | h | h | h <;> rw [h] <;> decide
  exact key b h.1 h.2

theorem okReply_natStr (n : Nat) : ∃ b l, natStr n = b :: l ∧ Digit b := by
  obtain ⟨h1, h2, _⟩ := natStr_spec n
  cases h : natStr n with
  | nil => exact absurd h h2
  | cons b l => exact ⟨b, l, rfl, h1 b (by rw [h]; simp)⟩

theorem natStr_noR (n : Nat) : c!"R" ∉ natStr n := fun h => absurd ((natStr_spec n).1 _ h) (by unfold Digit; decide)

theorem okReply_intStr (n : Int) : OkReply (intStr n) := by
  unfold intStr; split
  · exact ⟨_, _, rfl, by decide, .inr (natStr_noR _)⟩
  · obtain ⟨b, l, h, hd⟩ := okReply_natStr n.natAbs
    refine ⟨b, l, h, digit_ok hd, .inr fun hm => natStr_noR n.natAbs (by rw [h]; exact List.mem_cons_of_mem _ hm)⟩

theorem fixed_noR (p : Int) (x : Fl) : c!"R" ∉ fmtFixed p x := by
  cases x with
  | nan => simp only [fmtFixed]; decide
  | inf s => cases s <;> (simp only [fmtFixed, Bool.false_eq_true, if_false, if_true]; decide)
  | fin s k =>
    simp only [fmtFixed, padZeros]
    generalize (if p < 0 then 6 else p.toNat) = w
    have h1 := natStr_noR (rhe (k * 10 ^ w) oneK / 10 ^ w)
    have h2 := natStr_noR (rhe (k * 10 ^ w) oneK % 10 ^ w)
    generalize natStr (rhe (k * 10 ^ w) oneK / 10 ^ w) = x at *
    generalize natStr (rhe (k * 10 ^ w) oneK % 10 ^ w) = y at *
    have h3 : c!"R" ∉ x ++ (if w = 0 then [] else c!"." :: (List.replicate (w - y.length) c!"0" ++ y)) := by
      split <;> simp [h1, h2]
    split
    · simp only [List.mem_cons, not_or]
      exact ⟨by decide, h3⟩
    · exact h3

theorem okReply_fixed (p : Int) (x : Fl) : OkReply (fmtFixed p x) := by
  have key : ∀ b l, fmtFixed p x = b :: l → b ∈ b!"ntf0123456789-'\"[{(i" → OkReply (fmtFixed p x) := fun b l e hb =>
    ⟨b, l, e, hb, .inr fun hm => fixed_noR p x (by rw [e]; exact List.mem_cons_of_mem _ hm)⟩
  cases x with
  | nan => exact key _ _ rfl (by decide)
  | inf s => cases s <;> exact key _ _ rfl (by decide)
  | fin s k =>
    cases s with
    | true => exact key _ _ rfl (by decide)
    | false =>
      obtain ⟨b, l, h, hd⟩ := okReply_natStr (rhe (k * 10 ^ (if p < 0 then 6 else p.toNat)) oneK / 10 ^ (if p < 0 then 6 else p.toNat))
      have e : ∃ l', fmtFixed p (.fin false k) = b :: l' := by
        simp only [fmtFixed, Bool.false_eq_true, if_false]
        rw [h]
        exact ⟨_, rfl⟩
      obtain ⟨l', e⟩ := e
      exact key b l' e (digit_ok hd)

theorem okReply_char (c : Byte) : OkReply (charStr c) := ⟨_, _, rfl, by decide, by simp⟩
theorem okReply_quoted (v : Str) : OkReply (quoted v) := ⟨_, _, rfl, by decide, by simp⟩
theorem okReply_vector (p : Int) (l : List Obj) : OkReply (vectorText p l) := ⟨_, _, rfl, by decide, by simp⟩
theorem okReply_set (p : Int) (l : List Obj) : OkReply (setText p l) := ⟨_, _, rfl, by decide, by simp⟩
theorem okReply_dict (p : Int) (l : List (Obj × Obj)) : OkReply (dictText p l) := ⟨_, _, rfl, by decide, by simp⟩
theorem okReply_list (l : List Str) : OkReply (listText c!"[" c!"]" l) := ⟨_, _, rfl, by decide, by simp⟩

theorem okReply_repr (p : Int) (o : Obj) : OkReply (o.repr p) := by
  cases o with
  | boolean b => cases b <;> exact ⟨_, _, rfl, by decide, by simp⟩
  | character c => exact okReply_char c
  | integer n => exact okReply_intStr n
  | float x => exact okReply_fixed p x
  | string v => exact okReply_quoted v

theorem okReply_index (o : Option Nat) : OkReply (indexText o) := by
  cases o with
  | none => exact ⟨_, _, rfl, by decide, by simp⟩
  | some k => exact okReply_intStr k

/-- Closes a goal about any of the replies. -/
macro "ok_reply" : tactic => `(tactic| first
  | exact okReply_null | exact okReply_truth _ | exact okReply_intStr _ | exact okReply_fixed _ _ | exact okReply_char _
  | exact okReply_quoted _ | exact okReply_vector _ _ | exact okReply_set _ _ | exact okReply_dict _ _ | exact okReply_list _
  | exact okReply_repr _ _ | exact okReply_index _)

open Classical in
theorem behaves_ok {cfg : Cfg} {i i' : Inst} {name r : Str} {args : List Str}
    (h : Behaves cfg i name args (.gives i' r)) : OkReply r := by
  generalize hx : Result.gives i' r = x at h
  cases h with
  | @boolean v _ _ m h =>
    obtain ⟨w, e, rfl⟩ := map_gives hx.symm
    cases m <;> cases e <;> ok_reply
  | @character v _ _ m h =>
    obtain ⟨w, e, rfl⟩ := map_gives hx.symm
    cases m <;> cases e <;> ok_reply
  | @integer v _ _ m h =>
    obtain ⟨w, e, rfl⟩ := map_gives hx.symm
    have ex : ∀ n, exactly n = .gives w r → OkReply r := by
      intro n h; unfold exactly at h; split at h <;> cases h; ok_reply
    have tr : ∀ x, truncated x = .gives w r → OkReply r := by
      intro x h; unfold truncated at h; split at h <;> cases h; ok_reply
    cases m with
    | get => cases e; ok_reply
    | set => cases e; ok_reply
    | divideBy n =>
      cases n <;> simp only [intMeaning] at e
      · split at e
        · cases e
        · exact ex _ e
      · exact tr _ e
    | add n => cases n <;> simp only [intMeaning] at e <;> [exact ex _ e; exact tr _ e]
    | subtract n => cases n <;> simp only [intMeaning] at e <;> [exact ex _ e; exact tr _ e]
    | multiplyBy n => cases n <;> simp only [intMeaning] at e <;> [exact ex _ e; exact tr _ e]
    | _ n =>
      cases n <;> simp only [intMeaning, Result.gives.injEq] at e <;> obtain ⟨_, rfl⟩ := e <;> exact okReply_truth _
  | @float v _ _ m h =>
    obtain ⟨w, e, rfl⟩ := map_gives hx.symm
    cases m <;> cases e <;> ok_reply
  | @string v _ _ m h =>
    obtain ⟨w, e, rfl⟩ := map_gives hx.symm
    cases m <;> simp only [strMeaning] at e <;> (try split at e) <;> cases e <;> ok_reply
  | @vector t l _ _ m h =>
    obtain ⟨w, e, rfl⟩ := map_gives hx.symm
    cases m <;> simp only [vecMeaning] at e <;> (try split at e) <;> (try split at e) <;> cases e <;> ok_reply
  | sort h1 h2 h3 => cases hx; ok_reply
  | sortUndefined h => cases hx
  | @set t l _ _ m h =>
    obtain ⟨w, e, rfl⟩ := map_gives hx.symm
    cases m <;> simp only [setMeaning] at e <;> (try split at e) <;> (try split at e) <;> cases e <;> ok_reply
  | @dictionary t u l _ _ m h =>
    obtain ⟨w, e, rfl⟩ := map_gives hx.symm
    cases m <;> simp only [dictMeaning] at e <;> (try split at e) <;> (try split at e) <;> cases e <;> ok_reply

/-- A request that did not end with an exception has such a reply. -/
theorem does_ok {pwd : Str} {c x : Ctx} {s s' : Option Session} {text r : Str} (h : Does pwd c s text (.ret (x, s') r)) :
    OkReply r := by
  generalize hy : Run.ret (x, s') r = y at h
  cases h with
  | created => cases hy; ok_reply
  | kept => cases hy; ok_reply
  | varGives _ _ _ _ _ _ hb => cases hy; exact behaves_ok hb
  | context _ h =>
    cases h <;> cases hy <;> ok_reply
  | connection _ _ h =>
    cases h <;> cases hy <;> ok_reply
  | _ => cases hy

theorem okReply_not_error {r : Str} (h : OkReply r) : r ∉ errorTexts ∧ r ≠ [] ∧
    r.head? ≠ some c!"A" ∧ r.head? ≠ some c!"R" ∧ r.head? ≠ some c!"S" := by
  obtain ⟨b, l, rfl, hb, -⟩ := h
  have hh : b ≠ c!"A" ∧ b ≠ c!"R" ∧ b ≠ c!"S" := by
    refine ⟨?_, ?_, ?_⟩ <;> rintro rfl <;> revert hb <;> decide
  refine ⟨?_, by simp, by simpa using hh.1, by simpa using hh.2.1, by simpa using hh.2.2⟩
  intro he
  simp only [errorTexts, List.mem_cons, List.not_mem_nil, or_false, List.cons.injEq, hh, false_and, or_false] at he

theorem exc_text_error (e : Exc) : e.text ∈ errorTexts := by cases e <;> decide

end Knuckle

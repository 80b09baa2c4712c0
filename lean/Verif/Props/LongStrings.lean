/-
C104: Strings with 2^31 bytes or more.
-/
import Verif.Proofs.IndexedString
import Verif.Props.Demo

namespace Knuckle.Props

open Knuckle.Spec Knuckle.Idx

/-- A String shorter than 2^31 bytes: every well-formed message, with the indices of the C++, does what the documentation says; no access is outside
of the string, nothing overflows. -/
theorem C104_short_strings (eps : Fl) {v : Str} (short : v.length < 2147483648) {name : Str} {args : List Str} {m : StrMsg}
    (understood : StrSays name args m) (request : ∀ a ∈ args, a.length < 2147483648) : Idx.receive eps v name args = told (strMeaning v m) := by
  rw [receive_eq short eps name args request, str_says eps v name args m understood, fromRun_result]

/-- The same for all messages, also those that are not understood: the outcome is the one of the model without indices. -/
theorem C104_short_strings_all [StdSort] (cfg : Cfg) {v : Str} (short : v.length < 2147483648) (name : Str) (args : List Str)
    (request : ∀ a ∈ args, a.length < 2147483648) :
    (∃ w reply, Knuckle.receive cfg (.string v) name args = .ret (.string w) reply ∧ Idx.receive cfg.eps v name args = .ok (w, reply)) ∨
    (∃ w e, Knuckle.receive cfg (.string v) name args = .thr (.string w) e ∧ Idx.receive cfg.eps v name args = .throws e) ∨
    (Knuckle.receive cfg (.string v) name args = .ub ∧ Idx.receive cfg.eps v name args = .ub) := by
  rw [receive_eq short cfg.eps name args request]
  rw [show Knuckle.receive cfg (.string v) name args = wrap .string (dispatch v (Knuckle.stringTable cfg.eps v) name args) from rfl]
  cases dispatch v (Knuckle.stringTable cfg.eps v) name args with
  | ret w r => exact Or.inl ⟨w, r, rfl, rfl⟩
  | thr w e => exact Or.inr (Or.inl ⟨w, e, rfl, rfl⟩)
  | ub => exact Or.inr (Or.inr ⟨rfl, rfl⟩)

/-- A String of at least 2^31 and less than 2^32 bytes: see `longMeaning`. -/
theorem C104_long_strings (eps : Fl) {v : Str} (long : 2147483648 ≤ v.length) (below : v.length < 4294967296) {name : Str} {args : List Str}
    {m : StrMsg} (understood : StrSays name args m) (request : ∀ a ∈ args, a.length < 2147483648) : Idx.receive eps v name args = longMeaning v m :=
  receive_long long below eps request understood

/-- Strings of every length, also such, come about by `concatenate:` with short arguments. -/
theorem C104_long_strings_exist (eps : Fl) (length : Nat) :
    ∃ (args : List Str) (v : Str), (∀ a ∈ args, a.length ≤ 3) ∧ v.length = length ∧
      args.foldlM (fun (v : Str) a => (Idx.receive eps v b!"concatenate:" [a]).bind fun r => Ix.ok r.1) [] = .ok v := by
  have step : ∀ v : Str, (Idx.receive eps v b!"concatenate:" [b!"\"x\""]).bind (fun r => Ix.ok r.1) = .ok (v ++ b!"x") := by
    intro v
    have : Idx.receive eps v b!"concatenate:" [b!"\"x\""] = Idx.op1 (fun a => do let w ← Idx.stringLit a; .ok (v ++ w, b!"null")) [b!"\"x\""] := rfl
    rw [this, Idx.op1, Idx.stringLit_eq (by unfold Idx.Fits; decide)]
    rfl
  refine ⟨List.replicate length b!"\"x\"", List.replicate length c!"x", ?_, by simp, ?_⟩
  · intro a ha
    rw [List.eq_of_mem_replicate ha]; decide
  · have gen : ∀ (n : Nat) (v : Str), (List.replicate n b!"\"x\"").foldlM (fun (v : Str) a => (Idx.receive eps v b!"concatenate:" [a]).bind fun r => Ix.ok r.1) v =
        .ok (v ++ List.replicate n c!"x") := by
      intro n
      induction n with
      | zero => intro v; simp
      | succ n ih =>
        intro v
        rw [List.replicate_succ, List.foldlM_cons, step, bind_def, bind_ok, ih, List.replicate_succ, List.append_assoc]
        rfl
    simpa using gen length []

/-! A string of 3·10^9 bytes reads as the empty string, says that its length is negative, and loses its last byte not at all. -/

theorem long_demo : 2147483648 ≤ (List.replicate 3000000000 c!"x").length ∧ (List.replicate 3000000000 c!"x").length < 4294967296 := by
  rw [List.length_replicate]; decide

example (eps : Fl) : Idx.receive eps (List.replicate 3000000000 c!"x") b!"get" [] = .ok (List.replicate 3000000000 c!"x", b!"\"\"") :=
  C104_long_strings _ long_demo.1 long_demo.2 .get (by simp)

example (eps : Fl) : Idx.receive eps (List.replicate 3000000000 c!"x") b!"length" [] = .ok (List.replicate 3000000000 c!"x", b!"-1294967296") := by
  refine (C104_long_strings _ long_demo.1 long_demo.2 .length (by simp)).trans ?_
  unfold longMeaning
  rw [List.length_replicate]
  congr 2

example (eps : Fl) : Idx.receive eps (List.replicate 3000000000 c!"x") b!"popBack" [] = .ub :=
  C104_long_strings _ long_demo.1 long_demo.2 .popBack (by simp)

example (eps : Fl) : Idx.receive eps (List.replicate 3000000000 c!"x") b!"atIndex:" [b!"5"] = .throws .invalidArgument :=
  C104_long_strings _ long_demo.1 long_demo.2
    (StrSays.atIndex (a := b!"5") (i := 5) (lit_int (by decide +kernel) (by decide +kernel) (by unfold IsInt32; decide))) (by decide)

example (eps : Fl) : Idx.receive eps b!"hello" b!"last:" [b!"2"] = .ok (b!"hello", b!"\"lo\"") :=
  (C104_short_strings _ (v := b!"hello") (by decide) (StrSays.last (a := b!"2") (n := 2) (lit_int (by decide +kernel) (by decide +kernel) (by unfold IsInt32; decide)))
    (by decide)).trans rfl

end Knuckle.Props

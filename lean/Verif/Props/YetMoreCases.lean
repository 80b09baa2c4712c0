/-
More cases: see Cases.lean and MoreCases.lean.
-/
import Verif.Props.Cases
import Verif.Props.MoreCases
import Verif.Props.Learn
import Verif.Props.Stack

set_option linter.unusedSectionVars false

namespace Knuckle.Props

open Spec

section yet_more

variable [StdSort]

example := C25_never_incomparable demo_reachable add_done
example := C34_errors_are_recognizable demo_reachable add_done
example := C36_no_unknown_error demo_reachable add_done

theorem refused_done : execute [] demo none b!"v atIndex: 9;" = .done (demo, none, b!"RuntimeError: invalid argument.") := by kernel_rfl
example := C32_refused_requests_change_nothing demo_reachable refused_done (by decide)
example := C34_errors_are_recognizable demo_reachable refused_done
example := C27_pushBack_popBack (pwd := []) (s := none) (n := b!"a::s") (t₁ := b!"a::s pushBack: 'x';") (t₂ := b!"a::s popBack;") (b := c!"x") demo_reachable
  (by decide +kernel : Holds demo b!"a::s" (.string b!"say \"hi\"")) (reads (by kernel_rfl)) (reads (by kernel_rfl))
theorem add_not_v : ¬ Concerns b!"i add: 1;" b!"v" := by
  have h : Statement b!"i add: 1;" b!"i" b!"add:" [b!"1"] := reads (by kernel_rfl)
  intro hc
  cases hc with
  | message h' => exact absurd (statement_unique h h').1 (by decide)
  | delete h' => exact absurd (statement_unique h h').1 (by decide)
  | deleteNamespace h' _ => exact absurd (statement_unique h h').1 (by decide)
example := C28_variables_persist demo_reachable demo_v add_not_v add_done
def demoNew : Ctx := { demo with vars := demo.vars ++ [(b!"z", .integer 5)] }
theorem create_done : execute [] demo none b!"Integer create: z withValue: 5;" = .done (demoNew, none, b!"null") := by kernel_rfl
example := C29_only_creations_create (n := b!"z") demo_reachable (by unfold Absent; decide +kernel) create_done (by decide +kernel : Holds demoNew b!"z" (.integer 5))
example := C30_unknown_receiver (pwd := []) (s := none) (text := b!"zz get;") (n := b!"zz") (name := b!"get") (args := []) demo_reachable
  ((isVariable_iff _).1 (by decide +kernel)) (reads (by kernel_rfl)) (by unfold Absent; decide +kernel)
example := C31_listNamespaces (pwd := []) (s := none) (text := b!"Context listNamespaces;") demo_reachable (reads (by kernel_rfl))
example := C37_tolerance (pwd := []) (s := none) (c := demo) (t := b!"Context setFloatComparisonTolerance: .5;") (reads (by kernel_rfl)) lit_half
example := C37_tolerance_not_a_literal (pwd := []) (s := none) (c := demo) (t := b!"Context setFloatComparisonTolerance: 'x';") (a := b!"'x'") (reads (by kernel_rfl))
  (by
    rintro ⟨x, h⟩
    generalize hy : b!"'x'" = y at h
    cases h with
    | float h => subst hy; exact absurd ((isFloatValue_iff _).2 h) (by decide +kernel))
example := C37_number_of_decimals (pwd := []) (s := none) (text := b!"f get;") demo_reachable demo_float (reads (by kernel_rfl)) (by decide)
example := C24_no_value_after (pwd := []) (s := none) (text := b!"d getValueForKey: 'z';") (k := .character c!"z") (by decide) demo_reachable demo_d .nil (reads (by kernel_rfl))
  (.character c!"z") (fun v => by simp [ValueAfter])
example := C35_replies_are_single_lines (prec := 3) (eps := .fin false 0) (f := false) (q := true) (h := [(b!"Context listVariables;", b!"[]")]) (c := fresh) (by decide +kernel)
  (.cons (pwd := []) (s := none) (s' := none) (by kernel_rfl) .nil) (by decide)
example := C33_messages_that_may_change (i := .integer 3) (name := b!"add:") (ks := [.number]) (by simp [signature]) (by decide)

/-! ### What a client reads -/

def shareEnd : Ctx := { demo with vars := updateVar b!"d" (.dictionary b!"Character" b!"Integer" [(.character c!"k", .integer 9)]) (updateVar b!"t" (.set b!"String" [.string b!"x", .string b!"y", .string b!"z"]) demo.vars) }
def shareLog : List Request :=
  [⟨0, b!"t add: \"z\";", b!"null"⟩, ⟨1, b!"d associateValue: 9 withKey: 'k';", b!"null"⟩, ⟨1, b!"t contains? \"z\";", b!"true"⟩, ⟨0, b!"d getValueForKey: 'k';", b!"9"⟩]
theorem share_serial : Serial [] demo shareLog shareEnd :=
  serially_serial (ls := [(0, b!"t add: \"z\";"), (1, b!"d associateValue: 9 withKey: 'k';"), (1, b!"t contains? \"z\";"), (0, b!"d getValueForKey: 'k';")])
    .nil (by simp) (by kernel_rfl)
theorem share_add : Statement b!"t add: \"z\";" b!"t" b!"add:" [b!"\"z\""] := reads (by kernel_rfl)
theorem share_put : Statement b!"d associateValue: 9 withKey: 'k';" b!"d" b!"associateValue:withKey:" [b!"9", b!"'k'"] := reads (by kernel_rfl)
theorem elsewhere {text a name : Str} {args : List Str} {n : Str} (h : Statement text a name args) (h1 : a ≠ n) (h2 : a ≠ b!"Context") : ¬ Concerns text n := by
  intro hc
  cases hc with
  | message h' => exact h1 (statement_unique h h').1
  | delete h' => exact h2 (statement_unique h h').1
  | deleteNamespace h' _ => exact h2 (statement_unique h h').1
theorem share_t : UpdatesOf b!"t" (shareLog.take 2) [(b!"add:", [b!"\"z\""], b!"null")] :=
  .update (q := shareLog[0]) share_add (by decide) (by decide : b!"null" ∉ errorTexts) (.other (.inr (.inr (elsewhere share_put (by decide) (by decide)))) .nil)
theorem share_d : UpdatesOf b!"d" (shareLog.take 3) [(b!"associateValue:withKey:", [b!"9", b!"'k'"], b!"null")] :=
  .other (.inr (.inr (elsewhere share_add (by decide) (by decide)))) (.update (q := shareLog[1]) share_put (by decide) (by decide : b!"null" ∉ errorTexts)
    (.other (.inr (.inr (elsewhere (reads (by kernel_rfl) : Statement b!"t contains? \"z\";" b!"t" b!"contains?" [b!"\"z\""]) (by decide) (by decide)))) .nil))

example := C79_set (l := shareLog.take 2) (q := shareLog[2]) (l' := shareLog.drop 3) (by decide) demo_reachable demo_t share_serial (.inl rfl) share_t
  (reads (by kernel_rfl)) (topic_lit b!"\"z\"" b!"z" (by kernel_rfl))
example := C79_dictionary (l := shareLog.take 3) (q := shareLog[3]) (l' := []) (k := .character c!"k") (v := .integer 9) (by decide) demo_reachable demo_d share_serial (.inl rfl) share_d
  (reads (by kernel_rfl)) (.character c!"k")
  (.inl ⟨[], _, [], rfl, ⟨b!"9", b!"'k'", rfl, rfl, .integer (intStr_literal 9) (by decide), .character c!"k"⟩, by simp⟩)

end yet_more

end Knuckle.Props

/-
C76: which messages undo which.
-/
import Verif.Proofs.Undo
import Verif.Props.Variables
import Verif.Props.Requests

namespace Knuckle.Props

open Spec

section
variable [StdSort] {pwd pwd' t1 t2 n m m' : Str} {s s' : Option Session} {c c' : Ctx} {i : Inst} {a a' : List Str}

/-- A variable that no request of a history concerns has the same value afterwards. -/
theorem history_keeps (hc : Reachable c) {h : List (Str × Str)} (hn : Holds c n i) (hh : History c h c') (hno : ∀ x ∈ h, ¬ Concerns x.1 n) :
    Holds c' n i := by
  induction hh with
  | nil => exact hn
  | cons he _ ih =>
    exact ih (.step hc he) (C28_variables_persist hc hn (hno _ (List.mem_cons_self ..)) he) fun x hx => hno x (List.mem_cons_of_mem _ hx)

/-- C76: each message of the table `Undoes` is accepted and undone: whatever other requests, not concerning this variable, are executed in
between (they may also change the settings), the second message is accepted and the variable has its old value again. -/
theorem C76_undone (hc : Reachable c) (hn : Holds c n i) (h : Undoes i m a m' a') (h1 : Statement t1 n m a) (h2 : Statement t2 n m' a') :
    ∃ r c1, Replies pwd c s t1 r c1 ∧ r ∉ errorTexts ∧
      ∀ hist c2, History c1 hist c2 → (∀ x ∈ hist, ¬ Concerns x.1 n) →
        ∃ r' c3, Replies pwd' c2 s' t2 r' c3 ∧ r' ∉ errorTexts ∧ OnlyChanged c2 c3 n i := by
  obtain ⟨j, r, b1, hb⟩ := undo_behaves (holds_wellTyped hc hn) h c.cfg
  obtain ⟨c1, e1, o1⟩ := answers_behaves (pwd := pwd) (s := s) hc hn h1 b1 (not_sort_of_undoes h).1
  refine ⟨r, c1, e1, (okReply_not_error (behaves_ok b1)).1, fun hist c2 hh hno => ?_⟩
  have hc1 : Reachable c1 := .step hc e1
  have hn2 := history_keeps hc1 (onlyChanged_holds o1) hh hno
  obtain ⟨r', b2⟩ := hb c2.cfg
  obtain ⟨c3, e3, o3⟩ := answers_behaves (pwd := pwd') (s := s') (history_reachable hc1 hh) hn2 h2 b2 (not_sort_of_undoes h).2
  exact ⟨r', c3, e3, (okReply_not_error (behaves_ok b2)).1, o3⟩

/-- C76: immediately afterwards, the undoing message restores all the data. -/
theorem C76_restored (hc : Reachable c) (hn : Holds c n i) (h : Undoes i m a m' a') (h1 : Statement t1 n m a) (h2 : Statement t2 n m' a') :
    ∃ r c1 r' c2, Replies pwd c s t1 r c1 ∧ Replies pwd' c1 s' t2 r' c2 ∧ SameData c c2 := by
  obtain ⟨j, r, b1, hb⟩ := undo_behaves (holds_wellTyped hc hn) h c.cfg
  obtain ⟨c1, e1, o1⟩ := answers_behaves (pwd := pwd) (s := s) hc hn h1 b1 (not_sort_of_undoes h).1
  obtain ⟨r', b2⟩ := hb c1.cfg
  obtain ⟨c2, e2, o2⟩ := answers_behaves (pwd := pwd') (s := s') (.step hc e1) (onlyChanged_holds o1) h2 b2 (not_sort_of_undoes h).2
  exact ⟨r, c1, r', c2, e1, e2, onlyChanged_same hc hn (onlyChanged_trans o1 o2)⟩

/-- C76: deleting a variable undoes its creation. -/
theorem C76_creation (hc : Reachable c) (hn : Absent c n) (h1 : CreationOf t1 n i) (h2 : Statement t2 b!"Context" b!"deleteVariable:" [n]) :
    ∃ c1 c2, Replies pwd c s t1 b!"null" c1 ∧ Replies pwd' c1 s' t2 b!"null" c2 ∧ SameData c c2 := by
  obtain ⟨c1, e1, g1, n1, k1⟩ := C29_creation_adds_one_variable (pwd := pwd) (s := s) hc h1 hn
  have hc1 : Reachable c1 := .step hc e1
  obtain ⟨c2, e2, g2, n2, k2⟩ := C30_delete_removes_exactly_one (pwd := pwd') (s := s') hc1 h2 n1
  have hc2 : Reachable c2 := .step hc1 e2
  refine ⟨c1, c2, e1, e2, vars_ext _ _ (reachable_inv hc2).asc (reachable_inv hc).asc fun k => ?_, g2.trans g1⟩
  by_cases hk : k = n
  · subst hk
    exact Eq.trans n2 (Eq.symm hn)
  · have key : ∀ j, c2.vars.lookup k = some j ↔ c.vars.lookup k = some j := fun j => (k2 k hk j).trans (k1 k hk j)
    cases h3 : c.vars.lookup k with
    | some j => exact (key j).2 h3
    | none => cases h4 : c2.vars.lookup k with
      | none => rfl
      | some j => rw [(key j).1 h4] at h3; cases h3

/-- C76: a creation that gives the value the variable had undoes its deletion. -/
theorem C76_deletion (hc : Reachable c) (hn : Holds c n i) (h1 : Statement t1 b!"Context" b!"deleteVariable:" [n]) (h2 : CreationOf t2 n i) :
    ∃ c1 c2, Replies pwd c s t1 b!"null" c1 ∧ Replies pwd' c1 s' t2 b!"null" c2 ∧ SameData c c2 := by
  obtain ⟨c1, e1, g1, n1, k1⟩ := C30_delete_removes_exactly_one (pwd := pwd) (s := s) hc h1 hn
  have hc1 : Reachable c1 := .step hc e1
  obtain ⟨c2, e2, g2, n2, k2⟩ := C29_creation_adds_one_variable (pwd := pwd') (s := s') hc1 h2 n1
  have hc2 : Reachable c2 := .step hc1 e2
  refine ⟨c1, c2, e1, e2, vars_ext _ _ (reachable_inv hc2).asc (reachable_inv hc).asc fun k => ?_, g2.trans g1⟩
  by_cases hk : k = n
  · subst hk
    exact Eq.trans n2 (Eq.symm hn)
  · have key : ∀ j, c2.vars.lookup k = some j ↔ c.vars.lookup k = some j := fun j => (k2 k hk j).trans (k1 k hk j)
    cases h3 : c.vars.lookup k with
    | some j => exact (key j).2 h3
    | none => cases h4 : c2.vars.lookup k with
      | none => rfl
      | some j => rw [(key j).1 h4] at h3; cases h3

end

/-- Hypotheses of C76 met in the demonstration: a vector, a set, a dictionary, an integer and a string. -/
example [StdSort] :
    (Holds demo b!"v" (.vector b!"Integer" [.integer 3, .integer 1, .integer 2]) ∧
      Undoes (.vector b!"Integer" [.integer 3, .integer 1, .integer 2]) b!"popAtIndex:" [b!"1"] b!"insert:beforeIndex:" [b!"1", b!"1"] ∧
      Statement b!"v popAtIndex: 1;" b!"v" b!"popAtIndex:" [b!"1"] ∧
      Statement b!"v insert: 1 beforeIndex: 1;" b!"v" b!"insert:beforeIndex:" [b!"1", b!"1"]) ∧
    (Holds demo b!"t" (.set b!"String" [.string b!"x", .string b!"y"]) ∧
      Undoes (.set b!"String" [.string b!"x", .string b!"y"]) b!"remove:" [b!"\"x\""] b!"add:" [b!"\"x\""]) ∧
    (Holds demo b!"i" (.integer (-7)) ∧ Undoes (.integer (-7)) b!"add:" [b!"10"] b!"subtract:" [b!"10"]) := by
  have one : Denotes b!"Integer" b!"1" (.integer 1) := lit_int (by decide +kernel) (by decide +kernel) (by decide)
  refine ⟨⟨by decide +kernel, ?_, reads (by decide +kernel), reads (by decide +kernel)⟩, ⟨by decide +kernel, ?_⟩, by decide +kernel, ?_⟩
  · exact Undoes.popAtIndex (l := [.integer 3]) (l' := [.integer 2]) one one
  · exact Undoes.remove (by decide) (o := .string b!"x") (.string ⟨b!"x", rfl, .plain (by decide) (by decide) .nil, .other (by decide) (by decide) .nil⟩) (by simp)
  · obtain ⟨k, hk⟩ := (intLiteral_exists b!"10").1 ((isIntegerValue_iff _).1 (by decide +kernel))
    have : k = 10 := by rw [← decInt_eq _ _ hk]; decide +kernel
    subst this
    exact .add hk (by decide) (by decide)

/-- The two versions of C76 for creation in the demonstration. -/
example [StdSort] : Absent demo b!"z" ∧ CreationOf b!"Integer create: z withValue: 5;" b!"z" (.integer 5) ∧
    Statement b!"Context deleteVariable: z;" b!"Context" b!"deleteVariable:" [b!"z"] := by
  refine ⟨by unfold Absent; decide +kernel, ⟨b!"Integer", b!"create:withValue:", [b!"z", b!"5"], reads (by decide +kernel), ?_⟩,
    reads (by decide +kernel)⟩
  exact .value (o := .integer 5) (by unfold ObjectType; decide) (by decide) ((isVariable_iff _).1 (by decide)) (lit_int rfl rfl (by decide))

end Knuckle.Props

/-
Concrete reachable contexts, for the examples that show that hypotheses of theorems can be met.
-/
import Verif.Proofs.Answers
import Lean.Elab.Tactic.Basic
import Lean.Meta.AppBuilder

namespace Knuckle.Props

open Spec

open Lean Elab Tactic Meta in
/-- Closes `a = b` with the term `rfl : a = a`, leaving the check that `a` and `b` compute to the same value to the kernel
(which evaluates arithmetic on large numbers efficiently) when the finished proof is added. -/
elab "kernel_rfl" : tactic => liftMetaTactic fun g => do
  let some (_, a, _) := (← instantiateMVars (← g.getType)).eq? | throwError "not an equality"
  g.assign (← mkEqRefl a)
  return []

/-- The context after these requests, all of which must be defined. -/
def after [StdSort] (pwd : Str) (s : Option Session) : List Str → Ctx → Option Ctx
  | [], c => some c
  | t :: ts, c => match execute pwd c s t with
    | .done (c', _, _) => after pwd s ts c'
    | .ub => none

theorem after_reachable [StdSort] {pwd : Str} {s : Option Session} {ts : List Str} {c c' : Ctx} (hc : Reachable c)
    (h : after pwd s ts c = some c') : Reachable c' := by
  induction ts generalizing c with
  | nil => cases h; exact hc
  | cons t ts ih =>
    simp only [after] at h
    cases he : execute pwd c s t with
    | ub => rw [he] at h; cases h
    | done r =>
      obtain ⟨c1, s1, r1⟩ := r
      rw [he] at h
      exact ih (.step hc he) h

theorem after_history [StdSort] {pwd : Str} {s : Option Session} {ts : List Str} {c c' : Ctx}
    (h : after pwd s ts c = some c') : ∃ l, History c l c' ∧ l.map (·.1) = ts := by
  induction ts generalizing c with
  | nil => cases h; exact ⟨[], .nil, rfl⟩
  | cons t ts ih =>
    simp only [after] at h
    cases he : execute pwd c s t with
    | ub => rw [he] at h; cases h
    | done r =>
      obtain ⟨c1, s1, r1⟩ := r
      rw [he] at h
      obtain ⟨l, h1, h2⟩ := ih h
      exact ⟨(t, r1) :: l, .cons he h1, by rw [List.map_cons, h2]⟩

/-- The initial context with three decimals, tolerance zero, no log. -/
abbrev fresh : Ctx := Ctx.init 3 (.fin false 0) false true

/-- The requests of the demonstration. -/
def demoTexts : List Str := [
  b!"Boolean create: b withValue: true;", b!"Character create: a::c withValue: 'x';",
  b!"Integer create: i withValue: -7;", b!"Float create: f withValue: 1.5;",
  b!"String create: a::s withValue: \"say \\\"hi\\\"\";",
  b!"Vector<Integer> create: v;", b!"v pushBack: 3;", b!"v pushBack: 1;", b!"v pushBack: 2;",
  b!"Set<String> create: t;", b!"t add: \"y\";", b!"t add: \"x\";", b!"Dictionary<Character, Integer> create: d;",
  b!"d associateValue: 1 withKey: 'k';"]

/-- What they lead to. -/
def demo : Ctx := { fresh with vars := [
  (b!"a::c", .character c!"x"), (b!"a::s", .string b!"say \"hi\""), (b!"b", .boolean true),
  (b!"d", .dictionary b!"Character" b!"Integer" [(.character c!"k", .integer 1)]), (b!"f", .float (.fin false (3 * 2 ^ 1073))),
  (b!"i", .integer (-7)), (b!"t", .set b!"String" [.string b!"x", .string b!"y"]),
  (b!"v", .vector b!"Integer" [.integer 3, .integer 1, .integer 2])] }

theorem fresh_reachable [StdSort] : Reachable fresh := .init _ _ _ _ (by decide +kernel)

theorem demo_reachable [StdSort] : Reachable demo :=
  after_reachable (pwd := []) (s := none) (ts := demoTexts) fresh_reachable (by kernel_rfl)

instance (c : Ctx) (n : Str) (i : Inst) : Decidable (Holds c n i) := by unfold Holds; infer_instance

/-- The reading of a concrete text. -/
theorem reads {text a n : Str} {l : List Str} (h : parse text = .ok ⟨a, n, l⟩) : Statement text a n l :=
  (parse_iff _ ⟨a, n, l⟩).1 h

theorem lit_int {a : Str} {n : Int} (h1 : isIntegerValue a = true) (h2 : decInt a = n) (h3 : IsInt32 n) :
    Denotes b!"Integer" a (.integer n) := by
  obtain ⟨m, hm⟩ := (intLiteral_exists a).1 ((isIntegerValue_iff a).1 h1)
  rw [decInt_eq a m hm] at h2; subst h2; exact .integer hm h3

theorem just_replies [StdSort] {pwd text r : Str} {c : Ctx} {s : Option Session} (h : execute pwd c s text = .done (c, s, r)) :
    JustReplies pwd c s text r := ⟨c, h, rfl, rfl⟩

/-- Closes a hypothesis of a theorem that is applied to concrete data, by computation. -/
macro "meets" : tactic => `(tactic| first
  | with_reducible exact demo_reachable
  | with_reducible exact fresh_reachable
  | with_reducible exact reads (by kernel_rfl)
  | with_reducible exact just_replies (by kernel_rfl)
  | with_reducible exact lit_int (by decide +kernel) (by decide +kernel) (by decide)
  | with_reducible exact (isVariable_iff _).1 (by decide +kernel)
  | with_reducible exact (isIdentifier_iff _).1 (by decide +kernel)
  | with_reducible exact (isIntegerValue_iff _).1 (by decide +kernel)
  | with_reducible exact (isFloatValue_iff _).1 (by decide +kernel)
  | with_reducible kernel_rfl
  | decide +kernel
  | unfold Absent; decide +kernel
  | unfold ObjectType; decide +kernel)

end Knuckle.Props

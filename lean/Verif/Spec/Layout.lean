/-
How a statement can be laid out with white space.
-/
import Verif.Spec.Grammar

namespace Knuckle.Spec

/-- A keyword message written with its parts (token, argument) and, for every part, the white space behind the token and
the white space behind the argument (the latter is not used for the last part). -/
def layoutMessage : List (Str × Str) → List (Str × Str) → Str
  | [], _ => []
  | [(tok, arg)], ws => tok ++ ((ws.headD ([], [])).1 ++ arg)
  | (tok, arg) :: p :: ps, ws =>
    tok ++ ((ws.headD ([], [])).1 ++ (arg ++ ((ws.headD ([], [])).2 ++ layoutMessage (p :: ps) ws.tail)))

/-- White space that may be put behind a token (any) and behind an argument (not empty). -/
def GoodSpacing (ws : List (Str × Str)) : Prop := ∀ p ∈ ws, Spaces p.1 ∧ Spaces p.2 ∧ p.2 ≠ []

/-- A whole statement: white space before the actor, behind it (not empty), before and behind the semicolon. -/
def layoutStatement (w₁ actor w₂ msg w₃ w₄ : Str) : Str := w₁ ++ (actor ++ (w₂ ++ (msg ++ (w₃ ++ (b!";" ++ w₄)))))

/-- The outer white space of a statement is white space, not empty behind the actor. -/
def GoodOuter (w₁ w₂ w₃ w₄ : Str) : Prop := Spaces w₁ ∧ Spaces w₂ ∧ w₂ ≠ [] ∧ Spaces w₃ ∧ Spaces w₄

/-- The bytes of a text that are not white space. -/
def SameButSpaces (a b : Str) : Prop :=
  a.filter (fun c => decide (¬ (c = 32 ∨ (9 ≤ c ∧ c ≤ 13)))) = b.filter (fun c => decide (¬ (c = 32 ∨ (9 ≤ c ∧ c ≤ 13))))

end Knuckle.Spec

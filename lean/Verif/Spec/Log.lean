/-
The log as a text.
-/
import Verif.Model.Log
import Verif.Spec.Server
import Verif.Spec.Effect

namespace Knuckle.Spec

/-- A time stamp: some text without newline and brackets, in brackets (`[%F %T]`). -/
def Stamp (t : Str) : Prop := ∃ b : Str, t = c!"[" :: (b ++ b!"]") ∧ c!"]" ∉ b ∧ c!"\n" ∉ b

/-- `text` is a log of these records, at some times. -/
def LogText (records : List (Str × Str)) (text : Str) : Prop :=
  ∃ stamps : List Str, stamps.length = records.length ∧ (∀ t ∈ stamps, Stamp t) ∧ text = logLines stamps records

/-- `Replay pwd s c l c'`: the requests of `l`, sent one after the other from session `s` to a server with password `pwd`, lead from
`c` to `c'` with the given replies. -/
inductive Replay [StdSort] (pwd : Str) (s : Option Session) : Ctx → List (Str × Str) → Ctx → Prop
  | nil {c : Ctx} : Replay pwd s c [] c
  | cons {c c' c'' : Ctx} {text r : Str} {l : List (Str × Str)} :
      execute pwd c s text = .done (c', s, r) → Replay pwd s c' l c'' → Replay pwd s c ((text, r) :: l) c''

/-- `Removed p l l'`: `l'` is `l` without the members with property `p`. -/
inductive Removed {α : Type} (p : α → Prop) : List α → List α → Prop
  | nil : Removed p [] []
  | keep {x l l'} : ¬ p x → Removed p l l' → Removed p (x :: l) (x :: l')
  | drop {x l l'} : p x → Removed p l l' → Removed p (x :: l) l'

end Knuckle.Spec

/-
Requests with keyword messages written in the plain way, and lists of requests that are all answered with `null`.
-/
import Verif.Spec.Layout
import Verif.Spec.Answers

namespace Knuckle.Spec

/-- The request with a keyword message, given as its tokens and arguments: one space between the words, nothing around the
semicolon. -/
def request (actor : Str) (parts : List (Str × Str)) : Str :=
  layoutStatement [] actor b!" " (layoutMessage parts (parts.map fun _ => (b!" ", b!" "))) [] []

/-- The requests, sent one after the other, are all answered with `null`, and lead from `c` to `c'`. -/
inductive Accepted [StdSort] (pwd : Str) (s : Option Session) : Ctx → List Str → Ctx → Prop
  | nil (c : Ctx) : Accepted pwd s c [] c
  | cons {c c' c'' : Ctx} {t : Str} {ts : List Str} : Replies pwd c s t b!"null" c' → Accepted pwd s c' ts c'' →
      Accepted pwd s c (t :: ts) c''

example : request b!"d" [(b!"associateValue:", b!"1"), (b!"withKey:", b!"'k'")] = b!"d associateValue: 1 withKey: 'k';" := by decide

end Knuckle.Spec

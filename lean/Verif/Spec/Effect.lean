/-
What a client can observe of the execution of one request, in the vocabulary of the property list.
-/
import Verif.Model.Context
import Verif.Spec.Grammar

namespace Knuckle.Spec

/-- The variables and the settings are the same. -/
def SameData (c c' : Ctx) : Prop := c'.vars = c.vars ∧ c'.cfg = c.cfg

/-- Variable `n` now holds `i`; every other variable and the settings are as before. -/
def OnlyChanged (c c' : Ctx) (n : Str) (i : Inst) : Prop :=
  c'.cfg = c.cfg ∧ c'.vars.map (·.1) = c.vars.map (·.1) ∧
    ∀ m, c'.vars.lookup m = if m = n then some i else c.vars.lookup m

/-- Two executions end in the same way: both undefined, or with the same reply, session, variables and settings (the log
records contain the different request texts). -/
def SameEffect : Outcome (Ctx × Option Session × Str) → Outcome (Ctx × Option Session × Str) → Prop
  | .ub, .ub => True
  | .done (c, s, r), .done (c', s', r') => SameData c c' ∧ s = s' ∧ r = r'
  | _, _ => False

/-- The contexts that can arise: any settings given on the command line (the tolerance is a `float`), then any history of requests, each from any
session (or none), on a server with any password, as long as no request had undefined behaviour. -/
inductive Reachable [StdSort] : Ctx → Prop
  | init (prec : Int) (eps : Fl) (fileOpen quiet : Bool) : eps.toF32 = eps → Reachable (Ctx.init prec eps fileOpen quiet)
  | step {pwd : Str} {c c' : Ctx} {s s' : Option Session} {text r : Str} :
      Reachable c → execute pwd c s text = .done (c', s', r) → Reachable c'

/-- `History c h c'`: the requests of `h`, in order, from any sessions, lead from `c` to `c'` with the given replies. -/
inductive History [StdSort] : Ctx → List (Str × Str) → Ctx → Prop
  | nil {c : Ctx} : History c [] c
  | cons {pwd : Str} {c c' c'' : Ctx} {s s' : Option Session} {text r : Str} {h : List (Str × Str)} :
      execute pwd c s text = .done (c', s', r) → History c' h c'' → History c ((text, r) :: h) c''

/-- `t` is `text` without white space at its ends. -/
def Trimmed (text t : Str) : Prop :=
  ∃ w w', text = w ++ (t ++ w') ∧ Spaces w ∧ Spaces w' ∧ (∀ b, t.head? = some b → ¬ Ws b) ∧ (∀ b, t.getLast? = some b → ¬ Ws b)

end Knuckle.Spec

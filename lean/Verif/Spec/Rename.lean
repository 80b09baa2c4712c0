/-
Renaming of variables: what it means that two contexts, and two requests, are the same up to the names of variables.
-/
import Verif.Spec.Settings

namespace Knuckle.Spec

/-- `f` renames variables: names go to names, different names to different names. -/
structure Renaming (f : Str → Str) : Prop where
  name : ∀ n, Variable n → Variable (f n)
  inj : ∀ n m, Variable n → Variable m → f n = f m → n = m

/-- The settings agree, and what the variable `n` is in `c`, the variable `f n` is in `d`. -/
def SameUpTo (f : Str → Str) (c d : Ctx) : Prop :=
  c.cfg = d.cfg ∧ ∀ n, Variable n → ∀ i, Holds c n i ↔ Holds d (f n) i

/-- The request `text'` asks of the renamed variable what `text` asks of the variable.  The arguments of a message to a
variable are the same.  Requests that mention no variable are the same, and those that list variables or namespaces are left out, because their
replies consist of names. -/
inductive Renamed (f : Str → Str) : Str → Str → Prop
  /-- a message to the variable -/
  | message {text text' n name args} : Variable n → Statement text n name args → Statement text' (f n) name args →
      Renamed f text text'
  /-- a message, with the name and perhaps a value, to a type -/
  | creation {text text' t n name args} : IsType t → Variable n → Statement text t name (n :: args) →
      Statement text' t name (f n :: args) → Renamed f text text'
  /-- the deletion of the variable -/
  | deletion {text text' n} : Variable n → Statement text b!"Context" b!"deleteVariable:" [n] →
      Statement text' b!"Context" b!"deleteVariable:" [f n] → Renamed f text text'
  /-- the deletion of a namespace, if renaming respects it -/
  | deletions {text text' ns ns'} : Identifier ns → Identifier ns' →
      (∀ n, Variable n → (InNamespace n ns ↔ InNamespace (f n) ns')) →
      Statement text b!"Context" b!"deleteVariablesOfNamespace:" [ns] →
      Statement text' b!"Context" b!"deleteVariablesOfNamespace:" [ns'] → Renamed f text text'
  /-- a request about the settings -/
  | settings {text name args} : Statement text b!"Context" name args →
      name ∉ [b!"listNamespaces", b!"listVariables", b!"listVariablesOfNamespace:", b!"deleteVariable:",
        b!"deleteVariablesOfNamespace:"] → Renamed f text text
  /-- a request to the connection -/
  | connection {text name args} : Statement text b!"Connection" name args → Renamed f text text
  /-- no statement at all -/
  | syntaxError {text} : (¬ ∃ a n l, Statement text a n l) → Renamed f text text

end Knuckle.Spec

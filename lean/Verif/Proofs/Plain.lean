/-
Plain requests are statements; composing accepted requests.
-/
import Verif.Spec.Plain
import Verif.Proofs.Layout
import Verif.Proofs.Answers

namespace Knuckle

open Spec

theorem request_statement {a : Str} {ps : List (Str × Str)} (ha : Actor a) (hne : ps ≠ []) (hp : ∀ p ∈ ps, Token p.1 ∧ Argument p.2) :
    Statement (request a ps) a (ps.map (·.1)).flatten (ps.map (·.2)) := by
  have sp : Spaces b!" " := fun b hb => by rw [List.mem_singleton.1 hb]; exact .inl rfl
  have ne : Spaces [] := fun b hb => by cases hb
  refine layout_statement _ _ _ _ _ _ _ _ ⟨ne, sp, by decide, ne, ne⟩ ha (.inr (layout_keyword ps _ (by simp) hne hp ?_))
  intro p hp
  obtain ⟨_, _, rfl⟩ := List.mem_map.1 hp
  exact ⟨sp, sp, by decide⟩

section
variable [StdSort] {pwd : Str} {s : Option Session}

theorem Spec.Accepted.append {c c' c'' : Ctx} {ts us : List Str} (h : Accepted pwd s c ts c') (h' : Accepted pwd s c' us c'') :
    Accepted pwd s c (ts ++ us) c'' := by
  induction h with
  | nil => exact h'
  | cons h1 _ ih => exact .cons h1 (ih h')

theorem Spec.Accepted.one {c c' : Ctx} {t : Str} (h : Replies pwd c s t b!"null" c') : Accepted pwd s c [t] c' := .cons h (.nil _)

theorem Spec.Accepted.reachable {c c' : Ctx} {ts : List Str} (h : Accepted pwd s c ts c') (hc : Reachable c) : Reachable c' := by
  induction h with
  | nil => exact hc
  | cons h1 _ ih => exact ih (.step hc h1)

theorem Spec.Accepted.history {c c' : Ctx} {ts : List Str} (h : Accepted pwd s c ts c') : History c (ts.map fun t => (t, b!"null")) c' := by
  induction h with
  | nil => exact .nil
  | cons h1 _ ih => exact .cons h1 ih

end

end Knuckle

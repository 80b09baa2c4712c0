/-
C35: what bytes replies consist of.
-/
import Verif.Proofs.Clean
import Verif.Props.Requests

namespace Knuckle.Props

open Spec

variable {c : Ctx} {h : List (Str × Str)}

theorem init_empty {Q : Byte → Prop} (prec : Int) (eps : Fl) (f q : Bool) : QCtx Q (Ctx.init prec eps f q) := fun n i h => by cases h

/-- C35: if no request of a history contains a newline byte, no reply does. -/
theorem C35_replies_are_single_lines [StdSort] {prec : Int} {eps : Fl} {f q : Bool} (he : eps.toF32 = eps)
    (hh : History (Ctx.init prec eps f q) h c) (hn : ∀ x ∈ h, c!"\n" ∉ x.1) : ∀ x ∈ h, c!"\n" ∉ x.2 := by
  have hQ : ∀ b, Printable b → b ≠ c!"\n" := by rintro b hb rfl; revert hb; decide
  have := (history_Q hQ (.init _ _ _ _ he) hh (init_empty _ _ _ _) fun x hx b hb e => hn x hx (e ▸ hb)).2
  exact fun x hx hb => this x hx _ hb rfl

/-- C35: the same for any byte that is not printable ASCII: if it is in a reply, it was sent in this or an earlier
request. -/
theorem C35_other_bytes_were_sent [StdSort] {prec : Int} {eps : Fl} {f q : Bool} (he : eps.toF32 = eps)
    (hh : History (Ctx.init prec eps f q) h c) {b : Byte} (hb : ¬ (32 ≤ b ∧ b ≤ 126)) {x : Str × Str} (hx : x ∈ h) (hr : b ∈ x.2) :
    ∃ y ∈ h, b ∈ y.1 := by
  by_contra hn
  have hQ : ∀ d, Printable d → d ≠ b := by rintro d hd rfl; exact hb hd
  exact (history_Q hQ (.init _ _ _ _ he) hh (init_empty _ _ _ _) fun y hy d hd e => hn ⟨y, hy, e ▸ hd⟩).2 x hx b hr rfl

/-- A history with string, character and container contents, and a reply that contains a newline because the request did. -/
example [StdSort] : History (Ctx.init 3 (.fin false 0) false true)
    [(b!"String create: s withValue: \"a\tb\";", b!"null"), (b!"s get;", b!"\"a\tb\""), (b!"s pushBack: '\n';", b!"null"),
      (b!"s popBack;", b!"'\n'")]
    { Ctx.init 3 (.fin false 0) false true with vars := [(b!"s", .string b!"a\tb")] } :=
  .cons (pwd := []) (s := none) (s' := none) (c' := { Ctx.init 3 (.fin false 0) false true with vars := [(b!"s", .string b!"a\tb")] }) (by kernel_rfl)
    (.cons (pwd := []) (s := none) (s' := none) (c' := { Ctx.init 3 (.fin false 0) false true with vars := [(b!"s", .string b!"a\tb")] }) (by kernel_rfl)
    (.cons (pwd := []) (s := none) (s' := none) (c' := { Ctx.init 3 (.fin false 0) false true with vars := [(b!"s", .string b!"a\tb\n")] }) (by kernel_rfl)
    (.cons (pwd := []) (s := none) (s' := none) (c' := { Ctx.init 3 (.fin false 0) false true with vars := [(b!"s", .string b!"a\tb")] }) (by kernel_rfl) .nil)))

end Knuckle.Props

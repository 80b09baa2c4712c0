/-
C73: what the float precision and the float comparison tolerance can influence.
-/
import Verif.Proofs.Settings
import Verif.Proofs.Server
import Verif.Props.Demo

namespace Knuckle.Props

open Spec

variable [StdSort] {pwd text : Str} {s : Option Session} {c c' d : Ctx}

/-- C73: the precision influences no data: two servers that differ only in it both execute a request, or both have undefined behaviour,
and then again differ at most in the precision.  Even the replies are the same, unless the request asks for the text of a float or for a
setting. -/
theorem C73_precision (hc : Reachable c) (h : SameButPrecision c d) :
    EndAlike SameButPrecision (¬ ShowsFloats c text) (execute pwd c s text) (execute pwd d s text) := by
  refine execute_alike (R := fun a b => a.eps = b.eps) (reachable_inv hc) h (fun _ => h.2) (fun _ => rfl) ?_
    (fun _ hs hn => absurd (.precision hs) hn) (fun _ hs hn => absurd (.tolerance hs) hn)
  intro n name args i hs hi
  have := receive_prec c.cfg.prec d.cfg.prec c.cfg.eps (holds_wellTyped hc hi) name args
  have e : d.cfg = ⟨d.cfg.prec, c.cfg.eps⟩ := by rw [h.2]
  rw [e]
  generalize receive c.cfg i name args = x at this
  generalize receive ⟨d.cfg.prec, c.cfg.eps⟩ i name args = y at this
  cases x <;> cases y <;> first | exact this | skip
  exact ⟨this.1, fun hn => this.2 fun hf hm => hn (.variable hs hi hf hm)⟩

/-- C73: so the precision never matters for the data, whatever happens. -/
theorem C73_precision_never_matters {h : List (Str × Str)} (hc : Reachable c) (hd : SameButPrecision c d) (hh : History c h c') :
    ∃ h' d', History d h' d' ∧ h'.map (·.1) = h.map (·.1) ∧ SameButPrecision c' d' := by
  induction hh generalizing d with
  | nil => exact ⟨[], d, .nil, rfl, hd⟩
  | @cons pwd c c1 c2 s s' text r h he _ ih =>
    have := C73_precision (pwd := pwd) (s := s) (text := text) hc hd
    rw [he] at this
    cases hx : execute pwd d s text with
    | ub => rw [hx] at this; exact this.elim
    | done x =>
      obtain ⟨d1, s1, r1⟩ := x
      rw [hx] at this
      obtain ⟨h', d', h1, h2, h3⟩ := ih (.step hc he) this.1
      exact ⟨(text, r1) :: h', d', .cons hx h1, by rw [List.map_cons, List.map_cons, h2], h3⟩

/-- C73: the tolerance influences data, and whether behaviour is undefined, only when a container looks for a float or sorts floats; apart
from that it influences at most the replies to comparisons of floats. -/
theorem C73_tolerance (hc : Reachable c) (h : SameButTolerance c d) (hs : ¬ SearchesFloats c text) :
    EndAlike SameButTolerance (¬ ComparesFloats c text) (execute pwd c s text) (execute pwd d s text) := by
  refine execute_alike (R := fun a b => a.prec = b.prec) (reachable_inv hc) h (fun _ => rfl) (fun _ => h.2) ?_
    (fun _ _ _ => h.2) (fun _ hs hn => absurd (.tolerance hs) hn)
  intro n name args i hst hi
  have hns : NotSearched i name := by
    cases i with
    | vector t l => rintro rfl hm; exact hs (.vector hst hi hm)
    | set t l => rintro rfl hm; exact hs (.set hst hi hm)
    | dictionary t u l => rintro rfl hm; exact hs (.dictionary hst hi hm)
    | _ => trivial
  have := receive_tol c.cfg.prec c.cfg.eps d.cfg.eps (holds_wellTyped hc hi) name args hns
  have e : d.cfg = ⟨c.cfg.prec, d.cfg.eps⟩ := by rw [h.2]
  rw [e]
  generalize receive c.cfg i name args = x at this
  generalize receive ⟨c.cfg.prec, d.cfg.eps⟩ i name args = y at this
  cases x <;> cases y <;> first | exact this | skip
  refine ⟨this.1, fun hn => this.2 ?_⟩
  cases i with
  | float v => exact fun hm => hn (.float hst hi hm)
  | integer v =>
    intro hm a ha
    subst ha
    exact Classical.byContradiction fun hv => hn (.integer hst hi hv hm)
  | vector t l => rintro rfl hm; exact hn (.vector hst hi hm)
  | _ => trivial

/-- The demonstration with another precision, and with the tolerance one. -/
def demoPrec : Ctx := { demo with cfg := ⟨5, .fin false 0⟩ }
def demoTol : Ctx := { demo with cfg := ⟨3, .fin false (2 ^ 1074)⟩ }

/-- The hypotheses can be met, and the exceptions are needed: the text of a float depends on the precision, the answer to a comparison on
the tolerance. -/
example : Reachable demo ∧ SameButPrecision demo demoPrec ∧ SameButTolerance demo demoTol ∧
    ¬ ShowsFloats demo b!"v get;" ∧ ¬ ComparesFloats demo b!"v sort;" ∧ ¬ SearchesFloats demo b!"v sort;" ∧
    (execute [] demo none b!"f get;" = .done (demo, none, b!"1.500") ∧
      execute [] demoPrec none b!"f get;" = .done (demoPrec, none, b!"1.50000")) ∧
    (execute [] demo none b!"f isEqualTo? 2;" = .done (demo, none, b!"false") ∧
      execute [] demoTol none b!"f isEqualTo? 2;" = .done (demoTol, none, b!"true")) := by
  have hget : Statement b!"v get;" b!"v" b!"get" [] := reads (by kernel_rfl)
  have hsort : Statement b!"v sort;" b!"v" b!"sort" [] := reads (by kernel_rfl)
  have hv : Holds demo b!"v" (.vector b!"Integer" [.integer 3, .integer 1, .integer 2]) := by decide +kernel
  have only : ∀ {i}, Holds demo b!"v" i → i = .vector b!"Integer" [.integer 3, .integer 1, .integer 2] := fun h => by
    unfold Holds at h hv; rw [hv] at h; cases h; rfl
  refine ⟨demo_reachable, ⟨rfl, rfl⟩, ⟨rfl, rfl⟩, ?_, ?_, ?_, ⟨by kernel_rfl, by kernel_rfl⟩, by kernel_rfl, by kernel_rfl⟩
  · rintro (⟨hs, hi, hf, _⟩ | hs | hs) <;> obtain ⟨h1, _, _⟩ := statement_same hget hs
    · subst h1; rw [only hi] at hf; exact absurd (show b!"Integer" = b!"Float" from hf) (by decide)
    · exact absurd h1 (by decide)
    · exact absurd h1 (by decide)
  · rintro (⟨hs, hi, _⟩ | ⟨hs, hi, _⟩ | ⟨hs, hi, _⟩ | hs) <;> obtain ⟨h1, _, _⟩ := statement_same hsort hs
    · subst h1; cases only hi
    · subst h1; cases only hi
    · subst h1; cases only hi
    · exact absurd h1 (by decide)
  · rintro (⟨hs, hi, _⟩ | ⟨hs, hi, _⟩ | ⟨hs, hi, _⟩) <;> obtain ⟨h1, _, _⟩ := statement_same hsort hs <;> subst h1 <;> cases only hi

/-- A set of floats, at tolerance zero and at tolerance one. -/
def floatSet (e : Fl) : Ctx := { fresh with cfg := ⟨3, e⟩, vars := [(b!"s", .set b!"Float" [.float (.fin false (2 ^ 1074))])] }

/-- A container that looks for a float: here the tolerance decides what is stored. -/
example : SameButTolerance (floatSet (.fin false 0)) (floatSet (.fin false (2 ^ 1074))) ∧
    SearchesFloats (floatSet (.fin false 0)) b!"s add: 1.5;" ∧
    (after [] none [b!"s add: 1.5;"] (floatSet (.fin false 0))).map Ctx.vars =
      some [(b!"s", .set b!"Float" [.float (.fin false (2 ^ 1074)), .float (.fin false (3 * 2 ^ 1073))])] ∧
    (after [] none [b!"s add: 1.5;"] (floatSet (.fin false (2 ^ 1074)))).map Ctx.vars =
      some [(b!"s", .set b!"Float" [.float (.fin false (2 ^ 1074))])] := by
  have hs : Statement b!"s add: 1.5;" b!"s" b!"add:" [b!"1.5"] := reads (by kernel_rfl)
  have hi : Holds (floatSet (.fin false 0)) b!"s" (.set b!"Float" [.float (.fin false (2 ^ 1074))]) := by unfold Holds; kernel_rfl
  refine ⟨⟨by kernel_rfl, by kernel_rfl⟩, .set hs hi (by decide), ?_, ?_⟩
  · kernel_rfl
  · kernel_rfl

end Knuckle.Props

/-
C72: everything that is stored can be observed.
-/
import Verif.Proofs.Observe
import Verif.Props.Isolation
import Verif.Props.Variables

namespace Knuckle.Props

open Spec

variable [StdSort] {pwd : Str} {s : Session} {c d : Ctx}

theorem just {t r r' : Str} (h : Indistinguishable pwd s c d) (h1 : JustReplies pwd c (some s) t r) (h2 : JustReplies pwd d (some s) t r') : r = r' := by
  obtain ⟨_, h1, _⟩ := h1
  obtain ⟨_, h2, _⟩ := h2
  exact (indistinguishable_step h h1 h2).1

omit [StdSort] in
theorem getText_ok (p : Int) (i : Inst) : OkReply (getText p i) := by
  cases i with
  | boolean v => exact okReply_repr p (.boolean v)
  | character v => exact okReply_char v
  | integer v => exact okReply_intStr v
  | float v => exact okReply_fixed p v
  | string v => exact okReply_quoted v
  | vector t l => exact ⟨_, _, rfl, by simp⟩
  | set t l => exact ⟨_, _, rfl, by simp⟩
  | dictionary t u l => exact ⟨_, _, rfl, by simp⟩

/-- C72: two servers, in whatever states, that no client can tell apart hold the same variables, with the same types and values to the last bit
(there is only one NaN here), and the same settings. -/
theorem C72_everything_can_be_observed (hc : Reachable c) (hd : Reachable d) (h : Indistinguishable pwd s c d) : SameData c d := by
  have ctx : ∀ {tok a : Str}, isKeywordMessageToken tok = true → Argument a → Statement (request b!"Context" [(tok, a)]) b!"Context" tok [a] :=
    fun h1 h2 => one_statement (.inr (.inl rfl)) h1 h2
  have gp : Statement b!"Context getFloatPrecision;" b!"Context" b!"getFloatPrecision" [] := reads (by decide +kernel)
  have gt : Statement b!"Context getFloatComparisonTolerance;" b!"Context" b!"getFloatComparisonTolerance" [] := reads (by decide +kernel)
  -- the precision
  have hp : c.cfg.prec = d.cfg.prec := intStr_inj _ _ (just h (C37_getSettings gp gt).1 (C37_getSettings gp gt).1)
  -- the tolerance
  have sp : Statement b!"Context setFloatPrecision: 46;" b!"Context" b!"setFloatPrecision:" [b!"46"] := reads (by decide +kernel)
  have den : Denotes b!"Integer" b!"46" (.integer 46) := lit_int (by decide +kernel) (by decide +kernel) (by unfold IsInt32; decide)
  obtain ⟨c1, a1, b1, e1⟩ := (C37_setFloatPrecision (pwd := pwd) (c := c) (s := some s) sp den).1 (by decide)
  obtain ⟨d1, a2, b2, e2⟩ := (C37_setFloatPrecision (pwd := pwd) (c := d) (s := some s) sp den).1 (by decide)
  have h1 := (indistinguishable_step h a1 a2).2
  have hc1 : Reachable c1 := .step hc a1
  have hd1 : Reachable d1 := .step hd a2
  have he : c.cfg.eps = d.cfg.eps := by
    have := just h1 (C37_getSettings gp gt).2 (C37_getSettings gp gt).2
    rw [e1, e2] at this
    exact fmtFixed_inj (p := 46) (by decide) (reachable_inv hc).eps (reachable_inv hd).eps this
  -- the variables
  have st : Statement b!"Context setFloatComparisonTolerance: 0;" b!"Context" b!"setFloatComparisonTolerance:" [b!"0"] := reads (by decide +kernel)
  have hf : FloatValue b!"0" := (isFloatValue_iff _).1 (by decide +kernel)
  have hz : (atof b!"0").toF32 = .fin false 0 := by kernel_rfl
  obtain ⟨c2, a3, b3, e3⟩ := (C37_setFloatComparisonTolerance (pwd := pwd) (c := c1) (s := some s) st).1 hf (by rw [hz]; rfl)
  obtain ⟨d2, a4, b4, e4⟩ := (C37_setFloatComparisonTolerance (pwd := pwd) (c := d1) (s := some s) st).1 hf (by rw [hz]; rfl)
  have h2 := (indistinguishable_step h1 a3 a4).2
  have hc2 : Reachable c2 := .step hc1 a3
  have hd2 : Reachable d2 := .step hd1 a4
  rw [hz, e1] at e3
  rw [hz, e2] at e4
  have g3 : c2.cfg = plainCfg := e3
  have g4 : d2.cfg = plainCfg := e4
  have hv : c2.vars = d2.vars := by
    refine vars_ext _ _ (reachable_inv hc2).asc (reachable_inv hd2).asc fun n => ?_
    have exist : ∀ {x y : Ctx} {i : Inst}, Reachable x → Reachable y → Holds x n i → Absent y n → Indistinguishable pwd s x y ∨ Indistinguishable pwd s y x → False := by
      intro x y i hx hy' hi hy hxy
      have hn := inv_variable (reachable_inv hx) hi
      obtain ⟨t, ht⟩ := unary_statement (m := b!"get") hn (by decide +kernel)
      obtain ⟨x', k1, _, _⟩ := message_step (pwd := pwd) (s := some s) (reachable_inv hx) ht hi (by rw [receive_get]; rfl)
      have k2 : JustReplies pwd y (some s) t b!"RuntimeError: name cannot be resolved to a variable." := by
        have e := execute_statement pwd y (some s) _ _ _ _ ht
        rw [executeParsed_variable _ _ _ _ ((isVariable_iff _).2 hn)] at e
        have hf : mapFind strLt n y.vars = none := by rw [(reachable_inv hy').find]; exact hy
        simp only [executeInVariable, hf] at e
        exact ⟨_, e, sameData_record _ _ _⟩
      obtain ⟨y', k2, _⟩ := k2
      have e : getText x.cfg.prec i = b!"RuntimeError: name cannot be resolved to a variable." := by
        rcases hxy with hxy | hxy
        · exact (indistinguishable_step hxy k1 k2).1
        · exact (indistinguishable_step hxy k2 k1).1.symm
      have := (okReply_not_error (getText_ok x.cfg.prec i)).2.2.2.1
      rw [e] at this
      exact this rfl
    cases hi : c2.vars.lookup n with
    | none =>
      cases hj : d2.vars.lookup n with
      | none => rfl
      | some j => exact (exist hd2 hc2 hj hi (.inr h2)).elim
    | some i =>
      cases hj : d2.vars.lookup n with
      | none => exact (exist hc2 hd2 hi hj (.inl h2)).elim
      | some j => rw [value_observed h2 hc2 hd2 g3 g4 hi hj]
  refine ⟨by rw [← b1, ← b2, ← b3, ← b4, hv], ?_⟩
  cases hcc : c.cfg with | mk p e => cases hdd : d.cfg with | mk p' e' =>
    rw [hcc, hdd] at hp he
    simp only at hp he
    rw [hp, he]

/-- C72: and clients cannot observe anything else: servers with the same variables and settings answer every sequence of
requests alike, or it is undefined in both. -/
theorem C72_nothing_else_can_be_observed (h : SameData c d) (ts : List Str) : conversation pwd c s ts = conversation pwd d s ts := by
  induction ts generalizing c d s with
  | nil => rfl
  | cons t ts ih =>
    have e := C51_logging_does_not_matter (pwd := pwd) (s := some s) (text := t) h
    simp only [conversation]
    generalize execute pwd c (some s) t = x at e
    generalize execute pwd d (some s) t = y at e
    cases x with
    | ub =>
      cases y with
      | ub => rfl
      | done y => exact e.elim
    | done x =>
      cases y with
      | ub => exact e.elim
      | done y =>
        obtain ⟨c', s', r⟩ := x
        obtain ⟨d', s'', r'⟩ := y
        obtain ⟨h1, rfl, rfl⟩ := e
        cases s' with
        | none => rfl
        | some s' => simp only [ih h1]

/-- C72: the data of two servers differ if and only if a conversation, defined in both, tells them apart. -/
theorem C72_observation (hc : Reachable c) (hd : Reachable d) : Indistinguishable pwd s c d ↔ SameData c d :=
  ⟨C72_everything_can_be_observed hc hd, fun h ts rs rs' h1 h2 => by
    rw [C72_nothing_else_can_be_observed h ts, h2] at h1
    cases h1; rfl⟩

/-- The element type of an empty vector, which `get` does not show. -/
def empties (t : Str) : Ctx := { fresh with vars := [(b!"v", .vector t [])] }

theorem integers_reachable : Reachable (empties b!"Integer") :=
  after_reachable (pwd := []) (s := none) (ts := [b!"Vector<Integer> create: v;"]) fresh_reachable (by kernel_rfl)

theorem floats_reachable : Reachable (empties b!"Float") :=
  after_reachable (pwd := []) (s := none) (ts := [b!"Vector<Float> create: v;"]) fresh_reachable (by kernel_rfl)

/-- Two servers whose difference shows only after an update; and two that differ in nothing but their logs. -/
example : ¬ Indistinguishable [] ⟨true, true⟩ (empties b!"Integer") (empties b!"Float") ∧
    conversation [] (empties b!"Integer") ⟨true, true⟩ [b!"v get;"] = conversation [] (empties b!"Float") ⟨true, true⟩ [b!"v get;"] ∧
    Indistinguishable [] ⟨true, true⟩ fresh (Ctx.init 3 (.fin false 0) true false) := by
  refine ⟨fun h => ?_, ?_, ?_⟩
  · have := ((C72_observation integers_reachable floats_reachable).1 h).1
    exact absurd this (by decide +kernel)
  · exact (by kernel_rfl : conversation [] (empties b!"Integer") ⟨true, true⟩ [b!"v get;"] = .done [b!"[]"]).trans
      (by kernel_rfl : Outcome.done [b!"[]"] = conversation [] (empties b!"Float") ⟨true, true⟩ [b!"v get;"])
  · exact (C72_observation fresh_reachable (.init _ _ _ _ (by decide +kernel))).2 ⟨rfl, rfl⟩

end Knuckle.Props

/-
C75: the name of a variable does not matter, and nothing refers to a variable by its name.
-/
import Verif.Proofs.Rename
import Verif.Props.Variables
import Verif.Props.Undefined

namespace Knuckle.Props

open Spec

section
variable [StdSort] {pwd text text' : Str} {s : Option Session} {f : Str → Str} {c c' d d' : Ctx}

omit [StdSort] in
theorem sameUpTo_iff : SameUpTo f c d ↔ c.cfg = d.cfg ∧ ∀ n, Variable n → c.vars.lookup n = d.vars.lookup (f n) := by
  refine and_congr_right fun _ => forall_congr' fun n => forall_congr' fun _ => ?_
  unfold Holds
  constructor
  · intro h
    cases h1 : c.vars.lookup n with
    | some i => exact ((h i).1 h1).symm
    | none => cases h2 : d.vars.lookup (f n) with
      | none => rfl
      | some i => rw [(h i).2 h2] at h1; cases h1
  · intro h i; rw [h]

omit [StdSort] in
theorem sameUpTo_record (h : SameUpTo f c d) (a b a' b' : Str) : SameUpTo f (c.record a b) (d.record a' b') := by
  rw [sameUpTo_iff] at *
  rw [record_cfg, record_cfg, record_vars, record_vars]; exact h

omit [StdSort] in
theorem finish_renamed {x y : Run Ctx} (h : RunAlike (SameUpTo f) True x y) :
    EndAlike (SameUpTo f) True (finish text (onCtx s x)) (finish text' (onCtx s y)) := by
  cases x <;> cases y <;> first | exact h.elim | trivial | skip
  · exact ⟨sameUpTo_record h.1 _ _ _ _, rfl, h.2⟩
  · exact ⟨sameUpTo_record h.1 _ _ _ _, rfl, fun _ => congrArg Exc.text h.2⟩

/-- C75: a request about renamed variables does the same as the original: both are undefined, or both have the same reply and again leave the
same data up to the names.  So no behaviour depends on what a variable is called. -/
theorem C75_names_do_not_matter (hf : Renaming f) (hc : Reachable c) (hd : Reachable d) (h : SameUpTo f c d) (hr : Renamed f text text') :
    EndAlike (SameUpTo f) True (execute pwd c s text) (execute pwd d s text') := by
  have ic := reachable_inv hc
  have id := reachable_inv hd
  obtain ⟨hcfg, hl⟩ := sameUpTo_iff.1 h
  cases hr with
  | @message _ n name args hv h1 h2 =>
    rw [execute_statement _ _ _ _ _ _ _ h1, execute_statement _ _ _ _ _ _ _ h2,
      executeParsed_variable _ _ _ _ ((isVariable_iff n).2 hv), executeParsed_variable _ _ _ _ ((isVariable_iff _).2 (hf.name n hv))]
    refine finish_renamed ?_
    cases hi : c.vars.lookup n with
    | none =>
      rw [executeInVariable_none c ic ⟨n, name, args⟩ hi, executeInVariable_none d id ⟨f n, name, args⟩ (by rw [← hl n hv]; exact hi)]
      exact ⟨h, rfl⟩
    | some i =>
      have hi' : d.vars.lookup (f n) = some i := by rw [← hl n hv]; exact hi
      rw [executeInVariable_some c ic ⟨n, name, args⟩ i hi, executeInVariable_some d id ⟨f n, name, args⟩ i hi', hcfg]
      cases receive d.cfg i name args with
      | ub => trivial
      | thr _ e => exact ⟨h, rfl⟩
      | ret j r =>
        refine ⟨sameUpTo_iff.2 ⟨hcfg, fun m hm => ?_⟩, fun _ => rfl⟩
        rw [(onlyChanged_setVar c n j i hi).2.2, (onlyChanged_setVar d (f n) j i hi').2.2]
        by_cases e : m = n
        · rw [if_pos e, if_pos (by rw [e])]
        · rw [if_neg e, if_neg (fun e' => e (hf.inj m n hm hv e')), hl m hm]
  | @creation _ t n name args ht hv h1 h2 =>
    rw [execute_statement _ _ _ _ _ _ _ h1, execute_statement _ _ _ _ _ _ _ h2,
      executeParsed_type _ _ _ _ ((isType_iff _).2 ht), executeParsed_type _ _ _ _ ((isType_iff _).2 ht)]
    refine finish_renamed ?_
    unfold executeInType
    dsimp only
    rw [makeInstance_rename ((isVariable_iff n).2 hv) ((isVariable_iff _).2 (hf.name n hv))]
    have hm := makeInstance_cases t name (n :: args) ht
    generalize makeInstance t name (n :: args) = y at hm
    rcases y with o | e | _
    · cases o with
      | none => trivial
      | some x =>
        obtain ⟨k, i⟩ := x
        have hk : k = n := by
          rcases hm with ⟨_, h1⟩ | ⟨ks, _, ⟨_, h1⟩ | ⟨_, _, h1⟩ | ⟨_, _, h1⟩ | ⟨_, _, m, j, hcr, h1⟩⟩ <;> cases h1
          cases hcr <;> rfl
        subst hk
        simp only [renameTo, Res.bind_ok]
        rw [ic.find, id.find, ← hl k hv]
        cases hi : c.vars.lookup k with
        | none =>
          refine ⟨sameUpTo_iff.2 ⟨hcfg, fun m hm => ?_⟩, fun _ => rfl⟩
          dsimp only
          rw [mapInsert_lookup _ _ _ ic.asc, mapInsert_lookup _ _ _ id.asc]
          by_cases e : m = k
          · rw [if_pos e, if_pos (by rw [e])]
          · rw [if_neg e, if_neg (fun e' => e (hf.inj m k hm hv e')), hl m hm]
        | some j =>
          dsimp only
          split
          · exact ⟨h, fun _ => rfl⟩
          · exact ⟨h, rfl⟩
    · exact ⟨h, rfl⟩
    · trivial
  | @deletion _ n hv h1 h2 =>
    cases hi : c.vars.lookup n with
    | none =>
      obtain ⟨c1, e1, g1, g2⟩ := C30_delete_unknown (pwd := pwd) (s := s) hc hv h1 hi
      obtain ⟨d1, e2, g3, g4⟩ := C30_delete_unknown (pwd := pwd) (s := s) hd (hf.name n hv) h2 (show d.vars.lookup (f n) = none by rw [← hl n hv]; exact hi)
      rw [e1, e2]
      exact ⟨sameUpTo_iff.2 ⟨by rw [g2, g4, hcfg], fun m hm => by rw [g1, g3, hl m hm]⟩, rfl, fun _ => rfl⟩
    | some i =>
      obtain ⟨c1, e1, g1, g2, g3⟩ := C30_delete_removes_exactly_one (pwd := pwd) (s := s) hc h1 hi
      obtain ⟨d1, e2, k1, k2, k3⟩ := C30_delete_removes_exactly_one (pwd := pwd) (s := s) hd h2
        (show d.vars.lookup (f n) = some i by rw [← hl n hv]; exact hi)
      rw [e1, e2]
      refine ⟨⟨by rw [g1, k1, hcfg], fun m hm j => ?_⟩, rfl, fun _ => rfl⟩
      by_cases e : m = n
      · subst e
        unfold Holds
        unfold Absent at g2 k2
        rw [g2, k2]
      · rw [g3 m e, k3 (f m) (fun e' => e (hf.inj m n hm hv e')), h.2 m hm]
  | deletions hn hn' hns h1 h2 =>
    obtain ⟨c1, e1, g1, g2⟩ := C30_delete_namespace (pwd := pwd) (s := s) hc hn h1
    obtain ⟨d1, e2, k1, k2⟩ := C30_delete_namespace (pwd := pwd) (s := s) hd hn' h2
    rw [e1, e2]
    exact ⟨⟨by rw [g1, k1, hcfg], fun m hm j => by rw [g2, k2, h.2 m hm, hns m hm]⟩, rfl, fun _ => rfl⟩
  | @settings name args h1 h2 =>
    rw [execute_statement _ _ _ _ _ _ _ h1, execute_statement _ _ _ _ _ _ _ h1,
      executeParsed_context _ _ _ _ (by simp [isContext]), executeParsed_context _ _ _ _ (by simp [isContext])]
    refine finish_renamed ?_
    simp only [List.mem_cons, List.not_mem_nil, or_false, not_or] at h2
    obtain ⟨n1, n2, n3, n4, n5⟩ := h2
    have row : ∀ {m : Str} {op op' : List Str → Run Ctx} {T T' : Table Ctx}, (name = m → RunAlike (SameUpTo f) True (op args) (op' args)) →
        RunAlike (SameUpTo f) True (dispatch c T name args) (dispatch d T' name args) →
        RunAlike (SameUpTo f) True (dispatch c ((m, op) :: T) name args) (dispatch d ((m, op') :: T') name args) := by
      intro m op op' T T' g1 g2
      simp only [dispatch]
      split
      · rename_i hm; exact g1 (beq_iff_eq.1 hm)
      · exact g2
    have r1 : ∀ {g g' : Str → Res (Ctx × Str)}, (∀ a, RunAlike (SameUpTo f) True ((g a).run c) ((g' a).run d)) →
        RunAlike (SameUpTo f) True (op1 c g args) (op1 d g' args) := by
      intro g g' hg
      match args with
      | [] => exact ⟨h, rfl⟩
      | [a] => exact hg a
      | _ :: _ :: _ => exact ⟨h, rfl⟩
    unfold contextTable
    refine row (fun e => absurd e n1) (row (fun e => absurd e n2) (row (fun e => absurd e n3) (row (fun e => absurd e n4) (row (fun e => absurd e n5)
      (row (fun _ => ?_) (row (fun _ => r1 fun a => ?_) (row (fun _ => ?_) (row (fun _ => r1 fun a => ?_) ⟨h, rfl⟩))))))))
    · exact ⟨h, fun _ => by rw [hcfg]⟩
    · cases integerLit a with
      | err => exact ⟨h, rfl⟩
      | ub => trivial
      | ok p =>
        rw [Res.bind_ok, Res.bind_ok]
        split
        · exact ⟨h, rfl⟩
        · exact ⟨sameUpTo_iff.2 ⟨by dsimp only; rw [hcfg], hl⟩, fun _ => rfl⟩
    · exact ⟨h, fun _ => by rw [hcfg]⟩
    · cases floatLit a with
      | err => exact ⟨h, rfl⟩
      | ub => trivial
      | ok p =>
        rw [Res.bind_ok, Res.bind_ok]
        split
        · exact ⟨h, rfl⟩
        · exact ⟨sameUpTo_iff.2 ⟨by dsimp only; rw [hcfg], hl⟩, fun _ => rfl⟩
  | @connection name args h1 =>
    rw [execute_statement _ _ _ _ _ _ _ h1, execute_statement _ _ _ _ _ _ _ h1,
      executeParsed_connection _ _ _ _ (by simp [isConnection]), executeParsed_connection _ _ _ _ (by simp [isConnection])]
    cases s with
    | none => trivial
    | some x =>
      dsimp only
      cases x.receive pwd name args with
      | ret s' r => exact ⟨sameUpTo_record h _ _ _ _, rfl, fun _ => rfl⟩
      | thr s' r => exact ⟨sameUpTo_record h _ _ _ _, rfl, fun _ => rfl⟩
      | ub => trivial
  | syntaxError hn =>
    rw [execute_not_statement _ _ _ _ hn, execute_not_statement _ _ _ _ hn]
    exact ⟨sameUpTo_record h _ _ _ _, rfl, fun _ => rfl⟩

/-- C75: so a whole history can be renamed: the renamed requests, one by one, get the same replies. -/
theorem C75_histories {h : List (Str × Str)} {ts : List Str} (hf : Renaming f) (hc : Reachable c) (hd : Reachable d) (hs : SameUpTo f c d)
    (hh : History c h c') (hr : List.Forall₂ (Renamed f) (h.map (·.1)) ts) :
    ∃ d', History d (ts.zip (h.map (·.2))) d' ∧ SameUpTo f c' d' := by
  induction hh generalizing d ts with
  | nil => cases hr; exact ⟨d, .nil, hs⟩
  | @cons pwd c c1 c2 s s' text r h he _ ih =>
    cases hr with
    | @cons _ t _ ts h1 h2 =>
      have := C75_names_do_not_matter (pwd := pwd) (s := s) hf hc hd hs h1
      rw [he] at this
      cases hx : execute pwd d s t with
      | ub => rw [hx] at this; exact this.elim
      | done x =>
        obtain ⟨d1, s1, r1⟩ := x
        rw [hx] at this
        obtain ⟨g1, -, g2⟩ := this
        obtain ⟨d', h3, h4⟩ := ih (.step hc he) (.step hd hx) g1 h2
        refine ⟨d', ?_, h4⟩
        rw [g2 trivial]
        exact .cons hx h3

omit [StdSort] in
/-- A name begins with a letter. -/
theorem variable_head {a : Str} (ha : Variable a) : ∃ b r, a = b :: r ∧ Letter b := by
  rcases ha with ⟨⟨b, r, rfl, hb, _⟩, _⟩ | ⟨_, _, rfl, ⟨⟨b, r, rfl, hb, _⟩, _⟩, _⟩
  · exact ⟨b, r, rfl, hb⟩
  · exact ⟨b, _, rfl, hb⟩

omit [StdSort] in
/-- A name is not a literal. -/
theorem variable_not_literal {a t : Str} (ha : Variable a) : ¬ LiteralOf t a ∧ ¬ IntegerValue a ∧ ¬ FloatValue a := by
  obtain ⟨b, r, e, hb⟩ := variable_head ha
  have hd : ∀ {x y : Str}, a = x ++ y → x ≠ [] → Digits x → False := by
    intro x y e' hx hds
    cases x with
    | nil => exact hx rfl
    | cons z x =>
      rw [e] at e'
      obtain ⟨rfl, _⟩ := List.cons.inj e'
      have := hds b (by simp)
      unfold Letter at hb
      unfold Digit at this
      simp only [UInt8.le_iff_toNat_le] at hb this
      change (97 ≤ b.toNat ∧ b.toNat ≤ 122) ∨ (65 ≤ b.toNat ∧ b.toNat ≤ 90) at hb
      change 48 ≤ b.toNat ∧ b.toNat ≤ 57 at this
      omega
  have hsg : ∀ {x y : Str}, a = x ++ y → Sign x → x = [] := by
    intro x y e' hx
    rcases hx with rfl | rfl | rfl
    · rfl
    · rw [e] at e'; obtain ⟨rfl, _⟩ := List.cons.inj e'; exact absurd hb (by decide)
    · rw [e] at e'; obtain ⟨rfl, _⟩ := List.cons.inj e'; exact absurd hb (by decide)
  have hi : ¬ IntegerValue a := by
    rintro ⟨sg, ds, e', h1, h2, h3⟩
    have := hsg e' h1
    subst this
    exact hd (y := []) (by rw [e']; simp) h2 h3
  have hf : ¬ FloatValue a := by
    rintro ⟨sg, m, x, e', h1, h2, h3⟩
    have := hsg e' h1
    subst this
    rcases h2 with ⟨h4, h5⟩ | ⟨p, q, rfl, h4, h5, h6⟩
    · exact hd (y := x) (by rw [e']; rfl) h4 h5
    · cases p with
      | nil => rw [e] at e'; obtain ⟨rfl, _⟩ := List.cons.inj e'; exact absurd hb (by decide)
      | cons z p => exact hd (x := z :: p) (y := c!"." :: q ++ x) (by rw [e']; simp) (by simp) h4
  refine ⟨?_, hi, hf⟩
  rintro (⟨_, h⟩ | ⟨_, c, h⟩ | ⟨_, h | h⟩ | ⟨_, h⟩ | ⟨_, y, h, _⟩)
  · rcases h with rfl | rfl
    · exact absurd ((isVariable_iff _).2 ha) (by decide)
    · exact absurd ((isVariable_iff _).2 ha) (by decide)
  · rw [e] at h; obtain ⟨rfl, _⟩ := List.cons.inj h; exact absurd hb (by decide)
  · exact hi h
  · exact hf h
  · exact hf h
  · rw [e] at h; obtain ⟨rfl, _⟩ := List.cons.inj h; exact absurd hb (by decide)

omit [StdSort] in
/-- The arguments that variables expect are values. -/
theorem signature_values (i : Inst) : ∀ p ∈ signature i, ∀ k ∈ p.2, k = .number ∨ ∃ t, k = .lit t := by
  cases i <;> simp [signature]

/-- C75: there are no references: the value of a variable cannot be used by naming it.  A message to a variable with a name among its
arguments is never obeyed: it is refused with an error and changes nothing (or, if a number out of range is among the arguments as well, is undefined). -/
theorem C75_no_references {n name a : Str} {args : List Str} (hc : Reachable c) (hn : Variable n) (hs : Statement text n name args)
    (ha : a ∈ args) (hv : Variable a) :
    (∃ e ∈ [b!"RuntimeError: name cannot be resolved to a variable.", b!"RuntimeError: invalid message.",
        b!"RuntimeError: wrong number of arguments.", b!"RuntimeError: invalid argument."], JustReplies pwd c s text e) ∨
      ((∃ b ∈ args, OutOfRange b) ∧ execute pwd c s text = .ub) := by
  have hi := reachable_inv hc
  cases hl : c.vars.lookup n with
  | none => exact .inl ⟨_, by simp, C30_unknown_receiver hc hn hs hl⟩
  | some i =>
    obtain ⟨y, hd, he⟩ := execute_does pwd hi s text
    have bad : ∀ {ks}, Understands c n name ks → args.length = ks.length → ¬ ∀ q ∈ ks.zip args, Good q.1 q.2 := by
      intro ks hu hlen hg
      obtain ⟨k, hk, e⟩ := List.getElem_of_mem ha
      have hk' : k < ks.length := by omega
      have hq : (ks[k], args[k]) ∈ ks.zip args := List.mem_iff_getElem.2 ⟨k, by simp; omega, by simp⟩
      have := (hg _ hq).1
      dsimp only at this
      rw [e] at this
      rcases signature_values i _ ((understands_variable hn hl).1 hu) ks[k] (List.getElem_mem hk') with h1 | ⟨t, h1⟩
      · rw [h1] at this
        exact this.elim (variable_not_literal (t := []) hv).2.1 (variable_not_literal (t := []) hv).2.2
      · rw [h1] at this
        exact (variable_not_literal hv).1 this
    cases does_ends hi hs (.inr (.inr (.inr ⟨i, hl⟩))) hd with
    | noMessage _ h => exact .inl ⟨_, by simp [Exc.text], justReplies_thr he h⟩
    | wrongNumber _ _ h => exact .inl ⟨_, by simp [Exc.text], justReplies_thr he h⟩
    | invalid _ _ _ h => exact .inl ⟨_, by simp [Exc.text], justReplies_thr he h⟩
    | undefined hu _ h h' =>
      refine .inr ⟨?_, by rw [he, h']; rfl⟩
      obtain ⟨⟨k, x⟩, hq, ho⟩ := h
      refine ⟨x, (List.of_mem_zip hq).2, ?_⟩
      rcases signature_values i _ ((understands_variable hn hl).1 hu) k (List.of_mem_zip hq).1 with h1 | ⟨t, h1⟩
      · rw [h1] at ho; exact .inl ho
      · rw [h1] at ho; exact ho.2
    | refused h h1 h2 => exact absurd h2 (bad h h1)
    | used h h1 h2 => exact absurd h2 (bad h h1)
    | unknown h h1 h2 => exact absurd h2 (bad h h1)
    | password h h1 h2 => exact absurd h2 (bad h h1)
    | good h h1 h2 => exact absurd h2 (bad h h1)

end

/-! ### A renaming, two contexts that are the same up to it, and requests. -/

/-- Every name gets a `2` at its end. -/
def second (n : Str) : Str := n ++ b!"2"

theorem second_identifier {n : Str} (h : Identifier n) : Identifier (second n) := by
  obtain ⟨⟨b, r, rfl, hb, hr⟩, -⟩ := h
  refine ⟨⟨b, r ++ b!"2", rfl, hb, fun d hd => ?_⟩, fun h => ?_⟩
  · rcases List.mem_append.1 hd with hd | hd
    · exact hr d hd
    · rw [List.mem_singleton.1 hd]; exact .inr (.inl (by unfold Digit; decide))
  · have : ∀ w ∈ [b!"null", b!"true", b!"false", b!"Connection", b!"Context", b!"Boolean", b!"Character", b!"Integer", b!"Float",
        b!"String", b!"Vector", b!"Set", b!"Dictionary"], w.getLast? ≠ some c!"2" := by decide
    exact this _ h (List.getLast?_concat (l := b :: r))

theorem second_renaming : Renaming second where
  name n h := by
    rcases h with h | ⟨a, b, rfl, ha, hb⟩
    · exact .inl (second_identifier h)
    · exact .inr ⟨a, second b, by simp [second], ha, second_identifier hb⟩
  inj n m _ _ h := List.append_cancel_right h

theorem second_inNamespace {n ns : Str} (hv : Variable n) (hi : Identifier ns) : InNamespace n ns ↔ InNamespace (second n) ns := by
  constructor
  · rintro ⟨x, hx, rfl⟩
    exact ⟨second x, second_identifier hx, by simp [second]⟩
  · rintro ⟨x, hx, e⟩
    obtain ⟨⟨b, r, rfl, -⟩, -⟩ := hx
    refine (startsWith_ns hv hi).1 ((startsWith_iff _ _).2 ⟨(b :: r).dropLast, ?_⟩)
    have := congrArg List.dropLast e
    unfold second at this
    rw [List.dropLast_concat] at this
    rw [this, ← List.append_assoc, List.dropLast_append_of_ne_nil (by simp)]

set_option maxRecDepth 10000 in
/-- A history of requests and the renamed one. -/
example [StdSort] : Renaming second ∧ Reachable fresh ∧ SameUpTo second fresh fresh ∧
    (∃ h c, History fresh h c ∧ List.Forall₂ (Renamed second) (h.map (·.1))
      [b!"Vector<Integer> create: v2;", b!"v2 pushBack: 3;", b!"v2 size;", b!"v2 pushBack: x;", b!"Context setFloatPrecision: 5;",
        b!"Boolean create: n::b2 withValue: true;", b!"Context deleteVariablesOfNamespace: n;", b!"Context deleteVariable: v2;", b!"?"]) := by
  refine ⟨second_renaming, fresh_reachable, ⟨rfl, fun n _ i => by simp [Holds, fresh, Ctx.init]⟩, ?_⟩
  obtain ⟨h, h1, h2⟩ := after_history (pwd := []) (s := none) (c := fresh)
    (ts := [b!"Vector<Integer> create: v;", b!"v pushBack: 3;", b!"v size;", b!"v pushBack: x;", b!"Context setFloatPrecision: 5;",
        b!"Boolean create: n::b withValue: true;", b!"Context deleteVariablesOfNamespace: n;", b!"Context deleteVariable: v;", b!"?"])
    (c' := { fresh with cfg := ⟨5, .fin false 0⟩ }) (by kernel_rfl)
  have v : Variable b!"v" := (isVariable_iff _).1 (by decide)
  refine ⟨h, _, h1, ?_⟩
  rw [h2]
  refine .cons (.creation (t := b!"Vector<Integer>") (n := b!"v") (name := b!"create:") (args := []) ((isType_iff _).1 (by decide)) v (reads (by decide +kernel)) (reads (by decide +kernel))) ?_
  refine .cons (.message (name := b!"pushBack:") (args := [b!"3"]) v (reads (by decide +kernel)) (reads (by decide +kernel))) ?_
  refine .cons (.message (name := b!"size") (args := []) v (reads (by decide +kernel)) (reads (by decide +kernel))) ?_
  refine .cons (.message (name := b!"pushBack:") (args := [b!"x"]) v (reads (by decide +kernel)) (reads (by decide +kernel))) ?_
  refine .cons (.settings (name := b!"setFloatPrecision:") (args := [b!"5"]) (reads (by decide +kernel)) (by decide)) ?_
  refine .cons (.creation (t := b!"Boolean") (n := b!"n::b") (name := b!"create:withValue:") (args := [b!"true"]) ((isType_iff _).1 (by decide)) ((isVariable_iff _).1 (by decide)) (reads (by decide +kernel)) (reads (by decide +kernel))) ?_
  have hn : Identifier b!"n" := (isIdentifier_iff _).1 (by decide)
  refine .cons (.deletions hn hn (fun m hm => second_inNamespace hm hn) (reads (by decide +kernel)) (reads (by decide +kernel))) ?_
  refine .cons (.deletion v (reads (by decide +kernel)) (reads (by decide +kernel))) ?_
  refine .cons (.syntaxError ?_) .nil
  rintro ⟨a, n, l, h⟩
  have := (parse_iff _ ⟨a, n, l⟩).2 h
  rw [show parse b!"?" = .err .invalidStatement by decide +kernel] at this
  cases this

set_option maxRecDepth 10000 in
/-- A name among the arguments. -/
example [StdSort] : Reachable demo ∧ Holds demo b!"i" (.integer (-7)) ∧ Statement b!"v pushBack: i;" b!"v" b!"pushBack:" [b!"i"] ∧ Variable b!"v" ∧
    Variable b!"i" :=
  ⟨demo_reachable, by decide +kernel, reads (by decide +kernel), (isVariable_iff _).1 (by decide), (isVariable_iff _).1 (by decide)⟩

end Knuckle.Props

/-
C08 (second half), C32–C34, C36–C39, C49: what holds of every request.
-/
import Verif.Proofs.NonFloat
import Verif.Spec.Undefined
import Verif.Props.Variables

namespace Knuckle.Props

open Spec

variable {pwd pwd' : Str} {c c' d : Ctx} {s s' : Option Session} {text n m r : Str}

/-! ### C08 -/

/-- C08: no request is silently dropped: every reply is non-empty. -/
theorem C08_every_request_is_answered [StdSort] (hc : Reachable c) (h : execute pwd c s text = .done (c', s', r)) : r ≠ [] := by
  obtain ⟨x, rfl, hd | ⟨e, hd, rfl⟩⟩ := execute_done (reachable_inv hc) h
  · exact (okReply_not_error (does_ok hd)).2.1
  · cases e <;> decide

/-! ### C32 -/

/-- C32: if the reply is an error, variables, settings and session are exactly as before. -/
theorem C32_refused_requests_change_nothing [StdSort] (hc : Reachable c) (h : execute pwd c s text = .done (c', s', r))
    (hr : r ∈ errorTexts) : SameData c c' ∧ s' = s := by
  obtain ⟨x, rfl, hd | ⟨e, hd, rfl⟩⟩ := execute_done (reachable_inv hc) h
  · exact absurd hr (okReply_not_error (does_ok hd)).1
  · obtain ⟨rfl, rfl⟩ := does_thr hd
    exact ⟨sameData_record _ _ _, rfl⟩

/-- A request that is refused after its arguments have been read, and one refused before. -/
example [StdSort] : execute [] demo none b!"v insert: 1 beforeIndex: 4;" = .done (demo, none, b!"RuntimeError: invalid argument.") ∧
    execute [] demo none b!"v pushBack: 1.5e;" = .done (demo, none, b!"SyntaxError: invalid statement.") :=
  ⟨by kernel_rfl, by kernel_rfl⟩

/-! ### C33 -/

/-- C33: questions and reads change neither variables nor settings nor the session. -/
theorem C33_questions_change_nothing [StdSort] {a name : Str} {args : List Str} (hc : Reachable c)
    (hs : Statement text a name args) (hq : Question name) (h : execute pwd c s text = .done (c', s', r)) :
    SameData c c' ∧ s' = s := by
  obtain ⟨x, rfl, hd | ⟨e, hd, rfl⟩⟩ := execute_done (reachable_inv hc) h
  · obtain ⟨rfl, rfl⟩ := does_question hs hq hd
    exact ⟨sameData_record _ _ _, rfl⟩
  · obtain ⟨rfl, rfl⟩ := does_thr hd
    exact ⟨sameData_record _ _ _, rfl⟩

/-- C33, the other way around: what the list of reading messages leaves out. -/
theorem C33_messages_that_may_change {i : Inst} {ks : List ArgKind} {name : Str} (h : (name, ks) ∈ signature i)
    (hq : ¬ Question name) :
    name ∈ [b!"set:", b!"add:", b!"subtract:", b!"multiplyBy:", b!"divideBy:", b!"pushBack:", b!"pushFront:", b!"popBack",
      b!"popFront", b!"popAtIndex:", b!"concatenate:", b!"insert:beforeIndex:", b!"eraseFromIndex:", b!"eraseFromIndex:toIndex:",
      b!"clear", b!"removeFirst:", b!"removeFirst:fromIndex:", b!"removeAll:", b!"replaceFirst:with:",
      b!"replaceFirst:fromIndex:with:", b!"replaceAll:with:", b!"sort", b!"reverse", b!"remove:", b!"associateValue:withKey:",
      b!"removeKey:"] := by
  have key : ∀ x ∈ (signature i).map (·.1), Question x ∨ x ∈ [b!"set:", b!"add:", b!"subtract:", b!"multiplyBy:", b!"divideBy:", b!"pushBack:", b!"pushFront:", b!"popBack",
      b!"popFront", b!"popAtIndex:", b!"concatenate:", b!"insert:beforeIndex:", b!"eraseFromIndex:", b!"eraseFromIndex:toIndex:",
      b!"clear", b!"removeFirst:", b!"removeFirst:fromIndex:", b!"removeAll:", b!"replaceFirst:with:",
      b!"replaceFirst:fromIndex:with:", b!"replaceAll:with:", b!"sort", b!"reverse", b!"remove:", b!"associateValue:withKey:",
      b!"removeKey:"] := by
    cases i <;> simp only [signature, List.map_cons, List.map_nil] <;> decide
  exact (key name (List.mem_map.2 ⟨_, h, rfl⟩)).resolve_left hq

example : Question b!"contains?fromIndex:" ∧ Question b!"keys" ∧ ¬ Question b!"popBack" := by decide

/-! ### C34 -/

/-- C34: a reply begins with `A`, `R` or `S` if and only if it is one of the error texts. -/
theorem C34_errors_are_recognizable [StdSort] (hc : Reachable c) (h : execute pwd c s text = .done (c', s', r)) :
    (r.head? = some c!"A" ∨ r.head? = some c!"R" ∨ r.head? = some c!"S") ↔ r ∈ errorTexts := by
  obtain ⟨x, rfl, hd | ⟨e, hd, rfl⟩⟩ := execute_done (reachable_inv hc) h
  · obtain ⟨h1, _, h2, h3, h4⟩ := okReply_not_error (does_ok hd)
    simp only [h1, h2, h3, h4, or_false]
  · refine iff_of_true ?_ (exc_text_error e)
    cases e <;> decide

/-- C34: not even for string data: a variable that contains an error text is printed in quotes. -/
example [StdSort] : execute [] { fresh with vars := [(b!"x", .string b!"RuntimeError: invalid argument.")] } none b!"x get;" =
    .done ({ fresh with vars := [(b!"x", .string b!"RuntimeError: invalid argument.")] }, none,
      b!"\"RuntimeError: invalid argument.\"") := by kernel_rfl

/-! ### C36 -/

/-- C36: the reply 'unknown error' never occurs. -/
theorem C36_no_unknown_error [StdSort] (hc : Reachable c) (h : execute pwd c s text = .done (c', s', r)) :
    r ≠ b!"RuntimeError: unknown error." := by
  obtain ⟨x, rfl, hd | ⟨e, hd, rfl⟩⟩ := execute_done (reachable_inv hc) h
  · intro e; exact (okReply_not_error (does_ok hd)).1 (by rw [e]; decide)
  · have := (does_exc hd).2.2; revert this; cases e <;> decide

example [StdSort] : ∃ c' s' r, execute [] demo none b!"a::s substringFromIndex: 8 toIndex: 8;" = .done (c', s', r) :=
  ⟨demo, none, b!"\"\"", by kernel_rfl⟩

/-! ### C37 -/

/-- The three outcomes of a statement with one argument to the context. -/
theorem C37_setFloatPrecision [StdSort] {a : Str} {p : Int} (hs : Statement text b!"Context" b!"setFloatPrecision:" [a])
    (ha : Denotes b!"Integer" a (.integer p)) :
    (0 < p → ∃ c', Replies pwd c s text b!"null" c' ∧ c'.vars = c.vars ∧ c'.cfg = { c.cfg with prec := p }) ∧
    (¬ 0 < p → JustReplies pwd c s text b!"RuntimeError: invalid argument.") := by
  have e := execute_statement pwd c s _ _ _ _ hs
  rw [executeParsed_context _ _ _ _ (by simp [isContext])] at e
  have hd : dispatch c (contextTable c) b!"setFloatPrecision:" [a] = opSetFloatPrecision c [a] := rfl
  rw [hd] at e
  simp only [opSetFloatPrecision, op1, integerLit_denotes a p ha, Res.bind_ok] at e
  constructor
  · intro hp
    rw [if_neg (by omega)] at e
    exact ⟨_, e, record_vars _ _ _, record_cfg _ _ _⟩
  · intro hp
    rw [if_pos (by omega)] at e
    exact ⟨_, e, sameData_record _ _ _⟩

/-- C37: texts that are no numbers are refused. -/
theorem C37_setFloatPrecision_literal [StdSort] {a : Str} (hs : Statement text b!"Context" b!"setFloatPrecision:" [a])
    (ha : ¬ LiteralOf b!"Integer" a) : JustReplies pwd c s text b!"RuntimeError: invalid argument." := by
  have e := execute_statement pwd c s _ _ _ _ hs
  rw [executeParsed_context _ _ _ _ (by simp [isContext])] at e
  have hd : dispatch c (contextTable c) b!"setFloatPrecision:" [a] = opSetFloatPrecision c [a] := rfl
  rw [hd] at e
  rcases integerLit_cases a with ⟨v, h, hd, _⟩ | ⟨h, hn⟩ | ⟨h, hn⟩
  · exact absurd (denotes_literal hd) ha
  · simp only [opSetFloatPrecision, op1, h, Res.bind_err] at e
    exact ⟨_, e, sameData_record _ _ _⟩
  · exfalso; apply ha
    rcases hn with ⟨k, hk, _⟩ | ⟨hk, _⟩
    · exact .inr (.inr (.inl ⟨rfl, .inl ((intLiteral_exists a).2 ⟨_, hk⟩)⟩))
    · exact .inr (.inr (.inl ⟨rfl, .inr hk⟩))

/-- C37: the tolerance becomes the float nearest to the given number, if that is not negative. -/
theorem C37_setFloatComparisonTolerance [StdSort] {a : Str} (hs : Statement text b!"Context" b!"setFloatComparisonTolerance:" [a]) :
    (FloatValue a → (atof a).toF32.lt (.fin false 0) = false →
      ∃ c', Replies pwd c s text b!"null" c' ∧ c'.vars = c.vars ∧ c'.cfg = { c.cfg with eps := (atof a).toF32 }) ∧
    (¬ (FloatValue a ∧ (atof a).toF32.lt (.fin false 0) = false) →
      JustReplies pwd c s text b!"RuntimeError: invalid argument.") := by
  have e := execute_statement pwd c s _ _ _ _ hs
  rw [executeParsed_context _ _ _ _ (by simp [isContext])] at e
  have hd : dispatch c (contextTable c) b!"setFloatComparisonTolerance:" [a] = opSetFloatComparisonTolerance c [a] := rfl
  rw [hd] at e
  rcases floatLit_cases a with ⟨h, hd⟩ | ⟨h, hn⟩
  · simp only [opSetFloatComparisonTolerance, op1, h, Res.bind_ok] at e
    constructor
    · intro _ hl
      rw [hl] at e
      exact ⟨_, e, record_vars _ _ _, record_cfg _ _ _⟩
    · intro hl
      have hl : (atof a).toF32.lt (.fin false 0) = true := by
        cases hx : (atof a).toF32.lt (.fin false 0) with
        | true => rfl
        | false => exact absurd ⟨hd, hx⟩ hl
      rw [hl] at e
      exact ⟨_, e, sameData_record _ _ _⟩
  · simp only [opSetFloatComparisonTolerance, op1, h, Res.bind_err] at e
    exact ⟨fun hf => absurd hf hn, fun _ => ⟨_, e, sameData_record _ _ _⟩⟩

/-- C37: the settings can be read. -/
theorem C37_getSettings [StdSort] {t₁ t₂ : Str} {l₁ l₂ : List Str} (h₁ : Statement t₁ b!"Context" b!"getFloatPrecision" l₁)
    (h₂ : Statement t₂ b!"Context" b!"getFloatComparisonTolerance" l₂) :
    JustReplies pwd c s t₁ (intStr c.cfg.prec) ∧ JustReplies pwd c s t₂ (fmtFixed c.cfg.prec c.cfg.eps) := by
  have e₁ := execute_statement pwd c s _ _ _ _ h₁
  have e₂ := execute_statement pwd c s _ _ _ _ h₂
  rw [executeParsed_context _ _ _ _ (by simp [isContext])] at e₁ e₂
  exact ⟨⟨_, e₁, sameData_record _ _ _⟩, ⟨_, e₂, sameData_record _ _ _⟩⟩

/-- C37: no other statement changes the settings. -/
theorem C37_only_setters_change_settings [StdSort] (hc : Reachable c) (h : execute pwd c s text = .done (c', s', r))
    (hno : ¬ SetsSetting text) : c'.cfg = c.cfg := by
  obtain ⟨x, rfl, hd | ⟨e, hd, rfl⟩⟩ := execute_done (reachable_inv hc) h
  · rw [record_cfg]; exact (does_cfg hd).resolve_right hno
  · rw [record_cfg, (does_thr hd).1]

theorem precision_kept [StdSort] (hc : Reachable c) (h : execute pwd c s text = .done (c', s', r))
    (hno : ¬ (r = b!"null" ∧ ∃ a, Statement text b!"Context" b!"setFloatPrecision:" [a])) : c'.cfg.prec = c.cfg.prec := by
  obtain ⟨x, rfl, hd | ⟨e, hd, rfl⟩⟩ := execute_done (reachable_inv hc) h
  · rw [record_cfg]
    generalize hy : Run.ret (x, s') r = y at hd
    cases hd with
    | @context m l w hst h =>
      cases h with
      | setPrecision => cases hy; exact absurd ⟨rfl, _, hst⟩ hno
      | _ => cases hy <;> rfl
    | connection _ hs h => cases h <;> cases hy <;> rfl
    | _ => cases hy <;> rfl
  · rw [record_cfg, (does_thr hd).1]

theorem tolerance_kept [StdSort] (hc : Reachable c) (h : execute pwd c s text = .done (c', s', r))
    (hno : ¬ (r = b!"null" ∧ ∃ a, Statement text b!"Context" b!"setFloatComparisonTolerance:" [a])) : c'.cfg.eps = c.cfg.eps := by
  obtain ⟨x, rfl, hd | ⟨e, hd, rfl⟩⟩ := execute_done (reachable_inv hc) h
  · rw [record_cfg]
    generalize hy : Run.ret (x, s') r = y at hd
    cases hd with
    | @context m l w hst h =>
      cases h with
      | setTolerance => cases hy; exact absurd ⟨rfl, _, hst⟩ hno
      | _ => cases hy <;> rfl
    | connection _ hs h => cases h <;> cases hy <;> rfl
    | _ => cases hy <;> rfl
  · rw [record_cfg, (does_thr hd).1]

theorem history_reachable [StdSort] {h : List (Str × Str)} (hc : Reachable c) (hh : History c h c') : Reachable c' := by
  induction hh with
  | nil => exact hc
  | cons h _ ih => exact ih (.step hc h)

/-- C37: `getFloatPrecision` returns the last accepted precision, after any history. -/
theorem C37_last_precision [StdSort] {a t₂ : Str} {p : Int} {l₂ : List Str} {h : List (Str × Str)} (hc : Reachable c)
    (hh : History c ((text, b!"null") :: h) c') (hs : Statement text b!"Context" b!"setFloatPrecision:" [a])
    (ha : Denotes b!"Integer" a (.integer p))
    (hlater : ∀ q ∈ h, ¬ (q.2 = b!"null" ∧ ∃ b, Statement q.1 b!"Context" b!"setFloatPrecision:" [b]))
    (h₂ : Statement t₂ b!"Context" b!"getFloatPrecision" l₂) : JustReplies pwd c' s t₂ (intStr p) := by
  have key : ∀ {c c' : Ctx} {h : List (Str × Str)}, Reachable c → History c h c' →
      (∀ q ∈ h, ¬ (q.2 = b!"null" ∧ ∃ b, Statement q.1 b!"Context" b!"setFloatPrecision:" [b])) → c'.cfg.prec = c.cfg.prec := by
    intro c c' h hc hh
    induction hh with
    | nil => intro _; rfl
    | cons he _ ih =>
      intro hq
      rw [ih (.step hc he) fun q hm => hq q (List.mem_cons_of_mem _ hm)]
      exact precision_kept hc he (hq (_, _) List.mem_cons_self)
  have e₂ := (C37_getSettings (pwd := pwd) (c := c') (s := s) (t₂ := b!"Context getFloatComparisonTolerance;") (l₂ := []) h₂
    (reads (by decide +kernel))).1
  suffices c'.cfg.prec = p by rwa [this] at e₂
  cases hh with
  | @cons pwd' _ c₁ _ s₁ s₁' _ _ _ he hh =>
    rw [key (.step hc he) hh hlater]
    have h3 := C37_setFloatPrecision (pwd := pwd') (c := c) (s := s₁) hs ha
    by_cases hp : 0 < p
    · obtain ⟨c₂, hr, _, hcf⟩ := h3.1 hp
      unfold Replies at hr; rw [he] at hr; cases hr; rw [hcf]
    · obtain ⟨c₂, hr, _⟩ := h3.2 hp
      unfold Replies at hr; rw [he] at hr; cases hr

/-- C37: a finite float prints as an optional minus sign, digits, a point, and exactly as many decimals as the precision
says. -/
theorem C37_number_of_decimals [StdSort] {sg : Bool} {k : Nat} (hc : Reachable c) (hn : Holds c n (.float (.fin sg k)))
    (hs : Statement text n b!"get" []) (hp : 0 < c.cfg.prec) :
    ∃ ip fp, JustReplies pwd c s text ((if sg then b!"-" else []) ++ (ip ++ c!"." :: fp)) ∧ ip ≠ [] ∧ Digits ip ∧
      Digits fp ∧ (fp.length : Int) = c.cfg.prec := by
  obtain ⟨ip, fp, e, h1, h2, h3, h4, _⟩ := fmtFixed_fin c.cfg.prec hp sg k
  refine ⟨ip, fp, ?_, h1, h2, h3, by rw [h4]; omega⟩
  have := justReplies_of hc hn (answers_flt (pwd := pwd) (s := s) hc hn hs .get)
  rw [e] at this; exact this

example [StdSort] : Statement b!"Context setFloatPrecision: 5;" b!"Context" b!"setFloatPrecision:" [b!"5"] ∧
    Denotes b!"Integer" b!"5" (.integer 5) ∧
    execute [] demo none b!"Context setFloatPrecision: 0;" = .done (demo, none, b!"RuntimeError: invalid argument.") ∧
    execute [] demo none b!"f get;" = .done (demo, none, b!"1.500") :=
  ⟨reads (by decide +kernel), lit_int rfl rfl (by decide), by kernel_rfl, by kernel_rfl⟩

/-! ### C38 -/

theorem trim_trimmed (t : Str) : Trimmed t (trim t) := by
  obtain ⟨w, hw, e⟩ := ltrim_spec t
  obtain ⟨w', hw', e'⟩ := rtrim_spec (ltrim t)
  refine ⟨w, w', ?_, hw, hw', ?_, ?_⟩
  · unfold trim; rw [← e']; exact e
  · intro b hb
    have hl := ltrim_noLead t
    cases hx : trim t with
    | nil => rw [hx] at hb; cases hb
    | cons y ys =>
      rw [hx] at hb; cases hb
      refine hl _ (ys ++ w') ?_
      rw [show ltrim t = trim t ++ w' from e', hx]; rfl
  · intro b hb
    obtain ⟨ys, hy⟩ := List.getLast?_eq_some_iff.1 hb
    exact rtrim_noTrail (ltrim t) b ys hy

/-- C38: every executed request appends exactly one record (the trimmed request and the reply) to the log file if one is
open, otherwise to the standard output unless in quiet mode; and nothing anywhere else. -/
theorem C38_one_record_per_request [StdSort] (hc : Reachable c) (h : execute pwd c s text = .done (c', s', r)) :
    ∃ t, Trimmed text t ∧ c'.fileOpen = c.fileOpen ∧ c'.quiet = c.quiet ∧
      c'.fileLog = c.fileLog ++ (if c.fileOpen then [(t, r)] else []) ∧
      c'.stdoutLog = c.stdoutLog ++ (if !c.fileOpen && !c.quiet then [(t, r)] else []) := by
  refine ⟨trim text, trim_trimmed text, ?_⟩
  have recd : ∀ x : Ctx, x.fileOpen = c.fileOpen → x.quiet = c.quiet → x.fileLog = c.fileLog → x.stdoutLog = c.stdoutLog →
      (x.record text r).fileOpen = c.fileOpen ∧ (x.record text r).quiet = c.quiet ∧
      (x.record text r).fileLog = c.fileLog ++ (if c.fileOpen then [(trim text, r)] else []) ∧
      (x.record text r).stdoutLog = c.stdoutLog ++ (if !c.fileOpen && !c.quiet then [(trim text, r)] else []) := by
    intro x h1 h2 h3 h4
    unfold Ctx.record
    rw [h1, h2]
    cases hf : c.fileOpen <;> cases hq : c.quiet <;> simp [h1, h2, h3, h4, hf, hq]
  obtain ⟨x, rfl, hd | ⟨e, hd, rfl⟩⟩ := execute_done (reachable_inv hc) h
  · generalize hy : Run.ret (x, s') r = y at hd
    cases hd with
    | @context m l w hst h => cases h <;> cases hy <;> exact recd _ rfl rfl rfl rfl
    | connection _ hs h => cases h <;> cases hy <;> exact recd _ rfl rfl rfl rfl
    | _ => cases hy <;> exact recd _ rfl rfl rfl rfl
  · rw [(does_thr hd).1]; exact recd _ rfl rfl rfl rfl

/-- C38: so the log of a history consists of one record per request, in order. -/
theorem C38_log_of_a_history [StdSort] {h : List (Str × Str)} (hc : Reachable c) (hh : History c h c') (ho : c.fileOpen = true) :
    ∃ l, c'.fileLog = c.fileLog ++ l ∧ c'.stdoutLog = c.stdoutLog ∧ List.Forall₂ (fun q e => Trimmed q.1 e.1 ∧ e.2 = q.2) h l := by
  induction hh with
  | nil => exact ⟨[], by simp, rfl, .nil⟩
  | cons he _ ih =>
    obtain ⟨t, ht, h1, h2, h3, h4⟩ := C38_one_record_per_request hc he
    obtain ⟨l, h5, h6, h7⟩ := ih (.step hc he) (h1.trans ho)
    rw [ho] at h3 h4
    exact ⟨(t, _) :: l, by rw [h5, h3]; simp, by rw [h6, h4]; simp, .cons ⟨ht, rfl⟩ h7⟩

example [StdSort] : Reachable (Ctx.init 3 (.fin false 0) true false) ∧
    execute [] (Ctx.init 3 (.fin false 0) true false) none b!" Integer  create: k withValue: 1 ; " =
      .done ({ Ctx.init 3 (.fin false 0) true false with
        vars := [(b!"k", .integer 1)], fileLog := [(b!"Integer  create: k withValue: 1 ;", b!"null")] }, none, b!"null") :=
  ⟨.init _ _ _ _ (by decide +kernel), by kernel_rfl⟩

/-! ### Every theorem applied to a case -/

example [StdSort] := C08_every_request_is_answered (pwd := []) (s := none) (c := demo) (s' := none) (text := b!"t size;") (r := b!"2") (c' := demo)
  (by meets) (by meets)
example [StdSort] := C33_questions_change_nothing (pwd := []) (s := none) (c := demo) (s' := none) (text := b!"t contains? \"q\";") (r := b!"false")
  (c' := demo) (a := b!"t") (name := b!"contains?") (args := [b!"\"q\""]) (by meets) (by meets) (by meets) (by meets)
example [StdSort] := C37_setFloatPrecision (pwd := []) (s := none) (c := demo) (text := b!"Context setFloatPrecision: 9;") (a := b!"9") (p := 9)
  (by meets) (by meets)
example [StdSort] := C37_setFloatPrecision_literal (pwd := []) (s := none) (c := demo) (text := b!"Context setFloatPrecision: true;") (a := b!"true")
  (by meets) (fun h => by
    rcases h with ⟨h, _⟩ | ⟨h, _⟩ | ⟨_, h | h⟩ | ⟨h, _⟩ | ⟨h, _⟩
    · exact absurd h (by decide)
    · exact absurd h (by decide)
    · exact absurd ((isIntegerValue_iff _).2 h) (by decide +kernel)
    · exact absurd ((isFloatValue_iff _).2 h) (by decide +kernel)
    · exact absurd h (by decide)
    · exact absurd h (by decide))
example [StdSort] := C37_setFloatComparisonTolerance (pwd := []) (s := none) (c := demo) (text := b!"Context setFloatComparisonTolerance: .5;")
  (a := b!".5") (by meets)
example [StdSort] := C37_getSettings (pwd := []) (s := none) (c := demo) (t₁ := b!"Context getFloatPrecision;") (l₁ := []) (l₂ := [])
  (t₂ := b!"Context getFloatComparisonTolerance;") (by meets) (by meets)
example [StdSort] := C37_only_setters_change_settings (pwd := []) (s := none) (c := demo) (s' := none) (text := b!"t size;") (r := b!"2") (c' := demo)
  (by meets) (by meets) (fun h => by
    have hp : Statement b!"t size;" b!"t" b!"size" [] := by meets
    cases h with
    | precision h => exact absurd (statement_unique hp h).1 (by decide)
    | tolerance h => exact absurd (statement_unique hp h).1 (by decide))
example [StdSort] := C37_last_precision (pwd := []) (s := none) (c := demo) (text := b!"Context setFloatPrecision: 9;") (a := b!"9") (p := 9)
  (c' := { demo with cfg := { demo.cfg with prec := 9 } }) (h := [(b!"t size;", b!"2")]) (t₂ := b!"Context getFloatPrecision;") (l₂ := [])
  (by meets) (.cons (pwd := []) (s := none) (s' := none) (c' := { demo with cfg := { demo.cfg with prec := 9 } }) (by kernel_rfl)
    (.cons (pwd := []) (s := none) (s' := none) (c' := { demo with cfg := { demo.cfg with prec := 9 } }) (by kernel_rfl) .nil))
  (by meets) (by meets) (by simp) (by meets)
example [StdSort] := C38_one_record_per_request (pwd := []) (s := none) (c := demo) (s' := none) (text := b!"t size;") (r := b!"2") (c' := demo)
  (by meets) (by meets)

end Knuckle.Props

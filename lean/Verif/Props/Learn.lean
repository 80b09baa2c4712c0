/-
C113: which requests both change something and tell what was there.
-/
import Verif.Props.Queue
import Verif.Spec.Learn

namespace Knuckle.Props

open Spec

variable {pwd a name text r : Str} {args : List Str} {c c' : Ctx} {s s' : Option Session}

theorem eraseIdx_split {α : Type} {l : List α} {k : Nat} (h : k < l.length) :
    l = l.take k ++ l[k] :: l.drop (k + 1) ∧ l.eraseIdx k = l.take k ++ l.drop (k + 1) := by
  refine ⟨?_, List.eraseIdx_eq_take_drop_succ l k⟩
  rw [List.getElem_cons_drop, List.take_append_drop]

theorem exactly_reply {n w : Int} (h : exactly n = .gives w r) : r = b!"null" := by
  unfold exactly at h
  split at h
  · injection h with _ h; exact h.symm
  · cases h

theorem truncated_reply {x : Fl} {w : Int} (h : truncated x = .gives w r) : r = b!"null" := by
  unfold truncated at h
  split at h
  · injection h with _ h; exact h.symm
  · cases h

attribute [local irreducible] exactly truncated in
theorem behaves_reply {cfg : Cfg} {i i' : Inst} (hq : ¬ Question name) (h : Behaves cfg i name args (.gives i' r)) :
    r = b!"null" ∨ TakesOut cfg.prec name i i' r := by
  generalize hx : Result.gives i' r = x at h
  have no : ∀ n, name = n → Question n → r = b!"null" ∨ TakesOut cfg.prec name i i' r := fun n e h => absurd (e ▸ h) hq
  cases h with
  | boolean h =>
    obtain ⟨w, e, rfl⟩ := map_gives hx.symm
    cases h <;> first | exact no _ rfl (by decide) | (cases e; exact .inl rfl)
  | character h =>
    obtain ⟨w, e, rfl⟩ := map_gives hx.symm
    cases h <;> first | exact no _ rfl (by decide) | (cases e; exact .inl rfl)
  | @integer v _ _ m h =>
    obtain ⟨w, e, rfl⟩ := map_gives hx.symm
    cases h <;> first
      | exact no _ rfl (by decide)
      | (cases e; exact .inl rfl)
      | (rename_i x _
         cases x <;> simp only [intMeaning] at e <;> first
          | exact .inl (exactly_reply e)
          | exact .inl (truncated_reply e)
          | (split at e
             · cases e
             · exact .inl (exactly_reply e)))
  | float h =>
    obtain ⟨w, e, rfl⟩ := map_gives hx.symm
    cases h <;> first | exact no _ rfl (by decide) | (simp only [fltMeaning, Result.gives.injEq] at e; exact .inl e.2.symm)
  | string h =>
    obtain ⟨w, e, rfl⟩ := map_gives hx.symm
    cases h <;> first
      | exact no _ rfl (by decide)
      | (simp only [strMeaning] at e; (try split at e) <;> cases e <;> exact .inl rfl)
      | skip
    · simp only [strMeaning] at e
      split at e
      · cases e; exact .inl rfl
      · rename_i c hc
        cases e
        obtain ⟨k, rfl⟩ := List.getLast?_eq_some_iff.1 hc
        rw [List.dropLast_concat]
        exact .inr .lastChar
    · simp only [strMeaning] at e
      split at e <;> cases e
      · exact .inl rfl
      · exact .inr .firstChar
    · simp only [strMeaning] at e
      split at e
      · rename_i v _ j _ hj
        cases e
        have hk : j.toNat < v.length := by omega
        obtain ⟨h1, h2⟩ := eraseIdx_split hk
        rw [h2]
        have := TakesOut.middleChar (p := cfg.prec) (x := v[j.toNat]) (v := v.take j.toNat) (v' := v.drop (j.toNat + 1))
        rw [← h1] at this
        exact .inr this
      · cases e
  | vector h =>
    obtain ⟨w, e, rfl⟩ := map_gives hx.symm
    cases h <;> first
      | exact no _ rfl (by decide)
      | (simp only [vecMeaning] at e; (repeat' split at e) <;> cases e <;> exact .inl rfl)
      | skip
    · simp only [vecMeaning] at e
      split at e
      · cases e; exact .inl rfl
      · rename_i o ho
        cases e
        obtain ⟨k, rfl⟩ := List.getLast?_eq_some_iff.1 ho
        rw [List.dropLast_concat]
        exact .inr .last
    · simp only [vecMeaning] at e
      split at e <;> cases e
      · exact .inl rfl
      · exact .inr .first
    · simp only [vecMeaning] at e
      split at e
      · rename_i t l _ j _ hj
        cases e
        have hk : j.toNat < l.length := by omega
        obtain ⟨h1, h2⟩ := eraseIdx_split hk
        rw [h2]
        have := TakesOut.middle (p := cfg.prec) (t := t) (o := l[j.toNat]) (l := l.take j.toNat) (l' := l.drop (j.toNat + 1))
        rw [← h1] at this
        exact .inr this
      · cases e
  | sort => cases hx; exact .inl rfl
  | sortUndefined => cases hx
  | set h =>
    obtain ⟨w, e, rfl⟩ := map_gives hx.symm
    cases h <;> first | exact no _ rfl (by decide) | (simp only [setMeaning, Result.gives.injEq] at e; exact .inl e.2.symm) | (simp only [setMeaning] at e; (repeat' split at e) <;> first | (injection e with _ e; exact .inl e.symm) | cases e)
  | dictionary h =>
    obtain ⟨w, e, rfl⟩ := map_gives hx.symm
    cases h <;> first | exact no _ rfl (by decide) | (simp only [dictMeaning] at e; (try split at e) <;> (try split at e) <;> cases e <;> exact .inl rfl)

theorem takesOut_pops {p : Int} {i i' : Inst} (h : TakesOut p name i i' r) : Pops name := by
  cases h <;> simp [Pops]

/-- What an accepted request that is not a question is answered. -/
theorem does_reply {x : Ctx} (hs : Statement text a name args) (hq : ¬ Question name) (h : Does pwd c s text (.ret (x, s') r)) :
    r = b!"null" ∨ ∃ i i', c.vars.lookup a = some i ∧ OnlyChanged c x a i' ∧ TakesOut c.cfg.prec name i i' r := by
  generalize hy : Run.ret (x, s') r = y at h
  cases h with
  | created => cases hy; exact .inl rfl
  | kept => cases hy; exact .inl rfl
  | @varGives a' m l' i ks i' r' hst hv hl _ _ _ hb =>
    cases hy
    obtain ⟨rfl, rfl, rfl⟩ := statement_unique hs hst
    rcases behaves_reply hq hb with h | h
    · exact .inl h
    · exact .inr ⟨i, i', hl, onlyChanged_setVar c a i' i hl, h⟩
  | @context m l w hst h =>
    obtain ⟨_, rfl, _⟩ := statement_unique hs hst
    cases h <;> first | exact absurd (by decide) hq | (cases hy; exact .inl rfl) | cases hy
  | connection hst hs h => cases h <;> cases hy <;> exact .inl rfl
  | _ => cases hy

/-- C113: an accepted request that is not a question is answered `null`, unless it takes an element out of a Vector, or a character out of a String: then the reply is
the printed form of what was taken, and nothing else has changed. -/
theorem C113_reply [StdSort] (hc : Reachable c) (hs : Statement text a name args) (hq : ¬ Question name)
    (h : execute pwd c s text = .done (c', s', r)) (ha : r ∉ errorTexts) :
    r = b!"null" ∨ ∃ i i', Holds c a i ∧ OnlyChanged c c' a i' ∧ TakesOut c.cfg.prec name i i' r := by
  obtain ⟨x, rfl, hd | ⟨e, hd, rfl⟩⟩ := execute_done (reachable_inv hc) h
  · rcases does_reply hs hq hd with h | ⟨i, i', h1, h2, h3⟩
    · exact .inl h
    · exact .inr ⟨i, i', h1, onlyChanged_record c _ a i' _ _ h2, h3⟩
  · exact absurd (exc_text_error e) ha

/-- C113: a request that changes the data and is not answered `null` is `popFront`, `popBack` or `popAtIndex:`. -/
theorem C113_change [StdSort] (hc : Reachable c) (hs : Statement text a name args) (h : execute pwd c s text = .done (c', s', r))
    (hd : ¬ SameData c c') (hr : r ≠ b!"null") : Pops name ∧ ∃ i i', Holds c a i ∧ OnlyChanged c c' a i' ∧ TakesOut c.cfg.prec name i i' r := by
  have hq : ¬ Question name := fun hq => hd (C33_questions_change_nothing hc hs hq h).1
  have ha : r ∉ errorTexts := fun ha => hd (C32_refused_requests_change_nothing hc h ha).1
  rcases C113_reply hc hs hq h ha with h | ⟨i, i', h1, h2, h3⟩
  · exact absurd h hr
  · exact ⟨takesOut_pops h3, i, i', h1, h2, h3⟩

/-- C113: an accepted message that is neither a question nor takes something out has the same reply whatever the server holds. -/
theorem C113_blind [StdSort] (hc : Reachable c) (hs : Statement text a name args) (hq : ¬ Question name) (hp : ¬ Pops name)
    (h : execute pwd c s text = .done (c', s', r)) (ha : r ∉ errorTexts) : r = b!"null" := by
  rcases C113_reply hc hs hq h ha with h | ⟨i, i', h1, h2, h3⟩
  · exact h
  · exact absurd (takesOut_pops h3) hp

/-- C113: nothing but a question can tell anything about a variable that is neither a Vector nor a String: who changes it does not learn what it was, nor what it
is now. -/
theorem C113_no_read_modify_write [StdSort] {i : Inst} (hc : Reachable c) (hn : Holds c a i) (hv : ∀ t l, i ≠ .vector t l) (ht : ∀ v, i ≠ .string v)
    (hs : Statement text a name args) (h : execute pwd c s text = .done (c', s', r)) (hd : ¬ SameData c c') : r = b!"null" := by
  by_cases hr : r = b!"null"
  · exact hr
  · obtain ⟨_, j, j', h1, _, h3⟩ := C113_change hc hs h hd hr
    have : j = i := by unfold Holds at h1 hn; rw [hn] at h1; exact (Option.some.inj h1).symm
    subst this
    cases h3 with
    | first => exact absurd rfl (hv _ _)
    | last => exact absurd rfl (hv _ _)
    | middle => exact absurd rfl (hv _ _)
    | firstChar => exact absurd rfl (ht _)
    | lastChar => exact absurd rfl (ht _)
    | middleChar => exact absurd rfl (ht _)

/-- C113: in every execution of requests of any number of clients. -/
theorem C113_history [StdSort] {l l' : List Request} {q : Request} (hc : Reachable c) (h : Serial pwd c (l ++ q :: l') c') (hs : Statement q.line a name args)
    (hq : ¬ Question name) (ha : q.accepted) : ∃ d e, Serial pwd c l d ∧ Serial pwd c (l ++ [q]) e ∧
      (q.reply = b!"null" ∨ ∃ i i', Holds d a i ∧ OnlyChanged d e a i' ∧ TakesOut d.cfg.prec name i i' q.reply) := by
  rw [List.append_cons] at h
  obtain ⟨e, he⟩ := serial_prefix h
  obtain ⟨d, hd, _, ⟨s, s', _, _, h3⟩ | ⟨_, _, h5, _⟩⟩ := serial_snoc he
  · exact ⟨d, e, hd, he, C113_reply (serial_reachable hc hd) hs hq h3 ha⟩
  · exact absurd ha (by unfold Request.accepted; rw [h5]; decide)

/-- C113: for every schedule of the server. -/
theorem C113_server [StdSort] {es : List Event} {t : Server} (hc : Reachable c) (h : run (Server.init pwd c) es = some (.done t)) :
    ∃ log, Explains pwd c es t log ∧ ∀ q ∈ log, ∀ a name args, Statement q.line a name args → q.accepted → ¬ Question name → ¬ Pops name → q.reply = b!"null" := by
  obtain ⟨log, hl⟩ := C44_serialized hc h
  refine ⟨log, hl, fun q hq a name args hs ha hn hp => ?_⟩
  obtain ⟨l, l', rfl⟩ := List.append_of_mem hq
  obtain ⟨d, e, _, _, h | ⟨i, i', _, _, h⟩⟩ := C113_history hc hl.serial hs hn ha
  · exact h
  · exact absurd (takesOut_pops h) hp

/-- C113: so numbers drawn by adding 1 and then asking need not be different: between the two requests of a client there can be those of another. -/
theorem C113_tickets_coincide [StdSort] : ∃ c c', Reachable c ∧ Holds c b!"i" (.integer (-7)) ∧
    Serial [] c [⟨0, b!"i add: 1;", b!"null"⟩, ⟨1, b!"i add: 1;", b!"null"⟩, ⟨0, b!"i get;", b!"-5"⟩, ⟨1, b!"i get;", b!"-5"⟩] c' :=
  ⟨demo, { demo with vars := updateVar b!"i" (.integer (-5)) demo.vars }, demo_reachable, by decide +kernel,
    serially_serial (ls := [(0, b!"i add: 1;"), (1, b!"i add: 1;"), (0, b!"i get;"), (1, b!"i get;")]) .nil (by simp) (by kernel_rfl)⟩

/-! ### Cases -/

def demoWithout : Ctx := { demo with vars := updateVar b!"v" (.vector b!"Integer" [.integer 3, .integer 2]) demo.vars }
theorem demoWithout_vars : demoWithout.vars ≠ demo.vars := by decide +kernel
theorem popAtIndex_done [StdSort] : execute [] demo none b!"v popAtIndex: 1;" = .done (demoWithout, none, b!"1") := by kernel_rfl

example [StdSort] := C113_reply demo_reachable (reads (by kernel_rfl) : Statement b!"v popAtIndex: 1;" b!"v" b!"popAtIndex:" [b!"1"]) (by decide) popAtIndex_done (by decide)
example [StdSort] : TakesOut 3 b!"popAtIndex:" (.vector b!"Integer" [.integer 3, .integer 1, .integer 2]) (.vector b!"Integer" [.integer 3, .integer 2]) b!"1" :=
  .middle (t := b!"Integer") (o := .integer 1) (l := [.integer 3]) (l' := [.integer 2])
example [StdSort] := C113_change demo_reachable (reads (by kernel_rfl) : Statement b!"v popAtIndex: 1;" b!"v" b!"popAtIndex:" [b!"1"]) popAtIndex_done (fun h => demoWithout_vars h.1) (by decide)

def demoPlus : Ctx := { demo with vars := updateVar b!"i" (.integer (-6)) demo.vars }
theorem demoPlus_vars : demoPlus.vars ≠ demo.vars := by decide +kernel
theorem add_done [StdSort] : execute [] demo none b!"i add: 1;" = .done (demoPlus, none, b!"null") := by kernel_rfl

example [StdSort] := C113_blind demo_reachable (reads (by kernel_rfl) : Statement b!"i add: 1;" b!"i" b!"add:" [b!"1"]) (by decide) (by unfold Pops; decide) add_done (by decide)
example [StdSort] := C113_no_read_modify_write (i := .integer (-7)) demo_reachable (by decide +kernel) (by simp) (by simp)
  (reads (by kernel_rfl) : Statement b!"i add: 1;" b!"i" b!"add:" [b!"1"]) add_done (fun h => demoPlus_vars h.1)
example [StdSort] := C113_history (l := queueLog.take 1) (q := queueLog[1]) (l' := queueLog.drop 2) topicStart_reachable queue_serial
  (reads (by decide +kernel) : Statement b!"log popFront;" b!"log" b!"popFront" []) (by decide) (by decide : b!"\"a\"" ∉ errorTexts)
example [StdSort] := C113_server fresh_reachable demo_run

end Knuckle.Props

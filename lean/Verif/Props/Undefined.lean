/-
C39: the causes of undefined behaviour; C49: which error is reported.
-/
import Verif.Proofs.Errors
import Verif.Proofs.Replies
import Verif.Spec.Undefined
import Verif.Props.Requests
import Verif.Props.Variables

namespace Knuckle.Props

open Spec

variable {pwd : Str} {c c' : Ctx} {s s' : Option Session} {text n r : Str}

/-! ### C39 -/

theorem undefined_cause [StdSort] (hi : Inv c) (h : execute pwd c s text = .ub) : UndefinedCause c s text := by
  have hd := execute_ub hi h
  generalize hy : (Run.ub : Run (Ctx × Option Session)) = y at hd
  cases hd with
  | typeUndefined hst _ hk hl ho => exact .literal hst (.type hk) hl ho
  | varUndefined hst _ hh hk hl ho => exact .literal hst (.var hh hk) hl ho
  | noConnection hst hs => exact .connection hst hs
  | connection hst hs h => cases h <;> cases hy
  | @context m l w hst h => 
    cases h with
    | undefined ho => 
      exact .literal (ks := [.lit b!"Integer"]) hst (.context (by simp [contextSignature])) rfl
        ⟨(.lit b!"Integer", _), by simp, rfl, ho⟩
    | _ => cases hy
  | @varBehavesUndefined a m l i ks hst hv hl hk hlen hg hb =>
    have hw := hi.wellTyped hl
    generalize hz : (Result.undefined : Result Inst) = z at hb
    cases hb with
    | @boolean v _ _ m hm => cases m <;> cases hz
    | @character v _ _ m hm => cases m <;> cases hz
    | @integer v _ _ m hm =>
      have key : intMeaning c.cfg.eps v m = .undefined := by
        cases e : intMeaning c.cfg.eps v m with
        | undefined => rfl
        | _ => rw [e] at hz; cases hz
      cases hm with
      | add ha => exact .arithmetic hst hl ha (.inl rfl) (.add ha) key
      | subtract ha => exact .arithmetic hst hl ha (.inr (.inl rfl)) (.subtract ha) key
      | multiplyBy ha => exact .arithmetic hst hl ha (.inr (.inr (.inl rfl))) (.multiplyBy ha) key
      | divideBy ha => exact .arithmetic hst hl ha (.inr (.inr (.inr rfl))) (.divideBy ha) key
      | get => cases key
      | set => cases key
      | eq ha => cases ha <;> cases key
      | lt ha => cases ha <;> cases key
      | le ha => cases ha <;> cases key
      | gt ha => cases ha <;> cases key
      | ge ha => cases ha <;> cases key
    | @float v _ _ m hm => cases m <;> cases hz
    | @string v _ _ m hm =>
      exfalso
      cases m <;> simp only [strMeaning] at hz <;> (try split at hz) <;> cases hz
    | @vector t l _ _ m hm =>
      exfalso
      cases m <;> simp only [vecMeaning] at hz <;> (try split at hz) <;> (try split at hz) <;> cases hz
    | sort => cases hz
    | @sortUndefined t l hn =>
      by_cases ht : t = b!"Float"
      · subst ht; exact .sort hst hl hn
      · exact absurd (swo_nonfloat _ t ht l hw.2) hn
    | @set t l _ args m hm =>
      have key : ∀ o, HasType t o → ¬ Searchable (less c.cfg.eps) l o → t = b!"Float" := by
        intro o ho hn
        by_contra ht
        exact hn (searchable_nonfloat _ t ht l hw.2.1 (hw.2.2 ht) o ho)
      cases hm with
      | @contains a o ha =>
        simp only [setMeaning] at hz
        split at hz
        · cases hz
        · rename_i hn
          obtain rfl := key o (denotes_type ha) hn
          exact .set hst (by simp) hl ha hn
      | @add a o ha =>
        simp only [setMeaning] at hz
        split at hz
        · split at hz <;> cases hz
        · rename_i hn
          obtain rfl := key o (denotes_type ha) hn
          exact .set hst (by simp) hl ha hn
      | @remove a o ha =>
        simp only [setMeaning] at hz
        split at hz
        · cases hz
        · rename_i hn
          obtain rfl := key o (denotes_type ha) hn
          exact .set hst (by simp) hl ha hn
      | _ => cases hz
    | @dictionary t u l _ args m hm =>
      have key : ∀ o, HasType t o → ¬ Searchable (less c.cfg.eps) (l.map (·.1)) o → t = b!"Float" := by
        intro o ho hn
        by_contra ht
        refine hn (searchable_nonfloat _ t ht _ ?_ ?_ o ho)
        · intro x hx; obtain ⟨y, hy, rfl⟩ := List.mem_map.1 hx; exact (hw.2.2.1 y hy).1
        · exact List.pairwise_map.2 (hw.2.2.2 ht)
      cases hm with
      | @containsKey a o ha =>
        simp only [dictMeaning] at hz
        split at hz
        · cases hz
        · rename_i hn
          obtain rfl := key o (denotes_type ha) hn
          exact .dictionary hst (.inl ⟨rfl, by simp⟩) hl ha hn
      | @getValueForKey a o ha =>
        simp only [dictMeaning] at hz
        split at hz
        · split at hz <;> cases hz
        · rename_i hn
          obtain rfl := key o (denotes_type ha) hn
          exact .dictionary hst (.inl ⟨rfl, by simp⟩) hl ha hn
      | @removeKey a o ha =>
        simp only [dictMeaning] at hz
        split at hz
        · cases hz
        · rename_i hn
          obtain rfl := key o (denotes_type ha) hn
          exact .dictionary hst (.inl ⟨rfl, by simp⟩) hl ha hn
      | @associate a v b o ha hb =>
        simp only [dictMeaning] at hz
        split at hz
        · split at hz <;> cases hz
        · rename_i hn
          obtain rfl := key o (denotes_type hb) hn
          exact .dictionary hst (.inr ⟨a, v, rfl, rfl, ha⟩) hl hb hn
      | _ => cases hz
  | _ => cases hy

/-- C39: undefined behaviour has only these causes: an integer argument or result out of range (or a division by zero), an
order of floats that is not a strict weak order, or a statement to the connection where there is none. -/
theorem C39_only_known_causes [StdSort] (hc : Reachable c) (h : execute pwd c s text = .ub) : UndefinedCause c s text :=
  undefined_cause (reachable_inv hc) h

/-- C39: and all of these are causes, provided no argument is malformed (then the first bad argument decides). -/
theorem C39_the_causes_are_undefined [StdSort] (hc : Reachable c) (h : UndefinedCause c s text)
    (hf : ∀ a name args ks, Statement text a name args → Understands c a name ks → ∀ q ∈ ks.zip args, Fits q.1 q.2) :
    execute pwd c s text = .ub := by
  have hi := reachable_inv hc
  cases h with
  | @literal a name args ks hs hu hl ho =>
    have hx : Exists c s a := by
      cases hu with
      | type h => exact .inl (creation_isType h)
      | context _ => exact .inr (.inl rfl)
      | connection h =>
        exfalso
        obtain ⟨q, hq, ho⟩ := ho
        simp only [connectionSignature, List.mem_cons, Prod.mk.injEq, List.not_mem_nil, or_false] at h
        rcases h with ⟨_, rfl⟩ | ⟨_, rfl⟩
        · simp at hq
        · match args, hl with
          | [x], _ => 
            simp only [List.zip_cons_cons, List.zip_nil_right, List.mem_singleton] at hq
            subst hq; exact absurd ho.1 (by decide)
      | var h _ => exact .inr (.inr (.inr ⟨_, h⟩))
    obtain ⟨y, hd, he⟩ := execute_does pwd hi s text
    rw [he]
    have bad : ∀ {ks'}, Understands c a name ks' → ¬ ∀ q ∈ ks'.zip args, Good q.1 q.2 := by
      intro ks' hu' hg
      rw [understands_unique hi hu' hu] at hg
      obtain ⟨q, hq, ho⟩ := ho
      exact (hg q hq).2 ho
    cases does_ends hi hs hx hd with
    | noMessage h _ => exact absurd ⟨ks, hu⟩ h
    | wrongNumber h h' => rw [understands_unique hi h hu] at h'; exact absurd hl h'
    | invalid h _ h' _ => obtain ⟨q, hq, hn⟩ := h'; exact absurd (hf _ _ _ _ hs h q hq) hn
    | undefined _ _ _ h => rw [h]; rfl
    | refused h _ h' => exact absurd h' (bad h)
    | used h _ h' => exact absurd h' (bad h)
    | unknown h _ h' => exact absurd h' (bad h)
    | password h _ h' => exact absurd h' (bad h)
    | good h _ h' => exact absurd h' (bad h)
  | arithmetic hs hn ha hm hsay hu =>
    have := answers_int (pwd := pwd) (s := s) hc hn hs hsay
    rw [hu] at this; exact this
  | @sort n l hs hn hnot =>
    have hb := answers_any (pwd := pwd) (s := s) hc hn hs
    rcases hb with ⟨h, _⟩ | ⟨ks, hk, h⟩
    · exact absurd rfl (h (b!"sort", []) (by simp [signature]))
    · have hks : ks = [] := nodup_unique (signature_nodup _) hk (by simp [signature])
      subst hks
      rcases h with ⟨h, _⟩ | ⟨_, ⟨p, hp, _⟩, _⟩ | ⟨_, ⟨p, hp, _⟩, _⟩ | ⟨_, _, r, hr, h⟩
      · exact absurd rfl h
      · simp at hp
      · simp at hp
      · generalize hnm : b!"sort" = name at hr
        cases hr with
        | vector hm => cases hm <;> exact absurd hnm (by decide)
        | sort hw => exact absurd hw hnot
        | sortUndefined _ => exact h
  | @set n l name a o hs hname hn ha hnot =>
    simp only [List.mem_cons, List.not_mem_nil, or_false] at hname
    rcases hname with rfl | rfl | rfl
    · have := answers_set (pwd := pwd) (s := s) hc hn hs (.contains ha)
      simp only [setMeaning, if_neg hnot] at this; exact this
    · have := answers_set (pwd := pwd) (s := s) hc hn hs (.add ha)
      simp only [setMeaning, if_neg hnot] at this; exact this
    · have := answers_set (pwd := pwd) (s := s) hc hn hs (.remove ha)
      simp only [setMeaning, if_neg hnot] at this; exact this
  | @dictionary n u l name args a o hs hname hn ha hnot =>
    rcases hname with ⟨rfl, hname⟩ | ⟨b, v, rfl, rfl, hb⟩
    · simp only [List.mem_cons, List.not_mem_nil, or_false] at hname
      rcases hname with rfl | rfl | rfl
      · have := answers_dict (pwd := pwd) (s := s) hc hn hs (.containsKey ha)
        simp only [dictMeaning, if_neg hnot] at this; exact this
      · have := answers_dict (pwd := pwd) (s := s) hc hn hs (.getValueForKey ha)
        simp only [dictMeaning, if_neg hnot] at this; exact this
      · have := answers_dict (pwd := pwd) (s := s) hc hn hs (.removeKey ha)
        simp only [dictMeaning, if_neg hnot] at this; exact this
    · have := answers_dict (pwd := pwd) (s := s) hc hn hs (.associate hb ha)
      simp only [dictMeaning, if_neg hnot] at this; exact this
  | connection hs hn =>
    rw [execute_statement _ _ _ _ _ _ _ hs, executeParsed_connection _ _ _ _ (by simp [isConnection]), hn]; rfl

/-- Causes that do occur: an addition that overflows; a vector of floats that the tolerance 1 does not order. -/
example [StdSort] : UndefinedCause demo none b!"i subtract: 2147483647;" ∧
    execute [] demo none b!"i subtract: 2147483647;" = .ub := by
  have hs : Statement b!"i subtract: 2147483647;" b!"i" b!"subtract:" [b!"2147483647"] := reads (by decide +kernel)
  have hl : IntLiteral b!"2147483647" 2147483647 :=
    ⟨[], b!"2147483647", rfl, .inl rfl, by decide, by unfold Digits Digit; decide, by decide⟩
  refine ⟨?_, by kernel_rfl⟩
  exact .arithmetic (v := -7) hs (by decide +kernel) (.int hl (by decide)) (.inr (.inl rfl)) (.subtract (.int hl (by decide))) rfl

example [StdSort] : UndefinedCause demo none b!"v contains? 1 fromIndex: 4294967296;" ∧
    execute [] demo none b!"v contains? 1 fromIndex: 4294967296;" = .ub := by
  have hs : Statement b!"v contains? 1 fromIndex: 4294967296;" b!"v" b!"contains?fromIndex:" [b!"1", b!"4294967296"] :=
    reads (by decide +kernel)
  have hl : IntLiteral b!"4294967296" 4294967296 :=
    ⟨[], b!"4294967296", rfl, .inl rfl, by decide, by unfold Digits Digit; decide, by decide⟩
  refine ⟨?_, by kernel_rfl⟩
  refine .literal (ks := [.lit b!"Integer", .lit b!"Integer"]) hs (.var (i := .vector b!"Integer" [.integer 3, .integer 1, .integer 2])
    (by decide +kernel) (by simp [signature])) rfl ⟨(.lit b!"Integer", b!"4294967296"), by simp, rfl, .inl ⟨_, hl, by decide⟩⟩

/-! ### C49 -/

theorem exc_text_injective {e e' : Exc} (h : e.text = e'.text) : e = e' := by
  cases e <;> cases e' <;> first | rfl | exact absurd h (by decide)

theorem thr_of_text [StdSort] {e : Exc} (hc : Reachable c) (h : execute pwd c s text = .done (c', s', e.text)) :
    ∃ x, Does pwd c s text (.thr (x, s') e) := by
  obtain ⟨x, _, hd | ⟨e', hd, he⟩⟩ := execute_done (reachable_inv hc) h
  · exact absurd (exc_text_error e) (okReply_not_error (does_ok hd)).1
  · rw [← exc_text_injective he] at hd; exact ⟨x, hd⟩

theorem justReplies_thr [StdSort] {e : Exc} {y : Run (Ctx × Option Session)} (he : execute pwd c s text = finish text y)
    (hy : y = .thr (c, s) e) : JustReplies pwd c s text e.text := by
  subst hy; exact ⟨_, he, sameData_record _ _ _⟩

/-- Errors of requests to receivers that do not exist. -/
theorem not_exists_thr {x : Ctx} {e : Exc} {a name : Str} {args : List Str} (hs : Statement text a name args)
    (hx : ¬ Exists c s a) (h : Does pwd c s text (.thr (x, s') e)) : e = .unexistentVariable := by
  generalize hy : Run.thr (x, s') e = y at h
  have no : ∀ {a' name' args'}, Statement text a' name' args' → Exists c s a' → False := by
    intro a' name' args' hs' h
    obtain ⟨rfl, rfl, rfl⟩ := statement_unique hs' hs
    exact hx h
  cases h with
  | syntaxError h => exact absurd ⟨_, _, _, hs⟩ h
  | absent => cases hy; rfl
  | context hst => exact (no hst (.inr (.inl rfl))).elim
  | connection hst h => exact (no hst (.inr (.inr (.inl ⟨rfl, by rw [h]; simp⟩)))).elim
  | typeNoMessage hst ht => exact (no hst (.inl ht)).elim
  | typeWrongNumber hst ht => exact (no hst (.inl ht)).elim
  | typeInvalid hst ht => exact (no hst (.inl ht)).elim
  | used hst ht => exact (no hst (.inl ht)).elim
  | varNoMessage hst _ h => exact (no hst (.inr (.inr (.inr ⟨_, h⟩)))).elim
  | varWrongNumber hst _ h => exact (no hst (.inr (.inr (.inr ⟨_, h⟩)))).elim
  | varInvalid hst _ h => exact (no hst (.inr (.inr (.inr ⟨_, h⟩)))).elim
  | varRefuses hst _ h => exact (no hst (.inr (.inr (.inr ⟨_, h⟩)))).elim
  | _ => cases hy

/-- C49: "invalid message" is reported exactly if the receiver exists and does not understand the message. -/
theorem C49_invalid_message [StdSort] {a name : Str} {args : List Str} (hc : Reachable c) (hs : Statement text a name args) :
    JustReplies pwd c s text b!"RuntimeError: invalid message." ↔ Exists c s a ∧ ¬ ∃ ks, Understands c a name ks := by
  have hi := reachable_inv hc
  constructor
  · rintro ⟨c', hr, _⟩
    obtain ⟨x, hd⟩ := thr_of_text (e := .invalidMessage) hc hr
    by_cases hx : Exists c s a
    · refine ⟨hx, ?_⟩
      cases does_ends hi hs hx hd with
      | noMessage h _ => exact h
      | good _ _ _ h => exact absurd rfl (h _ _)
      | undefined _ _ _ h => cases h
      | wrongNumber _ _ h => cases h
      | invalid _ _ _ h => cases h
      | refused _ _ _ _ h => cases h
      | used _ _ _ _ _ _ h => cases h
      | unknown _ _ _ _ _ _ _ _ h => cases h
      | password _ _ _ _ _ _ _ _ h => cases h
    · exact absurd (not_exists_thr hs hx hd) (by decide)
  · rintro ⟨hx, hn⟩
    obtain ⟨y, hd, he⟩ := execute_does pwd hi s text
    cases does_ends hi hs hx hd with
    | noMessage h hy => exact justReplies_thr he hy
    | good h => exact absurd ⟨_, h⟩ hn
    | undefined h => exact absurd ⟨_, h⟩ hn
    | wrongNumber h => exact absurd ⟨_, h⟩ hn
    | invalid h => exact absurd ⟨_, h⟩ hn
    | refused h => exact absurd ⟨_, h⟩ hn
    | used h => exact absurd ⟨_, h⟩ hn
    | unknown h => exact absurd ⟨_, h⟩ hn
    | password h => exact absurd ⟨_, h⟩ hn

/-- C49: "wrong number of arguments" is reported exactly if the message is understood with another number of arguments. -/
theorem C49_wrong_number_of_arguments [StdSort] {a name : Str} {args : List Str} (hc : Reachable c)
    (hs : Statement text a name args) :
    JustReplies pwd c s text b!"RuntimeError: wrong number of arguments." ↔
      Exists c s a ∧ ∃ ks, Understands c a name ks ∧ args.length ≠ ks.length := by
  have hi := reachable_inv hc
  constructor
  · rintro ⟨c', hr, _⟩
    obtain ⟨x, hd⟩ := thr_of_text (e := .wrongNumberOfArguments) hc hr
    by_cases hx : Exists c s a
    · refine ⟨hx, ?_⟩
      cases does_ends hi hs hx hd with
      | noMessage _ h => cases h
      | good _ _ _ h => exact absurd rfl (h _ _)
      | undefined _ _ _ h => cases h
      | wrongNumber h h' _ => exact ⟨_, h, h'⟩
      | invalid _ _ _ h => cases h
      | refused _ _ _ _ h => cases h
      | used _ _ _ _ _ _ h => cases h
      | unknown _ _ _ _ _ _ _ _ h => cases h
      | password _ _ _ _ _ _ _ _ h => cases h
    · exact absurd (not_exists_thr hs hx hd) (by decide)
  · rintro ⟨hx, ks, hu, hn⟩
    obtain ⟨y, hd, he⟩ := execute_does pwd hi s text
    have no : ∀ {ks'}, Understands c a name ks' → args.length = ks'.length → False := by
      intro ks' h h'; rw [understands_unique hi h hu] at h'; exact hn h'
    cases does_ends hi hs hx hd with
    | noMessage h hy => exact absurd ⟨_, hu⟩ h
    | wrongNumber _ _ hy => exact justReplies_thr he hy
    | good h h' => exact (no h h').elim
    | undefined h h' => exact (no h h').elim
    | invalid h h' => exact (no h h').elim
    | refused h h' => exact (no h h').elim
    | used h h' => exact (no h h').elim
    | unknown h h' => exact (no h h').elim
    | password h h' => exact (no h h').elim

/-- C49: if "invalid argument" is reported, an argument is not a literal of the kind required in its place, or has a value
that is not allowed. -/
theorem C49_invalid_argument_why [StdSort] {a name : Str} {args : List Str} (hc : Reachable c)
    (hs : Statement text a name args) (h : JustReplies pwd c s text b!"RuntimeError: invalid argument.") :
    Exists c s a ∧ ((∃ ks, Understands c a name ks ∧ args.length = ks.length ∧ ∃ q ∈ ks.zip args, ¬ Fits q.1 q.2) ∨
      OutOfDomain c a name args) := by
  have hi := reachable_inv hc
  obtain ⟨c', hr, _⟩ := h
  obtain ⟨x, hd⟩ := thr_of_text (e := .invalidArgument) hc hr
  by_cases hx : Exists c s a
  · refine ⟨hx, ?_⟩
    cases does_ends hi hs hx hd with
    | noMessage _ h => cases h
    | good _ _ _ h => exact absurd rfl (h _ _)
    | undefined _ _ _ h => cases h
    | wrongNumber _ _ h => cases h
    | invalid h h' h2 _ => exact .inl ⟨_, h, h', h2⟩
    | refused _ _ _ h _ => exact .inr h
    | used _ _ _ _ _ _ h => cases h
    | unknown _ _ _ _ _ _ _ _ h => cases h
    | password _ _ _ _ _ _ _ _ h => cases h
  · exact absurd (not_exists_thr hs hx hd) (by decide)

/-- C49: a malformed argument is reported, if no other argument is out of range. -/
theorem C49_malformed_argument [StdSort] {a name : Str} {args : List Str} {ks : List ArgKind} (hc : Reachable c)
    (hs : Statement text a name args) (hx : Exists c s a) (hu : Understands c a name ks) (hl : args.length = ks.length)
    (hf : ∃ q ∈ ks.zip args, ¬ Fits q.1 q.2) (ho : ∀ q ∈ ks.zip args, ¬ Overflows q.1 q.2) :
    JustReplies pwd c s text b!"RuntimeError: invalid argument." := by
  have hi := reachable_inv hc
  obtain ⟨y, hd, he⟩ := execute_does pwd hi s text
  have bad : ∀ {ks'}, Understands c a name ks' → ¬ ∀ q ∈ ks'.zip args, Good q.1 q.2 := by
    intro ks' hu' hg
    rw [understands_unique hi hu' hu] at hg
    obtain ⟨q, hq, hn⟩ := hf
    exact hn (hg q hq).1
  cases does_ends hi hs hx hd with
  | noMessage h _ => exact absurd ⟨ks, hu⟩ h
  | wrongNumber h h' => rw [understands_unique hi h hu] at h'; exact absurd hl h'
  | invalid _ _ _ hy => exact justReplies_thr he hy
  | undefined h _ h' =>
    rw [understands_unique hi h hu] at h'
    obtain ⟨q, hq, hn⟩ := h'
    exact absurd hn (ho q hq)
  | refused h _ h' => exact absurd h' (bad h)
  | used h _ h' => exact absurd h' (bad h)
  | unknown h _ h' => exact absurd h' (bad h)
  | password h _ h' => exact absurd h' (bad h)
  | good h _ h' => exact absurd h' (bad h)

/-- C49: a value that is not allowed is reported. -/
theorem C49_value_not_allowed [StdSort] {a name : Str} {args : List Str} (hc : Reachable c) (hs : Statement text a name args)
    (ho : OutOfDomain c a name args) : JustReplies pwd c s text b!"RuntimeError: invalid argument." := by
  cases ho with
  | @index n i name args hn hb =>
    have key : ∀ r : Result Inst, r = .refuses → Answers pwd c s text a r → JustReplies pwd c s text b!"RuntimeError: invalid argument." := by
      rintro r rfl h; exact h
    generalize hz : (Result.refuses : Result Inst) = z at hb
    cases hb with
    | boolean hm => exact key _ hz.symm (answers_bool hc hn hs hm)
    | character hm => exact key _ hz.symm (answers_char hc hn hs hm)
    | integer hm => exact key _ hz.symm (answers_int hc hn hs hm)
    | float hm => exact key _ hz.symm (answers_flt hc hn hs hm)
    | string hm => exact key _ hz.symm (answers_str hc hn hs hm)
    | vector hm => exact key _ hz.symm (answers_vec hc hn hs hm)
    | sort => cases hz
    | sortUndefined => cases hz
    | set hm => exact key _ hz.symm (answers_set hc hn hs hm)
    | dictionary hm => exact key _ hz.symm (answers_dict hc hn hs hm)
  | precision ha hp => exact (C37_setFloatPrecision hs ha).2 hp
  | tolerance ha hp => exact (C37_setFloatComparisonTolerance hs).2 fun h => by rw [hp] at h; cases h.2

/-- C49: "variable name already used" is reported exactly for the creation, unless with `createIfNotExists:`, of a variable
that exists. -/
theorem C49_name_already_used [StdSort] {a name : Str} {args : List Str} (hc : Reachable c) (hs : Statement text a name args) :
    JustReplies pwd c s text b!"RuntimeError: variable name already used." ↔
      name ∈ [b!"create:", b!"create:withValue:"] ∧ ∃ v i j, Creates a name args v i ∧ Holds c v j := by
  have hi := reachable_inv hc
  constructor
  · rintro ⟨c', hr, _⟩
    obtain ⟨x, hd⟩ := thr_of_text (e := .nameAlreadyUsed) hc hr
    by_cases hx : Exists c s a
    · cases does_ends hi hs hx hd with
      | noMessage _ h => cases h
      | good _ _ _ h => exact absurd rfl (h _ _)
      | undefined _ _ _ h => cases h
      | wrongNumber _ _ h => cases h
      | invalid _ _ _ h => cases h
      | refused _ _ _ _ h => cases h
      | @used ks v i j _ _ _ h h' h2 _ =>
        refine ⟨?_, v, i, j, h, h'⟩
        have key : ∀ {x y : Str}, name ∈ [x, y] → startsWith y b!"createIfNotExists:" = true →
            x ∈ [b!"create:", b!"create:withValue:"] → name ∈ [b!"create:", b!"create:withValue:"] := by
          intro x y hm hy hx
          simp only [List.mem_cons, List.not_mem_nil, or_false] at hm
          rcases hm with rfl | rfl
          · exact hx
          · rw [hy] at h2; cases h2
        cases h with
        | value _ hm => exact key hm rfl (by simp)
        | string hm => exact key hm rfl (by simp)
        | vector _ _ _ hm => exact key hm rfl (by simp)
        | set _ _ _ hm => exact key hm rfl (by simp)
        | dictionary _ _ _ _ _ _ hm => exact key hm rfl (by simp)
      | unknown _ _ _ _ _ _ _ _ h => cases h
      | password _ _ _ _ _ _ _ _ h => cases h
    · exact absurd (not_exists_thr hs hx hd) (by decide)
  · rintro ⟨hm, v, i, j, hcr, hh⟩
    refine C29_create_never_overwrites hc hs hcr hh ?_
    simpa using hm

/-- C49: "name cannot be resolved to a variable" is reported exactly if the receiver, or the variable to be deleted, is a
variable that does not exist. -/
theorem C49_unknown_variable [StdSort] {a name : Str} {args : List Str} (hc : Reachable c) (hs : Statement text a name args) :
    JustReplies pwd c s text b!"RuntimeError: name cannot be resolved to a variable." ↔
      (Variable a ∧ Absent c a) ∨ (a = b!"Context" ∧ name = b!"deleteVariable:" ∧ ∃ v, args = [v] ∧ Variable v ∧ Absent c v) := by
  have hi := reachable_inv hc
  constructor
  · rintro ⟨c', hr, _⟩
    obtain ⟨x, hd⟩ := thr_of_text (e := .unexistentVariable) hc hr
    by_cases hx : Exists c s a
    · right
      cases does_ends hi hs hx hd with
      | noMessage _ h => cases h
      | good _ _ _ h => exact absurd rfl (h _ _)
      | undefined _ _ _ h => cases h
      | wrongNumber _ _ h => cases h
      | invalid _ _ _ h => cases h
      | refused _ _ _ _ h => cases h
      | used _ _ _ _ _ _ h => cases h
      | unknown _ _ _ h1 h2 h3 h4 h5 => exact ⟨h1, h2, _, h3, h4, h5⟩
      | password _ _ _ _ _ _ _ _ h => cases h
    · left
      have hA : Actor a := by obtain ⟨_, _, _, _, _, _, _, _, h, _⟩ := hs; exact h
      rcases hA with h | h | h | h
      · exfalso
        subst h
        have hn : s = none := by
          by_contra hn; exact hx (.inr (.inr (.inl ⟨rfl, hn⟩)))
        have := execute_statement pwd c s _ _ _ _ hs
        rw [executeParsed_connection _ _ _ _ (by simp [isConnection]), hn] at this
        unfold Replies at hr
        rw [hn, this] at hr; cases hr
      · exact absurd (.inr (.inl h)) hx
      · exact absurd (.inl h) hx
      · refine ⟨h, ?_⟩
        cases hl : c.vars.lookup a with
        | none => exact hl
        | some i => exact absurd (.inr (.inr (.inr ⟨i, hl⟩))) hx
  · rintro (⟨h1, h2⟩ | ⟨rfl, rfl, v, rfl, h1, h2⟩)
    · exact C30_unknown_receiver hc h1 hs h2
    · exact C30_delete_unknown hc h1 hs h2

/-- C49: "wrong password" is reported exactly if the connection is offered a string literal for another password. -/
theorem C49_wrong_password [StdSort] {a name : Str} {args : List Str} (hc : Reachable c) (hs : Statement text a name args) :
    JustReplies pwd c s text b!"AuthenticationError: wrong password." ↔
      a = b!"Connection" ∧ s ≠ none ∧ name = b!"authenticateWithPassword:" ∧ ∃ x v, args = [x] ∧ StringLiteral x v ∧ v ≠ pwd := by
  have hi := reachable_inv hc
  constructor
  · rintro ⟨c', hr, _⟩
    obtain ⟨x, hd⟩ := thr_of_text (e := .wrongPassword) hc hr
    by_cases hx : Exists c s a
    · cases does_ends hi hs hx hd with
      | noMessage _ h => cases h
      | good _ _ _ h => exact absurd rfl (h _ _)
      | undefined _ _ _ h => cases h
      | wrongNumber _ _ h => cases h
      | invalid _ _ _ h => cases h
      | refused _ _ _ _ h => cases h
      | used _ _ _ _ _ _ h => cases h
      | unknown _ _ _ _ _ _ _ _ h => cases h
      | password _ _ _ h1 h2 h3 h4 h5 =>
        refine ⟨h1, ?_, h2, _, _, h3, h4, h5⟩
        rcases hx with h | h | ⟨_, h⟩ | ⟨i, h⟩
        · exact absurd h1 (type_not_special h).2
        · rw [h1] at h; exact absurd h (by decide)
        · exact h
        · exact absurd h1 (variable_not_special' (inv_variable hi h)).2
    · exact absurd (not_exists_thr hs hx hd) (by decide)
  · rintro ⟨rfl, hn, rfl, x, v, rfl, hl, hv⟩
    obtain ⟨y, hd, he⟩ := execute_does pwd hi s text
    have hx : Exists c s b!"Connection" := .inr (.inr (.inl ⟨rfl, hn⟩))
    have e := execute_statement pwd c s _ _ _ _ hs
    rw [executeParsed_connection _ _ _ _ (by simp [isConnection])] at e
    cases hsx : s with
    | none => exact absurd hsx hn
    | some z =>
      rw [hsx] at e
      have hr : z.receive pwd b!"authenticateWithPassword:" [x] = .thr z .wrongPassword := by
        have := session_does pwd z b!"authenticateWithPassword:" [x]
        generalize hw : z.receive pwd b!"authenticateWithPassword:" [x] = w at this
        generalize hna : b!"authenticateWithPassword:" = nm at this
        generalize hla : [x] = l at this
        cases this with
        | close => exact absurd hna (by decide)
        | auth h => cases hla; exact absurd (by have := denotes_unique (.string hl) (.string h); cases this; rfl) hv
        | wrong => rfl
        | invalid h => cases hla; obtain ⟨b, e, hb, _⟩ := hl; exact absurd ⟨b, e, hb⟩ h
        | wrongNumber h => subst hla; exact absurd rfl h
        | noMessage _ h => exact absurd hna.symm h
      simp only [] at e
      rw [hr] at e
      exact ⟨_, e, sameData_record _ _ _⟩

/-- C49: the remaining errors do not occur here ("not authenticated" is given by the server, see C40). -/
theorem C49_other_errors [StdSort] (hc : Reachable c) (h : execute pwd c s text = .done (c', s', r)) :
    r ≠ b!"AuthenticationError: not authenticated." ∧ r ≠ b!"RuntimeError: unknown error." ∧
      r ≠ b!"RuntimeError: cannot compare these two types." := by
  refine ⟨?_, ?_, ?_⟩ <;> rintro rfl
  · obtain ⟨x, hd⟩ := thr_of_text (e := .notAuthenticated) hc h
    exact absurd (does_exc hd) (by decide)
  · obtain ⟨x, hd⟩ := thr_of_text (e := .unknown) hc h
    exact absurd (does_exc hd) (by decide)
  · obtain ⟨x, hd⟩ := thr_of_text (e := .invalidComparison) hc h
    exact absurd (does_exc hd) (by decide)

example [StdSort] : Exists demo none b!"v" ∧ Understands demo b!"v" b!"insert:beforeIndex:" [.lit b!"Integer", .lit b!"Integer"] ∧
    OutOfDomain demo b!"v" b!"insert:beforeIndex:" [b!"1", b!"4"] ∧
    execute [] demo none b!"v insert: 1 beforeIndex: 4;" = .done (demo, none, b!"RuntimeError: invalid argument.") ∧
    execute [] demo none b!"v insert: 'a' beforeIndex: 0;" = .done (demo, none, b!"RuntimeError: invalid argument.") ∧
    execute [] demo none b!"v insert: 1;" = .done (demo, none, b!"RuntimeError: invalid message.") ∧
    execute [] demo none b!"Integer create: i withValue: 1;" = .done (demo, none, b!"RuntimeError: variable name already used.") ∧
    execute [] demo none b!"w get;" = .done (demo, none, b!"RuntimeError: name cannot be resolved to a variable.") := by
  have hv : Holds demo b!"v" (.vector b!"Integer" [.integer 3, .integer 1, .integer 2]) := by decide +kernel
  refine ⟨.inr (.inr (.inr ⟨_, hv⟩)), .var hv (by simp [signature]), ?_, by kernel_rfl, by kernel_rfl, by kernel_rfl,
    by kernel_rfl, by kernel_rfl⟩
  have h := Behaves.vector (cfg := demo.cfg) (l := [.integer 3, .integer 1, .integer 2])
    (VecSays.insert (t := b!"Integer") (lit_int (a := b!"1") (n := 1) rfl rfl (by decide)) (lit_int (a := b!"4") (n := 4) rfl rfl (by decide)))
  exact .index hv h

end Knuckle.Props

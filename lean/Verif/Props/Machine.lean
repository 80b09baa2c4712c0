/-
C80: the server is an implementation of the abstract machine of `Spec/Machine.lean`.
-/
import Verif.Props.Undefined
import Verif.Props.Requests
import Verif.Props.Numbers
import Verif.Props.Server
import Verif.Props.Containers
import Verif.Proofs.Undo
import Verif.Spec.Machine

namespace Knuckle.Props

open Spec

variable {pwd : Str} {c c' : Ctx} {s s' : Option Session} {text n name r : Str} {args : List Str}

theorem data_same (h : SameData c c') : data c' = data c := by unfold data; rw [h.1, h.2]

theorem data_record (c : Ctx) (i o : Str) : data (c.record i o) = data c := data_same (sameData_record c i o)

theorem data_put {i : Inst} (h1 : c'.cfg = c.cfg) (h2 : ∀ m, c'.vars.lookup m = if m = n then some i else c.vars.lookup m) :
    data c' = (data c).put n i := by
  unfold data Data.put; rw [h1]; congr 1; funext m; exact h2 m

theorem data_remove {p : Str → Prop} (h1 : c'.cfg = c.cfg) (h2 : ∀ m j, Holds c' m j ↔ Holds c m j ∧ ¬ p m) :
    data c' = (data c).remove p := by
  unfold data Data.remove; rw [h1]; congr 1; funext m
  refine Option.ext fun j => ?_
  change Holds c' m j ↔ _
  rw [h2]
  by_cases hp : p m
  · simp [hp]
  · simp only [hp, not_false_eq_true, and_true, if_false]; exact Iff.rfl

theorem data_delete (h1 : c'.cfg = c.cfg) (h2 : Absent c' n) (h3 : ∀ m, m ≠ n → ∀ j, Holds c' m j ↔ Holds c m j) :
    data c' = (data c).remove (· = n) := by
  refine data_remove h1 fun m j => ?_
  by_cases e : m = n
  · subst e; unfold Absent at h2; unfold Holds; rw [h2]; simp
  · rw [h3 m e]; simp [e]

theorem observe_replies [StdSort] (h : Replies pwd c s text r c') : observe (execute pwd c s text) = some (data c', s, r) := by
  unfold Replies at h; rw [h]; rfl

theorem observe_just [StdSort] (h : JustReplies pwd c s text r) : observe (execute pwd c s text) = some (data c, s, r) := by
  obtain ⟨c', h, hd⟩ := h; rw [observe_replies h, data_same hd]

theorem observe_undefined [StdSort] (h : execute pwd c s text = .ub) : observe (execute pwd c s text) = none := by rw [h]; rfl

theorem observe_answers [StdSort] {i : Inst} (h : Answers pwd c s text n (.gives i r)) :
    observe (execute pwd c s text) = some ((data c).put n i, s, r) := by
  obtain ⟨c', h, h1, _, h2⟩ := h
  rw [observe_replies h, data_put h1 h2]

theorem value_ne_none : (data c).value n ≠ none ↔ ∃ i, Holds c n i := Option.ne_none_iff_exists'

theorem present_iff {a : Str} : (data c).Present s a ↔ Exists c s a := Iff.rfl

theorem knows_iff {a : Str} {ks : List ArgKind} : (data c).Knows a name ks ↔ Understands c a name ks := by
  constructor <;> intro h
  · cases h with
    | type h => exact .type h
    | context h => exact .context h
    | connection h => exact .connection h
    | «variable» h h' => exact .var h h'
  · cases h with
    | type h => exact .type h
    | context h => exact .context h
    | connection h => exact .connection h
    | var h h' => exact .variable h h'

/-- The name of a creation says whether an existing variable is kept. -/
theorem creates_names {a : Str} {i : Inst} (h : Creates a name args n i) :
    (startsWith name b!"createIfNotExists:" = true → name ∈ [b!"createIfNotExists:", b!"createIfNotExists:withValue:"]) ∧
    (startsWith name b!"createIfNotExists:" = false → name ∈ [b!"create:", b!"create:withValue:"]) := by
  have key : ∀ {x y : Str}, name ∈ [x, y] → startsWith x b!"createIfNotExists:" = false → startsWith y b!"createIfNotExists:" = true →
      x ∈ [b!"create:", b!"create:withValue:"] → y ∈ [b!"createIfNotExists:", b!"createIfNotExists:withValue:"] →
      (startsWith name b!"createIfNotExists:" = true → name ∈ [b!"createIfNotExists:", b!"createIfNotExists:withValue:"]) ∧
      (startsWith name b!"createIfNotExists:" = false → name ∈ [b!"create:", b!"create:withValue:"]) := by
    intro x y hm hx hy h1 h2
    simp only [List.mem_cons, List.not_mem_nil, or_false] at hm
    rcases hm with rfl | rfl
    · exact ⟨fun h => (by rw [hx] at h; cases h), fun _ => h1⟩
    · exact ⟨fun _ => h2, fun h => (by rw [hy] at h; cases h)⟩
  cases h with
  | value _ hm => exact key hm rfl rfl (by simp) (by simp)
  | string hm => exact key hm rfl rfl (by simp) (by simp)
  | vector _ _ _ hm => exact key hm rfl rfl (by simp) (by simp)
  | set _ _ _ hm => exact key hm rfl rfl (by simp) (by simp)
  | dictionary _ _ _ _ _ _ hm => exact key hm rfl rfl (by simp) (by simp)

theorem step_context [StdSort] (hc : Reachable c) {l : List Str} {r : Run Ctx} (hs : Statement text b!"Context" name l)
    (hd : CtxDoes c name l r) (he : execute pwd c s text = finish text (onCtx s r)) :
    Step pwd (data c) s text (observe (execute pwd c s text)) := by
  have und : ∀ {name ks}, (name, ks) ∈ contextSignature → (data c).Knows b!"Context" name ks := .context
  have pres : (data c).Present s b!"Context" := .inr (.inl rfl)
  cases hd with
  | listNamespaces =>
    obtain ⟨xs, h, h1, h2⟩ := C31_listNamespaces (pwd := pwd) (s := s) hc hs
    rw [observe_just h]
    refine .listNamespaces hs ⟨h1, fun x => ?_⟩
    rw [h2]
    refine and_congr_right fun _ => exists_congr fun m => ?_
    rw [value_ne_none]; exact ⟨fun ⟨i, h, h'⟩ => ⟨⟨i, h⟩, h'⟩, fun ⟨⟨i, h⟩, h'⟩ => ⟨i, h, h'⟩⟩
  | listVariables =>
    obtain ⟨xs, h, h1, h2⟩ := C31_listVariables (pwd := pwd) (s := s) hc hs
    rw [observe_just h]
    exact .listVariables hs ⟨h1, fun x => (h2 x).trans value_ne_none.symm⟩
  | listOf hi =>
    obtain ⟨xs, h, h1, h2⟩ := C31_listVariablesOfNamespace (pwd := pwd) (s := s) hc hi hs
    rw [observe_just h]
    exact .listVariablesOfNamespace hs hi ⟨h1, fun x => (h2 x).trans (and_congr_left fun _ => value_ne_none.symm)⟩
  | delete hv hm =>
    obtain ⟨i, hi⟩ := lookup_isSome_iff.2 hm
    obtain ⟨d, h, h1, h2, h3⟩ := C30_delete_removes_exactly_one (pwd := pwd) (s := s) hc hs hi
    rw [observe_replies h, data_delete h1 h2 h3]
    exact .deleted hs hi
  | @deleteNone m hv hm =>
    have hl : c.vars.lookup m = none := by
      cases hl : c.vars.lookup m with
      | none => rfl
      | some i => exact absurd (lookup_isSome_iff.1 ⟨i, hl⟩) hm
    rw [observe_just (C30_delete_unknown hc hv hs hl)]
    exact .nothingToDelete hs hv hl
  | deleteOf hi =>
    obtain ⟨d, h, h1, h2⟩ := C30_delete_namespace (pwd := pwd) (s := s) hc hi hs
    rw [observe_replies h, data_remove h1 h2]
    exact .namespaceDeleted hs hi
  | getPrecision =>
    obtain rfl := unary_args hs (by decide) (by decide)
    rw [he]; simp only [onCtx, finish, observe, data_record]
    exact .precision hs
  | setPrecision h h' =>
    rw [he]; simp only [onCtx, finish, observe, data_record]
    exact .precisionSet hs h h'
  | setPrecisionNo h h' =>
    rw [he]; simp only [onCtx, finish, observe, data_record]
    exact .precisionRefused hs h h'
  | getTolerance =>
    obtain rfl := unary_args hs (by decide) (by decide)
    rw [he]; simp only [onCtx, finish, observe, data_record]
    exact .tolerance hs
  | setTolerance h h' =>
    rw [he]; simp only [onCtx, finish, observe, data_record]
    exact .toleranceSet hs (.float h) (fun e => by rw [less_iff.1 e] at h'; cases h')
  | setToleranceNo h h' =>
    rw [he]; simp only [onCtx, finish, observe, data_record]
    exact .toleranceRefused hs (.float h) (less_iff.2 h')
  | noMessage h =>
    rw [he]; simp only [onCtx, finish, observe, data_record]
    exact .noMessage hs pres (fun ks h' => h _ ((understands_context (reachable_inv hc)).1 (knows_iff.1 h')) rfl)
  | wrongNumber h h' =>
    rw [he]; simp only [onCtx, finish, observe, data_record]
    exact .wrongNumber hs pres (und h) h'
  | invalid h h' h2 =>
    rw [he]; simp only [onCtx, finish, observe, data_record]
    exact .malformed hs pres (und h) h' h2
  | undefined h =>
    rw [he]
    exact .outOfRange (ks := [.lit b!"Integer"]) hs pres (und (by simp [contextSignature])) rfl ⟨(.lit b!"Integer", _), by simp, rfl, h⟩

theorem step_connection [StdSort] (hc : Reachable c) {l : List Str} {x : Session} {r : Run Session}
    (hs : Statement text b!"Connection" name l) (hd : SessDoes pwd x name l r)
    (he : execute pwd c (some x) text = finish text (onConn c r)) :
    Step pwd (data c) (some x) text (observe (execute pwd c (some x) text)) := by
  have und : ∀ {name ks}, (name, ks) ∈ connectionSignature → (data c).Knows b!"Connection" name ks := .connection
  have pres : (data c).Present (some x) b!"Connection" := .inr (.inr (.inl ⟨rfl, by simp⟩))
  rw [he]
  cases hd with
  | close =>
    obtain rfl := unary_args hs (by decide) (by decide)
    simp only [onConn, finish, observe, data_record]
    exact .closed hs rfl
  | auth h =>
    simp only [onConn, finish, observe, data_record]
    exact .authenticated hs rfl h
  | wrong h h' =>
    simp only [onConn, finish, observe, data_record]
    exact .wrongPassword hs (by simp) h h'
  | invalid h =>
    simp only [onConn, finish, observe, data_record]
    refine .malformed (ks := [.lit b!"String"]) hs pres (und (by simp [connectionSignature])) rfl ⟨(.lit b!"String", _), by simp; rfl, ?_⟩
    intro hf
    rcases hf with ⟨h', _⟩ | ⟨h', _⟩ | ⟨h', _⟩ | ⟨h', _⟩ | ⟨_, h'⟩
    · exact absurd h' (by decide)
    · exact absurd h' (by decide)
    · exact absurd h' (by decide)
    · exact absurd h' (by decide)
    · exact h h'
  | wrongNumber h =>
    simp only [onConn, finish, observe, data_record]
    exact .wrongNumber (ks := [.lit b!"String"]) hs pres (und (by simp [connectionSignature])) h
  | noMessage h1 h2 =>
    simp only [onConn, finish, observe, data_record]
    refine .noMessage hs pres fun ks h => ?_
    have := (understands_connection (reachable_inv hc)).1 (knows_iff.1 h)
    simp only [connectionSignature, List.mem_cons, Prod.mk.injEq, List.not_mem_nil, or_false] at this
    rcases this with ⟨h, _⟩ | ⟨h, _⟩ <;> contradiction

theorem execute_step [StdSort] (hc : Reachable c) : Step pwd (data c) s text (observe (execute pwd c s text)) := by
  have hi := reachable_inv hc
  obtain ⟨y, hd, he⟩ := execute_does pwd hi s text
  cases hd with
  | context hs hd => exact step_context hc hs hd he
  | connection hs hsx hd => subst hsx; exact step_connection hc hs hd he
  | syntaxError h =>
    rw [he]; simp only [finish, observe, data_record]
    exact .noStatement fun a n l h' => h ⟨a, n, l, h'⟩
  | typeNoMessage hs ht h =>
    rw [he]; simp only [finish, observe, data_record]
    exact .noMessage hs (.inl ht) fun ks h' => h ⟨ks, (understands_type hi ht).1 (knows_iff.1 h')⟩
  | typeWrongNumber hs ht hk hl =>
    rw [he]; simp only [finish, observe, data_record]
    exact .wrongNumber hs (.inl ht) (.type hk) hl
  | typeInvalid hs ht hk hl hf =>
    rw [he]; simp only [finish, observe, data_record]
    exact .malformed hs (.inl ht) (.type hk) hl hf
  | typeUndefined hs ht hk hl hf =>
    rw [he]; exact .outOfRange hs (.inl ht) (.type hk) hl hf
  | created hs ht hcr hl =>
    rw [he]; simp only [finish, observe, data_record]
    rw [data_put (c := c) (c' := { c with vars := mapInsert strLt _ _ c.vars }) rfl (mapInsert_lookup _ _ _ hi.asc)]
    exact .created hs hcr hl
  | kept hs ht hcr hl hsw =>
    rw [he]; simp only [finish, observe, data_record]
    exact .kept hs hcr hl ((creates_names hcr).1 hsw)
  | used hs ht hcr hl hsw =>
    rw [he]; simp only [finish, observe, data_record]
    exact .used hs hcr hl ((creates_names hcr).2 hsw)
  | absent hs hv hl =>
    rw [he]; simp only [finish, observe, data_record]
    exact .unknown hs hv hl
  | varNoMessage hs hv hl h =>
    rw [he]; simp only [finish, observe, data_record]
    exact .noMessage hs (.inr (.inr (.inr ⟨_, hl⟩))) fun ks h' => h _ ((understands_variable hv hl).1 (knows_iff.1 h')) rfl
  | varWrongNumber hs hv hl hk h =>
    rw [he]; simp only [finish, observe, data_record]
    exact .wrongNumber hs (.inr (.inr (.inr ⟨_, hl⟩))) (.variable hl hk) h
  | varInvalid hs hv hl hk h hf =>
    rw [he]; simp only [finish, observe, data_record]
    exact .malformed hs (.inr (.inr (.inr ⟨_, hl⟩))) (.variable hl hk) h hf
  | varUndefined hs hv hl hk h hf =>
    rw [he]; exact .outOfRange hs (.inr (.inr (.inr ⟨_, hl⟩))) (.variable hl hk) h hf
  | @varGives a _ _ i _ i' _ hs hv hl hk h hg hb =>
    rw [he]; simp only [finish, observe, data_record]
    have hch := onlyChanged_setVar c a i' i hl
    rw [data_put hch.1 hch.2.2]
    exact .gives hs hl hb
  | varRefuses hs hv hl hk h hg hb =>
    rw [he]; simp only [finish, observe, data_record]
    exact .refuses hs hl hb
  | varBehavesUndefined hs hv hl hk h hg hb =>
    rw [he]; exact .undefined hs hl hb
  | noConnection hs h =>
    rw [he]; exact .noConnection hs h


theorem step_answers [StdSort] (hc : Reachable c) {i : Inst} (hn : Holds c n i) (h : Statement text n name args) {x : Result Inst}
    (hb : Behaves c.cfg i name args x) (hd : ∀ l, Statement text n b!"sort" [] → i ≠ .vector b!"Float" l) :
    Answers pwd c s text n x := by
  cases hb with
  | boolean hm => exact answers_bool hc hn h hm
  | character hm => exact answers_char hc hn h hm
  | integer hm => exact answers_int hc hn h hm
  | float hm => exact answers_flt hc hn h hm
  | string hm => exact answers_str hc hn h hm
  | vector hm => exact answers_vec hc hn h hm
  | @sort t l l' ho hp hw =>
    have ht : t ≠ b!"Float" := fun e => hd l h (by rw [e])
    have hl := (holds_wellTyped hc hn).2
    obtain ⟨l'', h1, _, _, h4⟩ := C21_sort_result_is_unique (pwd := pwd) (s := s) ht hc hn h
    rw [h4 l' hp ((ordered_iff ht _ fun x hx => hl x (hp.mem_iff.1 hx)).1 hw)]
    exact h1
  | sortUndefined hno => exact (C21_sort_undefined hc hn h).2 hno
  | set hm => exact answers_set hc hn h hm
  | dictionary hm => exact answers_dict hc hn h hm

theorem lists_unique {l l' : List Str} {p : Str → Prop} (h : Lists l p) (h' : Lists l' p) : l = l' :=
  ascending_ext h.1 h'.1 (fun x _ => List.lt_irrefl x) (fun x _ _ _ h h' => List.lt_irrefl x (List.lt_trans h h')) fun x => (h.2 x).trans (h'.2 x).symm

theorem execute_connection [StdSort] {x : Session} {l : List Str} (hs : Statement text b!"Connection" name l) :
    execute pwd c (some x) text = finish text (onConn c (x.receive pwd name l)) := by
  rw [execute_statement _ _ _ _ _ _ _ hs, executeParsed_connection _ _ _ _ (by simp [isConnection])]

theorem step_execute [StdSort] {q : Option (Data × Option Session × Str)} (hc : Reachable c) (h : Step pwd (data c) s text q)
    (hd : Determined (data c) text) : observe (execute pwd c s text) = q := by
  have hi := reachable_inv hc
  have lists : ∀ {l l' : List Str} {p : Str → Prop}, Lists l p → Lists l' p → listText c!"[" c!"]" l = listText c!"[" c!"]" l' :=
    fun h h' => by rw [lists_unique h h']
  cases h with
  | noStatement h =>
    rw [execute_not_statement _ _ _ _ (fun ⟨a, n, l, h'⟩ => h a n l h')]
    simp only [observe, data_record]
  | unknown hs hv hn => exact observe_just (C30_unknown_receiver hc hv hs hn)
  | noConnection hs hn =>
    rw [execute_statement _ _ _ _ _ _ _ hs, executeParsed_connection _ _ _ _ (by simp [isConnection]), hn]; rfl
  | noMessage hs hx hk =>
    exact observe_just ((C49_invalid_message hc hs).2 ⟨hx, fun ⟨ks, h⟩ => hk ks (knows_iff.2 h)⟩)
  | wrongNumber hs hx hk hl =>
    exact observe_just ((C49_wrong_number_of_arguments hc hs).2 ⟨hx, _, knows_iff.1 hk, hl⟩)
  | malformed hs hx hk hl hf =>
    exact observe_just (C49_malformed_argument hc hs hx (knows_iff.1 hk) hl hf fun q hq ho => hd.2 _ _ _ _ hs hk hf ⟨q, hq, ho⟩)
  | outOfRange hs hx hk hl hf =>
    refine observe_undefined (C39_the_causes_are_undefined hc (.literal hs (knows_iff.1 hk) hl hf) fun a name args ks h hu q hq => ?_)
    by_contra hn
    obtain ⟨rfl, rfl, rfl⟩ := statement_unique h hs
    obtain rfl := understands_unique hi hu (knows_iff.1 hk)
    exact hd.2 _ _ _ _ hs hk ⟨q, hq, hn⟩ hf
  | @created _ _ _ n i hs hcr hn =>
    obtain ⟨c', h, h1, h2, h3⟩ := C29_creation_adds_one_variable (pwd := pwd) (s := s) hc ⟨_, _, _, hs, hcr⟩ hn
    rw [observe_replies h, data_put (c := c) (n := n) (i := i) h1]
    intro m
    by_cases e : m = n
    · rw [if_pos e, e]; exact h2
    · rw [if_neg e]; exact Option.ext fun j => h3 m e j
  | kept hs hcr hn hm => exact observe_just (C29_createIfNotExists_never_overwrites hc hs hcr hn (by simpa using hm))
  | used hs hcr hn hm => exact observe_just (C29_create_never_overwrites hc hs hcr hn (by simpa using hm))
  | gives hs hn hb => exact observe_answers (step_answers hc hn hs hb fun l h e => hd.1 _ l h (by rw [← e]; exact hn))
  | refuses hs hn hb => exact observe_just (step_answers (x := .refuses) hc hn hs hb fun l h e => hd.1 _ l h (by rw [← e]; exact hn))
  | undefined hs hn hb =>
    exact observe_undefined (step_answers (x := .undefined) hc hn hs hb fun l h e => hd.1 _ l h (by rw [← e]; exact hn))
  | listVariables hs hl =>
    obtain ⟨xs, h, h1, h2⟩ := C31_listVariables (pwd := pwd) (s := s) hc hs
    rw [observe_just h, lists ⟨h1, fun x => (h2 x).trans value_ne_none.symm⟩ hl]
  | listVariablesOfNamespace hs hns hl =>
    obtain ⟨xs, h, h1, h2⟩ := C31_listVariablesOfNamespace (pwd := pwd) (s := s) hc hns hs
    rw [observe_just h, lists ⟨h1, fun x => (h2 x).trans (and_congr_left fun _ => value_ne_none.symm)⟩ hl]
  | listNamespaces hs hl =>
    obtain ⟨xs, h, h1, h2⟩ := C31_listNamespaces (pwd := pwd) (s := s) hc hs
    rw [observe_just h, lists ⟨h1, fun x => ?_⟩ hl]
    rw [h2]
    refine and_congr_right fun _ => exists_congr fun m => ?_
    rw [value_ne_none]; exact ⟨fun ⟨i, h, h'⟩ => ⟨⟨i, h⟩, h'⟩, fun ⟨⟨i, h⟩, h'⟩ => ⟨i, h, h'⟩⟩
  | deleted hs hn =>
    obtain ⟨d, h, h1, h2, h3⟩ := C30_delete_removes_exactly_one (pwd := pwd) (s := s) hc hs hn
    rw [observe_replies h, data_delete h1 h2 h3]
  | nothingToDelete hs hv hn => exact observe_just (C30_delete_unknown hc hv hs hn)
  | namespaceDeleted hs hns =>
    obtain ⟨d, h, h1, h2⟩ := C30_delete_namespace (pwd := pwd) (s := s) hc hns hs
    rw [observe_replies h, data_remove h1 h2]
  | precision hs =>
    exact observe_just (C37_getSettings (t₂ := b!"Context getFloatComparisonTolerance;") (l₂ := []) hs (reads (by decide +kernel))).1
  | tolerance hs =>
    exact observe_just (C37_getSettings (t₁ := b!"Context getFloatPrecision;") (l₁ := []) (reads (by decide +kernel)) hs).2
  | precisionSet hs ha hp =>
    obtain ⟨d, h, h1, h2⟩ := (C37_setFloatPrecision (pwd := pwd) (c := c) (s := s) hs ha).1 hp
    rw [observe_replies h]; unfold data; rw [h1, h2]
  | precisionRefused hs ha hp => exact observe_just ((C37_setFloatPrecision hs ha).2 hp)
  | toleranceSet hs ha hp =>
    obtain ⟨d, h, h1, h2⟩ := (C37_tolerance (pwd := pwd) (c := c) (s := s) hs ha).1 hp
    rw [observe_replies h]; unfold data; rw [h1, h2]
  | toleranceRefused hs ha hp => exact observe_just ((C37_tolerance hs ha).2 hp)
  | closed hs hx =>
    subst hx
    rw [execute_connection hs]
    have e : ∀ x : Session, x.receive pwd b!"close" [] = .ret { x with connected := false } b!"null" := fun _ => rfl
    rw [e]; simp only [onConn, finish, observe, data_record]
  | @authenticated a x hs hx hl =>
    subst hx
    rw [execute_connection hs]
    have hr : x.receive pwd b!"authenticateWithPassword:" [a] = .ret { x with authed := true } b!"null" := by
      have := session_does pwd x b!"authenticateWithPassword:" [a]
      generalize hw : x.receive pwd b!"authenticateWithPassword:" [a] = w at this
      generalize hna : b!"authenticateWithPassword:" = nm at this
      generalize hla : [a] = l at this
      cases this with
      | close => exact absurd hna (by decide)
      | auth h => rfl
      | wrong h h' => cases hla; exact absurd (by have := denotes_unique (.string hl) (.string h); cases this; rfl) h'
      | invalid h => cases hla; obtain ⟨b, e, hb, _⟩ := hl; exact absurd ⟨b, e, hb⟩ h
      | wrongNumber h => subst hla; exact absurd rfl h
      | noMessage _ h => exact absurd hna.symm h
    rw [hr]; simp only [onConn, finish, observe, data_record]
  | wrongPassword hs hn hl hv => exact observe_just ((C49_wrong_password hc hs).2 ⟨rfl, hn, rfl, _, _, rfl, hl, hv⟩)

/-! ### The theorems -/

/-- C80: what a request does, and what it answers, is a step of the machine: there is no other behaviour, for any text. -/
theorem C80_every_request [StdSort] (hc : Reachable c) : Step pwd (data c) s text (observe (execute pwd c s text)) := execute_step hc

/-- C80: and it is every step of the machine, unless floats are sorted or a request with two bad arguments may fail in two ways. -/
theorem C80_no_other_outcome [StdSort] {q : Option (Data × Option Session × Str)} (hc : Reachable c) (h : Step pwd (data c) s text q)
    (hd : Determined (data c) text) : observe (execute pwd c s text) = q := step_execute hc h hd

/-- C80: the machine itself is deterministic there. -/
theorem C80_deterministic [StdSort] {q q' : Option (Data × Option Session × Str)} (hc : Reachable c)
    (h : Step pwd (data c) s text q) (h' : Step pwd (data c) s text q') (hd : Determined (data c) text) : q = q' :=
  (step_execute hc h hd).symm.trans (step_execute hc h' hd)

theorem serial_trace [StdSort] {log : List Request} (hc : Reachable c) (h : Serial pwd c log c') : Trace pwd (data c) log (data c') := by
  induction h with
  | nil => exact .nil
  | @executed log d d' i line reply x x' h h1 h2 h3 he ih =>
    have := execute_step (pwd := pwd) (s := some x) (text := line) (serial_reachable hc h)
    rw [he] at this
    exact .request ih h1 h2 h3 this
  | ignored _ h1 h2 h3 ih => exact .ignored ih h1 h2 h3

/-- C80: whatever the clients send and however it is interleaved, there is an execution of the machine, one request at a time, with
exactly these replies, that ends with what the server knows; and each client has sent exactly the lines of its requests in this
execution, and received exactly their replies (`Explains`). -/
theorem C80_server [StdSort] {es : List Event} {v : Server} (hc : Reachable c) (h : run (Server.init pwd c) es = some (.done v)) :
    ∃ log, Explains pwd c es v log ∧ Trace pwd (data c) log (data v.ctx) := by
  obtain ⟨log, hl⟩ := C44_serialized hc h
  exact ⟨log, hl, serial_trace hc hl.serial⟩

theorem trace_serial [StdSort] {log : List Request} {d : Data} (hc : Reachable c) (h : Trace pwd (data c) log d)
    (hd : ∀ l q d', l ++ [q] <+: log → Trace pwd (data c) l d' → Determined d' q.line) :
    ∃ c', Serial pwd c log c' ∧ data c' = d := by
  induction h with
  | nil => exact ⟨c, .nil, rfl⟩
  | @request log d d' i line reply x x' h h1 h2 h3 hs ih =>
    obtain ⟨e, hse, rfl⟩ := ih fun l q d' hp => hd l q d' (hp.trans (List.prefix_append _ _))
    have := step_execute (serial_reachable hc hse) hs (hd log ⟨i, line, reply⟩ _ (List.prefix_refl _) h)
    cases ho : execute pwd e (some x) line with
    | ub => rw [ho] at this; cases this
    | done y =>
      obtain ⟨e', z, o⟩ := y
      rw [ho] at this
      simp only [observe, Option.some.injEq, Prod.mk.injEq] at this
      obtain ⟨rfl, rfl, rfl⟩ := this
      exact ⟨e', .executed hse h1 h2 h3 ho, rfl⟩
  | ignored h h1 h2 h3 ih =>
    obtain ⟨e, hse, rfl⟩ := ih fun l q d' hp => hd l q d' (hp.trans (List.prefix_append _ _))
    exact ⟨e, .ignored hse h1 h2 h3, rfl⟩

/-- C80: conversely, every execution of the machine whose requests have only one outcome is what the interpreter does. -/
theorem C80_every_trace [StdSort] {log : List Request} {d : Data} (hc : Reachable c) (h : Trace pwd (data c) log d)
    (hd : ∀ l q d', l ++ [q] <+: log → Trace pwd (data c) l d' → Determined d' q.line) :
    ∃ c', Serial pwd c log c' ∧ data c' = d := trace_serial hc h hd

/-- A request with a determined outcome. -/
example [StdSort] : Determined (data demo) b!"v sort;" ∧ Step [] (data demo) none b!"v sort;"
    (some ((data demo).put b!"v" (.vector b!"Integer" [.integer 1, .integer 2, .integer 3]), none, b!"null")) ∧
    observe (execute [] demo none b!"v sort;") =
      some ((data demo).put b!"v" (.vector b!"Integer" [.integer 1, .integer 2, .integer 3]), none, b!"null") := by
  have hs : Statement b!"v sort;" b!"v" b!"sort" [] := reads (by decide +kernel)
  have hv : (data demo).value b!"v" = some (.vector b!"Integer" [.integer 3, .integer 1, .integer 2]) := by decide +kernel
  have hd : Determined (data demo) b!"v sort;" := by
    refine ⟨fun n l h e => ?_, fun a name args ks h _ => ?_⟩
    · obtain ⟨rfl, _, _⟩ := statement_unique hs h
      rw [hv] at e; cases e
    · obtain ⟨rfl, rfl, rfl⟩ := statement_unique hs h
      rintro ⟨q, hq, _⟩; simp at hq
  have hst : Step [] (data demo) none b!"v sort;"
      (some ((data demo).put b!"v" (.vector b!"Integer" [.integer 1, .integer 2, .integer 3]), none, b!"null")) := by
    refine .gives hs hv (.sort (swo_nonfloat _ b!"Integer" (by decide) _ ?_) (by decide +kernel) (by simp [less, data, natLt]))
    intro x hx
    simp only [List.mem_cons, List.not_mem_nil, or_false] at hx
    rcases hx with rfl | rfl | rfl <;> exact ⟨rfl, by unfold ValueOk IsInt32; decide⟩
  exact ⟨hd, hst, C80_no_other_outcome demo_reachable hst hd⟩

/-- The demonstration of the server is explained by the machine. -/
example [StdSort] : ∃ log, Trace b!"pw" (data fresh) log (data demoServer.ctx) ∧ log ≠ [] := by
  obtain ⟨log, h, ht⟩ := C80_server fresh_reachable demo_run
  refine ⟨log, ht, ?_⟩
  rintro rfl
  have := h.output 1 _ (by decide +kernel : demoServer.conns[1]? = some
    { sess := ⟨true, true⟩, inbuf := [], phase := .reading, out := b!"null\nnull\n" })
  have this : b!"null\nnull\n" = wire [] := this
  revert this; decide

end Knuckle.Props

/-
C20: vectors are lists; C21: sorting; C22: queues and stacks; C23: sets; C24: dictionaries; C26: printed containers.
-/
import Verif.Proofs.Updates
import Verif.Proofs.Injective
import Verif.Props.Demo

namespace Knuckle.Props

open Spec

variable {pwd : Str} {c c' : Ctx} {s s' : Option Session} {text text' n r : Str} {t u : Str}

/-! ### C20 -/

/-- C20: every message to a vector except `sort` does to the list of its elements, and replies, what `vecMeaning` says in
terms of ordinary list operations; nothing else changes, and a refused message (an index out of range) changes nothing. -/
theorem C20_vectors_are_lists [StdSort] {name : Str} {args : List Str} {l : List Obj} {m : VecMsg} (hc : Reachable c)
    (hn : Holds c n (.vector t l)) (h : Statement text n name args) (hm : VecSays t name args m) :
    Answers pwd c s text n ((vecMeaning c.cfg l m).map (.vector t)) := answers_vec hc hn h hm

/-- C20: elements that are not floats count as equal only if they are identical. -/
theorem C20_same_elements (ht : t ≠ b!"Float") (eps : Fl) {a b : Obj} (ha : HasType t a) (_hb : HasType t b) :
    same eps a b = true ↔ a = b := by
  cases a with
  | float x => exact absurd ha.1.symm ht
  | _ => simp only [same, decide_eq_true_eq]

/-- C20: there is no other way for a message to a vector to be accepted. -/
theorem C20_accepted_messages [StdSort] {name : Str} {args : List Str} {l : List Obj} (hc : Reachable c)
    (hn : Holds c n (.vector t l)) (h : Statement text n name args) (he : execute pwd c s text = .done (c', s', r))
    (hr : r ∉ errorTexts) : (name = b!"sort" ∧ args = []) ∨
      ∃ m l', VecSays t name args m ∧ vecMeaning c.cfg l m = .gives l' r ∧ OnlyChanged c c' n (.vector t l') := by
  obtain ⟨i', hb, ho, _⟩ := accepted_behaves hc hn h he hr
  generalize hx : Result.gives i' r = x at hb
  cases hb with
  | @vector _ _ _ _ m hm =>
    obtain ⟨w, e, rfl⟩ := map_gives hx.symm
    exact .inr ⟨m, w, hm, e, ho⟩
  | sort => exact .inl ⟨rfl, rfl⟩
  | sortUndefined => exact .inl ⟨rfl, rfl⟩

/-- C20: a vector message that is refused although its arguments are well formed has an index or a number out of range. -/
theorem C20_refused_means_out_of_range (cfg : Cfg) (l : List Obj) (m : VecMsg) : vecMeaning cfg l m = .refuses ↔
    match m with
    | .atIndex i | .popAtIndex i => ¬ (0 ≤ i ∧ i < l.length)
    | .containsFrom _ i | .firstIndexOfFrom _ i | .slice i | .insert _ i | .erase i | .removeFirstFrom _ i
    | .replaceFirstFrom _ i _ => ¬ (0 ≤ i ∧ i ≤ l.length)
    | .sliceTo i j | .eraseTo i j => ¬ (0 ≤ i ∧ i ≤ j ∧ j ≤ l.length)
    | .first k | .last k => ¬ 0 ≤ k
    | _ => False := by
  cases m with
  | popBack => simp only [vecMeaning, iff_false]; split <;> simp
  | popFront => simp only [vecMeaning, iff_false]; split <;> simp
  | replaceFirst o q => simp only [vecMeaning, iff_false]; split <;> simp
  | replaceFirstFrom o i q =>
    simp only [vecMeaning]
    split
    · rename_i h; split <;> simp [h]
    · rename_i h; simp only [true_iff]; exact h
  | _ => simp only [vecMeaning]; (try split) <;> simp_all

/-- A vector whose elements are read and changed; the third index is out of range. -/
example [StdSort] : Holds demo b!"v" (.vector b!"Integer" [.integer 3, .integer 1, .integer 2]) ∧
    Statement b!"v insert: 9 beforeIndex: 1;" b!"v" b!"insert:beforeIndex:" [b!"9", b!"1"] ∧
    VecSays b!"Integer" b!"insert:beforeIndex:" [b!"9", b!"1"] (.insert (.integer 9) 1) ∧
    (vecMeaning demo.cfg [.integer 3, .integer 1, .integer 2] (.insert (.integer 9) 1)) =
      .gives [.integer 3, .integer 9, .integer 1, .integer 2] b!"null" ∧
    vecMeaning demo.cfg [.integer 3, .integer 1, .integer 2] (.insert (.integer 9) 4) = .refuses ∧
    vecMeaning demo.cfg [.integer 3, .integer 1, .integer 2] (.slice 3) = .gives [.integer 3, .integer 1, .integer 2] b!"[]" :=
  ⟨by decide +kernel, reads (by kernel_rfl),
    .insert (lit_int (by decide +kernel) (by decide +kernel) (by decide)) (lit_int (by decide +kernel) (by decide +kernel) (by decide)),
    by kernel_rfl, by kernel_rfl, by kernel_rfl⟩

/-! ### C21 -/

/-- The elements are in non-descending natural order. -/
def Ordered (l : List Obj) : Prop := l.Pairwise fun a b => a = b ∨ natLt a b = true

theorem sort_behaves [StdSort] {l : List Obj} (hc : Reachable c) (hn : Holds c n (.vector t l)) (h : Statement text n b!"sort" []) :
    ∃ q, Behaves c.cfg (.vector t l) b!"sort" [] q ∧ Answers pwd c s text n q := by
  obtain ⟨q, hb, hr⟩ := vec_sort c.cfg t l (holds_wellTyped hc hn).2
  exact ⟨q, hb, answers_of hc hn h q hr⟩

theorem behaves_sort {cfg : Cfg} {l : List Obj} {q : Result Inst} (h : Behaves cfg (.vector t l) b!"sort" [] q) :
    (StrictWeakOrder (less cfg.eps) l ∧ ∃ l', l'.Perm l ∧ (l'.Pairwise fun a b => ¬ less cfg.eps b a) ∧
      q = .gives (.vector t l') b!"null") ∨ (¬ StrictWeakOrder (less cfg.eps) l ∧ q = .undefined) := by
  cases h with
  | vector h => generalize hx : b!"sort" = x at h; cases h <;> exact absurd hx (by decide)
  | sort h1 h2 h3 => exact .inl ⟨h1, _, h2, h3, rfl⟩
  | sortUndefined h1 => exact .inr ⟨h1, rfl⟩

/-- C21: if the comparison is a strict weak order on the elements, `sort` leaves a permutation of them in non-descending
order: no element is less than one before it. -/
theorem C21_sort_orders [StdSort] {l : List Obj} (hc : Reachable c) (hn : Holds c n (.vector t l))
    (h : Statement text n b!"sort" []) (ho : StrictWeakOrder (less c.cfg.eps) l) :
    ∃ l', Answers pwd c s text n (.gives (.vector t l') b!"null") ∧ l'.Perm l ∧ l'.Pairwise fun a b => ¬ less c.cfg.eps b a := by
  obtain ⟨q, hb, ha⟩ := sort_behaves (pwd := pwd) (s := s) hc hn h
  rcases behaves_sort hb with ⟨_, l', h1, h2, rfl⟩ | ⟨hno, _⟩
  · exact ⟨l', ha, h1, h2⟩
  · exact absurd ho hno

/-- C21: otherwise, and only then, it is undefined behaviour. -/
theorem C21_sort_undefined [StdSort] {l : List Obj} (hc : Reachable c) (hn : Holds c n (.vector t l))
    (h : Statement text n b!"sort" []) : execute pwd c s text = .ub ↔ ¬ StrictWeakOrder (less c.cfg.eps) l := by
  obtain ⟨q, hb, ha⟩ := sort_behaves (pwd := pwd) (s := s) hc hn h
  rcases behaves_sort hb with ⟨h0, l', h1, h2, rfl⟩ | ⟨hno, rfl⟩
  · obtain ⟨x, hx, _⟩ := ha
    unfold Replies at hx
    rw [hx]; exact ⟨fun e => (by cases e), fun e => absurd h0 e⟩
  · exact ⟨fun _ => hno, fun _ => ha⟩

theorem ordered_iff (ht : t ≠ b!"Float") (eps : Fl) {l : List Obj} (hl : ∀ x ∈ l, HasType t x) :
    (l.Pairwise fun a b => ¬ less eps b a) ↔ Ordered l := by
  have key : ∀ a ∈ l, ∀ b ∈ l, ¬ less eps b a = true ↔ (a = b ∨ natLt a b = true) := by
    intro a ha b hb
    rw [less_natLt eps t b a (hl b hb) (hl a ha) ht]
    constructor
    · intro h
      cases h2 : natLt a b with
      | true => exact .inr rfl
      | false => exact .inl ((natLt_sto t ht).tot a b (hl a ha) (hl b hb) h2 (by simpa using h))
    · rintro (rfl | h2) h3
      · rw [(natLt_sto t ht).irr a (hl a ha)] at h3; cases h3
      · have := (natLt_sto t ht).tr a b a (hl a ha) (hl b hb) (hl a ha) h2 h3
        rw [(natLt_sto t ht).irr a (hl a ha)] at this; cases this
  unfold Ordered
  constructor <;> intro h <;> refine List.Pairwise.imp_of_mem ?_ h
  · intro a b ha hb h; exact (key a ha b hb).1 h
  · intro a b ha hb h; exact (key a ha b hb).2 h

theorem ordered_unique (ht : t ≠ b!"Float") {l l' : List Obj} (hl : ∀ x ∈ l, HasType t x) (hp : l'.Perm l) (h : Ordered l)
    (h' : Ordered l') : l' = l := by
  refine List.Perm.eq_of_pairwise ?_ h' h hp
  intro a b ha hb h1 h2
  have ta := hl a (hp.mem_iff.1 ha)
  have tb := hl b hb
  rcases h1 with rfl | h1
  · rfl
  rcases h2 with rfl | h2
  · rfl
  have := (natLt_sto t ht).tr a b a ta tb ta h1 h2
  rw [(natLt_sto t ht).irr a ta] at this; cases this

/-- C21: elements that are not floats end up in the one order in which they are non-descending. -/
theorem C21_sort_result_is_unique [StdSort] {l : List Obj} (ht : t ≠ b!"Float") (hc : Reachable c) (hn : Holds c n (.vector t l))
    (h : Statement text n b!"sort" []) : ∃ l', Answers pwd c s text n (.gives (.vector t l') b!"null") ∧ l'.Perm l ∧ Ordered l' ∧
      ∀ l'', l''.Perm l → Ordered l'' → l'' = l' := by
  have hl := (holds_wellTyped hc hn).2
  obtain ⟨l', h1, h2, h3⟩ := C21_sort_orders (pwd := pwd) (s := s) hc hn h (swo_nonfloat _ t ht l hl)
  have hl' : ∀ x ∈ l', HasType t x := fun x hx => hl x (h2.mem_iff.1 hx)
  have ho := (ordered_iff ht _ hl').1 h3
  exact ⟨l', h1, h2, ho, fun l'' hp ho' => ordered_unique ht hl' (hp.trans h2.symm) ho ho'⟩

/-- C21: sorting an ordered vector changes nothing, so sorting twice equals sorting once. -/
theorem C21_sort_ordered [StdSort] {l : List Obj} (ht : t ≠ b!"Float") (hc : Reachable c) (hn : Holds c n (.vector t l))
    (ho : Ordered l) (h : Statement text n b!"sort" []) : JustReplies pwd c s text b!"null" := by
  obtain ⟨l', h1, h2, h3, h4⟩ := C21_sort_result_is_unique (pwd := pwd) (s := s) ht hc hn h
  rw [← h4 l (.refl _) ho] at h1
  exact justReplies_of hc hn h1

theorem C21_sort_twice [StdSort] {l : List Obj} (ht : t ≠ b!"Float") (hc : Reachable c) (hn : Holds c n (.vector t l))
    (h : Statement text n b!"sort" []) (h' : Statement text' n b!"sort" []) :
    ∃ c', Replies pwd c s text b!"null" c' ∧ JustReplies pwd c' s text' b!"null" := by
  obtain ⟨l', ⟨x, hx, ho⟩, h2, h3, h4⟩ := C21_sort_result_is_unique (pwd := pwd) (s := s) ht hc hn h
  exact ⟨x, hx, C21_sort_ordered ht (.step hc hx) (onlyChanged_holds ho) h3 h'⟩

theorem receive_any_sort (S T : StdSort) {cfg : Cfg} {i : Inst} (hw : WellTyped i) {name : Str} {args : List Str}
    (h : ∀ l, i = .vector b!"Float" l → name ≠ b!"sort") : @receive S cfg i name args = @receive T cfg i name args := by
  cases i with
  | vector t l =>
    by_cases hn : name = b!"sort"
    · subst hn
      have ht : t ≠ b!"Float" := fun e => h l (by rw [e]) rfl
      have hd : ∀ U : StdSort, @receive U cfg (.vector t l) b!"sort" args = wrap (.vector t) (@vecSort U cfg l args) := fun _ => rfl
      cases args with
      | cons => rw [hd, hd]; rfl
      | nil =>
        obtain ⟨q, hb, hr⟩ := @vec_sort S cfg t l hw.2
        obtain ⟨q', hb', hr'⟩ := @vec_sort T cfg t l hw.2
        rw [hr, hr']
        rcases behaves_sort hb with ⟨h0, l', h1, h2, rfl⟩ | ⟨hno, _⟩
        · rcases behaves_sort hb' with ⟨_, l'', h1', h2', rfl⟩ | ⟨hno, _⟩
          · have t1 : ∀ x ∈ l', HasType t x := fun x hx => hw.2 x (h1.mem_iff.1 hx)
            have t2 : ∀ x ∈ l'', HasType t x := fun x hx => hw.2 x (h1'.mem_iff.1 hx)
            rw [ordered_unique ht t1 (h1'.trans h1.symm) ((ordered_iff ht _ t1).1 h2) ((ordered_iff ht _ t2).1 h2')]
          · exact absurd h0 hno
        · exact absurd (swo_nonfloat _ t ht l hw.2) hno
    · simp only [receive, vectorTable, dispatch, beq_false_of_ne hn, Bool.false_eq_true, if_false]
  | _ => rfl

/-- C21: which sort algorithm the library uses is not observable, unless floats are sorted. -/
theorem C21_any_algorithm (S T : StdSort) (hc : @Reachable S c)
    (h : ∀ n l, Statement text n b!"sort" [] → ¬ Holds c n (.vector b!"Float" l)) :
    @execute S pwd c s text = @execute T pwd c s text := by
  have hi := @reachable_inv S c hc
  by_cases hst : ∃ a n l, Statement text a n l
  · obtain ⟨a, n, l, hs⟩ := hst
    rw [@execute_statement S _ _ _ _ _ _ _ hs, @execute_statement T _ _ _ _ _ _ _ hs]
    congr 1
    rcases statement_actor _ _ _ _ hs with hA | hA | hA | hA
    · subst hA
      rw [@executeParsed_connection S _ _ _ _ (by simp [isConnection]), @executeParsed_connection T _ _ _ _ (by simp [isConnection])]
    · subst hA
      rw [@executeParsed_context S _ _ _ _ (by simp [isContext]), @executeParsed_context T _ _ _ _ (by simp [isContext])]
    · rw [@executeParsed_type S _ _ _ _ ((isType_iff _).2 hA), @executeParsed_type T _ _ _ _ ((isType_iff _).2 hA)]
    · rw [@executeParsed_variable S _ _ _ _ ((isVariable_iff _).2 hA), @executeParsed_variable T _ _ _ _ ((isVariable_iff _).2 hA)]
      cases hl : c.vars.lookup a with
      | none => rw [@executeInVariable_none S c hi ⟨a, n, l⟩ hl, @executeInVariable_none T c hi ⟨a, n, l⟩ hl]
      | some i =>
        rw [@executeInVariable_some S c hi ⟨a, n, l⟩ i hl, @executeInVariable_some T c hi ⟨a, n, l⟩ i hl]
        simp only []
        rw [receive_any_sort S T (hi.wellTyped hl)]
        rintro k rfl rfl
        have := unary_args hs (by decide) (by decide)
        subst this
        exact h a k hs hl
  · rw [@execute_not_statement S _ _ _ _ hst, @execute_not_statement T _ _ _ _ hst]

example [StdSort] : Reachable demo ∧ Holds demo b!"v" (.vector b!"Integer" [.integer 3, .integer 1, .integer 2]) ∧
    Statement b!"v sort;" b!"v" b!"sort" [] ∧ Ordered [.integer 1, .integer 2, .integer 3] ∧
    [Obj.integer 1, .integer 2, .integer 3].Perm [.integer 3, .integer 1, .integer 2] :=
  ⟨demo_reachable, by decide +kernel, reads (by kernel_rfl), by unfold Ordered; decide +kernel, by decide +kernel⟩

/-! ### C22 -/

/-- C22: `popBack` after `pushBack:` returns the element and restores the vector. -/
theorem C22_popBack_undoes_pushBack [StdSort] {a : Str} {o : Obj} {l : List Obj} (hc : Reachable c)
    (hn : Holds c n (.vector t l)) (h : Statement text n b!"pushBack:" [a]) (ha : Denotes t a o)
    (h' : Statement text' n b!"popBack" []) :
    ∃ c1 c2, Replies pwd c s text b!"null" c1 ∧ Replies pwd c1 s text' (o.repr c.cfg.prec) c2 ∧ SameData c c2 := by
  obtain ⟨c1, e1, o1⟩ := answers_vec (pwd := pwd) (s := s) hc hn h (.pushBack ha)
  have r1 : Reachable c1 := .step hc e1
  have h2 := answers_vec (pwd := pwd) (s := s) r1 (onlyChanged_holds o1) h' .popBack
  simp only [vecMeaning, List.getLast?_append, List.getLast?_singleton, Option.some_or, List.dropLast_concat, Result.map] at h2
  obtain ⟨c2, e2, o2⟩ := h2
  rw [o1.1] at e2
  exact ⟨c1, c2, e1, e2, onlyChanged_same hc hn (onlyChanged_trans o1 o2)⟩

/-- C22: `popFront` after `pushFront:` returns the element and restores the vector. -/
theorem C22_popFront_undoes_pushFront [StdSort] {a : Str} {o : Obj} {l : List Obj} (hc : Reachable c)
    (hn : Holds c n (.vector t l)) (h : Statement text n b!"pushFront:" [a]) (ha : Denotes t a o)
    (h' : Statement text' n b!"popFront" []) :
    ∃ c1 c2, Replies pwd c s text b!"null" c1 ∧ Replies pwd c1 s text' (o.repr c.cfg.prec) c2 ∧ SameData c c2 := by
  obtain ⟨c1, e1, o1⟩ := answers_vec (pwd := pwd) (s := s) hc hn h (.pushFront ha)
  have r1 : Reachable c1 := .step hc e1
  obtain ⟨c2, e2, o2⟩ := answers_vec (pwd := pwd) (s := s) r1 (onlyChanged_holds o1) h' .popFront
  rw [o1.1] at e2
  exact ⟨c1, c2, e1, e2, onlyChanged_same hc hn (onlyChanged_trans o1 o2)⟩

/-- C22: `reverse` twice restores the vector. -/
theorem C22_reverse_twice [StdSort] {l : List Obj} (hc : Reachable c)
    (hn : Holds c n (.vector t l)) (h : Statement text n b!"reverse" []) (h' : Statement text' n b!"reverse" []) :
    ∃ c1 c2, Replies pwd c s text b!"null" c1 ∧ Replies pwd c1 s text' b!"null" c2 ∧ SameData c c2 := by
  obtain ⟨c1, e1, o1⟩ := answers_vec (pwd := pwd) (s := s) hc hn h .reverse
  have r1 : Reachable c1 := .step hc e1
  obtain ⟨c2, e2, o2⟩ := answers_vec (pwd := pwd) (s := s) r1 (onlyChanged_holds o1) h' .reverse
  rw [List.reverse_reverse] at o2
  exact ⟨c1, c2, e1, e2, onlyChanged_same hc hn (onlyChanged_trans o1 o2)⟩

theorem chain_queue {ops : List (Str × List Str × Str)} {pushed : List Obj} {replies : List Str} (hq : QueueOps t ops pushed replies)
    {l : List Obj} {i : Inst} (h : Chain (.vector t l) ops i) : ∃ popped l', i = .vector t l' ∧ l ++ pushed = popped ++ l' ∧
      List.Forall₂ (fun o q => ∃ p, q = o.repr p) popped (replies.filter (· ≠ b!"null")) := by
  induction hq generalizing l with
  | nil => cases h; exact ⟨[], l, rfl, by simp, .nil⟩
  | @push a o r ops ps rs ha hq ih =>
    cases h with
    | @cons cfg _ i1 _ _ _ _ _ hw hb hnq hch =>
      obtain ⟨w, h1, rfl⟩ : ∃ w, w = l ++ [o] ∧ i1 = .vector t w := by
        generalize hx : Result.gives i1 r = x at hb
        cases hb with
        | @vector _ _ _ _ m hm =>
          obtain ⟨w, e, rfl⟩ := map_gives hx.symm
          cases hm with
          | pushBack ho => cases e; rw [denotes_unique ha ho]; exact ⟨_, rfl, rfl⟩
      subst h1
      obtain ⟨popped, l', h1, h2, h3⟩ := ih hch
      exact ⟨popped, l', h1, by rw [← h2]; simp, h3⟩
  | @pop r ops ps rs hq ih =>
    cases h with
    | @cons cfg _ i1 _ _ _ _ _ hw hb hnq hch =>
      generalize hx : Result.gives i1 r = x at hb
      cases hb with
      | @vector _ _ _ _ m hm =>
        obtain ⟨w, e, rfl⟩ := map_gives hx.symm
        cases hm with
        | popFront =>
          cases l with
          | nil =>
            simp only [vecMeaning, Result.gives.injEq] at e
            obtain ⟨rfl, rfl⟩ := e
            obtain ⟨popped, l', h1, h2, h3⟩ := ih hch
            exact ⟨popped, l', h1, h2, by simpa using h3⟩
          | cons o k =>
            simp only [vecMeaning, Result.gives.injEq] at e
            obtain ⟨rfl, rfl⟩ := e
            obtain ⟨popped, l', h1, h2, h3⟩ := ih hch
            refine ⟨o :: popped, l', h1, by rw [List.cons_append, List.cons_append, h2], ?_⟩
            rw [List.filter_cons_of_pos (by simpa using repr_ne_null cfg.prec o)]
            exact .cons ⟨_, rfl⟩ h3

/-- C22: a vector to which all clients only send `pushBack:` and `popFront` (and questions) is a first-in first-out queue:
what has been popped, followed by what is left, is what was there followed by what has been pushed, in order; the replies to
`popFront` other than `null` are the printed popped elements, in order. -/
theorem C22_queue [StdSort] {ops : List (Str × List Str × Str)} {pushed : List Obj} {replies : List Str} {l : List Obj}
    (hc : Reachable c) (hn : Holds c n (.vector t l)) (h : Updates n c ops c') (hq : QueueOps t ops pushed replies) :
    ∃ popped l', Holds c' n (.vector t l') ∧ l ++ pushed = popped ++ l' ∧
      List.Forall₂ (fun o q => ∃ p, q = o.repr p) popped (replies.filter (· ≠ b!"null")) := by
  obtain ⟨_, i, hi, hch⟩ := updates_chain hc hn h
  obtain ⟨popped, l', rfl, h1, h2⟩ := chain_queue hq hch
  exact ⟨popped, l', hi, h1, h2⟩

theorem queue_types {ops : List (Str × List Str × Str)} {pushed : List Obj} {replies : List Str}
    (hq : QueueOps t ops pushed replies) : ∀ x ∈ pushed, HasType t x := by
  induction hq with
  | nil => intro x h; cases h
  | push ha _ ih =>
    intro x h
    rcases List.mem_cons.1 h with rfl | h
    · exact denotes_type ha
    · exact ih x h
  | pop _ ih => exact ih

/-- C22: the same for elements that are not floats, whose printed form does not depend on the settings. -/
theorem C22_queue_replies [StdSort] {ops : List (Str × List Str × Str)} {pushed : List Obj} {replies : List Str} {l : List Obj}
    (ht : t ≠ b!"Float") (hc : Reachable c) (hn : Holds c n (.vector t l)) (h : Updates n c ops c')
    (hq : QueueOps t ops pushed replies) (p : Int) : ∃ popped l', Holds c' n (.vector t l') ∧ l ++ pushed = popped ++ l' ∧
      replies.filter (· ≠ b!"null") = popped.map (Obj.repr p) := by
  obtain ⟨popped, l', h0, h1, h2⟩ := C22_queue hc hn h hq
  refine ⟨popped, l', h0, h1, ?_⟩
  have hp : ∀ x ∈ popped, HasType t x := by
    intro x hx
    have : x ∈ l ++ pushed := by rw [h1]; exact List.mem_append_left _ hx
    rcases List.mem_append.1 this with h | h
    · exact (holds_wellTyped hc hn).2 x h
    · exact queue_types hq x h
  generalize replies.filter (· ≠ b!"null") = rs at h2
  clear h1
  induction h2 with
  | nil => rfl
  | @cons o q _ _ hq _ ih =>
    obtain ⟨p', rfl⟩ := hq
    rw [List.map_cons, ih fun x hx => hp x (List.mem_cons_of_mem _ hx), repr_nonfloat ht (hp o (by simp)) p' p]

/-- The demonstration context with another value of one variable. -/
abbrev demoWith (n : Str) (i : Inst) : Ctx := setVar demo n i

/-- A push and a pop, with a question and a refused request in between. -/
example [StdSort] : Holds demo b!"v" (.vector b!"Integer" [.integer 3, .integer 1, .integer 2]) ∧
    Updates b!"v" demo [(b!"pushBack:", [b!"7"], b!"null"), (b!"popFront", [], b!"3")]
      (demoWith b!"v" (.vector b!"Integer" [.integer 1, .integer 2, .integer 7])) ∧
    QueueOps b!"Integer" [(b!"pushBack:", [b!"7"], b!"null"), (b!"popFront", [], b!"3")] [.integer 7] [b!"3"] :=
  ⟨by decide +kernel,
    .update (pwd := []) (s := none) (text := b!"v pushBack: 7;")
      (c' := demoWith b!"v" (.vector b!"Integer" [.integer 3, .integer 1, .integer 2, .integer 7])) (s' := none)
      (by kernel_rfl) (reads (by kernel_rfl)) (by decide) (by decide)
    (.other (pwd := []) (s := none) (text := b!"v size;") (r := b!"4") (s' := none)
      (c' := demoWith b!"v" (.vector b!"Integer" [.integer 3, .integer 1, .integer 2, .integer 7]))
      (by kernel_rfl) (.inr (.inl ⟨b!"size", [], reads (by kernel_rfl), by decide⟩))
    (.other (pwd := []) (s := none) (text := b!"v pushBack: true;") (r := b!"RuntimeError: invalid argument.") (s' := none)
      (c' := demoWith b!"v" (.vector b!"Integer" [.integer 3, .integer 1, .integer 2, .integer 7]))
      (by kernel_rfl) (.inl (by decide))
    (.update (pwd := []) (s := none) (text := b!"v popFront;") (s' := none)
      (c' := demoWith b!"v" (.vector b!"Integer" [.integer 1, .integer 2, .integer 7]))
      (by kernel_rfl) (reads (by kernel_rfl)) (by decide) (by decide) .nil))),
    .push (lit_int (by decide +kernel) (by decide +kernel) (by decide)) (.pop .nil)⟩

/-- C22 to C24 range over every history: one in which the variable is not deleted is of this form. -/
theorem C23_every_history [StdSort] {h : List (Str × Str)} (hh : History c h c')
    (hd : ∀ x ∈ h, Deletes x.1 n → x.2 ∈ errorTexts) : ∃ ops, Updates n c ops c' := updates_of_history hh hd

/-! ### C23 -/

/-- C23: after any sequence of accepted messages to a set that is not over floats, with any other requests in between, its
elements are those that have been added and not removed since (or were there before and have not been removed). -/
theorem C23_sets_are_sets [StdSort] {ops : List (Str × List Str × Str)} {l : List Obj} (ht : t ≠ b!"Float") (hc : Reachable c)
    (hn : Holds c n (.set t l)) (h : Updates n c ops c') :
    ∃ l', Holds c' n (.set t l') ∧ ∀ o, o ∈ l' ↔ ElementAfter t l ops o := by
  obtain ⟨_, i, hi, hch⟩ := updates_chain hc hn h
  obtain ⟨l', rfl, h1⟩ := chain_set ht hch
  exact ⟨l', hi, h1⟩

/-- C23: the elements are listed in strictly ascending order, hence once each. -/
theorem C23_elements_ascending [StdSort] {l : List Obj} (ht : t ≠ b!"Float") (hc : Reachable c) (hn : Holds c n (.set t l)) :
    (l.Pairwise fun a b => natLt a b) ∧ l.Nodup := by
  have hw := holds_wellTyped hc hn
  have h1 := hw.2.2 ht
  refine ⟨h1, List.Pairwise.imp_of_mem ?_ h1⟩
  rintro a b ha _ h rfl
  rw [(natLt_sto t ht).irr a (hw.2.1 a ha)] at h; cases h

/-- C23: `contains?` tells whether the value is an element. -/
theorem C23_contains [StdSort] {l : List Obj} {a : Str} {o : Obj} (ht : t ≠ b!"Float") (hc : Reachable c) (hn : Holds c n (.set t l))
    (h : Statement text n b!"contains?" [a]) (ha : Denotes t a o) : JustReplies pwd c s text (truth (o ∈ l)) := by
  have hw := holds_wellTyped hc hn
  have h1 := answers_set (pwd := pwd) (s := s) hc hn h (.contains ha)
  simp only [setMeaning] at h1
  rw [if_pos (searchable_nonfloat c.cfg.eps t ht l hw.2.1 (hw.2.2 ht) o (denotes_type ha))] at h1
  have e : (∃ x ∈ l, tied (less c.cfg.eps) o x = true) ↔ o ∈ l := by
    constructor
    · rintro ⟨x, hx, h2⟩; rw [(tied_nonfloat _ t ht (denotes_type ha) (hw.2.1 x hx)).1 h2]; exact hx
    · intro h; exact ⟨o, h, (tied_nonfloat _ t ht (denotes_type ha) (denotes_type ha)).2 rfl⟩
  have h2 := justReplies_of hc hn h1
  convert h2 using 1
  simp only [truth]
  by_cases hm : o ∈ l
  · rw [if_pos hm, if_pos (e.2 hm)]
  · rw [if_neg hm, if_neg (fun h => hm (e.1 h))]

/-- C23: `get` lists the elements, `size` is their number, `isEmpty?` tells whether there are none. -/
theorem C23_reads [StdSort] {l : List Obj} (hc : Reachable c) (hn : Holds c n (.set t l)) :
    (Statement text n b!"get" [] → JustReplies pwd c s text (setText c.cfg.prec l)) ∧
    (Statement text n b!"size" [] → JustReplies pwd c s text (intStr l.length)) ∧
    (Statement text n b!"isEmpty?" [] → JustReplies pwd c s text (truth (l = []))) := by
  refine ⟨fun h => ?_, fun h => ?_, fun h => ?_⟩
  · exact justReplies_of hc hn (answers_set hc hn h .get)
  · exact justReplies_of hc hn (answers_set hc hn h .size)
  · exact justReplies_of hc hn (answers_set hc hn h .isEmpty)

open Classical in
/-- C23: put together: after any history, `contains?` answers `true` iff the last message affecting the value has added it. -/
theorem C23_contains_after [StdSort] {ops : List (Str × List Str × Str)} {l : List Obj} {a : Str} {o : Obj} (ht : t ≠ b!"Float")
    (hc : Reachable c) (hn : Holds c n (.set t l)) (h : Updates n c ops c') (hs : Statement text n b!"contains?" [a])
    (ha : Denotes t a o) : JustReplies pwd c' s text (truth (ElementAfter t l ops o)) := by
  obtain ⟨hc', i, hi, hch⟩ := updates_chain hc hn h
  obtain ⟨l', rfl, h1⟩ := chain_set ht hch
  have h2 := C23_contains (pwd := pwd) (s := s) ht hc' hi hs ha
  convert h2 using 1
  simp only [truth]
  by_cases hm : o ∈ l'
  · rw [if_pos hm, if_pos ((h1 o).1 hm)]
  · rw [if_neg hm, if_neg (fun h => hm ((h1 o).2 h))]

theorem lit_str {a v : Str} (h1 : isStringValue a = true) (h2 : quoted v = a) : Denotes b!"String" a (.string v) := by
  obtain ⟨w, hw⟩ : ∃ w, StringLiteral a w := by
    rcases stringLit_cases a with ⟨w, _, h⟩ | ⟨_, h⟩
    · exact ⟨w, h⟩
    · exact absurd ((isStringValue_iff a).1 h1) h
  have := literal_quoted a w hw
  rw [← h2] at this
  rw [← quoted_inj _ _ this]; exact .string hw

/-- A history of a set with an addition of an element that is already there, and removals. -/
example [StdSort] : Holds demo b!"t" (.set b!"String" [.string b!"x", .string b!"y"]) ∧
    Updates b!"t" demo [(b!"add:", [b!"\"y\""], b!"null"), (b!"remove:", [b!"\"x\""], b!"null"), (b!"add:", [b!"\"a\""], b!"null")]
      (demoWith b!"t" (.set b!"String" [.string b!"a", .string b!"y"])) ∧
    Denotes b!"String" b!"\"a\"" (.string b!"a") ∧ Statement b!"t contains? \"a\";" b!"t" b!"contains?" [b!"\"a\""] :=
  ⟨by decide +kernel,
    .update (pwd := []) (s := none) (text := b!"t add: \"y\";") (s' := none)
      (c' := demo) (by kernel_rfl) (reads (by kernel_rfl)) (by decide) (by decide)
    (.update (pwd := []) (s := none) (text := b!"t remove: \"x\";") (s' := none)
      (c' := demoWith b!"t" (.set b!"String" [.string b!"y"])) (by kernel_rfl) (reads (by kernel_rfl)) (by decide) (by decide)
    (.update (pwd := []) (s := none) (text := b!"t add: \"a\";") (s' := none)
      (c' := demoWith b!"t" (.set b!"String" [.string b!"a", .string b!"y"])) (by kernel_rfl) (reads (by kernel_rfl)) (by decide) (by decide)
      .nil)),
    lit_str (by decide +kernel) (by decide +kernel), reads (by kernel_rfl)⟩

/-! ### C24 -/

/-- C24: after any sequence of accepted messages to a dictionary whose keys are not floats, with any other requests in
between, the value of a key is the one associated with it last, if the key has not been removed since (or the one it had
before, if nothing has been done to the key). -/
theorem C24_dictionaries_are_maps [StdSort] {ops : List (Str × List Str × Str)} {l : List (Obj × Obj)} (ht : t ≠ b!"Float")
    (hc : Reachable c) (hn : Holds c n (.dictionary t u l)) (h : Updates n c ops c') :
    ∃ l', Holds c' n (.dictionary t u l') ∧ ∀ k v, (k, v) ∈ l' ↔ ValueAfter t u l ops k v := by
  obtain ⟨_, i, hi, hch⟩ := updates_chain hc hn h
  obtain ⟨l', rfl, h1⟩ := chain_dict ht hch
  exact ⟨l', hi, h1⟩

/-- C24: the keys are in strictly ascending order, hence occur once each, and have one value each. -/
theorem C24_keys_ascending [StdSort] {l : List (Obj × Obj)} (ht : t ≠ b!"Float") (hc : Reachable c)
    (hn : Holds c n (.dictionary t u l)) : ((l.map (·.1)).Pairwise fun a b => natLt a b) ∧ (l.map (·.1)).Nodup ∧
      ∀ k v v', (k, v) ∈ l → (k, v') ∈ l → v = v' := by
  have hw := holds_wellTyped hc hn
  have h1 : (l.map (·.1)).Pairwise fun a b => natLt a b := List.pairwise_map.2 (hw.2.2.2 ht)
  refine ⟨h1, List.Pairwise.imp_of_mem ?_ h1, fun k v v' h h' => dict_functional ht hw h h'⟩
  rintro a b ha _ h rfl
  obtain ⟨y, hy, rfl⟩ := List.mem_map.1 ha
  rw [(natLt_sto t ht).irr _ (hw.2.2.1 y hy).1] at h; cases h

theorem dict_find {l : List (Obj × Obj)} (ht : t ≠ b!"Float") (hw : WellTyped (.dictionary t u l)) (eps : Fl) {k : Obj}
    (hk : HasType t k) : (∀ v, (k, v) ∈ l → ∃ x, l.find? (fun x => tied (less eps) k x.1) = some x ∧ x.2 = v) ∧
      ((∀ v, (k, v) ∉ l) → l.find? (fun x => tied (less eps) k x.1) = none) := by
  have hty : ∀ x ∈ l, HasType t x.1 := fun x hx => (hw.2.2.1 x hx).1
  constructor
  · intro v hv
    cases hf : l.find? (fun x => tied (less eps) k x.1) with
    | none =>
      have := List.find?_eq_none.1 hf (k, v) hv
      exact absurd ((tied_nonfloat eps t ht hk hk).2 rfl) this
    | some x =>
      have h1 := List.find?_some hf
      have h2 := List.mem_of_find?_eq_some hf
      have h3 := (tied_nonfloat eps t ht hk (hty x h2)).1 h1
      exact ⟨x, rfl, dict_functional ht hw (show (k, x.2) ∈ l by rw [h3]; exact h2) hv⟩
  · intro h
    rw [List.find?_eq_none]
    intro x hx h1
    have h3 := (tied_nonfloat eps t ht hk (hty x hx)).1 h1
    exact h x.2 (by rw [h3]; exact hx)

/-- C24: `getValueForKey:` returns the value of the key. -/
theorem C24_getValueForKey [StdSort] {l : List (Obj × Obj)} {a : Str} {k v : Obj} (ht : t ≠ b!"Float") (hc : Reachable c)
    (hn : Holds c n (.dictionary t u l)) (h : Statement text n b!"getValueForKey:" [a]) (ha : Denotes t a k) (hv : (k, v) ∈ l) :
    JustReplies pwd c s text (v.repr c.cfg.prec) := by
  have hw := holds_wellTyped hc hn
  have h1 := answers_dict (pwd := pwd) (s := s) hc hn h (.getValueForKey ha)
  simp only [dictMeaning] at h1
  rw [if_pos (dict_searchable ht c.cfg.eps hw (denotes_type ha))] at h1
  obtain ⟨x, hx, rfl⟩ := (dict_find ht hw c.cfg.eps (denotes_type ha)).1 v hv
  rw [hx] at h1
  exact justReplies_of hc hn h1

/-- C24: or `null` if there is none. -/
theorem C24_getValueForKey_unknown [StdSort] {l : List (Obj × Obj)} {a : Str} {k : Obj} (ht : t ≠ b!"Float") (hc : Reachable c)
    (hn : Holds c n (.dictionary t u l)) (h : Statement text n b!"getValueForKey:" [a]) (ha : Denotes t a k)
    (hv : ∀ v, (k, v) ∉ l) : JustReplies pwd c s text b!"null" := by
  have hw := holds_wellTyped hc hn
  have h1 := answers_dict (pwd := pwd) (s := s) hc hn h (.getValueForKey ha)
  simp only [dictMeaning] at h1
  rw [if_pos (dict_searchable ht c.cfg.eps hw (denotes_type ha)), (dict_find ht hw c.cfg.eps (denotes_type ha)).2 hv] at h1
  exact justReplies_of hc hn h1

/-- C24: `containsKey?` tells whether the key has a value. -/
theorem C24_containsKey [StdSort] {l : List (Obj × Obj)} {a : Str} {k : Obj} (ht : t ≠ b!"Float") (hc : Reachable c)
    (hn : Holds c n (.dictionary t u l)) (h : Statement text n b!"containsKey?" [a]) (ha : Denotes t a k) :
    JustReplies pwd c s text (truth (k ∈ l.map (·.1))) := by
  have hw := holds_wellTyped hc hn
  have h1 := answers_dict (pwd := pwd) (s := s) hc hn h (.containsKey ha)
  simp only [dictMeaning] at h1
  rw [if_pos (dict_searchable ht c.cfg.eps hw (denotes_type ha))] at h1
  have e : (∃ x ∈ l, tied (less c.cfg.eps) k x.1 = true) ↔ k ∈ l.map (·.1) := by
    rw [List.mem_map]
    constructor
    · rintro ⟨x, hx, h2⟩; exact ⟨x, hx, ((tied_nonfloat _ t ht (denotes_type ha) (hw.2.2.1 x hx).1).1 h2).symm⟩
    · rintro ⟨x, hx, rfl⟩; exact ⟨x, hx, (tied_nonfloat _ t ht (denotes_type ha) (denotes_type ha)).2 rfl⟩
  have h2 := justReplies_of hc hn h1
  convert h2 using 1
  simp only [truth]
  by_cases hm : k ∈ l.map (·.1)
  · rw [if_pos hm, if_pos (e.2 hm)]
  · rw [if_neg hm, if_neg (fun h => hm (e.1 h))]

/-- C24: `keys` and `values` list the pairs, in the same order, `get` both together; `size` is their number. -/
theorem C24_reads [StdSort] {l : List (Obj × Obj)} (hc : Reachable c) (hn : Holds c n (.dictionary t u l)) :
    (Statement text n b!"keys" [] → JustReplies pwd c s text (vectorText c.cfg.prec (l.map (·.1)))) ∧
    (Statement text n b!"values" [] → JustReplies pwd c s text (vectorText c.cfg.prec (l.map (·.2)))) ∧
    (Statement text n b!"get" [] → JustReplies pwd c s text (dictText c.cfg.prec l)) ∧
    (Statement text n b!"size" [] → JustReplies pwd c s text (intStr l.length)) ∧
    (Statement text n b!"isEmpty?" [] → JustReplies pwd c s text (truth (l = []))) :=
  ⟨fun h => justReplies_of hc hn (answers_dict hc hn h .keys), fun h => justReplies_of hc hn (answers_dict hc hn h .values),
    fun h => justReplies_of hc hn (answers_dict hc hn h .get), fun h => justReplies_of hc hn (answers_dict hc hn h .size),
    fun h => justReplies_of hc hn (answers_dict hc hn h .isEmpty)⟩

/-- C24: put together: after any history, `getValueForKey:` returns the value associated last … -/
theorem C24_value_after [StdSort] {ops : List (Str × List Str × Str)} {l : List (Obj × Obj)} {a : Str} {k v : Obj} (ht : t ≠ b!"Float")
    (hc : Reachable c) (hn : Holds c n (.dictionary t u l)) (h : Updates n c ops c') (hs : Statement text n b!"getValueForKey:" [a])
    (ha : Denotes t a k) (hv : ValueAfter t u l ops k v) : JustReplies pwd c' s text (v.repr c'.cfg.prec) := by
  obtain ⟨hc', i, hi, hch⟩ := updates_chain hc hn h
  obtain ⟨l', rfl, h1⟩ := chain_dict ht hch
  exact C24_getValueForKey ht hc' hi hs ha ((h1 k v).2 hv)

/-- … and `null` if there is none. -/
theorem C24_no_value_after [StdSort] {ops : List (Str × List Str × Str)} {l : List (Obj × Obj)} {a : Str} {k : Obj} (ht : t ≠ b!"Float")
    (hc : Reachable c) (hn : Holds c n (.dictionary t u l)) (h : Updates n c ops c') (hs : Statement text n b!"getValueForKey:" [a])
    (ha : Denotes t a k) (hv : ∀ v, ¬ ValueAfter t u l ops k v) : JustReplies pwd c' s text b!"null" := by
  obtain ⟨hc', i, hi, hch⟩ := updates_chain hc hn h
  obtain ⟨l', rfl, h1⟩ := chain_dict ht hch
  exact C24_getValueForKey_unknown ht hc' hi hs ha fun v h => hv v ((h1 k v).1 h)

/-- A history of a dictionary that overwrites a value and adds a key. -/
example [StdSort] : Holds demo b!"d" (.dictionary b!"Character" b!"Integer" [(.character c!"k", .integer 1)]) ∧
    Updates b!"d" demo [(b!"associateValue:withKey:", [b!"2", b!"'k'"], b!"null"), (b!"associateValue:withKey:", [b!"3", b!"'a'"], b!"null")]
      (demoWith b!"d" (.dictionary b!"Character" b!"Integer" [(.character c!"a", .integer 3), (.character c!"k", .integer 2)])) ∧
    Denotes b!"Character" b!"'k'" (.character c!"k") ∧ Statement b!"d getValueForKey: 'k';" b!"d" b!"getValueForKey:" [b!"'k'"] :=
  ⟨by decide +kernel,
    .update (pwd := []) (s := none) (text := b!"d associateValue: 2 withKey: 'k';") (s' := none)
      (c' := demoWith b!"d" (.dictionary b!"Character" b!"Integer" [(.character c!"k", .integer 2)]))
      (by kernel_rfl) (reads (by kernel_rfl)) (by decide) (by decide)
    (.update (pwd := []) (s := none) (text := b!"d associateValue: 3 withKey: 'a';") (s' := none)
      (c' := demoWith b!"d" (.dictionary b!"Character" b!"Integer" [(.character c!"a", .integer 3), (.character c!"k", .integer 2)]))
      (by kernel_rfl) (reads (by kernel_rfl)) (by decide) (by decide) .nil),
    .character _, reads (by kernel_rfl)⟩

/-! ### C26 -/

theorem reply_unique [StdSort] {r' : Str} (h : JustReplies pwd c s text r) (h' : JustReplies pwd c s text r') : r = r' := by
  obtain ⟨_, h1, _⟩ := h
  obtain ⟨_, h2, _⟩ := h'
  unfold Replies at h1 h2
  rw [h1] at h2; cases h2; rfl

theorem vectorText_prec (ht : t ≠ b!"Float") {l : List Obj} (hl : ∀ x ∈ l, HasType t x) (p q : Int) :
    l.map (Obj.repr p) = l.map (Obj.repr q) := List.map_congr_left fun x hx => repr_nonfloat ht (hl x hx) p q

/-- C26: two vectors of one element type that is not Float have the same elements if `get` replies the same text (also on
different servers, with different settings). -/
theorem C26_vectors [StdSort] {d : Ctx} {m pwd' : Str} {l l' : List Obj} (ht : t ≠ b!"Float") (hc : Reachable c) (hd : Reachable d)
    (hn : Holds c n (.vector t l)) (hm : Holds d m (.vector t l')) (h : Statement text n b!"get" []) (h' : Statement text' m b!"get" [])
    (e : JustReplies pwd c s text r) (e' : JustReplies pwd' d s' text' r) : l = l' := by
  have h1 := reply_unique e (justReplies_of hc hn (answers_vec hc hn h .get))
  have h2 := reply_unique e' (justReplies_of hd hm (answers_vec hd hm h' .get))
  have hl := (holds_wellTyped hc hn).2
  have hl' := (holds_wellTyped hd hm).2
  rw [h1] at h2
  unfold vectorText at h2
  rw [vectorText_prec ht hl _ d.cfg.prec] at h2
  exact listText_inj (separable_repr ht d.cfg.prec) (by decide) l l' hl hl' h2

/-- C26: the same for sets. -/
theorem C26_sets [StdSort] {d : Ctx} {m pwd' : Str} {l l' : List Obj} (ht : t ≠ b!"Float") (hc : Reachable c) (hd : Reachable d)
    (hn : Holds c n (.set t l)) (hm : Holds d m (.set t l')) (h : Statement text n b!"get" []) (h' : Statement text' m b!"get" [])
    (e : JustReplies pwd c s text r) (e' : JustReplies pwd' d s' text' r) : l = l' := by
  have h1 := reply_unique e (justReplies_of hc hn (answers_set hc hn h .get))
  have h2 := reply_unique e' (justReplies_of hd hm (answers_set hd hm h' .get))
  have hl := (holds_wellTyped hc hn).2.1
  have hl' := (holds_wellTyped hd hm).2.1
  rw [h1] at h2
  unfold setText at h2
  rw [vectorText_prec ht hl _ d.cfg.prec] at h2
  exact listText_inj (separable_repr ht d.cfg.prec) (by decide) l l' hl hl' h2

/-- C26: the same for dictionaries, if neither keys nor values are floats. -/
theorem C26_dictionaries [StdSort] {d : Ctx} {m pwd' : Str} {l l' : List (Obj × Obj)} (ht : t ≠ b!"Float") (hu : u ≠ b!"Float")
    (hc : Reachable c) (hd : Reachable d) (hn : Holds c n (.dictionary t u l)) (hm : Holds d m (.dictionary t u l'))
    (h : Statement text n b!"get" []) (h' : Statement text' m b!"get" [])
    (e : JustReplies pwd c s text r) (e' : JustReplies pwd' d s' text' r) : l = l' := by
  have h1 := reply_unique e (justReplies_of hc hn (answers_dict hc hn h .get))
  have h2 := reply_unique e' (justReplies_of hd hm (answers_dict hd hm h' .get))
  have hl := (holds_wellTyped hc hn).2.2.1
  have hl' := (holds_wellTyped hd hm).2.2.1
  rw [h1] at h2
  unfold dictText at h2
  have e0 : (l.map fun kv => listText c!"(" c!")" [kv.1.repr c.cfg.prec, kv.2.repr c.cfg.prec]) =
      l.map fun kv => listText c!"(" c!")" [kv.1.repr d.cfg.prec, kv.2.repr d.cfg.prec] :=
    List.map_congr_left fun x hx => by
      rw [repr_nonfloat ht (hl x hx).1 c.cfg.prec d.cfg.prec, repr_nonfloat hu (hl x hx).2 c.cfg.prec d.cfg.prec]
  rw [e0] at h2
  exact listText_inj (separable_pair ht hu d.cfg.prec) (by decide) l l' hl hl' h2

/-- Two different vectors of strings whose texts are hard to tell apart; and a dictionary from characters to strings. -/
example : vectorText 3 [.string b!"a\\", .string b!"b"] = b!"[\"a\\\",\"b\"]" ∧
    vectorText 3 [.string b!"a\",\"b"] = b!"[\"a\\\",\\\"b\"]" ∧
    dictText 3 [(.character c!"\"", .string b!"'),('\\")] = b!"(('\"',\"'),('\\\"))" := by decide +kernel

example [StdSort] : Reachable demo ∧ Holds demo b!"t" (.set b!"String" [.string b!"x", .string b!"y"]) ∧
    Statement b!"t get;" b!"t" b!"get" [] := ⟨demo_reachable, by decide +kernel, reads (by kernel_rfl)⟩

/-! ### Every theorem applied to a case -/

section cases
variable [StdSort]

theorem demo_v : Holds demo b!"v" (.vector b!"Integer" [.integer 3, .integer 1, .integer 2]) := by decide +kernel
theorem demo_t : Holds demo b!"t" (.set b!"String" [.string b!"x", .string b!"y"]) := by decide +kernel
theorem demo_d : Holds demo b!"d" (.dictionary b!"Character" b!"Integer" [(.character c!"k", .integer 1)]) := by decide +kernel
theorem demo_order : StrictWeakOrder (less demo.cfg.eps) [.integer 3, .integer 1, .integer 2] := by
  by_contra h
  have := (C21_sort_undefined (pwd := []) (s := none) (text := b!"v sort;") demo_reachable demo_v (by meets)).2 h
  obtain ⟨c', h', _⟩ := C21_sort_twice (pwd := []) (s := none) (text := b!"v sort;") (text' := b!"v sort;") (by decide) demo_reachable demo_v
    (by meets) (by meets)
  rw [Replies, this] at h'; cases h'
theorem demo_v_updates : Updates b!"v" demo [(b!"pushBack:", [b!"7"], b!"null")]
    (demoWith b!"v" (.vector b!"Integer" [.integer 3, .integer 1, .integer 2, .integer 7])) :=
  .update (pwd := []) (s := none) (s' := none) (text := b!"v pushBack: 7;")
    (c' := demoWith b!"v" (.vector b!"Integer" [.integer 3, .integer 1, .integer 2, .integer 7])) (by meets) (by meets) (by decide) (by decide) .nil
theorem demo_t_updates : Updates b!"t" demo [(b!"remove:", [b!"\"x\""], b!"null")] (demoWith b!"t" (.set b!"String" [.string b!"y"])) :=
  .update (pwd := []) (s := none) (s' := none) (text := b!"t remove: \"x\";")
    (c' := demoWith b!"t" (.set b!"String" [.string b!"y"])) (by meets) (by meets) (by decide) (by decide) .nil
theorem demo_d_updates : Updates b!"d" demo [(b!"associateValue:withKey:", [b!"2", b!"'q'"], b!"null")]
    (demoWith b!"d" (.dictionary b!"Character" b!"Integer" [(.character c!"k", .integer 1), (.character c!"q", .integer 2)])) :=
  .update (pwd := []) (s := none) (s' := none) (text := b!"d associateValue: 2 withKey: 'q';")
    (c' := demoWith b!"d" (.dictionary b!"Character" b!"Integer" [(.character c!"k", .integer 1), (.character c!"q", .integer 2)]))
    (by meets) (by meets) (by decide) (by decide) .nil

example := C20_vectors_are_lists (pwd := []) (s := none) (text := b!"v popAtIndex: 2;") (name := b!"popAtIndex:") (args := [b!"2"]) demo_reachable demo_v
  (by meets) (.popAtIndex (i := 2) (by meets))
example := C20_same_elements (t := b!"Integer") (by decide) (.fin false 0) (a := .integer 3) (b := .integer 4) ⟨rfl, by unfold ValueOk; decide⟩
  ⟨rfl, by unfold ValueOk; decide⟩
example := C20_accepted_messages (pwd := []) (s := none) (s' := none) (text := b!"v size;") (name := b!"size") (args := []) (c' := demo) (r := b!"3")
  demo_reachable demo_v (by meets) (by meets) (by decide)
example := C21_sort_orders (pwd := []) (s := none) (text := b!"v sort;") demo_reachable demo_v (by meets) demo_order
example := C21_sort_undefined (pwd := []) (s := none) (text := b!"v sort;") demo_reachable demo_v (by meets)
example := C21_sort_result_is_unique (pwd := []) (s := none) (text := b!"v sort;") (by decide) demo_reachable demo_v (by meets)
example := C21_sort_ordered (pwd := []) (s := none) (text := b!"v sort;") (n := b!"v") (t := b!"Integer")
  (c := demoWith b!"v" (.vector b!"Integer" [.integer 1, .integer 2, .integer 3])) (l := [.integer 1, .integer 2, .integer 3]) (by decide)
  (after_reachable (pwd := []) (s := none) (ts := [b!"v clear;", b!"v pushBack: 1;", b!"v pushBack: 2;", b!"v pushBack: 3;"]) demo_reachable
    (by kernel_rfl)) (by meets) (by unfold Ordered; decide +kernel) (by meets)
example := C21_sort_twice (pwd := []) (s := none) (text := b!"v sort;") (text' := b!"v sort ;") (by decide) demo_reachable demo_v (by meets) (by meets)
example := C22_popBack_undoes_pushBack (pwd := []) (s := none) (text := b!"v pushBack: 9;") (text' := b!"v popBack;") (a := b!"9") (o := .integer 9)
  demo_reachable demo_v (by meets) (by meets) (by meets)
example := C22_popFront_undoes_pushFront (pwd := []) (s := none) (text := b!"v pushFront: 9;") (text' := b!"v popFront;") (a := b!"9") (o := .integer 9)
  demo_reachable demo_v (by meets) (by meets) (by meets)
example := C22_reverse_twice (pwd := []) (s := none) (text := b!"v reverse;") (text' := b!"v reverse;") demo_reachable demo_v (by meets) (by meets)
example := C22_queue demo_reachable demo_v demo_v_updates (.push (o := .integer 7) (by meets) .nil)
example := C22_queue_replies (by decide) demo_reachable demo_v demo_v_updates (.push (o := .integer 7) (by meets) .nil) 3
example := C23_every_history (n := b!"t") (c := demo) (c' := demo) (h := [(b!"t size;", b!"2")])
  (.cons (pwd := []) (s := none) (s' := none) (c' := demo) (by kernel_rfl) .nil) (fun x hx hd => by
    simp only [List.mem_singleton] at hx; subst hx
    have hp : Statement b!"t size;" b!"t" b!"size" [] := by meets
    cases hd with
    | delete h => exact absurd (statement_unique hp h).1 (by decide)
    | deleteNamespace h _ => exact absurd (statement_unique hp h).1 (by decide))
example := C23_sets_are_sets (by decide) demo_reachable demo_t demo_t_updates
example := C23_elements_ascending (by decide) demo_reachable demo_t
example := C23_contains (pwd := []) (s := none) (text := b!"t contains? \"a\";") (a := b!"\"a\"") (o := .string b!"a") (by decide) demo_reachable demo_t
  (by meets) (lit_str (by decide +kernel) (by decide +kernel))
example := C23_reads (pwd := []) (s := none) (text := b!"t get;") demo_reachable demo_t
example := C23_contains_after (pwd := []) (s := none) (text := b!"t contains? \"x\";") (a := b!"\"x\"") (o := .string b!"x") (by decide) demo_reachable
  demo_t demo_t_updates (by meets) (lit_str (by decide +kernel) (by decide +kernel))
example := C24_dictionaries_are_maps (by decide) demo_reachable demo_d demo_d_updates
example := C24_keys_ascending (by decide) demo_reachable demo_d
example := C24_getValueForKey (pwd := []) (s := none) (text := b!"d getValueForKey: 'k';") (a := b!"'k'") (v := .integer 1) (by decide) demo_reachable demo_d
  (by meets) (.character c!"k") (by decide)
example := C24_getValueForKey_unknown (pwd := []) (s := none) (text := b!"d getValueForKey: 'q';") (a := b!"'q'") (by decide) demo_reachable demo_d
  (by meets) (.character c!"q") (by simp)
example := C24_containsKey (pwd := []) (s := none) (text := b!"d containsKey? 'k';") (a := b!"'k'") (by decide) demo_reachable demo_d
  (by meets) (.character c!"k")
example := C24_reads (pwd := []) (s := none) (text := b!"d keys;") demo_reachable demo_d
example := C24_value_after (pwd := []) (s := none) (text := b!"d getValueForKey: 'q';") (a := b!"'q'") (v := .integer 2) (by decide) demo_reachable demo_d
  demo_d_updates (by meets) (.character c!"q") (.inl ⟨[], _, [], rfl, ⟨_, _, rfl, rfl, by meets, .character _⟩, fun _ h => nomatch h⟩)
example := C26_vectors (pwd := []) (pwd' := []) (s := none) (s' := none) (text := b!"v get;") (text' := b!"v get ;") (r := b!"[3,1,2]") (by decide)
  demo_reachable demo_reachable demo_v demo_v (by meets) (by meets) (by meets) (by meets)
example := C26_sets (pwd := []) (pwd' := []) (s := none) (s' := none) (text := b!"t get;") (text' := b!"t get ;") (r := b!"{\"x\",\"y\"}") (by decide)
  demo_reachable demo_reachable demo_t demo_t (by meets) (by meets) (by meets) (by meets)
example := C26_dictionaries (pwd := []) (pwd' := []) (s := none) (s' := none) (text := b!"d get;") (text' := b!"d get ;") (r := b!"(('k',1))") (by decide)
  (by decide) demo_reachable demo_reachable demo_d demo_d (by meets) (by meets) (by meets) (by meets)

end cases

end Knuckle.Props

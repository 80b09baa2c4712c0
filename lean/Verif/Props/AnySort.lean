/-
C86: which sort algorithm the library has cannot be observed.
-/
import Verif.Props.Server
import Verif.Props.Containers
import Verif.Props.Log
import Verif.Proofs.Sort
import Verif.Props.Rebuild
import Verif.Spec.Apart

namespace Knuckle.Props

open Spec

variable {pwd text n : Str} {s : Option Session} {c d : Ctx}

/-- Two permutations of a list that are both ascending are equal if no two different elements are tied. -/
theorem sorted_unique {lt : Obj → Obj → Bool} {l l' : List Obj} (hp : l'.Perm l) (h : l.Pairwise fun a b => ¬ lt b a)
    (h' : l'.Pairwise fun a b => ¬ lt b a) (hd : ∀ x ∈ l, ∀ y ∈ l, tied lt x y = true → x = y) : l' = l := by
  refine hp.eq_of_pairwise (le := fun a b => ¬ lt b a) ?_ h' h
  intro a b ha hb h1 h2
  have ha' := hp.mem_iff.1 ha
  refine hd a ha' b hb ?_
  simp only [tied, Bool.and_eq_true, Bool.not_eq_true', ← Bool.not_eq_true]
  exact ⟨h2, h1⟩

theorem receive_any_sort' (S T : StdSort) {cfg : Cfg} {i : Inst} (hw : WellTyped i) {name : Str} {args : List Str}
    (h : ∀ l, i = .vector b!"Float" l → name = b!"sort" → args = [] → ∀ x y, Obj.float x ∈ l → Obj.float y ∈ l → ¬ below cfg.eps x y →
      ¬ below cfg.eps y x → x = y) :
    @receive S cfg i name args = @receive T cfg i name args := by
  by_cases hf : ∃ l, i = .vector b!"Float" l ∧ name = b!"sort" ∧ args = []
  · obtain ⟨l, rfl, rfl, rfl⟩ := hf
    obtain ⟨q, hb, hr⟩ := @vec_sort S cfg b!"Float" l hw.2
    obtain ⟨q', hb', hr'⟩ := @vec_sort T cfg b!"Float" l hw.2
    have hd : ∀ U : StdSort, @receive U cfg (.vector b!"Float" l) b!"sort" [] = wrap (.vector b!"Float") (@vecSort U cfg l []) := fun _ => rfl
    rw [hr, hr']
    rcases behaves_sort hb with ⟨h0, l', h1, h2, rfl⟩ | ⟨hno, rfl⟩
    · rcases behaves_sort hb' with ⟨_, l'', h1', h2', rfl⟩ | ⟨hno, _⟩
      · rw [sorted_unique (h1'.trans h1.symm) h2 h2']
        intro x hx y hy ht
        obtain ⟨a, rfl, _⟩ := hasType_float (hw.2 x (h1.mem_iff.1 hx))
        obtain ⟨b, rfl, _⟩ := hasType_float (hw.2 y (h1.mem_iff.1 hy))
        simp only [tied, less, Bool.and_eq_true, Bool.not_eq_true', decide_eq_false_iff_not] at ht
        rw [h l rfl rfl rfl a b (h1.mem_iff.1 hx) (h1.mem_iff.1 hy) ht.1 ht.2]
      · exact absurd h0 hno
    · rcases behaves_sort hb' with ⟨h0, _⟩ | ⟨_, rfl⟩
      · exact absurd h0 hno
      · rfl
  · by_cases hn : ∃ l, i = .vector b!"Float" l ∧ name = b!"sort"
    · obtain ⟨l, rfl, rfl⟩ := hn
      have hd : ∀ U : StdSort, @receive U cfg (.vector b!"Float" l) b!"sort" args = wrap (.vector b!"Float") (@vecSort U cfg l args) := fun _ => rfl
      cases args with
      | nil => exact absurd ⟨l, rfl, rfl, rfl⟩ hf
      | cons => rw [hd, hd]; rfl
    · exact receive_any_sort S T hw fun l e en => hn ⟨l, e, en⟩

/-- C86: two implementations of the library's `sort` execute every request alike, with the same reply and effect, unless it sorts a vector
of floats two of which are different but tied. -/
theorem C86_request (S T : StdSort) (hc : @Reachable S c) (h : ¬ SortsTies c text) :
    @execute S pwd c s text = @execute T pwd c s text := by
  have hi := @reachable_inv S c hc
  by_cases hst : ∃ a n l, Statement text a n l
  · obtain ⟨a, n, l, hs⟩ := hst
    rw [@execute_statement S _ _ _ _ _ _ _ hs, @execute_statement T _ _ _ _ _ _ _ hs]
    congr 1
    rcases statement_actor _ _ _ _ hs with hA | hA | hA | hA
    · subst hA
      rw [@executeParsed_connection S _ _ _ _ (by simp [isConnection]), @executeParsed_connection T _ _ _ _ (by simp [isConnection])]
    · subst hA
      rw [@executeParsed_context S _ _ _ _ (by simp [isContext]), @executeParsed_context T _ _ _ _ (by simp [isContext])]
    · rw [@executeParsed_type S _ _ _ _ ((isType_iff _).2 hA), @executeParsed_type T _ _ _ _ ((isType_iff _).2 hA)]
    · rw [@executeParsed_variable S _ _ _ _ ((isVariable_iff _).2 hA), @executeParsed_variable T _ _ _ _ ((isVariable_iff _).2 hA)]
      cases hl : c.vars.lookup a with
      | none => rw [@executeInVariable_none S c hi ⟨a, n, l⟩ hl, @executeInVariable_none T c hi ⟨a, n, l⟩ hl]
      | some i =>
        rw [@executeInVariable_some S c hi ⟨a, n, l⟩ i hl, @executeInVariable_some T c hi ⟨a, n, l⟩ i hl]
        simp only []
        rw [receive_any_sort' S T (hi.wellTyped hl)]
        rintro k rfl rfl rfl x y hx hy h1 h2
        by_contra hxy
        exact h ⟨a, k, x, y, hs, hl, hx, hy, hxy, h1, h2⟩
  · rw [@execute_not_statement S _ _ _ _ hst, @execute_not_statement T _ _ _ _ hst]

/-- C86: the same for any sequence of requests. -/
theorem C86_history (S T : StdSort) {h : List (Str × Str)} (hc : @Reachable S c) (hh : @History S c h d)
    (hno : ∀ h₁ q h₂ c₁, h = h₁ ++ q :: h₂ → @History S c h₁ c₁ → ¬ SortsTies c₁ q.1) : @History T c h d := by
  induction hh with
  | nil => exact @History.nil T _
  | @cons pwd c c' c'' s s' text r h he hh ih =>
    have h0 := hno [] (text, r) h c rfl (@History.nil S _)
    refine @History.cons T pwd c c' c'' s s' text r h ?_ (ih (@Reachable.step S _ _ _ _ _ _ _ hc he) ?_)
    · rw [← C86_request S T hc h0]; exact he
    · intro h₁ q h₂ c₁ e hh₁
      exact hno ((text, r) :: h₁) q h₂ c₁ (by rw [e]; rfl) (@History.cons S _ _ _ _ _ _ _ _ _ he hh₁)

/-- What is reachable with one implementation without sorting ties is reachable with the other one. -/
theorem handleLine_any_sort (S T : StdSort) {sv : Server} {i : ℕ} {k : Conn} {line rest : Str} (hc : @Reachable S sv.ctx)
    (h : ¬ SortsTies sv.ctx line) : @handleLine S sv i k line rest = @handleLine T sv i k line rest := by
  unfold handleLine
  rw [C86_request S T hc h]

theorem step_any_sort (S T : StdSort) {sv : Server} (hc : @Reachable S sv.ctx) (e : Event)
    (h : ∀ i k line rest, e = .read i → sv.conns[i]? = some k → splitLine k.inbuf = some (line, rest) → ¬ SortsTies sv.ctx line) :
    @step S sv e = @step T sv e := by
  cases e with
  | read i =>
    simp only [step]
    cases hk : sv.conns[i]? with
    | none => rfl
    | some k =>
      simp only []
      cases hl : splitLine k.inbuf with
      | none => rfl
      | some lr =>
        simp only []
        rw [handleLine_any_sort S T hc (h i k lr.1 lr.2 rfl hk hl)]
  | _ => rfl

theorem reachable_run (S : StdSort) {pwd : Str} {es : List Event} {sv : Server} (hc : @Reachable S c)
    (h : @run S (Server.init pwd c) es = some (.done sv)) : @Reachable S sv.ctx := by
  obtain ⟨log, hl⟩ := C44_serialized hc h
  exact serial_reachable hc hl.serial

/-- C86: the same for the whole server, whatever its clients and the network do: the same events lead to the same state, in particular to the
same replies, or to undefined behaviour, with both implementations. -/
theorem C86_server (S T : StdSort) {pwd : Str} {es : List Event} (hc : @Reachable S c)
    (hno : ∀ es₁ i es₂ sv k line rest, es = es₁ ++ .read i :: es₂ → @run S (Server.init pwd c) es₁ = some (.done sv) →
      sv.conns[i]? = some k → splitLine k.inbuf = some (line, rest) → ¬ SortsTies sv.ctx line) :
    @run S (Server.init pwd c) es = @run T (Server.init pwd c) es := by
  induction es using List.reverseRecOn with
  | nil => rfl
  | append_singleton es e ih =>
    have ih' := ih fun es₁ i es₂ sv k line rest he => hno es₁ i (es₂ ++ [e]) sv k line rest (by rw [he]; simp)
    rw [@run_append S, @run_append T, ← ih']
    cases hr : @run S (Server.init pwd c) es with
    | none => rfl
    | some o =>
      cases o with
      | ub => rfl
      | done sv =>
        simp only []
        rw [@run_single S, @run_single T]
        refine step_any_sort S T (reachable_run S hc hr) e ?_
        rintro i k line rest rfl hk hsp
        exact hno es i [] sv k line rest rfl hr hk hsp

/-- C86: with tolerance zero the only ties are those between `0` and `-0`. -/
theorem C86_ties_at_zero [StdSort] {z : Bool} (hc : Reachable c) (he : c.cfg.eps = .fin z 0) (h : SortsTies c text) :
    ∃ n l, Statement text n b!"sort" [] ∧ Holds c n (.vector b!"Float" l) ∧ .float (.fin false 0) ∈ l ∧ .float (.fin true 0) ∈ l := by
  obtain ⟨n, l, x, y, hs, hn, hx, hy, hxy, h1, h2⟩ := h
  have hp := holds_proper hc hn
  have wx := hp.2 _ hx
  have wy := hp.2 _ hy
  have nx : x ≠ .nan := by rintro rfl; exact writable_not_nan wx
  have ny : y ≠ .nan := by rintro rfl; exact writable_not_nan wy
  rw [he, below_zero x y z (writable_type wx).2 (writable_type wy).2 nx ny] at h1
  rw [he, below_zero y x z (writable_type wy).2 (writable_type wx).2 ny nx] at h2
  refine ⟨n, l, hs, hn, ?_⟩
  clear wx wy he hn hs
  cases x with
  | nan => exact absurd rfl nx
  | inf a => cases y with
    | nan => exact absurd rfl ny
    | inf b => cases a <;> cases b <;> simp [Fl.lt] at h1 h2 hxy
    | fin b k => cases a <;> simp [Fl.lt] at h1 h2
  | fin a j => cases y with
    | nan => exact absurd rfl ny
    | inf b => cases b <;> simp [Fl.lt] at h1 h2
    | fin b k =>
      cases a <;> cases b <;> simp [Fl.lt, sgn] at h1 h2 hxy
      · exact absurd (by omega) hxy
      · have : j = 0 := by omega
        have : k = 0 := by omega
        subst j k; exact ⟨hx, hy⟩
      · have : j = 0 := by omega
        have : k = 0 := by omega
        subst j k; exact ⟨hy, hx⟩
      · exact absurd (by omega) hxy

/-! ### Examples -/

/-- Another algorithm: insertion sort of the reversed sequence. -/
@[instance_reducible] def reversingStdSort : StdSort where
  sort lt l := insertionSort lt l.reverse
  perm lt l _ _ _ := (insertionSort_perm lt _).trans l.reverse_perm
  sorted lt l h1 h2 h3 := insertionSort_sorted lt l.reverse (fun a ha => h1 a (List.mem_reverse.1 ha))
    (fun a ha b hb c hc => h2 a (List.mem_reverse.1 ha) b (List.mem_reverse.1 hb) c (List.mem_reverse.1 hc))
    (fun a ha b hb c hc => h3 a (List.mem_reverse.1 ha) b (List.mem_reverse.1 hb) c (List.mem_reverse.1 hc))

/-- A vector with 1, 0 and -0, and one with 1, 0.5 and 0, with tolerance zero. -/
def sortable : Ctx := { fresh with vars :=
  [(b!"v", .vector b!"Float" [.float (.fin false (2 ^ 1074)), .float (.fin false 0), .float (.fin true 0)]),
   (b!"w", .vector b!"Float" [.float (.fin false (2 ^ 1074)), .float (.fin false (2 ^ 1073)), .float (.fin false 0)])] }

theorem sortable_reachable [StdSort] : Reachable sortable :=
  after_reachable (pwd := []) (s := none) (ts := [b!"Vector<Float> create: v;", b!"v pushBack: 1;", b!"v pushBack: 0;", b!"v pushBack: -0;",
    b!"Vector<Float> create: w;", b!"w pushBack: 1;", b!"w pushBack: .5;", b!"w pushBack: 0;"]) fresh_reachable (by kernel_rfl)

theorem sortable_w : Holds sortable b!"w" (.vector b!"Float" [.float (.fin false (2 ^ 1074)), .float (.fin false (2 ^ 1073)), .float (.fin false 0)]) := by
  unfold Holds; kernel_rfl

/-- The hypothesis can be met: sorting `w` sorts no ties. -/
theorem sortable_no_ties : ¬ SortsTies sortable b!"w sort;" := by
  intro h
  letI := insertionStdSort
  obtain ⟨n, l, hs, hn, _, h0⟩ := C86_ties_at_zero (z := false) sortable_reachable (by kernel_rfl) h
  have st : Statement b!"w sort;" b!"w" b!"sort" [] := reads (by decide +kernel)
  obtain ⟨rfl, _, _⟩ := statement_same st hs
  have := sortable_w
  unfold Holds at this hn
  rw [this] at hn
  have e := Option.some.inj hn
  clear hn this
  generalize 2 ^ 1074 = a at e
  generalize 2 ^ 1073 = b at e
  cases e
  simp at h0

example (S T : StdSort) : @execute S [] sortable none b!"w sort;" = @execute T [] sortable none b!"w sort;" :=
  C86_request S T (@sortable_reachable S) sortable_no_ties

/-- Server: a client sorts `w`. -/
example (S T : StdSort) : @run S (Server.init [] sortable) [.accept, .recv 0 b!"w sort;\n", .read 0] =
    @run T (Server.init [] sortable) [.accept, .recv 0 b!"w sort;\n", .read 0] := by
  refine C86_server S T (@sortable_reachable S) ?_
  intro es₁ i es₂ sv k line rest he hr hk hl
  have h2 : es₁ = [.accept, .recv 0 b!"w sort;\n"] ∧ i = 0 := by
    rcases es₁ with _ | ⟨a, _ | ⟨b, _ | ⟨d, es₁⟩⟩⟩
    · simp at he
    · simp at he
    · simp at he; exact ⟨by rw [he.1, he.2.1], he.2.2.1.symm⟩
    · simp at he
  obtain ⟨rfl, rfl⟩ := h2
  cases hr
  cases hk
  have : splitLine b!"w sort;\n" = some (b!"w sort;", []) := by decide
  change splitLine b!"w sort;\n" = some (line, rest) at hl
  rw [this] at hl
  cases hl
  exact sortable_no_ties

/-- Different zeros: after `v sort;` two algorithms leave them in different orders, and a client can see it. -/
theorem C86_ties_can_differ : ∃ (S T : StdSort) (c₀ c c' : Ctx), @Reachable S c₀ ∧ @Reachable T c₀ ∧
    @execute S [] c₀ none b!"v sort;" = .done (c, none, b!"null") ∧
    @execute T [] c₀ none b!"v sort;" = .done (c', none, b!"null") ∧
    @execute S [] c none b!"v get;" = .done (c, none, b!"[-0.000,0.000,1.000]") ∧
    @execute T [] c' none b!"v get;" = .done (c', none, b!"[0.000,-0.000,1.000]") := by
  refine ⟨insertionStdSort, reversingStdSort, sortable,
    { sortable with vars := mapInsert strLt b!"v" (.vector b!"Float" [.float (.fin true 0), .float (.fin false 0), .float (.fin false (2 ^ 1074))]) sortable.vars },
    { sortable with vars := mapInsert strLt b!"v" (.vector b!"Float" [.float (.fin false 0), .float (.fin true 0), .float (.fin false (2 ^ 1074))]) sortable.vars },
    @sortable_reachable insertionStdSort, @sortable_reachable reversingStdSort, ?_, ?_, ?_, ?_⟩
  all_goals kernel_rfl

/-- There is a conforming algorithm with which sorting a vector of floats a second time changes it again. -/
theorem C69_sort_of_floats : ∃ (S : StdSort) (c : Ctx) (n : Str) (l : List Obj) (text : Str) (c1 c2 : Ctx) (s1 s2 : Option Session)
    (r1 r2 : Str), @Reachable S c ∧ Holds c n (.vector b!"Float" l) ∧ Statement text n b!"sort" [] ∧
      @execute S [] c none text = .done (c1, s1, r1) ∧ @execute S [] c1 none text = .done (c2, s2, r2) ∧
      r1 ∉ errorTexts ∧ r2 ∉ errorTexts ∧ ¬ SameData c1 c2 := by
  refine ⟨insertionStdSort, sortable, b!"v", [.float (.fin false (2 ^ 1074)), .float (.fin false 0), .float (.fin true 0)], b!"v sort;",
    { sortable with vars := mapInsert strLt b!"v" (.vector b!"Float" [.float (.fin true 0), .float (.fin false 0), .float (.fin false (2 ^ 1074))]) sortable.vars },
    { sortable with vars := mapInsert strLt b!"v" (.vector b!"Float" [.float (.fin false 0), .float (.fin true 0), .float (.fin false (2 ^ 1074))]) sortable.vars },
    none, none, b!"null", b!"null", @sortable_reachable insertionStdSort, ?_, reads (by decide +kernel), ?_, ?_, ?_, ?_, ?_⟩
  · unfold Holds; kernel_rfl
  · kernel_rfl
  · kernel_rfl
  · decide +kernel
  · decide +kernel
  · intro h
    have h1 := congrArg (fun l : List (Str × Inst) => match l with
      | (_, .vector _ (.float (.fin b _) :: _)) :: _ => b
      | _ => true) h.1
    exact absurd h1 (by decide +kernel)

end Knuckle.Props

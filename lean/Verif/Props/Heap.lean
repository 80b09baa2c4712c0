/-
C81-C83: the program with `std::shared_ptr` behaves like the program on values, and its memory is in order.
-/
import Verif.Proofs.HeapContext
import Verif.Proofs.Sort
import Verif.Spec.Heap
import Verif.Props.Undefined
import Mathlib.Data.Set.Card

namespace Knuckle.Props

open Spec
open Heap (Addr HCtx PosSort Stands Row ptrs)

variable {prec : Int} {eps : Fl} {fileOpen quiet : Bool} {pwd text : Str} {s : Option Session} {h : HCtx}
  {q : List (Str × Str)}

theorem stands_init (prec : Int) (eps : Fl) (fileOpen quiet : Bool) :
    Stands (HCtx.init prec eps fileOpen quiet) (Ctx.init prec eps fileOpen quiet) := ⟨[], Heap.rep_init ..⟩

theorem transcript_same [PosSort] {h : HCtx} {c : Ctx} (hs : Stands h c) (qs : List (Str × Option Session × Str)) :
    transcript Heap.execute h qs = transcript (@Knuckle.execute Heap.stdSortOf) c qs := by
  induction qs generalizing h c with
  | nil => rfl
  | cons x qs ih =>
    obtain ⟨pwd, s, text⟩ := x
    simp only [transcript]
    rcases Heap.execute_sim pwd hs s text with ⟨h', c', s', r, e1, e2, hs'⟩ | ⟨e1, e2⟩
    · rw [e1, e2]
      simp only
      rw [ih hs']
    · rw [e1, e2]

/-- C81: whatever the requests, the program with pointers and the program on values give the same replies (and one has
undefined behaviour exactly when the other has). -/
theorem C81_same_replies [PosSort] (prec : Int) (eps : Fl) (fileOpen quiet : Bool) (qs : List (Str × Option Session × Str)) :
    transcript Heap.execute (HCtx.init prec eps fileOpen quiet) qs =
      transcript (@Knuckle.execute Heap.stdSortOf) (Ctx.init prec eps fileOpen quiet) qs :=
  transcript_same (stands_init ..) qs

theorem history_stands [PosSort] {h h' : HCtx} {c : Ctx} (hs : Stands h c) (hh : HeapHistory h q h') :
    ∃ c', @History Heap.stdSortOf c q c' ∧ Stands h' c' := by
  letI := Heap.stdSortOf
  induction hh generalizing c with
  | nil => exact ⟨c, History.nil, hs⟩
  | @cons pwd h h1 h2 s s' text r q he _ ih =>
    rcases Heap.execute_sim pwd hs s text with ⟨h', c', s'', r', e1, e2, hs'⟩ | ⟨e1, e2⟩
    · rw [he] at e1
      cases e1
      obtain ⟨c'', hc, hs''⟩ := ih hs'
      exact ⟨c'', History.cons e2 hc, hs''⟩
    · rw [he] at e1; cases e1

theorem stands_reachable [PosSort] {c c' : Ctx} (hc : @Reachable Heap.stdSortOf c) (h : @History Heap.stdSortOf c q c') :
    @Reachable Heap.stdSortOf c' := by
  letI := Heap.stdSortOf
  induction h with
  | nil => exact hc
  | cons he _ ih => exact ih (Reachable.step hc he)

/-- C81: undefined behaviour has no other causes than in the program on values: in particular no instance is used or
released after it was destroyed. -/
theorem C81_memory_safe [PosSort] (he : eps.toF32 = eps) (hh : HeapHistory (HCtx.init prec eps fileOpen quiet) q h)
    (hu : Heap.execute pwd h s text = .ub) :
    ∃ c, @History Heap.stdSortOf (Ctx.init prec eps fileOpen quiet) q c ∧ UndefinedCause c s text := by
  obtain ⟨c, hc, hs⟩ := history_stands (stands_init ..) hh
  refine ⟨c, hc, ?_⟩
  letI := Heap.stdSortOf
  rcases Heap.execute_sim pwd hs s text with ⟨h', c', s'', r', e1, e2, hs'⟩ | ⟨e1, e2⟩
  · rw [hu] at e1; cases e1
  · exact C39_only_known_causes (stands_reachable (.init prec eps fileOpen quiet he) hc) e2

theorem pointers_rows {m : Heap.Mem} {rs : List Row} (hp : Heap.Placed m rs) {cfg fo qu fl sl}  :
    (pointers ⟨cfg, rs.map fun r => (r.name, r.ptr), m, fo, qu, fl, sl⟩).Perm (ptrs rs) := by
  unfold pointers
  simp only [List.map_map, List.flatMap_map, Function.comp_def]
  induction rs with
  | nil => exact .refl _
  | cons r rs ih =>
    have ih := ih fun r hr => hp r (by simp [hr])
    have e := (hp r (by simp)).1
    unfold Heap.inst at e
    rcases ec : m.cells r.ptr with _ | ⟨c, n⟩
    · rw [ec] at e; cases e
    · rw [ec] at e
      simp at e
      subst e
      simp only [List.map_cons, List.flatMap_cons, ec, List.cons_append, Heap.ptrs_cons]
      refine List.Perm.cons _ ?_
      rw [← List.append_assoc]
      refine ((List.perm_append_comm (l₁ := List.map _ rs)).append_right _).trans ?_
      rw [List.append_assoc]
      exact ih.append_left _

theorem pointers_perm {c : Ctx} {rs : List Row} (hr : Heap.Rep h c rs) : (pointers h).Perm (ptrs rs) := by
  have := pointers_rows hr.rows.placed (cfg := h.cfg) (fo := h.fileOpen) (qu := h.quiet) (fl := h.fileLog) (sl := h.stdoutLog)
  rw [← hr.vars] at this
  exact this

theorem one_owner_of {c : Ctx} (hs : Stands h c) :
    (pointers h).Nodup ∧ ∀ a ∈ pointers h, ∃ c, h.mem.cells a = some (c, 1) := by
  obtain ⟨rs, hr⟩ := hs
  have hp := pointers_perm hr
  have hn := hp.nodup_iff.2 hr.rows.nodup
  refine ⟨hn, fun a ha => ?_⟩
  have hm := hp.mem_iff.1 ha
  obtain ⟨c', n, e⟩ := Heap.good_live hr.rows.good hm
  have := hr.rows.good.count a
  unfold Heap.refs at this
  rw [e, List.count_eq_one_of_mem hr.rows.nodup hm] at this
  exact ⟨c', by rw [e]; simp only at this; rw [this]⟩

/-- C82: between requests no two pointers lead to the same instance, every pointer leads to an instance, and the count kept
with the instance is right. -/
theorem C82_one_owner [PosSort] (hh : HeapHistory (HCtx.init prec eps fileOpen quiet) q h) :
    (pointers h).Nodup ∧ ∀ a ∈ pointers h, ∃ c, h.mem.cells a = some (c, 1) := by
  obtain ⟨c, hc, hs⟩ := history_stands (stands_init ..) hh
  exact one_owner_of hs

theorem no_leak_of {c : Ctx} (hs : Stands h c) (a : Addr) : Live h a ↔ a ∈ pointers h := by
  obtain ⟨rs, hr⟩ := hs
  constructor
  · rintro ⟨c', n, e⟩
    refine (pointers_perm hr).mem_iff.2 ?_
    have := hr.rows.good.count a
    unfold Heap.refs at this
    rw [e] at this
    refine List.count_pos_iff.1 ?_
    rw [← this]
    exact hr.rows.good.pos a c' n e
  · intro ha
    exact Heap.good_live hr.rows.good ((pointers_perm hr).mem_iff.1 ha)

/-- C83: between requests every instance in memory is that of a variable or an element of one. -/
theorem C83_no_leak [PosSort] (hh : HeapHistory (HCtx.init prec eps fileOpen quiet) q h) (a : Addr) :
    Live h a ↔ a ∈ pointers h := by
  obtain ⟨c, hc, hs⟩ := history_stands (stands_init ..) hh
  exact no_leak_of hs a

theorem pairPtrs_length (l : List (Addr × Addr)) : (Heap.pairPtrs l).length = 2 * l.length := by
  induction l with
  | nil => rfl
  | cons x xs ih => simp [Heap.pairPtrs] at ih ⊢; omega

theorem ptrs_length {m : Heap.Mem} {rs : List Row} (hp : Heap.Placed m rs) :
    (ptrs rs).length = ((rs.map fun r => (r.name, r.val)).map fun v => instances v.2).sum := by
  induction rs with
  | nil => rfl
  | cons r rs ih =>
    have ih := ih fun r hr => hp r (by simp [hr])
    have hs := (hp r (by simp)).2
    have : 1 + r.cell.children.length = instances r.val := by
      unfold Heap.Shows at hs
      split at hs
      · rename_i ec
        rw [hs, ec]
        rename_i o
        cases o <;> rfl
      · rename_i ec ev
        rw [ec, ev]
        have := Heap.reads_length hs.2
        simp [Heap.Cell.children, instances, this]
      · rename_i ec ev
        rw [ec, ev]
        have := Heap.reads_length hs.2
        simp [Heap.Cell.children, instances, this]
      · rename_i ec ev
        rw [ec, ev]
        have := Heap.reads_length hs.2.2
        simp [Heap.Cell.children, instances, this, pairPtrs_length]
      · exact hs.elim
    simp only [Heap.ptrs_cons, List.length_cons, List.length_append, List.map_cons, List.sum_cons]
    simp only [ih]
    omega

/-- C83: the number of instances in memory is that of the values: after the same requests, the program on values holds
variables with so many elements. -/
theorem C83_count [PosSort] (hh : HeapHistory (HCtx.init prec eps fileOpen quiet) q h) :
    ∃ c, @History Heap.stdSortOf (Ctx.init prec eps fileOpen quiet) q c ∧ h.vars.map (·.1) = c.vars.map (·.1) ∧
      {a | Live h a}.ncard = (c.vars.map fun v => instances v.2).sum := by
  obtain ⟨c, hc, rs, hr⟩ := history_stands (stands_init ..) hh
  refine ⟨c, hc, Heap.rep_names hr, ?_⟩
  have e : {a | Live h a} = ((ptrs rs).toFinset : Set Addr) := by
    ext a
    simp only [Set.mem_ofPred_eq, List.coe_toFinset]
    rw [C83_no_leak hh a, (pointers_perm hr).mem_iff]
  rw [e, Set.ncard_coe_finset, List.toFinset_card_of_nodup hr.rows.nodup, ptrs_length hr.rows.placed, hr.vals]

/-- C83: without variables the memory is empty. -/
theorem C83_empty [PosSort] (hh : HeapHistory (HCtx.init prec eps fileOpen quiet) q h) (hv : h.vars = []) (a : Addr) :
    ¬ Live h a := by
  rw [C83_no_leak hh a]
  simp [pointers, hv]

/-! ### Examples -/

/-- Insertion sort on positions: the assumptions about `std::sort` can be met. -/
@[reducible] def insertionPosSort : PosSort where
  order n lt := insertionSort lt (List.range n)
  perm n lt _ _ _ := insertionSort_perm lt _
  sorted n lt h h1 h2 := insertionSort_sorted lt _ (fun a ha => h a (List.mem_range.1 ha))
    (fun a ha b hb c hc => h1 a (List.mem_range.1 ha) b (List.mem_range.1 hb) c (List.mem_range.1 hc))
    (fun a ha b hb c hc => h2 a (List.mem_range.1 ha) b (List.mem_range.1 hb) c (List.mem_range.1 hc))

/-- The context after these requests, all of which must be defined. -/
def heapAfter [PosSort] (pwd : Str) (s : Option Session) : List Str → HCtx → Option HCtx
  | [], h => some h
  | t :: ts, h => match Heap.execute pwd h s t with
    | .done (h', _, _) => heapAfter pwd s ts h'
    | .ub => none

theorem heapAfter_history [PosSort] {pwd : Str} {s : Option Session} {ts : List Str} {h h' : HCtx}
    (e : heapAfter pwd s ts h = some h') : ∃ l, HeapHistory h l h' ∧ l.map (·.1) = ts := by
  induction ts generalizing h with
  | nil => cases e; exact ⟨[], .nil, rfl⟩
  | cons t ts ih =>
    simp only [heapAfter] at e
    cases he : Heap.execute pwd h s t with
    | ub => rw [he] at e; cases e
    | done r =>
      obtain ⟨c1, s1, r1⟩ := r
      rw [he] at e
      obtain ⟨l, h1, h2⟩ := ih e
      exact ⟨(t, r1) :: l, .cons he h1, by rw [List.map_cons, h2]⟩

/-- Requests that create, share locally, replace, release and refuse. -/
def heapTexts : List Str := [
  b!"Vector<Integer> create: v;", b!"v pushBack: 3;", b!"v pushBack: 1;", b!"v pushFront: 2;", b!"v sort;", b!"v popBack;",
  b!"v replaceAll: 1 with: 5;", b!"Set<String> create: s;", b!"s add: \"x\";", b!"s add: \"x\";",
  b!"Dictionary<Integer, String> create: d;", b!"d associateValue: \"a\" withKey: 1;", b!"d associateValue: \"b\" withKey: 1;",
  b!"Integer create: v withValue: 1;", b!"Integer create: i withValue: 1;", b!"Context deleteVariable: i;"]

/-- The variables and what is at the addresses used so far. -/
def heapView (h : HCtx) : List (Str × Addr) × List (Option (Heap.Cell × Nat)) :=
  (h.vars, (List.range h.mem.next).map h.mem.cells)

/-- The state after these requests. -/
theorem heap_demo : ∃ q h, @HeapHistory insertionPosSort (HCtx.init 3 (.fin false 0) false true) q h ∧ q.map (·.1) = heapTexts ∧
    heapView h = ([(b!"d", 10), (b!"s", 7), (b!"v", 0)],
      [some (.vector b!"Integer" [6, 3], 1), none, none, some (.obj (.integer 2), 1), none, none, some (.obj (.integer 5), 1),
       some (.set b!"String" [8], 1), some (.obj (.string b!"x"), 1), none,
       some (.dictionary b!"Integer" b!"String" [(12, 13)], 1), none, some (.obj (.integer 1), 1), some (.obj (.string b!"b"), 1),
       none, none, none]) := by
  have e : (@heapAfter insertionPosSort [] none heapTexts (HCtx.init 3 (.fin false 0) false true)).map heapView = some
      ([(b!"d", 10), (b!"s", 7), (b!"v", 0)],
        [some (.vector b!"Integer" [6, 3], 1), none, none, some (.obj (.integer 2), 1), none, none, some (.obj (.integer 5), 1),
         some (.set b!"String" [8], 1), some (.obj (.string b!"x"), 1), none,
         some (.dictionary b!"Integer" b!"String" [(12, 13)], 1), none, some (.obj (.integer 1), 1), some (.obj (.string b!"b"), 1),
         none, none, none]) := by
    decide +kernel
  obtain ⟨h, e1, e2⟩ := Option.map_eq_some_iff.1 e
  obtain ⟨q, hq, ht⟩ := @heapAfter_history insertionPosSort _ _ _ _ _ e1
  exact ⟨q, h, hq, ht, e2⟩

/-- C82, C83 on this state: the eight instances are those of three variables and five elements, none of them shared. -/
example : ∃ q h, @HeapHistory insertionPosSort (HCtx.init 3 (.fin false 0) false true) q h ∧ q.map (·.1) = heapTexts ∧
    (pointers h).Nodup ∧ {a | Live h a}.ncard = 8 := by
  obtain ⟨q, h, hh, ht, hv⟩ := heap_demo
  letI := insertionPosSort
  refine ⟨q, h, hh, ht, (C82_one_owner hh).1, ?_⟩
  have hp : pointers h = [10, 7, 0, 12, 13, 8, 6, 3] := by
    have h1 := congrArg Prod.fst hv
    have h2 := congrArg Prod.snd hv
    simp only [heapView] at h1 h2
    have hn : h.mem.next = 17 := by simpa using congrArg List.length h2
    rw [hn] at h2
    have c10 := congrArg (·[10]?) h2
    have c7 := congrArg (·[7]?) h2
    have c0 := congrArg (·[0]?) h2
    simp at c10 c7 c0
    simp [pointers, h1, c10, c7, c0, Heap.Cell.children, Heap.pairPtrs]
  have e : {a | Live h a} = (([10, 7, 0, 12, 13, 8, 6, 3] : List Addr).toFinset : Set Addr) := by
    ext a
    simp only [Set.mem_ofPred_eq, List.coe_toFinset]
    rw [C83_no_leak hh a, hp]
  rw [e, Set.ncard_coe_finset]
  rfl

/-- C81 on these requests: the replies, by the program with pointers and by the program on values. -/
example : transcript (@Knuckle.execute (@Heap.stdSortOf insertionPosSort)) (Ctx.init 3 (.fin false 0) false true)
      ((heapTexts ++ [b!"v get;", b!"v add: 1;", b!"d get;"]).map fun t => ([], none, t)) =
    (List.replicate 5 b!"null" ++ [b!"3"] ++ List.replicate 7 b!"null" ++ [b!"RuntimeError: variable name already used.", b!"null", b!"null",
      b!"[5,2]", b!"RuntimeError: invalid message.", b!"((1,\"b\"))"]).map fun r => some (none, r) := by
  rw [← @C81_same_replies insertionPosSort]
  decide +kernel

/-- A request with undefined behaviour after these requests (C81, second part). -/
example : ∃ q h, @HeapHistory insertionPosSort (HCtx.init 3 (.fin false 0) false true) q h ∧ q.map (·.1) = heapTexts ∧
    @Heap.execute insertionPosSort [] h none b!"v pushBack: 99999999999;" = .ub := by
  have e : (@heapAfter insertionPosSort [] none heapTexts (HCtx.init 3 (.fin false 0) false true)).map (fun h =>
      decide ((@Heap.execute insertionPosSort [] h none b!"v pushBack: 99999999999;" matches .ub) = true)) = some true := by
    decide +kernel
  obtain ⟨h, e1, e2⟩ := Option.map_eq_some_iff.1 e
  obtain ⟨q, hq, ht⟩ := @heapAfter_history insertionPosSort _ _ _ _ _ e1
  refine ⟨q, h, hq, ht, ?_⟩
  generalize @Heap.execute insertionPosSort [] h none b!"v pushBack: 99999999999;" = x at e2 ⊢
  cases x with
  | ub => rfl
  | done y => simp at e2

end Knuckle.Props

/-
C91: running out of memory.
-/
import Verif.Proofs.ScarceContext
import Verif.Spec.Scarce
import Verif.Proofs.Observe
import Verif.Props.Heap
import Verif.Props.Rebuild

namespace Knuckle.Props

open Spec
open Heap (Addr HCtx PosSort Stands)
open Scarce (Fate Supply SortsStrings)

variable {prec : Int} {eps : Fl} {fileOpen quiet : Bool} {pwd text r : Str} {s s' : Option Session} {c c' d : Ctx} {h h' : HCtx}
  {f : Supply} {q : List (Str × Supply × Str)}

theorem inv_same (h : SameData c d) (hc : Inv c) : Inv d :=
  ⟨by rw [h.1]; exact hc.asc, by rw [h.1]; exact hc.vars, by rw [h.2]; exact hc.eps⟩

/-- Only the elements of vectors change, and only to elements that can be written in requests. -/
theorem leftOver_vector {cfg : Cfg} {i i' : Inst} {name : Str} {args : List Str} (h : LeftOver cfg i name args i') :
    i' = i ∨ ∃ t l l', i = .vector t l ∧ i' = .vector t l' ∧ ∀ o ∈ l', o ∈ l ∨ Writable t o := by
  cases h with
  | unchanged => exact .inl rfl
  | popBack => exact .inr ⟨_, _, _, rfl, rfl, fun o ho => .inl (List.dropLast_subset _ ho)⟩
  | popFront => exact .inr ⟨_, _, _, rfl, rfl, fun o ho => .inl (List.mem_of_mem_tail ho)⟩
  | popAtIndex => exact .inr ⟨_, _, _, rfl, rfl, fun o ho => .inl (List.mem_of_mem_eraseIdx ho)⟩
  | removeAll k =>
    refine .inr ⟨_, _, _, rfl, rfl, fun o ho => .inl ?_⟩
    rcases List.mem_append.1 ho with ho | ho
    · exact List.mem_of_mem_take (List.mem_filter.1 ho).1
    · exact List.mem_of_mem_drop ho
  | replaceAll k _ hd =>
    refine .inr ⟨_, _, _, rfl, rfl, fun o ho => ?_⟩
    rcases List.mem_append.1 ho with ho | ho
    · obtain ⟨x, hx, rfl⟩ := List.mem_map.1 ho
      split
      · exact .inr ⟨_, hd⟩
      · exact .inl (List.mem_of_mem_take hx)
    · exact .inl (List.mem_of_mem_drop ho)

theorem refill [StdSort] {n t : Str} {l l' : List Obj} (hc : Reachable c) (hn : Holds c n (.vector t l))
    (hl : ∀ o ∈ l', Writable t o) : ∃ c', Reachable c' ∧ Becomes c c' n (.vector t l') := by
  have hv := ((reachable_inv hc).vars _ (lookup_some_mem hn)).1
  obtain ⟨t0, ht0⟩ := unary_statement (m := b!"clear") hv (by decide +kernel)
  obtain ⟨c1, h1, h2⟩ := answers_vec (pwd := []) (s := none) hc hn ht0 .clear
  have hb := Becomes.of h2
  obtain ⟨c2, h3, h4⟩ := fill (pwd := []) (s := none) (n := n) (cfg := c.cfg) (Inst.vector t) (fun o => request n [(b!"pushBack:", literal o)]) l'
    (fun c l' a r e hc _ hl' => by
      have hd := denotes_of_writable (hl a (by rw [e]; simp))
      exact answers_vec hc hl' (one_statement (variable_actor hv) (by decide +kernel) (literal_argument hd)) (.pushBack hd))
    [] l' c1 rfl (.step hc h1) hb.1 hb.holds
  exact ⟨c2, h3.reachable (.step hc h1), hb.trans h4⟩

theorem scarcely_as_if [StdSort] (hd : Reachable d) (hs : SameData d c) (h : Scarcely pwd c s text f c' s' r) :
    ∃ d', Reachable d' ∧ SameData d' c' := by
  have ord : ∀ {c1 : Ctx} {s1 : Option Session} {r1 : Str}, execute pwd c s text = .done (c1, s1, r1) →
      ∃ d', Reachable d' ∧ SameData d' c1 := by
    intro c1 s1 r1 e
    have h1 := C51_logging_does_not_matter (pwd := pwd) (s := s) (text := text) hs
    rw [e] at h1
    cases hx : execute pwd d s text with
    | ub => rw [hx] at h1; exact h1.elim
    | done y =>
      obtain ⟨d1, s1', r1'⟩ := y
      rw [hx] at h1
      exact ⟨d1, .step hd hx, h1.1⟩
  cases h with
  | ordinary e => exact ord e
  | cut _ e _ _ h2 _ =>
    obtain ⟨d', h3, h4⟩ := ord e
    exact ⟨d', h3, h2.1.trans h4.1, h2.2.trans h4.2⟩
  | nothing _ h1 _ => exact ⟨d, hd, h1.1.trans hs.1, h1.2.trans hs.2⟩
  | @interrupted _ n name args i i' _ hst hn hl hc _ =>
    have hn' : Holds d n i := by unfold Holds; rw [← hs.1]; exact hn
    have hi := inv_same hs (reachable_inv hd)
    have fin : ∀ {d'}, Reachable d' → Becomes d d' n i' → SameData d' c' := by
      intro d' h1 h2
      refine ⟨vars_ext _ _ (by rw [hc.2.1]; exact hi.asc) (reachable_inv h1).asc fun m => ?_, ?_⟩
      · rw [hc.2.2, h2.2, hs.1]
      · rw [hc.1, h2.1, hs.2]
    rcases leftOver_vector hl with rfl | ⟨t, l, l', rfl, rfl, hw⟩
    · refine ⟨d, hd, fin hd ⟨rfl, fun m => ?_⟩⟩
      split
      · rename_i e; rw [e]; exact hn'
      · rfl
    · have hp := (holds_proper hd hn').2
      obtain ⟨d', h1, h2⟩ := refill hd hn' fun o ho => (hw o ho).elim (hp o) id
      exact ⟨d', h1, fin h1 h2⟩

theorem scarce_as_if [StdSort] (hd : Reachable d) (hs : SameData d c) (h : ScarceHistory c q c') :
    ∃ d', Reachable d' ∧ SameData d' c' := by
  induction h generalizing d with
  | nil => exact ⟨d, hd, hs⟩
  | cons h1 _ ih =>
    obtain ⟨d1, h2, h3⟩ := scarcely_as_if hd hs h1
    exact ih h2 h3

/-- C91: however often memory ran out, the data is data that a server with enough memory can have: there is a sequence of requests that
makes it the same variables and settings. -/
theorem C91_as_if [StdSort] (he : eps.toF32 = eps) (h : ScarceHistory (Ctx.init prec eps fileOpen quiet) q c) :
    ∃ d, Reachable d ∧ SameData d c := scarce_as_if (.init _ _ _ _ he) ⟨rfl, rfl⟩ h

theorem scarce_inv [StdSort] (he : eps.toF32 = eps) (h : ScarceHistory (Ctx.init prec eps fileOpen quiet) q c) : Inv c := by
  obtain ⟨d, h1, h2⟩ := C91_as_if he h
  exact inv_same h2 (reachable_inv h1)

theorem scarce_snoc [StdSort] (h : ScarceHistory c q c') {c'' : Ctx} (hs : Scarcely pwd c' s text f c'' s' r) :
    ScarceHistory c (q ++ [(text, f, r)]) c'' := by
  induction h with
  | nil => exact .cons hs .nil
  | cons h1 _ ih => exact .cons h1 (ih hs)

theorem scarce_stands [PosSort] (he : eps.toF32 = eps) {p : List (Str × Supply × Str)} {h h' : HCtx}
    (hp : @ScarceHistory Heap.stdSortOf (Ctx.init prec eps fileOpen quiet) p c) (hs : Stands h c) (hh : ScarceRun h q h') :
    ∃ c', @ScarceHistory Heap.stdSortOf (Ctx.init prec eps fileOpen quiet) (p ++ q) c' ∧ Stands h' c' := by
  let _ := Heap.stdSortOf
  induction hh generalizing p c with
  | nil => exact ⟨c, by rw [List.append_nil]; exact hp, hs⟩
  | @cons pwd h h1 h2 s s' text r f q e _ ih =>
    have := Scarce.execute_sound pwd hs (scarce_inv he hp) s text f
    rw [e] at this
    obtain ⟨c1, h3, h4⟩ := this
    obtain ⟨c', h5, h6⟩ := ih (scarce_snoc hp h4) h3
    exact ⟨c', by rw [List.append_assoc] at h5; exact h5, h6⟩

/-- C91: the program with pointers on a machine whose memory can run out (each request with its own supply) has only the executions of
`ScarceHistory`: each request is executed as usual, or with floats in the reply cut short, or is answered with "RuntimeError: unknown
error.", in which case nothing has happened or a message to a vector has been interrupted.  From the state reached, with enough memory
again, all requests are answered as from the state of `ScarceHistory`. -/
theorem C91_refines [PosSort] (he : eps.toF32 = eps) (hh : ScarceRun (HCtx.init prec eps fileOpen quiet) q h) :
    ∃ c, @ScarceHistory Heap.stdSortOf (Ctx.init prec eps fileOpen quiet) q c ∧ h.vars.map (·.1) = c.vars.map (·.1) ∧
      ∀ qs, transcript Heap.execute h qs = transcript (@Knuckle.execute Heap.stdSortOf) c qs := by
  let _ := Heap.stdSortOf
  obtain ⟨c, h1, h2⟩ := scarce_stands he .nil (stands_init prec eps fileOpen quiet) hh
  obtain ⟨rs, hr⟩ := id h2
  exact ⟨c, h1, Heap.rep_names hr, fun qs => transcript_same h2 qs⟩

/-- C91: the next request: it is undefined behaviour only for the usual causes; it ends the process only if memory
runs out a second time, or while an error or a log record is made; and it leaves
a vector unspecified only if memory runs out while strings are sorted. -/
theorem C91_next [PosSort] (he : eps.toF32 = eps) (hh : ScarceRun (HCtx.init prec eps fileOpen quiet) q h) :
    ∃ c, @ScarceHistory Heap.stdSortOf (Ctx.init prec eps fileOpen quiet) q c ∧
      match Scarce.execute pwd h s text f with
      | .done _ s' r => ∃ c', @Scarcely Heap.stdSortOf pwd c s text f c' s' r
      | .dies => @Fatal Heap.stdSortOf pwd c s text f
      | .unspecified => Refused f ∧ ∃ n x y l, Statement text n b!"sort" [] ∧ Holds c n (.vector b!"String" (.string x :: .string y :: l))
      | .ub => UndefinedCause c s text := by
  let _ := Heap.stdSortOf
  obtain ⟨c, h1, h2⟩ := scarce_stands he .nil (stands_init prec eps fileOpen quiet) hh
  refine ⟨c, h1, ?_⟩
  have hi := scarce_inv he h1
  have := Scarce.execute_sound pwd h2 hi s text f
  revert this
  generalize Scarce.execute pwd h s text f = e
  intro this
  cases e with
  | done h' s' r =>
    obtain ⟨c', -, h3⟩ := this
    exact ⟨c', h3⟩
  | dies => exact this
  | unspecified =>
    obtain ⟨h3, n, i, hst, hn, -, -, t, x, y, l, rfl⟩ := this
    have hw := hi.wellTyped hn
    have ht := (hw.2 (.string x) (by simp)).1
    have hty := (hw.2 y (by simp)).1
    obtain rfl : b!"String" = t := ht
    cases y with
    | string y => exact ⟨h3, n, _, _, _, hst, hn⟩
    | _ => simp [Obj.type] at hty
  | ub => exact undefined_cause hi this

theorem fatal_refused [StdSort] (h : Fatal pwd c s text f) : Refused f := by
  rcases h with ⟨k, f', ⟨f1, rfl⟩, -⟩ | ⟨h, -⟩ | ⟨h, -⟩
  · exact ⟨k, by simp⟩
  · exact h
  · exact h

/-- C91: if no allocation is refused, everything is as usual, and the process does not end. -/
theorem C91_enough [PosSort] (he : eps.toF32 = eps) (hh : ScarceRun (HCtx.init prec eps fileOpen quiet) q h)
    (hq : ∀ x ∈ q, ¬ Refused x.2.1) :
    (∃ c, @History Heap.stdSortOf (Ctx.init prec eps fileOpen quiet) (q.map fun x => (x.1, x.2.2)) c ∧
      ∀ qs, transcript Heap.execute h qs = transcript (@Knuckle.execute Heap.stdSortOf) c qs) ∧
    (¬ Refused f → Scarce.execute pwd h s text f ≠ .dies ∧ Scarce.execute pwd h s text f ≠ .unspecified) := by
  let _ := Heap.stdSortOf
  constructor
  · obtain ⟨c, h1, -, h2⟩ := C91_refines he hh
    refine ⟨c, ?_, h2⟩
    revert hq h1
    generalize Ctx.init prec eps fileOpen quiet = c0
    intro hq h1
    clear hh h2
    induction h1 with
    | nil => exact .nil
    | cons h3 _ ih =>
      have h4 := ih fun x hx => hq x (List.mem_cons_of_mem _ hx)
      have hn := hq _ List.mem_cons_self
      cases h3 with
      | ordinary e => exact History.cons e h4
      | cut h => exact absurd h hn
      | nothing h => exact absurd h hn
      | interrupted h => exact absurd h hn
  · intro hf
    obtain ⟨c, -, h2⟩ := C91_next (pwd := pwd) (s := s) (text := text) (f := f) he hh
    constructor
    · intro e; rw [e] at h2; exact hf (fatal_refused h2)
    · intro e; rw [e] at h2; exact hf h2.1

/-- C91: the memory is in order: no two pointers lead to the same instance, the counts are right, and nothing is left behind. -/
theorem C91_clean [PosSort] (he : eps.toF32 = eps) (hh : ScarceRun (HCtx.init prec eps fileOpen quiet) q h) :
    (pointers h).Nodup ∧ (∀ a ∈ pointers h, ∃ c, h.mem.cells a = some (c, 1)) ∧ ∀ a, Live h a ↔ a ∈ pointers h := by
  let _ := Heap.stdSortOf
  obtain ⟨c, -, h2⟩ := scarce_stands he .nil (stands_init prec eps fileOpen quiet) hh
  exact ⟨(one_owner_of h2).1, (one_owner_of h2).2, no_leak_of h2⟩

/-- C91: a client that is not told "unknown error" can rely on the effect: it is as usual, and so is the reply but for floats cut short.
(`RuntimeError: unknown error.` is no usual reply: C36.) -/
theorem C91_told [StdSort] (h : Scarcely pwd c s text f c' s' r) (hr : r ≠ b!"RuntimeError: unknown error.") :
    ∃ x r', execute pwd c s text = .done (x, s', r') ∧ SameData x c' ∧ (r = r' ∨ RepliesFloat c text ∧ CutShort c.cfg.prec r r') := by
  cases h with
  | ordinary e => exact ⟨_, _, e, ⟨rfl, rfl⟩, .inl rfl⟩
  | cut _ e h1 h2 h3 _ => exact ⟨_, _, e, h3, .inr ⟨h1, h2⟩⟩
  | nothing => exact absurd rfl hr
  | interrupted => exact absurd rfl hr

theorem fixed_head (p : Int) (x : Fl) : ∃ b l, fmtFixed p x = b :: l ∧ b ∉ b!"'\"[{(" := by
  cases x with
  | nan => exact ⟨_, _, rfl, by decide⟩
  | inf z => cases z <;> exact ⟨_, _, rfl, by decide⟩
  | fin z k =>
    cases z with
    | true => exact ⟨_, _, rfl, by decide⟩
    | false =>
      obtain ⟨b, l, h, hd⟩ := okReply_natStr (rhe (k * 10 ^ (if p < 0 then 6 else p.toNat)) oneK / 10 ^ (if p < 0 then 6 else p.toNat))
      have e : ∃ l', fmtFixed p (.fin false k) = b :: l' := by
        simp only [fmtFixed, Bool.false_eq_true, if_false]
        rw [h]
        exact ⟨_, rfl⟩
      obtain ⟨l', e⟩ := e
      refine ⟨b, l', e, fun hb => ?_⟩
      have key : ∀ b ∈ b!"'\"[{(", ¬ Digit b := by unfold Digit; decide
      exact key b hb hd

theorem cut_mem {p : Int} {u t : Str} (h : CutShort p u t) : ∀ b ∈ u, b ∈ t := by
  induction h with
  | nil => intro b hb; exact hb
  | char b _ ih =>
    intro x hx
    rcases List.mem_cons.1 hx with rfl | hx
    · exact List.mem_cons_self
    · exact List.mem_cons_of_mem _ (ih x hx)
  | float x k _ ih =>
    intro b hb
    rcases List.mem_append.1 hb with hb | hb
    · exact List.mem_append_left _ (List.mem_of_mem_take hb)
    · exact List.mem_append_right _ (ih b hb)

/-- A reply cut short is not the text of an error. -/
theorem cut_ok {p : Int} {u t : Str} (h : CutShort p u t) (ht : OkReply t) : u ≠ b!"RuntimeError: unknown error." := by
  rintro rfl
  obtain ⟨b, l, rfl, hb, hb' | hR⟩ := ht
  · generalize hu : b!"RuntimeError: unknown error." = u at h
    generalize hv : b :: l = v at h
    cases h with
    | nil => cases hv
    | char b' h =>
      cases hv
      cases hu
      revert hb'
      decide
    | float x k h =>
      obtain ⟨b1, l1, e, hn⟩ := fixed_head p x
      rw [e] at hv
      cases hv
      exact hn hb'
  · rcases List.mem_cons.1 (cut_mem h c!"R" (by decide)) with rfl | hm
    · revert hb; decide
    · exact hR hm

/-- C91: if it is told so, nothing has changed, unless it sent one of five messages to a vector; then only that vector can have changed, and
only in the ways listed in `LeftOver`. -/
theorem C91_unknown [StdSort] (he : eps.toF32 = eps) (hc : ScarceHistory (Ctx.init prec eps fileOpen quiet) q c)
    (h : Scarcely pwd c s text f c' s' b!"RuntimeError: unknown error.") :
    s' = s ∧ (SameData c c' ∨ ∃ n name args t l l', Statement text n name args ∧
      name ∈ [b!"popBack", b!"popFront", b!"popAtIndex:", b!"removeAll:", b!"replaceAll:with:"] ∧ Holds c n (.vector t l) ∧
      LeftOver c.cfg (.vector t l) name args (.vector t l') ∧ OnlyChanged c c' n (.vector t l')) := by
  have hi := scarce_inv he hc
  have ord : ∀ {x : Ctx} {s1 : Option Session} {r r' : Str}, execute pwd c s text = .done (x, s1, r) →
      (r' = r ∨ CutShort c.cfg.prec r' r) → r' = b!"RuntimeError: unknown error." → s1 = s ∧ SameData c x := by
    intro x s1 r r' e hr hu
    obtain ⟨y, rfl, hd | ⟨e, hd, rfl⟩⟩ := execute_done hi e
    · exfalso
      rcases hr with rfl | hr
      · exact (okReply_not_error (does_ok hd)).1 (by rw [hu]; decide)
      · exact cut_ok hr (does_ok hd) hu
    · obtain ⟨rfl, rfl⟩ := does_thr hd
      exact ⟨rfl, sameData_record _ _ _⟩
  generalize hr : b!"RuntimeError: unknown error." = r at h
  cases h with
  | ordinary e =>
    obtain ⟨h1, h2⟩ := ord e (.inl rfl) hr.symm
    exact ⟨h1, .inl h2⟩
  | cut _ e _ h2 h3 _ =>
    obtain ⟨h4, h5⟩ := ord e (.inr h2) hr.symm
    exact ⟨h4, .inl ⟨h3.1.trans h5.1, h3.2.trans h5.2⟩⟩
  | nothing _ h1 _ => exact ⟨rfl, .inl h1⟩
  | @interrupted _ n name args i i' _ hst hn hl ho _ =>
    refine ⟨rfl, ?_⟩
    cases hl with
    | unchanged =>
      left
      refine ⟨vars_ext _ _ (by rw [ho.2.1]; exact hi.asc) hi.asc fun m => ?_, ho.1⟩
      rw [ho.2.2]
      split
      · rename_i e; rw [e]; exact hn.symm
      · rfl
    | popBack ht => exact .inr ⟨n, _, _, _, _, _, hst, by decide, hn, .popBack ht, ho⟩
    | popFront ht => exact .inr ⟨n, _, _, _, _, _, hst, by decide, hn, .popFront ht, ho⟩
    | popAtIndex ht h1 h2 => exact .inr ⟨n, _, _, _, _, _, hst, by decide, hn, .popAtIndex ht h1 h2, ho⟩
    | removeAll k h1 => exact .inr ⟨n, _, _, _, _, _, hst, by decide, hn, .removeAll k h1, ho⟩
    | replaceAll k h1 h2 => exact .inr ⟨n, _, _, _, _, _, hst, by decide, hn, .replaceAll k h1 h2, ho⟩

/-! ### Examples -/

/-- Execute requests, each with its supply of memory: the state afterwards and the requests with their replies. -/
def scarceAfter [PosSort] : List (Str × Supply) → HCtx → Option (HCtx × List (Str × Supply × Str))
  | [], h => some (h, [])
  | (t, f) :: ts, h => match Scarce.execute [] h none t f with
    | .done h' _ r => match scarceAfter ts h' with
      | some (h'', q) => some (h'', (t, f, r) :: q)
      | none => none
    | _ => none

theorem scarceAfter_run [PosSort] : ∀ {ts : List (Str × Supply)} {h h' : HCtx} {q : List (Str × Supply × Str)},
    scarceAfter ts h = some (h', q) → ScarceRun h q h'
  | [], h, h', q, e => by cases e; exact .nil
  | (t, f) :: ts, h, h', q, e => by
    simp only [scarceAfter] at e
    split at e
    · rename_i h1 s1 r e1
      split at e
      · rename_i h2 q2 e2
        cases e
        exact .cons e1 (scarceAfter_run e2)
      · cases e
    · cases e

/-- Requests during which memory runs out: an element is taken out and lost, a replacement stops halfway, a float is cut short, nothing
happens. -/
def scarceTexts : List (Str × Supply) := [
  (b!"Vector<String> create: v;", []), (b!"v pushBack: \"a\";", []), (b!"v pushBack: \"b\";", []),
  (b!"v popBack;", [.granted, .refused 0]), (b!"v get;", []),
  (b!"Vector<Integer> create: w;", []), (b!"w pushBack: 1;", []), (b!"w pushBack: 1;", []),
  (b!"w replaceAll: 1 with: 2;", [.granted, .granted, .granted, .granted, .refused 0]), (b!"w get;", []),
  (b!"Float create: f withValue: 1.5;", []), (b!"f get;", [.granted, .granted, .refused 1]),
  (b!"Set<Integer> create: s;", [.granted, .granted, .refused 0]), (b!"s get;", []),
  (b!"v pushBack: \"c\";", [])]

/-- Their replies. -/
def scarceReplies : List Str := [
  b!"null", b!"null", b!"null", b!"RuntimeError: unknown error.", b!"[\"a\"]", b!"null", b!"null", b!"null",
  b!"RuntimeError: unknown error.", b!"[2,1]", b!"null", b!"1", b!"RuntimeError: unknown error.",
  b!"RuntimeError: name cannot be resolved to a variable.", b!"null"]

theorem scarce_demo : ∃ q h, @ScarceRun insertionPosSort (HCtx.init 3 (.fin false 0) false true) q h ∧
    q.map (·.2.2) = scarceReplies ∧ q.map (fun x => (x.1, x.2.1)) = scarceTexts ∧
    (@Scarce.execute insertionPosSort [] h none b!"v sort;" [.granted, .refused 0] matches .unspecified) ∧
    (@Scarce.execute insertionPosSort [] h none b!"v sort;" [.refused 0, .refused 0] matches .dies) ∧
    (@Scarce.execute insertionPosSort [] h none b!"w pushBack: 99999999999;" [] matches .ub) := by
  have e : (@scarceAfter insertionPosSort scarceTexts (HCtx.init 3 (.fin false 0) false true)).map (fun x =>
      (x.2.map (·.2.2), x.2.map (fun x => (x.1, x.2.1)),
        (decide (@Scarce.execute insertionPosSort [] x.1 none b!"v sort;" [.granted, .refused 0] matches .unspecified),
        decide (@Scarce.execute insertionPosSort [] x.1 none b!"v sort;" [.refused 0, .refused 0] matches .dies),
        decide (@Scarce.execute insertionPosSort [] x.1 none b!"w pushBack: 99999999999;" [] matches .ub)))) =
      some (scarceReplies, scarceTexts, true, true, true) := by
    kernel_rfl
  obtain ⟨⟨h, q⟩, e1, e2⟩ := Option.map_eq_some_iff.1 e
  simp only [Prod.mk.injEq, decide_eq_true_eq] at e2
  exact ⟨q, h, @scarceAfter_run insertionPosSort _ _ _ _ e1, e2.1, e2.2.1, e2.2.2.1, e2.2.2.2.1, e2.2.2.2.2⟩

/-- The theorems on this run: the data is that of a server with enough memory, and the memory is in order. -/
example : ∃ q h c d, @ScarceRun insertionPosSort (HCtx.init 3 (.fin false 0) false true) q h ∧ q.map (·.2.2) = scarceReplies ∧
    @ScarceHistory (@Heap.stdSortOf insertionPosSort) (Ctx.init 3 (.fin false 0) false true) q c ∧
    @Reachable (@Heap.stdSortOf insertionPosSort) d ∧ SameData d c ∧ (pointers h).Nodup := by
  obtain ⟨q, h, h1, h2, -⟩ := scarce_demo
  let _ := insertionPosSort
  have he : (Fl.fin false 0).toF32 = .fin false 0 := by kernel_rfl
  obtain ⟨c, h3, -⟩ := C91_refines he h1
  let _ := @Heap.stdSortOf insertionPosSort
  obtain ⟨d, h4, h5⟩ := C91_as_if he h3
  exact ⟨q, h, c, d, h1, h2, h3, h4, h5, (C91_clean he h1).1⟩

/-- `C91_unknown`: an interrupted message does change data. -/
example [StdSort] : ∃ c', Scarcely [] demo none b!"v replaceAll: 3 with: 7;" [.granted, .refused 0] c' none b!"RuntimeError: unknown error." ∧
    ¬ SameData demo c' := by
  have hl : LeftOver demo.cfg (.vector b!"Integer" [.integer 3, .integer 1, .integer 2]) b!"replaceAll:with:" [b!"3", b!"7"]
      (.vector b!"Integer" [.integer 7, .integer 1, .integer 2]) :=
    .replaceAll (l := [.integer 3, .integer 1, .integer 2]) (o := .integer 3) (r := .integer 7) 2
      (lit_int (by decide +kernel) (by decide +kernel) (by decide)) (lit_int (by decide +kernel) (by decide +kernel) (by decide))
  refine ⟨{ demo with vars := updateVar b!"v" (.vector b!"Integer" [.integer 7, .integer 1, .integer 2]) demo.vars },
    .interrupted (n := b!"v") (name := b!"replaceAll:with:") (args := [b!"3", b!"7"]) (i := .vector b!"Integer" [.integer 3, .integer 1, .integer 2])
      ⟨0, by simp⟩ (reads (by decide +kernel)) (by unfold Holds; kernel_rfl) hl
      (onlyChanged_setVar _ _ _ (.vector b!"Integer" [.integer 3, .integer 1, .integer 2]) (by kernel_rfl))
      ⟨rfl, rfl, by kernel_rfl, by kernel_rfl⟩, ?_⟩
  intro h
  have := congrArg (fun l => (l.lookup b!"v").map fun i => match i with | .vector _ (.integer n :: _) => n | _ => 0) h.1
  revert this
  decide +kernel

/-- A reply cut short. -/
example : CutShort 3 b!"[1,2.500]" b!"[1.500,2.500]" := by
  have h : fmtFixed 3 (.fin false (3 * 2 ^ 1073)) = b!"1.500" := by kernel_rfl
  have h2 : CutShort 3 b!",2.500]" b!",2.500]" := .char _ (.char _ (.char _ (.char _ (.char _ (.char _ (.char _ .nil))))))
  have := CutShort.char c!"[" (CutShort.float (prec := 3) (.fin false (3 * 2 ^ 1073)) 1 h2)
  rw [h] at this
  exact this

end Knuckle.Props

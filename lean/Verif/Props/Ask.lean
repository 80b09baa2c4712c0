/-
C120: questions can be left out and inserted anywhere.

`Serial pwd c log c'` is what C44 provides for every schedule of the server.
-/
import Verif.Props.Halfway
import Verif.Props.Doubt
import Verif.Spec.Ask

namespace Knuckle.Props

open Spec

variable {pwd : Str} {c c' d x : Ctx} {s : Option Session} {line r : Str} {i j : Nat} {l l' l1 l2 log log' : List Request} {q : Request}

theorem authenticated_last (hto : ¬ ToConnection q.line) : Authenticated pwd (l ++ [q]) j ↔ Authenticated pwd l j := by
  simpa using authenticated_skip (pwd := pwd) (l := l) (q := q) (m := []) (j := j) hto
theorem closed_last (hto : ¬ ToConnection q.line) : Closed (l ++ [q]) j ↔ Closed l j := by
  simpa using closed_skip (l := l) (q := q) (m := []) (j := j) hto

theorem authenticated_add (h : Authenticated pwd l j ↔ Authenticated pwd l' j) : Authenticated pwd (l ++ [q]) j ↔ Authenticated pwd (l' ++ [q]) j := by
  have e : ∀ l : List Request, Authenticated pwd (l ++ [q]) j ↔ Authenticated pwd l j ∨ (q.conn = j ∧ Presents pwd q.line) := fun l => by
    unfold Authenticated
    simp only [List.mem_append, List.mem_singleton]
    constructor
    · rintro (h | ⟨x, hx | rfl, h⟩)
      · exact .inl (.inl h)
      · exact .inl (.inr ⟨x, hx, h⟩)
      · exact .inr h
    · rintro ((h | ⟨x, hx, h⟩) | h)
      · exact .inl h
      · exact .inr ⟨x, .inl hx, h⟩
      · exact .inr ⟨q, .inr rfl, h⟩
  rw [e, e, h]
theorem closed_add (h : Closed l j ↔ Closed l' j) : Closed (l ++ [q]) j ↔ Closed (l' ++ [q]) j := by
  have e : ∀ l : List Request, Closed (l ++ [q]) j ↔ Closed l j ∨ (q.conn = j ∧ Closes q.line) := fun l => by
    unfold Closed
    simp only [List.mem_append, List.mem_singleton]
    constructor
    · rintro ⟨x, hx | rfl, h⟩
      · exact .inl ⟨x, hx, h⟩
      · exact .inr h
    · rintro (⟨x, hx, h⟩ | h)
      · exact ⟨x, .inl hx, h⟩
      · exact ⟨q, .inr rfl, h⟩
  rw [e, e, h]

/-- One more request, in two histories that are alike. -/
theorem serial_alike [StdSort] {y : Ctx} (ha : Authenticated pwd l q.conn ↔ Authenticated pwd l' q.conn) (hcl : Closed l q.conn ↔ Closed l' q.conn)
    (h : Serial pwd c (l ++ [q]) c') (hy : Serial pwd c l' y) (hs : ∀ {x}, Serial pwd c l x → SameData x y) :
    ∃ d, Serial pwd c (l' ++ [q]) d ∧ SameData c' d := by
  obtain ⟨x, hx, hc1, ⟨s, s', h1, h2, he⟩ | ⟨h1, h2, h3, rfl⟩⟩ := serial_snoc h
  · have h4 := C51_logging_does_not_matter (pwd := pwd) (s := some s) (text := q.line) (hs hx)
    rw [he] at h4
    cases hz : execute pwd y (some s) q.line with
    | ub => rw [hz] at h4; exact h4.elim
    | done z =>
      obtain ⟨z, s2, r⟩ := z
      rw [hz] at h4
      obtain ⟨h5, rfl, rfl⟩ := h4
      refine ⟨z, .executed hy (fun h => hc1 (hcl.2 h)) ⟨?_, ?_⟩ (h2.imp_left ha.1) hz, h5⟩
      · rw [h1.1, ha]
      · rw [h1.2, hcl]
  · have e : q = ⟨q.conn, q.line, b!"AuthenticationError: not authenticated."⟩ := by rw [← h3]
    exact ⟨y, e ▸ .ignored hy (fun h => hc1 (hcl.2 h)) (fun h => h1 (ha.2 h)) h2, hs hx⟩

theorem without_alike (h : Without log log') : (Authenticated pwd log j ↔ Authenticated pwd log' j) ∧ (Closed log j ↔ Closed log' j) := by
  induction h with
  | nil => exact ⟨Iff.rfl, Iff.rfl⟩
  | keep _ ih => exact ⟨authenticated_add ih.1, closed_add ih.2⟩
  | drop _ hto _ ih => exact ⟨(authenticated_last hto).trans ih.1, (closed_last hto).trans ih.2⟩

/-- C120: without some questions and refused requests, the others are answered the same, and the data are the same in the end. -/
theorem C120_without [StdSort] (hc : Reachable c) (h : Serial pwd c log c') (hw : Without log log') : ∃ d, Serial pwd c log' d ∧ SameData c' d := by
  induction hw generalizing c' with
  | nil => exact ⟨c', h, rfl, rfl⟩
  | @keep l l' q hw ih =>
    obtain ⟨x, hx, _⟩ := serial_snoc h
    obtain ⟨y, hy, hs⟩ := ih hx
    refine serial_alike (without_alike (pwd := pwd) hw).1 (without_alike (pwd := pwd) hw).2 h hy fun hx' => ?_
    rw [(serial_det hx' hx rfl).2]; exact hs
  | @drop l l' q hq _ _ ih =>
    obtain ⟨x, hx, hs⟩ := C118_still (l1 := l) (l2 := [q]) hc h (by simpa using hq)
    obtain ⟨y, hy, hs'⟩ := ih hx
    exact ⟨y, hy, sameData_trans (sameData_symm hs) hs'⟩

/-- C120: an authenticated client can ask a question at any moment: it is answered from the data of this moment, and all other replies and the data in
the end are the same. -/
theorem C120_insert [StdSort] {a name : Str} {args : List Str} (hc : Reachable c) (h : Serial pwd c (l1 ++ l2) c') (hd : Serial pwd c l1 d)
    (ha : Authenticated pwd l1 i) (hcl : ¬ Closed l1 i) (hq : Statement line a name args) (hqu : Question name) (hto : ¬ ToConnection line)
    (he : execute pwd d s line = .done (x, s, r)) : ∃ y, Serial pwd c (l1 ++ ⟨i, line, r⟩ :: l2) y ∧ SameData c' y := by
  have hd1 : Serial pwd c (l1 ++ [⟨i, line, r⟩]) x :=
    .executed (s := ⟨true, true⟩) (s' := ⟨true, true⟩) hd hcl ⟨by simpa using ha, by simpa using hcl⟩ (.inl ha) (execute_anyone hto he _ _)
  have hs := (C33_questions_change_nothing (serial_reachable hc hd) hq hqu he).1
  have key : ∀ l2 c', Serial pwd c (l1 ++ l2) c' → ∃ y, Serial pwd c (l1 ++ [⟨i, line, r⟩] ++ l2) y ∧ SameData c' y := by
    intro l2
    induction l2 using List.reverseRecOn with
    | nil =>
      intro c' h
      rw [List.append_nil] at h
      rw [(serial_det h hd rfl).2]
      exact ⟨x, by simpa using hd1, hs⟩
    | append_singleton l2 q ih =>
      intro c' h
      rw [← List.append_assoc] at h
      obtain ⟨z, hz, _⟩ := serial_snoc h
      obtain ⟨y, hy, hzy⟩ := ih z hz
      rw [← List.append_assoc]
      refine serial_alike (authenticated_skip (q := ⟨i, line, r⟩) hto).symm (closed_skip (q := ⟨i, line, r⟩) hto).symm h hy fun hx' => ?_
      rw [(serial_det hx' hz rfl).2]; exact hzy
  simpa using key l2 c' h

/-- C120: for every schedule of the server. -/
theorem C120_server [StdSort] {es : List Event} {s : Server} (hc : Reachable c) (h : run (Server.init pwd c) es = some (.done s)) :
    ∃ log, Explains pwd c es s log ∧ ∀ log', Without log log' → ∃ d, Serial pwd c log' d ∧ SameData s.ctx d := by
  obtain ⟨log, hl⟩ := C44_serialized hc h
  exact ⟨log, hl, fun log' hw => C120_without hc hl.serial hw⟩

/-! ### Cases -/

theorem ask_variable {line name : Str} {args : List Str} (h : Statement line b!"seen" name args) : ¬ ToConnection line := by
  rintro ⟨n, l, h'⟩
  exact absurd (statement_unique h' h).1 (by decide)

/-- Without a refused request and a question. -/
theorem ask_without : Without stillLog
    [⟨0, b!"seen add: \"ann\";", b!"null"⟩, ⟨1, b!"seen get;", b!"{\"ann\"}"⟩, ⟨0, b!"seen get;", b!"{\"ann\"}"⟩,
      ⟨0, b!"seen clear;", b!"null"⟩, ⟨1, b!"seen get;", b!"{}"⟩] :=
  .keep (l := stillLog.take 6) (l' := [_, _, _, _]) <| .keep (l := stillLog.take 5) (l' := [_, _, _]) <|
    .keep (l := stillLog.take 4) (l' := [_, _]) <|
    .drop (l := stillLog.take 3) still_size (ask_variable (reads (by kernel_rfl) : Statement _ _ b!"size" [])) <|
    .drop (l := stillLog.take 2) still_foo (ask_variable (reads (by kernel_rfl) : Statement _ _ b!"foo" [])) <|
    .keep (l := stillLog.take 1) (l' := [_]) <| .keep (l := []) (l' := []) .nil

example [StdSort] := C120_without growStart_reachable still_serial ask_without

theorem ask_serial [StdSort] : Serial [] growStart (stillLog.take 1) { fresh with vars := [(b!"seen", .set b!"String" [.string b!"ann"])] } :=
  serially_serial (ls := [(0, b!"seen add: \"ann\";")]) .nil (by simp) (by kernel_rfl)
/-- Client 3 asks for the size before the set is cleared. -/
example [StdSort] := C120_insert (i := 3) (line := b!"seen size;") (r := b!"1") (s := none)
  (x := { fresh with vars := [(b!"seen", .set b!"String" [.string b!"ann"])] })
  (l1 := stillLog.take 1) (l2 := stillLog.drop 1) growStart_reachable still_serial ask_serial (.inl rfl)
  (by rintro ⟨q, hq, h, _⟩; cases List.mem_singleton.1 hq; exact absurd h (by decide)) (reads (by kernel_rfl) : Statement _ b!"seen" b!"size" [])
  (by decide) (ask_variable (reads (by kernel_rfl) : Statement _ _ b!"size" [])) (by kernel_rfl)
example [StdSort] := C120_server growStart_reachable grow_run.choose_spec.1

end Knuckle.Props

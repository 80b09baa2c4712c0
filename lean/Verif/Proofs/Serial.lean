/-
Facts about serial executions.
-/
import Verif.Proofs.Server
import Verif.Proofs.Data
import Verif.Proofs.Clean
import Mathlib.Data.List.Induction

namespace Knuckle

open Spec

theorem sessionAfter_unique {pwd : Str} {log : List Request} {i : Nat} {s t : Session} (h : SessionAfter pwd log i s)
    (h' : SessionAfter pwd log i t) : s = t := by
  obtain ⟨a, b⟩ := s
  obtain ⟨a', b'⟩ := t
  have h1 := h.1.trans h'.1.symm
  have h2 := h.2.trans h'.2.symm
  simp only at h1 h2
  rw [Bool.eq_iff_iff.2 h1, Bool.eq_iff_iff.2 h2]

/-- The last step of a serial execution. -/
theorem serial_snoc [StdSort] {pwd : Str} {c c' : Ctx} {log : List Request} {q : Request} (h : Serial pwd c (log ++ [q]) c') :
    ∃ d, Serial pwd c log d ∧ ¬ Closed log q.conn ∧
      ((∃ s s', SessionAfter pwd log q.conn s ∧ (Authenticated pwd log q.conn ∨ ToConnection q.line) ∧
          execute pwd d (some s) q.line = .done (c', some s', q.reply)) ∨
        (¬ Authenticated pwd log q.conn ∧ ¬ ToConnection q.line ∧ q.reply = b!"AuthenticationError: not authenticated." ∧ c' = d)) := by
  generalize hl : log ++ [q] = l at h
  cases h with
  | nil => simp at hl
  | executed h1 h2 h3 h4 h5 =>
    obtain ⟨rfl, e⟩ := List.append_inj' hl rfl
    cases e
    exact ⟨_, h1, h2, .inl ⟨_, _, h3, h4, h5⟩⟩
  | ignored h1 h2 h3 h4 =>
    obtain ⟨rfl, e⟩ := List.append_inj' hl rfl
    cases e
    exact ⟨_, h1, h2, .inr ⟨h3, h4, rfl, rfl⟩⟩

theorem serial_prefix [StdSort] {pwd : Str} {c c' : Ctx} {l1 l2 : List Request} (h : Serial pwd c (l1 ++ l2) c') : ∃ d, Serial pwd c l1 d := by
  induction l2 using List.reverseRecOn generalizing c' with
  | nil => exact ⟨c', by simpa using h⟩
  | append_singleton l2 q ih =>
    rw [← List.append_assoc] at h
    obtain ⟨d, hd, _⟩ := serial_snoc h
    exact ih hd

/-- The lines of a log and where they came from. -/
def lines (log : List Request) : List (Nat × Str) := log.map fun q => (q.conn, q.line)

theorem authenticated_lines {pwd : Str} {l l' : List Request} (h : lines l = lines l') (i : Nat) :
    Authenticated pwd l i ↔ Authenticated pwd l' i := by
  have key : ∀ l : List Request, (∃ q ∈ l, q.conn = i ∧ Presents pwd q.line) ↔ ∃ x ∈ lines l, x.1 = i ∧ Presents pwd x.2 := by
    intro l; simp [lines]
  unfold Authenticated; rw [key, key, h]

theorem closed_lines {l l' : List Request} (h : lines l = lines l') (i : Nat) : Closed l i ↔ Closed l' i := by
  have key : ∀ l : List Request, Closed l i ↔ ∃ x ∈ lines l, x.1 = i ∧ Closes x.2 := by
    intro l; simp [lines, Closed]
  rw [key, key, h]

theorem serial_det [StdSort] {pwd : Str} {c c1 c2 : Ctx} {l1 l2 : List Request} (h1 : Serial pwd c l1 c1) (h2 : Serial pwd c l2 c2)
    (h : lines l1 = lines l2) : l1 = l2 ∧ c1 = c2 := by
  induction l1 using List.reverseRecOn generalizing l2 c1 c2 with
  | nil =>
    cases l2 with
    | nil =>
      have e : ∀ x, Serial pwd c [] x → x = c := by
        intro x hx
        generalize hl : ([] : List Request) = l at hx
        cases hx with
        | nil => rfl
        | _ => simp at hl
      rw [e _ h1, e _ h2]; exact ⟨rfl, rfl⟩
    | cons => simp [lines] at h
  | append_singleton l1 q ih =>
    cases l2 using List.reverseRecOn with
    | nil => simp [lines] at h
    | append_singleton l2 q' =>
      have hh : lines l1 = lines l2 ∧ (q.conn, q.line) = (q'.conn, q'.line) := by
        unfold lines at h
        rw [List.map_append, List.map_append] at h
        obtain ⟨e1, e2⟩ := List.append_inj' h rfl
        exact ⟨e1, by simpa using e2⟩
      obtain ⟨hl, hq⟩ := hh
      obtain ⟨qi, ql, qr⟩ := q
      obtain ⟨qi', ql', qr'⟩ := q'
      simp only [Prod.mk.injEq] at hq
      obtain ⟨rfl, rfl⟩ := hq
      obtain ⟨d1, s1, _, a1⟩ := serial_snoc h1
      obtain ⟨d2, s2, _, a2⟩ := serial_snoc h2
      obtain ⟨rfl, rfl⟩ := ih s1 s2 hl
      rcases a1 with ⟨s, s', b1, b2, b3⟩ | ⟨b1, b2, b3, b4⟩ <;> rcases a2 with ⟨t, t', e1, e2, e3⟩ | ⟨e1, e2, e3, e4⟩
      · cases sessionAfter_unique b1 e1
        simp only at b3 e3
        rw [b3] at e3
        cases e3; exact ⟨rfl, rfl⟩
      · exact absurd b2 (by simp only at e1 e2 ⊢; rintro (h | h); exacts [e1 h, e2 h])
      · exact absurd e2 (by simp only at b1 b2 ⊢; rintro (h | h); exacts [b1 h, b2 h])
      · simp only at b3 e3
        subst b3 e3 b4 e4; exact ⟨rfl, rfl⟩

/-! ### Statements to `Connection` -/

theorem execute_toConnection [StdSort] {pwd : Str} (c : Ctx) (s : Session) {line n : Str} {l : List Str}
    (h : Statement line b!"Connection" n l) :
    execute pwd c (some s) line = finish line (onConn c (s.receive pwd n l)) := by
  rw [execute_statement pwd c _ _ _ _ _ h, executeParsed_connection _ _ _ _ (by simp [isConnection])]

theorem session_receive_cases (pwd : Str) (s : Session) (n : Str) (l : List Str) :
    (∃ t r, s.receive pwd n l = .ret t r) ∨ ∃ e, s.receive pwd n l = .thr s e := by
  have := session_does pwd s n l
  generalize hy : s.receive pwd n l = y at this
  cases this <;> first | exact .inl ⟨_, _, rfl⟩ | exact .inr ⟨_, rfl⟩

/-- The reply to a statement to `Connection`. -/
def connectionReply (pwd n : Str) (l : List Str) : Str := match (⟨true, false⟩ : Session).receive pwd n l with
  | .ret _ r => r
  | .thr _ e => e.text
  | .ub => []

theorem toConnection_reply [StdSort] {pwd : Str} (c : Ctx) (s : Session) {line n : Str} {l : List Str}
    (h : Statement line b!"Connection" n l) :
    ∃ t, execute pwd c (some s) line = .done (c.record line (connectionReply pwd n l), some t, connectionReply pwd n l) := by
  rw [execute_toConnection c s h]
  have e : ∀ s : Session, s.receive pwd n l = (Session.receive pwd ⟨true, false⟩ n l).mapS (fun t =>
      ⟨s.connected && t.connected, s.authed || t.authed⟩) := by
    intro s
    unfold Session.receive
    split
    · simp [Run.mapS]
    split
    · match l with
      | [] => simp [op1, Run.mapS]
      | _ :: _ :: _ => simp [op1, Run.mapS]
      | [a] =>
        simp only [op1]
        split
        · simp [Res.run, Run.mapS]
        · cases stringLit a with
          | ub => rfl
          | err x => simp [Res.run, Run.mapS]
          | ok v =>
            simp only [Res.bind_ok]
            split <;> simp [Res.run, Run.mapS]
    · simp [Run.mapS]
  rw [e s]
  unfold connectionReply
  rcases session_receive_cases pwd ⟨true, false⟩ n l with ⟨t, r, hr⟩ | ⟨x, hr⟩ <;> rw [hr]
  · exact ⟨_, rfl⟩
  · exact ⟨_, rfl⟩

/-- Statements to `Connection` change no data. -/
theorem toConnection_sameData [StdSort] {pwd : Str} {c c' : Ctx} {s : Session} {s' : Option Session} {line r : Str} (h : ToConnection line)
    (he : execute pwd c (some s) line = .done (c', s', r)) : SameData c c' := by
  obtain ⟨n, l, hs⟩ := h
  obtain ⟨t, e⟩ := toConnection_reply c s hs (pwd := pwd)
  rw [e] at he
  cases he; exact sameData_record _ _ _

/-! ### Purging -/

theorem sameData_trans {a b c : Ctx} (h : SameData a b) (h' : SameData b c) : SameData a c := ⟨h'.1.trans h.1, h'.2.trans h.2⟩
theorem sameData_symm {a b : Ctx} (h : SameData a b) : SameData b a := ⟨h.1.symm, h.2.symm⟩

theorem authenticated_filter {pwd : Str} {log : List Request} {i j : Nat} (h : j ≠ i) :
    Authenticated pwd (log.filter fun q => q.conn != i) j ↔ Authenticated pwd log j := by
  unfold Authenticated
  refine or_congr Iff.rfl ⟨?_, ?_⟩
  · rintro ⟨q, hq, h1⟩; exact ⟨q, List.mem_of_mem_filter hq, h1⟩
  · rintro ⟨q, hq, h1, h2⟩; exact ⟨q, List.mem_filter.2 ⟨hq, by simp [h1, h]⟩, h1, h2⟩

theorem closed_filter {log : List Request} {i j : Nat} (h : j ≠ i) :
    Closed (log.filter fun q => q.conn != i) j ↔ Closed log j := by
  unfold Closed
  constructor
  · rintro ⟨q, hq, h1⟩; exact ⟨q, List.mem_of_mem_filter hq, h1⟩
  · rintro ⟨q, hq, h1, h2⟩; exact ⟨q, List.mem_filter.2 ⟨hq, by simp [h1, h]⟩, h1, h2⟩

theorem serial_purge [StdSort] {pwd : Str} {c c' : Ctx} {log : List Request} (h : Serial pwd c log c') (i : Nat)
    (hn : ¬ Authenticated pwd log i) : ∃ d, Serial pwd c (log.filter fun q => q.conn != i) d ∧ SameData c' d := by
  induction log using List.reverseRecOn generalizing c' with
  | nil =>
    generalize hl : ([] : List Request) = l at h
    cases h with
    | nil => exact ⟨c, .nil, rfl, rfl⟩
    | _ => simp at hl
  | append_singleton log q ih =>
    obtain ⟨d, hd, hcl, hq⟩ := serial_snoc h
    rw [authenticated_snoc] at hn
    simp only [not_or] at hn
    obtain ⟨x, hx, hsx⟩ := ih hd hn.1
    rw [List.filter_append]
    by_cases hi : q.conn = i
    · have : [q].filter (fun q => q.conn != i) = [] := by simp [hi]
      rw [this, List.append_nil]
      refine ⟨x, hx, ?_⟩
      rcases hq with ⟨s, s', h1, h2, h3⟩ | ⟨_, _, _, rfl⟩
      · have hc : ToConnection q.line := h2.resolve_left (hi ▸ hn.1)
        exact sameData_trans (sameData_symm (toConnection_sameData hc h3)) hsx
      · exact hsx
    · have : [q].filter (fun q => q.conn != i) = [q] := by simp [hi]
      rw [this]
      have hcl' := mt (closed_filter hi).1 hcl
      rcases hq with ⟨s, s', h1, h2, h3⟩ | ⟨h1, h2, h3, rfl⟩
      · have hs := execute_sameData pwd (some s) q.line hsx
        rw [h3] at hs
        cases he : execute pwd x (some s) q.line with
        | ub => rw [he] at hs; exact hs.elim
        | done y =>
          obtain ⟨y1, y2, y3⟩ := y
          rw [he] at hs
          obtain ⟨e1, e2, e3⟩ := hs
          subst e2 e3
          refine ⟨y1, .executed hx hcl' ?_ (h2.imp_left (authenticated_filter hi).2) he, e1⟩
          unfold SessionAfter
          rw [authenticated_filter hi, closed_filter hi]; exact h1
      · obtain ⟨a, b, r⟩ := q
        simp only at h3
        subst h3
        exact ⟨x, .ignored hx hcl' (mt (authenticated_filter hi).1 h1) h2, hsx⟩

/-! ### Replies -/

theorem serial_Q [StdSort] {Q : Byte → Prop} (hQ : ∀ b, Printable b → Q b) {pwd : Str} {c c' : Ctx} {log : List Request}
    (hc : Reachable c) (hq : QCtx Q c) (h : Serial pwd c log c') (hl : ∀ q ∈ log, AllB Q q.line) :
    QCtx Q c' ∧ ∀ q ∈ log, AllB Q q.reply := by
  induction h with
  | nil => exact ⟨hq, by simp⟩
  | executed hs _ _ _ he ih =>
    obtain ⟨h1, h2⟩ := ih fun q hq => hl q (by simp [hq])
    obtain ⟨h3, h4⟩ := execute_Q hQ (reachable_inv (serial_reachable hc hs)) h1 (hl _ (List.mem_append_right _ (List.mem_singleton_self _))) he
    refine ⟨h3, fun q hq => ?_⟩
    rcases List.mem_append.1 hq with hq | hq
    · exact h2 q hq
    · rw [List.mem_singleton.1 hq]; exact h4
  | ignored hs _ _ _ ih =>
    obtain ⟨h1, h2⟩ := ih fun q hq => hl q (by simp [hq])
    refine ⟨h1, fun q hq => ?_⟩
    rcases List.mem_append.1 hq with hq | hq
    · exact h2 q hq
    · rw [List.mem_singleton.1 hq]; exact allB_lit hQ (s := b!"AuthenticationError: not authenticated.") (by decide)

/-! ### Lines of a stream -/

theorem wire_inj {a b : List Str} {x y : Str} (ha : ∀ l ∈ a, (10 : Byte) ∉ l) (hb : ∀ l ∈ b, (10 : Byte) ∉ l) (hx : (10 : Byte) ∉ x)
    (hy : (10 : Byte) ∉ y) (h : wire a ++ x = wire b ++ y) : a = b ∧ x = y := by
  have cons : ∀ (l : Str) (ls : List Str) (z : Str), wire (l :: ls) ++ z = l ++ 10 :: (wire ls ++ z) := by intro l ls z; simp [wire]
  induction a generalizing b with
  | nil =>
    cases b with
    | nil => exact ⟨rfl, by simpa [wire] using h⟩
    | cons l ls =>
      exfalso; apply hx
      have : x = l ++ 10 :: (wire ls ++ y) := by rw [← cons, ← h]; simp [wire]
      rw [this]; simp
  | cons l ls ih =>
    cases b with
    | nil =>
      exfalso; apply hy
      have : y = l ++ 10 :: (wire ls ++ x) := by rw [← cons, h]; simp [wire]
      rw [this]; simp
    | cons m ms =>
      rw [cons, cons] at h
      have e1 := splitLine_append l (wire ls ++ x) (ha l (by simp))
      have e2 := splitLine_append m (wire ms ++ y) (hb m (by simp))
      rw [h, e2] at e1
      obtain ⟨e3, e4⟩ := Prod.mk.inj (Option.some.inj e1)
      obtain ⟨h1, h2⟩ := ih (b := ms) (fun z hz => ha z (by simp [hz])) (fun z hz => hb z (by simp [hz])) e4.symm
      exact ⟨by rw [h1, e3], h2⟩

end Knuckle

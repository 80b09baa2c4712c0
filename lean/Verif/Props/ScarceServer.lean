/-
C92: the server on a machine whose memory can run out.
-/
import Verif.Proofs.ScarceServer
import Verif.Props.Server
import Verif.Props.Crash

namespace Knuckle.Props

open Spec
open Heap (PosSort HCtx Stands)
open Scarce (Supply SServer Next Fate)

variable {pwd : Str} {c c' : Ctx} {prec : Int} {eps : Fl} {fileOpen quiet : Bool} {lost : Nat} {s s' : SServer} {t : Server}
  {es : List Event} {xs : List (Event × Supply × Supply)} {e : Event} {f g : Supply} {log : List Piece} {i : Nat} {k : Conn}

theorem srel_init [PosSort] : SRel (SServer.init pwd (HCtx.init prec eps fileOpen quiet)) (Server.init pwd (Ctx.init prec eps fileOpen quiet)) :=
  ⟨rfl, stands_init prec eps fileOpen quiet, rfl, rfl⟩

theorem scarce_explained [PosSort] (he : eps.toF32 = eps)
    (h : Scarce.run lost (SServer.init pwd (HCtx.init prec eps fileOpen quiet)) xs = some (.done s)) :
    ∃ t log, SRel s t ∧ @ScarceExplains Heap.stdSortOf lost pwd (Ctx.init prec eps fileOpen quiet) (xs.map (·.1)) t log ∧
      ∀ q ∈ log, ∃ e g, (e, q.memory, g) ∈ xs := by
  let _ := Heap.stdSortOf
  obtain ⟨t, log, h1, h2, h3⟩ := scarce_run (.init _ _ _ _ he) (scarceExplains_init lost pwd (Ctx.init prec eps fileOpen quiet)) srel_init h
  exact ⟨t, log, h1, by simpa using h2, h3⟩

/-- C92: whatever the schedule and wherever memory runs out, as long as the process lives its state is explained by a serial execution of
pieces of what the clients sent (`Spec.ScarceExplains`): the connections are as the log says, and the context answers all requests to come as
the one of the specification. -/
theorem C92_explained [PosSort] (he : eps.toF32 = eps)
    (h : Scarce.run lost (SServer.init pwd (HCtx.init prec eps fileOpen quiet)) xs = some (.done s)) :
    ∃ c log, @ScarceExplains Heap.stdSortOf lost pwd (Ctx.init prec eps fileOpen quiet) (xs.map (·.1)) ⟨s.pwd, c, s.conns, s.accepting⟩ log ∧
      (∀ q ∈ log, ∃ e g, (e, q.memory, g) ∈ xs) ∧
      ∀ qs, transcript Heap.execute s.ctx qs = transcript (@Knuckle.execute Heap.stdSortOf) c qs := by
  let _ := Heap.stdSortOf
  obtain ⟨t, log, h1, h2, h3⟩ := scarce_explained he h
  refine ⟨t.ctx, log, ?_, h3, fun qs => transcript_same h1.ctx qs⟩
  rw [h1.pwd, h1.conns, h1.accepting]; exact h2

/-- C92: the next event: the process ends, a vector is left unspecified or behaviour is undefined only for the causes named
(`Spec.EndsProcess`, `Spec.Unsorted`, `Spec.Undefined`). -/
theorem C92_next [PosSort] (he : eps.toF32 = eps)
    (h : Scarce.run lost (SServer.init pwd (HCtx.init prec eps fileOpen quiet)) xs = some (.done s)) (e : Event) (f g : Supply) :
    ∃ c log, @ScarceExplains Heap.stdSortOf lost pwd (Ctx.init prec eps fileOpen quiet) (xs.map (·.1)) ⟨s.pwd, c, s.conns, s.accepting⟩ log ∧
      (Scarce.step lost s e f g = some .dies → @EndsProcess Heap.stdSortOf ⟨s.pwd, c, s.conns, s.accepting⟩ e f g) ∧
      (Scarce.step lost s e f g = some .unspecified → Unsorted ⟨s.pwd, c, s.conns, s.accepting⟩ e f) ∧
      (Scarce.step lost s e f g = some .ub → Undefined ⟨s.pwd, c, s.conns, s.accepting⟩ e) := by
  let _ := Heap.stdSortOf
  obtain ⟨t, log, h1, h2, -⟩ := scarce_explained he h
  refine ⟨t.ctx, log, ?_⟩
  have h3 := scarce_step (.init _ _ _ _ he) h2 h1 e f g
  rw [h1.pwd, h1.conns, h1.accepting]
  refine ⟨h2, fun e1 => ?_, fun e1 => ?_, fun e1 => ?_⟩ <;> rw [e1] at h3 <;> exact h3

/-- C92: if no allocation is refused, the server is the usual one. -/
theorem C92_enough [PosSort] (he : eps.toF32 = eps) (hx : ∀ x ∈ xs, ¬ Refused x.2.1 ∧ ¬ Refused x.2.2) :
    match Scarce.run lost (SServer.init pwd (HCtx.init prec eps fileOpen quiet)) xs,
      @Knuckle.run Heap.stdSortOf (Server.init pwd (Ctx.init prec eps fileOpen quiet)) (xs.map (·.1)) with
    | none, none => True
    | some .ub, some .ub => True
    | some (.done s), some (.done t) => s.conns = t.conns ∧ s.accepting = t.accepting ∧
        ∀ qs, transcript Heap.execute s.ctx qs = transcript (@Knuckle.execute Heap.stdSortOf) t.ctx qs
    | _, _ => False := by
  let _ := Heap.stdSortOf
  have key : ∀ (xs : List (Event × Supply × Supply)), (∀ x ∈ xs, ¬ Refused x.2.1 ∧ ¬ Refused x.2.2) →
      ∀ {es : List Event} {s : SServer} {t : Server} {log : List Request},
      Explains pwd (Ctx.init prec eps fileOpen quiet) es t log → SRel s t → SameNext (Scarce.run lost s xs) (Knuckle.run t (xs.map (·.1))) := by
    intro xs
    induction xs with
    | nil => intro _ es s t log _ hr; exact hr
    | cons x xs ih =>
      intro hx es s t log h hr
      obtain ⟨e, f, g⟩ := x
      have hr0 : Reachable (Ctx.init prec eps fileOpen quiet) := .init _ _ _ _ he
      have h1 := scarce_enough (lost := lost) (reachable_inv (serial_reachable hr0 h.serial)) hr e
        (hx _ List.mem_cons_self).1 (hx _ List.mem_cons_self).2
      simp only [Scarce.run, List.map_cons, Knuckle.run]
      generalize Scarce.step lost s e f g = y at h1
      cases hz : step t e with
      | none =>
        rw [hz] at h1
        match y, h1 with
        | none, _ => trivial
      | some z =>
        rw [hz] at h1
        cases z with
        | ub =>
          match y, h1 with
          | some .ub, _ => trivial
        | done t1 =>
          match y, h1 with
          | some (.done s1), h1 =>
            obtain ⟨l1, h2⟩ := explains_step hr0 h hz
            exact ih (fun x hm => hx x (List.mem_cons_of_mem _ hm)) h2 h1
  have := key xs hx (explains_init pwd (Ctx.init prec eps fileOpen quiet)) srel_init
  revert this
  generalize Scarce.run lost (SServer.init pwd (HCtx.init prec eps fileOpen quiet)) xs = y
  generalize Knuckle.run (Server.init pwd (Ctx.init prec eps fileOpen quiet)) (xs.map (·.1)) = z
  intro h
  match y, z, h with
  | none, none, _ => trivial
  | some .ub, some .ub, _ => trivial
  | some (.done s), some (.done t), h => exact ⟨h.conns, h.accepting, fun qs => transcript_same h.ctx qs⟩

/-- C92: the data is data that a server with enough memory can have. -/
theorem C92_as_if [StdSort] (hc : Reachable c) (h : ScarceExplains lost pwd c es t log) : ∃ d, Reachable d ∧ SameData d t.ctx :=
  scarceSerial_as_if hc ⟨rfl, rfl⟩ h.serial

/-- C92: a connection whose reads were never refused memory is served in whole lines. -/
theorem C92_lines [StdSort] (h : ScarceExplains lost pwd c es t log) (hk : t.conns[i]? = some k)
    (hm : ∀ q ∈ log, q.conn = i → ¬ Refused q.memory) :
    received i es = wire ((piecesOf i log).map fun q => q.line) ++ k.inbuf := by
  rw [h.input i k hk, wire, List.map_map]
  congr 2
  refine List.map_congr_left fun q hq => ?_
  obtain ⟨h1, h2⟩ := List.mem_filter.1 hq
  rcases (h.taken q h1).2 with h3 | ⟨h3, -⟩
  · simp [h3]
  · exact absurd h3 (hm q h1 (by simpa using h2))

/-- C92: on a server with a password, a connection is authenticated only if the password is presented in what it has sent. -/
theorem C92_only_the_password [StdSort] (h : ScarceExplains lost pwd c es t log) (hk : t.conns[i]? = some k) (ha : k.sess.authed = true) :
    pwd = [] ∨ ∃ before line rest, received i es = before ++ line ++ rest ∧ Presents pwd line := by
  rcases (h.session i k hk).1.1 ha with h1 | ⟨q, hq, hi, hp⟩
  · exact .inl h1
  · obtain ⟨p, h2, rfl, -⟩ := mem_agreed.1 hq
    obtain ⟨l, l', e⟩ : ∃ l l', piecesOf i log = l ++ p :: l' := List.append_of_mem (List.mem_filter.2 ⟨h2, by simpa using hi⟩)
    refine .inr ⟨(l.map fun q => q.line ++ q.skipped).flatten, p.line,
      p.skipped ++ (l'.map fun q => q.line ++ q.skipped).flatten ++ k.inbuf, ?_, hp⟩
    rw [h.input i k hk, e]
    simp

theorem scarcely_connection [StdSort] {s0 : Session} {s1 : Option Session} {line r : Str} (hi : Inv c) (ht : ToConnection line)
    (h : Scarcely pwd c (some s0) line f c' s1 r) : SameData c c' ∧
      r ∈ [b!"null", b!"RuntimeError: wrong number of arguments.", b!"RuntimeError: invalid argument.", b!"AuthenticationError: wrong password.",
        b!"RuntimeError: invalid message.", b!"RuntimeError: unknown error."] := by
  have ord : ∀ {x : Ctx} {s1 : Option Session} {r : Str}, execute pwd c (some s0) line = .done (x, s1, r) → SameData c x ∧
      r ∈ [b!"null", b!"RuntimeError: wrong number of arguments.", b!"RuntimeError: invalid argument.", b!"AuthenticationError: wrong password.",
        b!"RuntimeError: invalid message.", b!"RuntimeError: unknown error."] := by
    intro x s1 r e
    refine ⟨toConnection_sameData ht e, ?_⟩
    obtain ⟨n, l, hst⟩ := ht
    rw [execute_toConnection c s0 hst] at e
    have hd := session_does pwd s0 n l
    generalize s0.receive pwd n l = y at hd e
    cases hd <;> cases e <;> simp [Exc.text]
  cases h with
  | ordinary e => exact ord e
  | cut _ e hf _ _ _ =>
    obtain ⟨n, l, hst⟩ := ht
    rcases hf with ⟨n', m, l, i, hs', hn, -⟩ | ⟨l, hs'⟩
    · obtain ⟨rfl, -⟩ := statement_same hst hs'
      exact absurd ((hi.vars _ (lookup_some_mem hn)).1) actor_connection_not_variable
    · exact absurd (statement_same hst hs').1 (by decide)
  | nothing _ h1 => exact ⟨h1, by simp⟩
  | interrupted _ hs' hn =>
    obtain ⟨n, l, hst⟩ := ht
    obtain ⟨rfl, -⟩ := statement_same hst hs'
    exact absurd ((hi.vars _ (lookup_some_mem hn)).1) actor_connection_not_variable

/-- C92: a request of a connection that is not authenticated changes no data, and its reply tells nothing about the data. -/
theorem C92_stranger [StdSort] {q : Piece} (hc : Reachable c) (h : ScarceSerial pwd c (log ++ [q]) c')
    (hn : ¬ Authenticated pwd (agreed log) q.conn) :
    ∃ d, ScarceSerial pwd c log d ∧ SameData d c' ∧
      q.reply ∈ [b!"AuthenticationError: not authenticated.", b!"null", b!"RuntimeError: wrong number of arguments.",
        b!"RuntimeError: invalid argument.", b!"AuthenticationError: wrong password.", b!"RuntimeError: invalid message.",
        b!"RuntimeError: unknown error."] := by
  obtain ⟨d, h1, -, ⟨s0, s1, -, h2, h3⟩ | ⟨-, -, h2, rfl⟩⟩ := scarceSerial_snoc h
  · obtain ⟨h4, h5⟩ := scarcely_connection (scarceSerial_inv hc h1) (h2.resolve_left hn) h3
    exact ⟨d, h1, h4, List.mem_cons_of_mem _ h5⟩
  · exact ⟨c', h1, ⟨rfl, rfl⟩, by rw [h2]; exact List.mem_cons_self⟩

theorem scarcely_sameData [StdSort] {d : Ctx} {s0 s1 : Option Session} {text r : Str} (hs : SameData c d)
    (h : Scarcely pwd c s0 text f c' s1 r) : ∃ d', SameData c' d' ∧ Scarcely pwd d s0 text f d' s1 r := by
  have ord : ∀ {x : Ctx} {s1 : Option Session} {r : Str}, execute pwd c s0 text = .done (x, s1, r) →
      ∃ y, execute pwd d s0 text = .done (y, s1, r) ∧ SameData x y := by
    intro x s1 r e
    have h1 := execute_sameData pwd s0 text hs
    rw [e] at h1
    cases hx : execute pwd d s0 text with
    | ub => rw [hx] at h1; exact h1.elim
    | done y =>
      obtain ⟨d1, s1', r1'⟩ := y
      rw [hx] at h1
      obtain ⟨h2, rfl, rfl⟩ := h1
      exact ⟨_, rfl, h2⟩
  have mk : ∀ (v : Ctx) (r : Str), Recorded d (({ d with vars := v.vars, cfg := v.cfg } : Ctx).record text r) text r ∧
      SameData v (({ d with vars := v.vars, cfg := v.cfg } : Ctx).record text r) := fun v r =>
    ⟨Scarce.recorded_of rfl rfl rfl rfl, ⟨by rw [record_vars], by rw [record_cfg]⟩⟩
  cases h with
  | ordinary e =>
    obtain ⟨y, h1, h2⟩ := ord e
    exact ⟨y, h2, .ordinary h1⟩
  | cut hf e h1 h2 h3 h4 =>
    obtain ⟨y, h5, h6⟩ := ord e
    refine ⟨_, (mk c' r).2, .cut hf h5 ?_ (by rw [hs.2]; exact h2) (sameData_trans (sameData_symm h6) (sameData_trans h3 (mk c' r).2)) (mk c' r).1⟩
    rcases h1 with ⟨n, name, args, i, h7, h8, h9⟩ | h7
    · exact .inl ⟨n, name, args, i, h7, by unfold Holds; rw [hs.1]; exact h8, h9⟩
    · exact .inr h7
  | nothing hf h1 h2 => exact ⟨_, (mk c' _).2, .nothing hf (sameData_trans (sameData_symm hs) (sameData_trans h1 (mk c' _).2)) (mk c' _).1⟩
  | @interrupted _ n name args i i' hf h1 h2 h3 h4 h5 =>
    refine ⟨_, (mk c' _).2, .interrupted hf h1 (by unfold Holds; rw [hs.1]; exact h2) (by rw [hs.2]; exact h3) ?_ (mk c' _).1⟩
    refine ⟨by rw [record_cfg, hs.2]; exact h4.1, by rw [record_vars, hs.1]; exact h4.2.1, fun m => ?_⟩
    rw [record_vars, hs.1]; exact h4.2.2 m

theorem agreed_filter (log : List Piece) (i : Nat) :
    agreed (log.filter fun q => q.conn != i) = (agreed log).filter fun q => q.conn != i := by
  induction log with
  | nil => rfl
  | cons q log ih =>
    have e : ∀ (l : List Piece), agreed (q :: l) = agreed [q] ++ agreed l := fun l => agreed_append [q] l
    rw [List.filter_cons, e log, List.filter_append, ← ih]
    split
    · rename_i h
      rw [e]
      congr 1
      unfold agreed
      simp only [List.map_cons, List.map_nil, List.filter_cons, List.filter_nil]
      split
      · simp only [List.filter_cons, List.filter_nil]; rw [if_pos h]
      · rfl
    · rename_i h
      have : (agreed [q]).filter (fun q => q.conn != i) = [] := by
        unfold agreed
        simp only [List.map_cons, List.map_nil, List.filter_cons, List.filter_nil]
        split
        · simp only [List.filter_cons, List.filter_nil]; rw [if_neg h]
        · rfl
      rw [this, List.nil_append]

/-- C92: a connection that is not authenticated makes no difference to the others: without its requests they can get the same replies, and
the data is the same. -/
theorem C92_noninterference [StdSort] (hc : Reachable c) (h : ScarceSerial pwd c log c') (hn : ¬ Authenticated pwd (agreed log) i) :
    ∃ d, ScarceSerial pwd c (log.filter fun q => q.conn != i) d ∧ SameData c' d := by
  induction log using List.reverseRecOn generalizing c' with
  | nil =>
    generalize hl : ([] : List Piece) = l at h
    cases h with
    | nil => exact ⟨c, .nil, rfl, rfl⟩
    | _ => simp at hl
  | append_singleton log q ih =>
    obtain ⟨d, hd, hcl, hq⟩ := scarceSerial_snoc h
    rw [agreed_authenticated_snoc] at hn
    simp only [not_or] at hn
    obtain ⟨x, hx, hsx⟩ := ih hd hn.1
    rw [List.filter_append]
    by_cases hi : q.conn = i
    · have : [q].filter (fun q => q.conn != i) = [] := by simp [hi]
      rw [this, List.append_nil]
      refine ⟨x, hx, ?_⟩
      rcases hq with ⟨s, s', h1, h2, h3⟩ | ⟨_, _, _, rfl⟩
      · have hto : ToConnection q.line := h2.resolve_left (hi ▸ hn.1)
        exact sameData_trans (sameData_symm (scarcely_connection (scarceSerial_inv hc hd) hto h3).1) hsx
      · exact hsx
    · have : [q].filter (fun q => q.conn != i) = [q] := by simp [hi]
      rw [this]
      have hcl' : ¬ Closed (agreed (log.filter fun q => q.conn != i)) q.conn := by rw [agreed_filter, closed_filter hi]; exact hcl
      have hau : Authenticated pwd (agreed (log.filter fun q => q.conn != i)) q.conn ↔ Authenticated pwd (agreed log) q.conn := by
        rw [agreed_filter, authenticated_filter hi]
      rcases hq with ⟨s, s', h1, h2, h3⟩ | ⟨h1, h2, h3, rfl⟩
      · obtain ⟨y, h4, h5⟩ := scarcely_sameData hsx h3
        refine ⟨y, .executed hx hcl' ?_ (h2.imp_left hau.2) h5, h4⟩
        unfold SessionAfter
        rw [hau, agreed_filter, closed_filter hi]; exact h1
      · exact ⟨x, .ignored hx hcl' (mt hau.1 h1) h2 h3, hsx⟩

theorem scarcely_recorded [StdSort] {s0 s1 : Option Session} {text r : Str} (hi : Inv c)
    (h : Scarcely pwd c s0 text f c' s1 r) : Recorded c c' text r := by
  cases h with
  | ordinary h =>
    obtain ⟨x, rfl, hd | ⟨e, hd, rfl⟩⟩ := execute_done hi h
    · generalize hy : Run.ret (x, s1) r = y at hd
      cases hd with
      | @context m l w hst h => cases h <;> cases hy <;> exact Scarce.recorded_of rfl rfl rfl rfl
      | connection _ hs h => cases h <;> cases hy <;> exact Scarce.recorded_of rfl rfl rfl rfl
      | _ => cases hy <;> exact Scarce.recorded_of rfl rfl rfl rfl
    · rw [(does_thr hd).1]; exact Scarce.recorded_of rfl rfl rfl rfl
  | cut _ _ _ _ _ h => exact h
  | nothing _ _ h => exact h
  | interrupted _ _ _ _ _ h => exact h

theorem scarceSerial_records [StdSort] (hc : Reachable c) (ho : c.fileOpen = true) (h : ScarceSerial pwd c log c') :
    c'.fileOpen = true ∧ ∃ l l', l.Sublist log ∧ (log.filter fun q => executed q.toRequest).Sublist l ∧
      c'.fileLog = c.fileLog ++ l' ∧ List.Forall₂ RecordOf (l.map Piece.toRequest) l' := by
  induction h with
  | nil => exact ⟨ho, [], [], .slnil, .slnil, by simp, .nil⟩
  | @executed log c1 c2 s s' q h1 _ _ _ h2 ih =>
    obtain ⟨h3, l, l', h4, h5, h6, h7⟩ := ih
    obtain ⟨h8, -, h9, -⟩ := scarcely_recorded (scarceSerial_inv hc h1) h2
    refine ⟨h8.trans h3, l ++ [q], l' ++ [(trim q.line, q.reply)], h4.append (.refl _), ?_, ?_, ?_⟩
    · rw [List.filter_append]; exact h5.append List.filter_sublist
    · rw [h9]; unfold Ctx.record; rw [if_pos h3]; simp [h6]
    · rw [List.map_append]; exact List.rel_append h7 (.cons ⟨trim_trimmed _, rfl⟩ .nil)
  | @ignored log c1 q _ _ _ _ hr ih =>
    obtain ⟨h3, l, l', h4, h5, h6, h7⟩ := ih
    refine ⟨h3, l, l', by simpa using h4.append (List.nil_sublist [q]), ?_, h6, h7⟩
    rw [List.filter_append]
    simpa [executed, hr] using h5

/-- C92: as long as the process lives, every piece that was executed, in particular every one that was not refused with "not
authenticated", is in the log file with its reply, in the order of execution, and nothing else is. -/
theorem C92_logged [PosSort] (he : eps.toF32 = eps)
    (h : Scarce.run lost (SServer.init pwd (HCtx.init prec eps true quiet)) xs = some (.done s)) :
    ∃ c log l, @ScarceExplains Heap.stdSortOf lost pwd (Ctx.init prec eps true quiet) (xs.map (·.1)) ⟨s.pwd, c, s.conns, s.accepting⟩ log ∧
      l.Sublist log ∧ (log.filter fun q => executed q.toRequest).Sublist l ∧ List.Forall₂ RecordOf (l.map Piece.toRequest) s.ctx.fileLog := by
  let _ := Heap.stdSortOf
  obtain ⟨t, log, h1, h2, -⟩ := scarce_explained he h
  obtain ⟨-, l, l', h3, h4, h5, h6⟩ := scarceSerial_records (.init _ _ _ _ he) rfl h2.serial
  refine ⟨t.ctx, log, l, by rw [h1.pwd, h1.conns, h1.accepting]; exact h2, h3, h4, ?_⟩
  obtain ⟨rs, hr⟩ := h1.ctx
  rw [hr.fileLog, h5]
  exact h6

/-! ### Examples -/

/-- What clients see: outcome, sessions and output of the connections. -/
def scarceView : Option Next → Option (List (Session × Str × Str))
  | some (.done s) => some (s.conns.map fun k => (k.sess, k.inbuf, k.out))
  | _ => none

/-- A client sends one line; memory runs out while it is taken from the buffer.  The client gets two replies, from then on one too many. -/
def twiceEvents : List (Event × Supply × Supply) := [
  (.accept, [], []), (.recv 0 b!"Integer create: i withValue: 1;\n", [], []), (.read 0, [.refused 0], []), (.wrote 0, [], []), (.read 0, [], []), (.wrote 0, [], [])]

theorem twice_view [PosSort] : scarceView (Scarce.run 0 (SServer.init [] (HCtx.init 3 (.fin false 0) false true)) twiceEvents) =
    some [(⟨true, true⟩, [], b!"SyntaxError: invalid statement.\nnull\n")] := by kernel_rfl

/-- The end of a line is taken for a request (`b set: 7;`), as memory ran out after 22 characters and one was lost. -/
def cutEvents : List (Event × Supply × Supply) := [
  (.accept, [], []), (.recv 0 b!"Integer create: b withValue: 1;\naaaaaaaaaaaaaaaaaaaaaaab set: 7;\nb get;\n", [], []), (.read 0, [], []), (.wrote 0, [], []),
  (.read 0, [.refused 22], []), (.wrote 0, [], []), (.read 0, [], []), (.wrote 0, [], []), (.read 0, [], []), (.wrote 0, [], [])]

theorem cut_view [PosSort] : scarceView (Scarce.run 1 (SServer.init [] (HCtx.init 3 (.fin false 0) false true)) cutEvents) =
    some [(⟨true, true⟩, [], b!"null\nSyntaxError: invalid statement.\nnull\n7\n")] := by kernel_rfl

/-- The log of the history `cutEvents`: the line that was cut in two has two records. -/
example [PosSort] : (match Scarce.run 1 (SServer.init [] (HCtx.init 3 (.fin false 0) true true)) cutEvents with
      | some (.done s) => some (s.ctx.fileLog)
      | _ => none) =
    some [(b!"Integer create: b withValue: 1;", b!"null"), (b!"aaaaaaaaaaaaaaaaaaaaaa", b!"SyntaxError: invalid statement."),
      (b!"b set: 7;", b!"null"), (b!"b get;", b!"7")] := by kernel_rfl

/-- The password is presented three times: the parser of the handler runs out of memory, then that of the context, then none. -/
def lateEvents : List (Event × Supply × Supply) := [
  (.accept, [], []), (.recv 0 b!"Connection authenticateWithPassword: \"pw\";\nConnection authenticateWithPassword: \"pw\";\n", [], []),
  (.recv 0 b!"Connection authenticateWithPassword: \"pw\";\n", [], []), (.read 0, [.granted, .refused 0], []), (.wrote 0, [], []),
  (.read 0, [.granted, .granted, .refused 0], []), (.wrote 0, [], []), (.read 0, [], []), (.wrote 0, [], [])]

theorem late_view [PosSort] : scarceView (Scarce.run 0 (SServer.init b!"pw" (HCtx.init 3 (.fin false 0) false true)) lateEvents) =
    some [(⟨true, true⟩, [], b!"AuthenticationError: not authenticated.\nRuntimeError: unknown error.\nnull\n")] := by kernel_rfl

/-- The histories of the examples are explained, and so is a connection whose password was not accepted. -/
example [PosSort] : ∃ s c log, Scarce.run 1 (SServer.init [] (HCtx.init 3 (.fin false 0) false true)) cutEvents = some (.done s) ∧
    @ScarceExplains Heap.stdSortOf 1 [] (Ctx.init 3 (.fin false 0) false true) (cutEvents.map (·.1)) ⟨s.pwd, c, s.conns, s.accepting⟩ log ∧
    log ≠ [] ∧ ∃ d, @Reachable Heap.stdSortOf d ∧ SameData d c := by
  let _ := Heap.stdSortOf
  have he : (Fl.fin false 0).toF32 = .fin false 0 := by kernel_rfl
  have hv := cut_view
  generalize hy : Scarce.run 1 (SServer.init [] (HCtx.init 3 (.fin false 0) false true)) cutEvents = y at hv
  match y, hv with
  | some (.done s), hv =>
    obtain ⟨c, log, h1, -⟩ := C92_explained he hy
    refine ⟨s, c, log, rfl, h1, ?_, C92_as_if (.init _ _ _ _ he) h1⟩
    rintro rfl
    have hv' := Option.some.inj hv
    cases hk : s.conns with
    | nil => rw [hk] at hv'; cases hv'
    | cons k l =>
      rw [hk] at hv'
      have h2 := h1.input 0 k (by simp only [hk]; rfl)
      have h3 : k.inbuf = [] := (Prod.mk.inj (Prod.mk.inj (List.cons.inj hv').1).2).1
      rw [h3] at h2
      exact absurd h2 (by decide +kernel)

/-- The hypotheses of `C92_stranger` and `C92_noninterference` are met after the first two requests of `lateEvents`. -/
example [PosSort] : ∃ c log q c', @ScarceSerial Heap.stdSortOf b!"pw" c (log ++ [q]) c' ∧ ¬ Authenticated b!"pw" (agreed (log ++ [q])) 0 ∧
    q.conn = 0 ∧ Presents b!"pw" q.line := by
  let _ := Heap.stdSortOf
  have hp : Presents b!"pw" b!"Connection authenticateWithPassword: \"pw\";" :=
    ⟨b!"\"pw\"", (parse_iff _ ⟨_, _, _⟩).1 (by kernel_rfl), by
      have := lit_str (a := b!"\"pw\"") (v := b!"pw") (by decide +kernel) (by decide +kernel)
      cases this; assumption⟩
  refine ⟨_, [], ⟨⟨0, _, b!"AuthenticationError: not authenticated."⟩, [10], [.granted, .refused 0]⟩, _,
    .ignored (c := fresh) .nil ?_ ?_ ?_ rfl, ?_, rfl, hp⟩
  · rintro ⟨q, hq, -⟩; simp [agreed] at hq
  · rintro (h | ⟨q, hq, -⟩)
    · cases h
    · simp [agreed] at hq
  · exact fun _ => ⟨0, by simp⟩
  · rintro (h | ⟨q, hq, -⟩)
    · cases h
    · obtain ⟨p, h1, -, h2⟩ := mem_agreed.1 hq
      simp only [List.nil_append, List.mem_singleton] at h1
      rw [h1] at h2
      exact absurd h2 (by decide)

/-- Accepting a connection without memory ends the process; an error does not need any. -/
example [PosSort] : (Scarce.run 0 (SServer.init [] (HCtx.init 3 (.fin false 0) false true)) [(.accept, [.refused 0], [])] matches some .dies) ∧
    (Scarce.run 0 (SServer.init [] (HCtx.init 3 (.fin false 0) false true)) [(.acceptErr, [.refused 0], [])] matches some (.done _)) :=
  ⟨rfl, rfl⟩

end Knuckle.Props

/-
C58: the work of the parser.
-/
import Verif.Proofs.CostLower
import Verif.Model.ServerCost
import Verif.Props.Server

namespace Knuckle.Props

open Spec

/-- C58: `parseC` is the parser, with a count of its steps. -/
theorem C58_same_parser (text : Str) : (parseC text).1 = parse text := parseC_fst text

/-- C58: on every text of `n` bytes the parser ends after at most 20 (n + 1)³ steps: although `is_keyword_message` tries all
spaces and calls itself, it never backtracks more than that. -/
theorem C58_at_most_cubic (text : Str) : (parseC text).2 ≤ 20 * (text.length + 1) ^ 3 := parseC_bound text

/-- C58: on an accepted statement at most 25 (n + 1)² steps. -/
theorem C58_statements_at_most_quadratic {text a name : Str} {args : List Str} (h : Statement text a name args) :
    (parseC text).2 ≤ 25 * (text.length + 1) ^ 2 :=
  parseC_accepted text ((isStatement_iff text).2 ⟨a, name, args, h⟩)

/-- C58: the cubic bound is the right order: there are request lines of every length 5 m + 4 that are not statements and
take at least m³ steps.  (The parser runs before authentication is checked, `src/server.cpp:119-130`, so anybody who can connect
can send them.) -/
theorem C58_cubic_is_reached (m : Nat) :
    ∃ text, text.length = 5 * m + 4 ∧ (10 : Byte) ∉ text ∧ (parse text = .err .invalidStatement) ∧ m ^ 3 ≤ (parseC text).2 := by
  exact ⟨hostileText m, hostileText_length m, hostileText_no_newline m, hostileText_invalid m, hostileText_cost m⟩

/-- A statement that is accepted. -/
example : (parseC b!"v pushBack: 3;").2 ≤ 25 * 15 ^ 2 :=
  C58_statements_at_most_quadratic ((parse_iff _ ⟨b!"v", b!"pushBack:", [b!"3"]⟩).1 (by decide +kernel))

/-- C58: `stepC` is the server, with a count of the steps its parser takes in each event. -/
theorem C58_same_server [StdSort] (s : Server) (e : Event) : (stepC s e).map (·.1) = step s e := by
  have key : ∀ i c line rest, (handleLineC s i c line rest).1 = handleLine s i c line rest := by
    intro i c line rest
    simp only [handleLineC, handleLine, parseC_fst]
    cases parse line with
    | ub => rfl
    | err e =>
      simp only
      split
      · rcases execute s.pwd s.ctx (some c.sess) line with ⟨_, _ | _, _⟩ | _ <;> rfl
      · rfl
    | ok q =>
      simp only
      split
      · rcases execute s.pwd s.ctx (some c.sess) line with ⟨_, _ | _, _⟩ | _ <;> rfl
      · rfl
  cases e with
  | read i =>
    simp only [stepC, step]
    cases s.conns[i]? with
    | none => rfl
    | some k =>
      by_cases hr : k.phase = .reading
      · simp only [hr, if_true]
        cases splitLine k.inbuf with
        | none => rfl
        | some x => exact congrArg some (key _ _ _ _)
      · simp only [hr, if_false]; rfl
  | _ => simp only [stepC, Option.map_map]; exact Option.map_id'

/-- C58: no event makes the parser take more than 40 (n + 1)³ steps, where `n` is the length of what its connection has sent and
has not been read yet. -/
theorem C58_at_most_cubic_per_event [StdSort] {s : Server} {e : Event} {o : Outcome Server} {w : Nat} (h : stepC s e = some (o, w)) :
    w = 0 ∨ ∃ i k, e = .read i ∧ s.conns[i]? = some k ∧ w ≤ 40 * (k.inbuf.length + 1) ^ 3 := by
  cases e with
  | read i =>
    right
    simp only [stepC] at h
    cases hk : s.conns[i]? with
    | none => rw [hk] at h; cases h
    | some k =>
      rw [hk] at h
      by_cases hr : k.phase = .reading
      · simp only [hr, if_true] at h
        cases hs : splitLine k.inbuf with
        | none => rw [hs] at h; cases h
        | some x =>
          obtain ⟨line, rest⟩ := x
          rw [hs] at h
          refine ⟨i, k, rfl, hk, ?_⟩
          have hw : w ≤ (parseC line).2 + (parseC line).2 := by
            simp only [Option.some.injEq] at h
            have h := congrArg Prod.snd h
            simp only [handleLineC] at h
            rw [← h]
            split
            · split
              · split <;> exact Nat.le_refl _
              · exact Nat.le_add_right _ _
            · exact Nat.le_add_right _ _
          have hb := C58_at_most_cubic line
          have hl : line.length ≤ k.inbuf.length := by
            rw [(splitLine_some hs).1]; simp
          have := Nat.pow_le_pow_left (Nat.add_le_add_right hl 1) 3
          omega
      · simp only [hr, if_false] at h; cases h
  | _ =>
    left
    simp only [stepC, Option.map_eq_some_iff] at h
    obtain ⟨_, _, h⟩ := h
    exact (congrArg Prod.snd h).symm

/-- C58: a client that has not authenticated can make the server do that much work: whatever the password and the data, after it has
connected and sent one line of 5 m + 4 bytes, the next event of its connection takes at least m³ steps, and the answer is
`not authenticated`. -/
theorem C58_before_authentication [StdSort] (pwd : Str) (c : Ctx) (hp : pwd ≠ []) (m : Nat) :
    ∃ line s s' k k' w, line.length = 5 * m + 4 ∧ run (Server.init pwd c) [.accept, .recv 0 (line ++ b!"\n")] = some (.done s) ∧
      s.conns[0]? = some k ∧ k.sess.authed = false ∧ stepC s (.read 0) = some (.done s', w) ∧ m ^ 3 ≤ w ∧
      s'.conns[0]? = some k' ∧ k'.phase = .writing b!"AuthenticationError: not authenticated." := by
  have ha : (Session.init pwd).authed = false := by
    cases pwd with
    | nil => exact absurd rfl hp
    | cons => rfl
  have hi := hostileText_invalid m
  rw [← parseC_fst] at hi
  have hs : splitLine (hostileText m ++ b!"\n") = some (hostileText m, []) := splitLine_append _ _ (hostileText_no_newline m)
  refine ⟨hostileText m, ⟨pwd, c, [⟨Session.init pwd, hostileText m ++ b!"\n", .reading, []⟩], true⟩,
    ⟨pwd, c, [⟨Session.init pwd, [], .writing b!"AuthenticationError: not authenticated.", []⟩], true⟩,
    ⟨Session.init pwd, hostileText m ++ b!"\n", .reading, []⟩,
    ⟨Session.init pwd, [], .writing b!"AuthenticationError: not authenticated.", []⟩, (parseC (hostileText m)).2,
    hostileText_length m, rfl, rfl, ha, ?_, hostileText_cost m, rfl, rfl⟩
  simp only [stepC, List.getElem?_cons_zero, if_true, hs, handleLineC, hi, ha, Bool.false_or]
  rfl

end Knuckle.Props

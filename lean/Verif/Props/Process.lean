/-
C90: from the command line to the bytes on the wire.
-/
import Verif.Model.Process
import Verif.Spec.Process
import Verif.Props.Sessions
import Verif.Props.Machine
import Verif.Props.Main
import Verif.Props.Crash
import Verif.Proofs.Rebuild

namespace Knuckle.Props

open Spec
open Heap (HCtx PosSort HServer Handler Backs OutSim hstep hrun hmain)

variable {opens : Str → Bool} {binds : Bool} {cl : CommandLine} {es : List Event} {hs₀ hs : HServer} {pwd : Str} {prec : Int} {eps : Fl}

theorem hmain_serving (h : hmain opens binds (some cl) = some hs₀) : hs₀ = HServer.init (cl.password.getD [])
    (HCtx.init (cl.floatPrecision.getD 3) (cl.floatComparisonTolerance.getD defaultTolerance)
      (cl.logfile.getD [] != [] && opens (cl.logfile.getD [])) cl.quiet) := by
  simp only [hmain] at h
  split at h
  · cases h
  · split at h
    · cases h
    · split at h
      · cases h
      · injection h with h; exact h.symm

theorem asks_eps (ha : Asks cl pwd prec eps) : cl.floatComparisonTolerance.getD defaultTolerance = eps := by
  cases h : cl.floatComparisonTolerance with
  | some e => exact (ha.given e h).symm
  | none =>
    have h1 := ha.default h
    have h2 : Denotes b!"Float" b!"0.0000001" (.float defaultTolerance) := denotes_atof (by decide +kernel) rfl
    have := denotes_unique h1 h2
    rw [Option.getD_none]
    exact (Obj.float.inj this).symm

theorem asks_init (ha : Asks cl pwd prec eps) (h : hmain opens binds (some cl) = some hs₀) :
    hs₀ = HServer.init pwd (HCtx.init prec eps (cl.logfile.getD [] != [] && opens (cl.logfile.getD [])) cl.quiet) := by
  rw [hmain_serving h, asks_eps ha, ha.password, ha.precision]

theorem data_init (prec : Int) (eps : Fl) (f q : Bool) : data (Ctx.init prec eps f q) = nothing prec eps := rfl

theorem conforms_of_explains [StdSort] {c : Ctx} {s : Server} {log : List Request} (hc : Reachable c) (h : Explains pwd c es s log) :
    Conforms pwd (data c) es (s.conns.map (·.out)) log (data s.ctx) where
  trace := serial_trace hc h.serial
  known q hq := by simpa using h.known q hq
  oneLine := h.oneLine
  sent i := by
    by_cases hi : i < s.conns.length
    · exact ⟨_, h.input i _ (List.getElem?_eq_getElem hi)⟩
    · refine ⟨[], ?_⟩
      have h1 : requestsOf i log = [] := by
        apply List.filter_eq_nil_iff.2
        intro q hq
        have := h.known q hq
        simp; omega
      rw [(h.unknown i (by omega)).1, h1]; rfl
  received i w hw := by
    rw [List.getElem?_map] at hw
    cases hk : s.conns[i]? with
    | none => rw [hk] at hw; cases hw
    | some k =>
      rw [hk] at hw
      obtain rfl : k.out = w := by simpa using hw
      have hout := h.output i k hk
      have all : k.out = wire ((requestsOf i log).map Request.reply) →
          ∃ n, k.out = wire (((requestsOf i log).take n).map Request.reply) ∧ (requestsOf i log).length ≤ n + 1 :=
        fun e => ⟨_, by rw [List.take_length]; exact e, by omega⟩
      have but : AllButLast k.out ((requestsOf i log).map Request.reply) →
          ∃ n, k.out = wire (((requestsOf i log).take n).map Request.reply) ∧ (requestsOf i log).length ≤ n + 1 := by
        rintro ⟨rs, r, h1, h2⟩
        have hlen : (requestsOf i log).length = rs.length + 1 := by
          have := congrArg List.length h1; simpa using this
        refine ⟨rs.length, ?_, by omega⟩
        rw [List.map_take, h1, List.take_left]; exact h2
      unfold Written at hout
      split at hout
      · exact all hout
      · obtain ⟨rs, h1, h2⟩ := hout
        exact but ⟨rs, _, h1, h2⟩
      · by_cases hd : Closed log i ∨ .writeErr i ∈ es
        · exact but (hout.1 hd)
        · exact all (hout.2 hd)

/-- C90: the event loop is reached exactly if the command line is valid, does not ask for help and has a port that can be bound. -/
theorem C90_starts (cl : Option CommandLine) : (∃ hs, hmain opens binds cl = some hs) ↔
    binds = true ∧ ∃ o p, cl = some o ∧ o.help = false ∧ o.port = some p := by
  cases cl with
  | none => simp [hmain]
  | some o => cases h1 : o.help <;> cases h2 : o.port <;> cases binds <;> simp [hmain, h1, h2]

/-- C90: the program with pointers, started by a command line and driven by any events, shows clients what the abstract machine,
started with no variables and the settings the command line asks for, answers to the requests they sent; the log file, if there
is one that could be opened, has exactly the requests that were executed, with these replies. -/
theorem C90_end_to_end [PosSort] (ha : Asks cl pwd prec eps) (he : eps.toF32 = eps) (h : hmain opens binds (some cl) = some hs₀)
    (hr : hrun hs₀ es = some (.done hs)) :
    ∃ log d, Conforms pwd (nothing prec eps) es hs.wires log d ∧
      (∀ f, cl.logfile = some f → f ≠ [] → opens f = true → List.Forall₂ RecordOf (log.filter executed) hs.ctx.fileLog) := by
  rw [asks_init ha h] at hr
  obtain ⟨s, h1, hb⟩ := run_backs hr
  letI := Heap.stdSortOf
  have hc : Reachable (Ctx.init prec eps (cl.logfile.getD [] != [] && opens (cl.logfile.getD [])) cl.quiet) := .init _ _ _ _ he
  obtain ⟨log, hl⟩ := C44_serialized hc h1
  refine ⟨log, data s.ctx, ?_, ?_⟩
  · rw [hb.wires, ← data_init]
    exact conforms_of_explains hc hl
  · intro f hf hne ho
    obtain ⟨rs, hrep⟩ := hb.ctx
    obtain ⟨l, h2, h3⟩ := serial_records hc (by simp [Ctx.init, hf, hne, ho]) hl.serial
    rw [hrep.fileLog, h2]
    exact h3

/-- C90: undefined behaviour happens only where the machine says so (at a request that arrived as a line, in the state the
machine is in), or if a write does not take the whole reply. -/
theorem C90_undefined [PosSort] (ha : Asks cl pwd prec eps) (he : eps.toF32 = eps) (h : hmain opens binds (some cl) = some hs₀)
    (hr : hrun hs₀ es = some .ub) :
    ∃ es₁ e es₂ hs log d, es = es₁ ++ e :: es₂ ∧ hrun hs₀ es₁ = some (.done hs) ∧
      Conforms pwd (nothing prec eps) es₁ hs.wires log d ∧
      ((∃ i, e = .wroteShort i) ∨
       ∃ i line rest s, e = .read i ∧ received i es₁ = wire ((requestsOf i log).map Request.line) ++ (line ++ 10 :: rest) ∧
         SessionAfter pwd log i s ∧ (Authenticated pwd log i ∨ ToConnection line) ∧ Step pwd d (some s) line none) := by
  obtain ⟨es₁, e, es₂, hs, rfl, h1, h2⟩ := hrun_first hr
  have hi := asks_init ha h
  rw [hi] at h1
  obtain ⟨s, hrun', hb⟩ := run_backs h1
  have hsim := Heap.step_sim hb e
  rw [h2] at hsim
  have hu : @Knuckle.step Heap.stdSortOf s e = some .ub := by
    revert hsim
    generalize @Knuckle.step Heap.stdSortOf s e = y
    intro hsim
    match y, hsim with
    | some .ub, _ => rfl
  letI := Heap.stdSortOf
  have hc : Reachable (Ctx.init prec eps (cl.logfile.getD [] != [] && opens (cl.logfile.getD [])) cl.quiet) := .init _ _ _ _ he
  obtain ⟨log, hl⟩ := C44_serialized hc hrun'
  refine ⟨es₁, e, es₂, hs, log, data s.ctx, rfl, hi ▸ h1, ?_, ?_⟩
  · rw [hb.wires, ← data_init]
    exact conforms_of_explains hc hl
  · rcases step_ub hc hrun' hu with ⟨i, k, r, rfl, hk, hp⟩ | ⟨i, k, line, rest, rfl, hk, hp, hsp, hx⟩
    · exact .inl ⟨i, rfl⟩
    · have hcur := serial_reachable hc hl.serial
      refine .inr ⟨i, line, rest, k.sess, rfl, ?_, hl.session i k hk, ?_, ?_⟩
      · rw [hl.input i k hk, ← (splitLine_some hsp).1]
      · have hu' : handleLine s i k line rest = .ub := by
          simp only [Knuckle.step, hk, hp, hsp, if_true] at hu
          exact Option.some.inj hu
        rcases handleLine_cases s i k line rest _ hu' (reachable_inv hcur) with ⟨_, _, g⟩ | ⟨g, _, _⟩ | ⟨_, _, _, _, _, g⟩
        · cases g
        · exact g.imp_left (hl.session i k hk).1.1
        · cases g
      · have := C80_every_request (pwd := pwd) (s := some k.sess) (text := line) hcur
        rw [← hl.password, hx] at this
        rw [← hl.password]
        exact this

/-! ### Examples -/

/-- A command line: `--port 9000 --password pw --floatcomparisontolerance 0 --quiet`. -/
def demoLine : CommandLine := ⟨false, true, some 9000, some b!"pw", none, none, some (.fin false 0)⟩

theorem demoLine_asks : Asks demoLine b!"pw" 3 (.fin false 0) := ⟨rfl, rfl, by rintro _ ⟨⟩; rfl, by rintro ⟨⟩⟩

theorem demoLine_main : hmain (fun _ => false) true (some demoLine) = some (HServer.init b!"pw" (HCtx.init 3 (.fin false 0) false true)) := by
  kernel_rfl

/-- Three connections, of which the first two got replies: the machine explains these. -/
example : ∃ log d, Conforms b!"pw" (nothing 3 (.fin false 0)) sessionEvents
    [b!"AuthenticationError: not authenticated.\nnull\n", b!"null\nnull\n", []] log d ∧ log ≠ [] := by
  letI := insertionPosSort
  obtain ⟨hs, hr, hv⟩ := session_demo
  obtain ⟨log, d, h, _⟩ := C90_end_to_end demoLine_asks (by kernel_rfl) demoLine_main hr
  simp only [sessionView, Prod.mk.injEq] at hv
  rw [hv.2.2] at h
  refine ⟨log, d, h, ?_⟩
  rintro rfl
  obtain ⟨n, h0, _⟩ := h.received 0 _ rfl
  simp [requestsOf, wire] at h0

/-- Two billion and some: the machine has no answer to the line of connection 0. -/
example : ∃ es₁ e es₂ hs log d, [.accept, .recv 0 b!"Connection authenticateWithPassword: \"pw\";\nInteger create: i withValue: 2147483648;\n",
      .read 0, .wrote 0, .read 0] = es₁ ++ e :: es₂ ∧
    @hrun insertionPosSort (HServer.init b!"pw" (HCtx.init 3 (.fin false 0) false true)) es₁ = some (.done hs) ∧
      Conforms b!"pw" (nothing 3 (.fin false 0)) es₁ hs.wires log d ∧
      ((∃ i, e = .wroteShort i) ∨
       ∃ i line rest s, e = .read i ∧ received i es₁ = wire ((requestsOf i log).map Request.line) ++ (line ++ 10 :: rest) ∧
         SessionAfter b!"pw" log i s ∧ (Authenticated b!"pw" log i ∨ ToConnection line) ∧ Step b!"pw" d (some s) line none) := by
  letI := insertionPosSort
  exact C90_undefined demoLine_asks (by kernel_rfl) demoLine_main (by kernel_rfl)

end Knuckle.Props

/-
More cases: theorems about histories of several clients and runs of the server, applied one by one to concrete data
(see Cases.lean; an `example` without a stated type has the theorem's conclusion for that data as its type).
-/
import Verif.Props.Grammar
import Verif.Props.Strings
import Verif.Props.Scalars
import Verif.Props.Floats
import Verif.Props.Variables
import Verif.Props.Requests
import Verif.Props.Undefined
import Verif.Props.Containers
import Verif.Props.Lines
import Verif.Props.Server
import Verif.Props.Isolation
import Verif.Props.Numbers
import Verif.Props.Characters
import Verif.Props.Cost
import Verif.Props.Storage
import Verif.Props.Rebuild
import Verif.Props.Log
import Verif.Props.Main
import Verif.Props.Reference
import Verif.Props.Liveness
import Verif.Props.Concurrency
import Verif.Props.Retry
import Verif.Props.Sizes
import Verif.Props.Observe
import Verif.Props.Settings
import Verif.Props.Crash
import Verif.Props.Rename
import Verif.Props.Undo
import Verif.Props.Apart
import Verif.Props.Stable
import Verif.Props.Reads
import Verif.Props.Machine
import Verif.Props.Anonymous
import Verif.Props.Heap
import Verif.Props.Sessions
import Verif.Props.FloatContainers
import Verif.Props.Tolerance
import Verif.Props.AnySort
import Verif.Props.Guess
import Verif.Props.Single
import Verif.Props.Arrival
import Verif.Props.Process
import Verif.Props.Scarce
import Verif.Props.ScarceServer
import Verif.Props.LogFile
import Verif.Props.Work
import Verif.Props.Doubt
import Verif.Props.Schedules
import Verif.Props.Disjoint
import Verif.Props.Orders
import Verif.Props.Template
import Verif.Props.Agree
import Verif.Props.Client
import Verif.Props.Agreement
import Verif.Props.Pool
import Verif.Props.LongReplies
import Verif.Props.Sums
import Verif.Props.Console
import Verif.Props.Indexed
import Verif.Props.LongStrings
import Verif.Props.LongVectors
import Verif.Props.Whole
import Verif.Props.LongSets
import Verif.Props.Barrier
import Verif.Props.Topic
import Verif.Props.Listen
import Verif.Props.Unchecked
import Verif.Props.Queue
import Verif.Props.Cases

set_option linter.unusedSectionVars false

namespace Knuckle.Props

open Spec

section more

variable [StdSort]

/-! ### C99, C100, C101: histories of several clients -/

example := C99_decided_once (log := agreementLog.take 2) (l := agreementLog.drop 2)
  ⟨[], _, _, rfl, (by decide : b!"null" ∉ errorTexts), proposes1, by simp⟩ agreement_first
example := C99_server (n := b!"leader") (by meets) fresh_reachable rfl demo_run

theorem pool_serial : Serial [] demo poolLog { demo with vars := updateVar b!"v" (.vector b!"Integer" [.integer 2]) demo.vars } :=
  serially_serial (ls := [(0, b!"v popFront;"), (1, b!"v popFront;"), (0, b!"v pushBack: 3;"), (1, b!"v popBack;")]) .nil (by simp) (by kernel_rfl)
theorem pool_two : Lent b!"v" (poolLog.take 2) [(1, b!"1"), (0, b!"3")] :=
  .take (q := poolLog[1]) (reads (by kernel_rfl)) .popFront (by decide : b!"1" ∉ errorTexts) (by decide)
    (.take (q := poolLog[0]) (reads (by kernel_rfl)) .popFront (by decide : b!"3" ∉ errorTexts) (by decide) .nil)
theorem pool_lent : Lent b!"v" poolLog [(1, b!"3"), (1, b!"1")] :=
  .take (q := poolLog[3]) (reads (by kernel_rfl)) .popBack (by decide : b!"3" ∉ errorTexts) (by decide)
    (.give (q := poolLog[2]) (reads (by kernel_rfl)) (.pushBack (a := b!"3")) (by decide : b!"null" ∉ errorTexts) (by decide) pool_two)
example := C100_conserved (by decide) demo_reachable demo_v pool_serial pool_lent
example := C100_exclusive (by decide) demo_reachable demo_v (by decide) pool_serial pool_lent
example := C100_at_most (by decide) demo_reachable demo_v pool_serial pool_lent
example := C100_available (l := poolLog) (q := ⟨0, b!"v popBack;", b!"2"⟩) (l' := []) (name := b!"popBack") (by decide) demo_reachable demo_v
  (serially_serial (ls := [(0, b!"v popFront;"), (1, b!"v popFront;"), (0, b!"v pushBack: 3;"), (1, b!"v popBack;"), (0, b!"v popBack;")]) .nil (by simp)
    (by kernel_rfl) : Serial [] demo _ { demo with vars := updateVar b!"v" (.vector b!"Integer" []) demo.vars })
  pool_lent (reads (by kernel_rfl)) (.inr rfl) (.inl rfl)
example := C100_every_history (q := ⟨0, b!"v reverse;", b!"null"⟩) pool_lent (.inl ⟨reads (by kernel_rfl), .inr (.inr (.inl ⟨rfl, .inl rfl⟩))⟩)
example := C100_server (n := b!"v") (t := b!"Integer") (by decide) demo_reachable demo_v (by decide) count_run

theorem sum_small : |(3 / 2 : ℚ)| + magnitude [1 / 10, -3] ≤ 2 ^ 127 := by
  simp only [magnitude, List.map_cons, List.map_nil, List.sum_cons, List.sum_nil, abs_neg]
  rw [abs_of_pos, abs_of_pos, abs_of_pos] <;> norm_num
example := C101_error demo_reachable demo_float demo_f sum_serial sum_updates (.add tenth (.subtract three .nil)) sum_small (by decide)
example := C101_order demo_reachable demo_float demo_f sum_serial sum_serial sum_updates sum_updates (.add tenth (.subtract three .nil))
  (.add tenth (.subtract three .nil)) (List.Perm.refl _) sum_small (by decide)

def halvesLog : List Request := [⟨1, b!"f subtract: 3;", b!"null"⟩]
theorem halves_serial : ∃ c', Serial [] demo halvesLog c' :=
  ⟨{ demo with vars := updateVar b!"f" (.float (Fl.sub f64 (.fin false (3 * 2 ^ 1073)) (atof b!"3")).toF32) demo.vars },
    serially_serial (ls := [(1, b!"f subtract: 3;")]) .nil (by simp) (by kernel_rfl)⟩
theorem halves_updates : UpdatesOf b!"f" halvesLog [(b!"subtract:", [b!"3"], b!"null")] :=
  .update (reads (by kernel_rfl)) (by decide) (by decide : b!"null" ∉ errorTexts) .nil
example := C101_exact (g := -1) demo_reachable demo_float demo_f halves_serial.choose_spec halves_updates (.subtract three .nil) (by norm_num) (by norm_num)
  ⟨3, by norm_num⟩ (by simp only [List.mem_singleton, forall_eq]; exact ⟨-6, by norm_num⟩)
  (by simp only [magnitude, List.map_cons, List.map_nil, List.sum_cons, List.sum_nil, abs_neg]; rw [abs_of_pos, abs_of_pos] <;> norm_num)

def fullLog : List Request := [⟨0, b!"f add: 1;", b!"null"⟩, ⟨1, b!"f add: 1;", b!"null"⟩]
theorem full_serial : Serial [] full fullLog full :=
  serially_serial (ls := [(0, b!"f add: 1;"), (1, b!"f add: 1;")]) .nil (by simp) (by kernel_rfl)
theorem full_updates : UpdatesOf b!"f" fullLog [(b!"add:", [b!"1"], b!"null"), (b!"add:", [b!"1"], b!"null")] :=
  .update (reads (by kernel_rfl)) (by decide) (by decide : b!"null" ∉ errorTexts)
    (.update (reads (by kernel_rfl)) (by decide) (by decide : b!"null" ∉ errorTexts) .nil)
theorem full_number : number (.fin false (2 ^ 24 * 2 ^ 1074)) = some (2 ^ 24) := by simp only [number]; norm_num
example := C101_stuck full_reachable (by decide +kernel : Holds full b!"f" (.float (.fin false (2 ^ 24 * 2 ^ 1074)))) full_number full_serial full_updates
  (by intro op h; simp only [List.mem_cons, List.not_mem_nil, or_false, or_self] at h; subst h; exact ⟨rfl, b!"1", false, rfl, literal_one⟩)

/-! ### C108, C109, C112 -/

example := C108_server demo_reachable count_run
example := C109_server demo_reachable count_run
example := C112_server demo_reachable count_run
example := C108_counter_read (n := b!"b") (v := 0) (d := 1) (l := barrierLog.take 1) (q := barrierLog[1]) (l' := barrierLog.drop 2)
  barrierStart_reachable (by decide +kernel) barrier_serial (.inl rfl)
  (.update (reads (by decide +kernel)) (by decide) (by decide : b!"null" ∉ errorTexts) .nil) (.add (intStr_literal 1) .nil) barrier_get

/-! ### C79 -/

theorem register_serial : Serial [] demo ([⟨0, b!"i add: 10;", b!"null"⟩, ⟨0, b!"i set: 20;", b!"null"⟩] ++ ⟨1, b!"i get;", b!"20"⟩ :: [])
    { demo with vars := updateVar b!"i" (.integer 20) demo.vars } :=
  serially_serial (ls := [(0, b!"i add: 10;"), (0, b!"i set: 20;"), (1, b!"i get;")]) .nil (by simp) (by kernel_rfl)
theorem register_updates : UpdatesOf b!"i" [⟨0, b!"i add: 10;", b!"null"⟩, ⟨0, b!"i set: 20;", b!"null"⟩]
    ([(b!"add:", [b!"10"], b!"null")] ++ [(b!"set:", [b!"20"], b!"null")]) :=
  .update (reads (by kernel_rfl)) (by decide) (by decide : b!"null" ∉ errorTexts)
    (.update (reads (by kernel_rfl)) (by decide) (by decide : b!"null" ∉ errorTexts) .nil)
theorem demo_i : Holds demo b!"i" (ofObj (.integer (-7))) := by unfold Holds; kernel_rfl
example := C79_register demo_reachable demo_i register_serial (.inl rfl) register_updates (reads (by kernel_rfl))
example := C79_register_reply (o := .integer 20) demo_reachable demo_i register_serial (.inl rfl) register_updates (reads (by kernel_rfl))
  (.integer (intStr_literal 20) (by decide)) (by decide) 3
example := C79_unchanged (l := []) (q := ⟨1, b!"i get;", b!"-7"⟩) (l' := []) demo_reachable demo_i
  (serially_serial (ls := [(1, b!"i get;")]) .nil (by simp) (by kernel_rfl) : Serial [] demo _ demo) (.inl rfl) .nil (reads (by kernel_rfl))

/-! ### C66, C67, C68 -/

def lockLog : List Request := [⟨0, b!"String create: lock;", b!"null"⟩, ⟨1, b!"String create: lock;", b!"RuntimeError: variable name already used."⟩,
  ⟨0, b!"Context deleteVariable: lock;", b!"null"⟩, ⟨1, b!"String create: lock;", b!"null"⟩]
theorem lock_serial : Serial [] fresh lockLog { fresh with vars := [(b!"lock", .string [])] } :=
  serially_serial (ls := [(0, b!"String create: lock;"), (1, b!"String create: lock;"), (0, b!"Context deleteVariable: lock;"), (1, b!"String create: lock;")])
    .nil (by simp) (by kernel_rfl)
theorem lock_claims : Claims b!"String create: lock;" b!"lock" :=
  ⟨_, _, _, _, reads (by kernel_rfl), .string (by simp) ((isVariable_iff _).1 (by decide)), .inl rfl⟩
example := C66_claim_accepted_iff (l := lockLog.take 1) (q := lockLog[1]) (l' := lockLog.drop 2) fresh_reachable lock_serial lock_claims

def addLog : List Request := [⟨0, b!"i add: 10;", b!"null"⟩, ⟨1, b!"i subtract: 3;", b!"null"⟩]
def addLog' : List Request := [⟨1, b!"i subtract: 3;", b!"null"⟩, ⟨0, b!"i add: 10;", b!"null"⟩]
theorem add_serial : Serial [] demo addLog { demo with vars := updateVar b!"i" (.integer 0) demo.vars } :=
  serially_serial (ls := [(0, b!"i add: 10;"), (1, b!"i subtract: 3;")]) .nil (by simp) (by kernel_rfl)
theorem add_serial' : Serial [] demo addLog' { demo with vars := updateVar b!"i" (.integer 0) demo.vars } :=
  serially_serial (ls := [(1, b!"i subtract: 3;"), (0, b!"i add: 10;")]) .nil (by simp) (by kernel_rfl)
theorem add_updates : UpdatesOf b!"i" addLog [(b!"add:", [b!"10"], b!"null"), (b!"subtract:", [b!"3"], b!"null")] :=
  .update (reads (by kernel_rfl)) (by decide) (by decide : b!"null" ∉ errorTexts)
    (.update (reads (by kernel_rfl)) (by decide) (by decide : b!"null" ∉ errorTexts) .nil)
theorem add_updates' : UpdatesOf b!"i" addLog' [(b!"subtract:", [b!"3"], b!"null"), (b!"add:", [b!"10"], b!"null")] :=
  .update (reads (by kernel_rfl)) (by decide) (by decide : b!"null" ∉ errorTexts)
    (.update (reads (by kernel_rfl)) (by decide) (by decide : b!"null" ∉ errorTexts) .nil)
example := C68_counter_order demo_reachable (by unfold Holds; kernel_rfl : Holds demo b!"i" (.integer (-7))) add_serial add_serial' add_updates add_updates'
  (.add (intStr_literal 10) (.subtract (intStr_literal 3) .nil)) (.subtract (intStr_literal 3) (.add (intStr_literal 10) .nil)) (List.Perm.swap _ _ [])

def vecLog : List Request := [⟨0, b!"v popFront;", b!"3"⟩, ⟨1, b!"v pushBack: 5;", b!"null"⟩]
theorem vec_serial : Serial [] demo vecLog { demo with vars := updateVar b!"v" (.vector b!"Integer" [.integer 1, .integer 2, .integer 5]) demo.vars } :=
  serially_serial (ls := [(0, b!"v popFront;"), (1, b!"v pushBack: 5;")]) .nil (by simp) (by kernel_rfl)
theorem vec_updates : UpdatesOf b!"v" vecLog [(b!"popFront", [], b!"3"), (b!"pushBack:", [b!"5"], b!"null")] :=
  .update (reads (by kernel_rfl)) (by decide) (by decide : b!"3" ∉ errorTexts)
    (.update (reads (by kernel_rfl)) (by decide) (by decide : b!"null" ∉ errorTexts) .nil)
example := C67_queue demo_reachable demo_v vec_serial vec_updates (.pop (.push (.integer (intStr_literal 5) (by decide)) .nil))

/-! ### C89, C50, C102, C74 -/

example := C89_arrival (pwd := []) (c := fresh) alone1_run alone1_run rfl (fun _ => rfl)
example := C89_lone_client (i := 0) fresh_reachable alone1_run alone2_run rfl rfl (by intro j hj; simp [alone1, received, Ne.symm hj])
  (by intro j hj; simp [alone2, received, Ne.symm hj]) (by decide +kernel)
def loggedServer : Server := ⟨[], { Ctx.init 3 (.fin false 0) true true with vars := [(b!"i", .integer 7)], fileLog := [
    (b!"Integer create: i withValue: 7;", b!"null"), (b!"i get;", b!"7")] }, [aloneConn], true⟩
theorem logged_reachable : Reachable (Ctx.init 3 (.fin false 0) true true) := .init _ _ _ _ (by decide +kernel)
theorem logged_run : run (Server.init [] (Ctx.init 3 (.fin false 0) true true)) alone1 = some (.done loggedServer) := by kernel_rfl
example := C74_logged_before_answered logged_reachable rfl rfl logged_run
example := C74_one_line_at_a_time (s := loggedServer) (e := .accept) (run_reachable logged_reachable logged_run) rfl

example := C102_not_written (xs := loudEvents) (pwd := b!"pw") (f := ⟨[], false⟩) loud_reachable (.inr (.inr rfl))
theorem loud_taken : ∀ x ∈ loudEvents, x.fate = .taken := by
  intro x hx
  simp only [loudEvents, List.mem_map] at hx
  obtain ⟨e, _, rfl⟩ := hx
  rfl
example := C102_errors_do_not_matter (f := ⟨[], true⟩) (pwd := b!"pw") loud_reachable fun x hx => by rw [loud_taken x hx]; decide
example := C102_complete (f := ⟨[], true⟩) (pwd := b!"pw") loud_reachable rfl loud_taken (crun_run loud_reachable loud_run).1
example := C102_only_then (f := ⟨[], true⟩) (xs := loudEvents ++ [shownAs .broken (.read 1)]) (pwd := b!"pw") loud_reachable (.inl (by
  have hst : step loudServer.srv (.read 1) = some (.done { loudServer.srv with
      ctx := { loudServer.srv.ctx with stdoutLog := loudServer.srv.ctx.stdoutLog ++ [(b!"Connection authenticateWithPassword: \"no\";", b!"AuthenticationError: wrong password.")] },
      conns := [loudServer.srv.conns[0], { loudServer.srv.conns[1] with inbuf := [], phase := .writing b!"AuthenticationError: wrong password." }] }) := by
    kernel_rfl
  exact (C102_killed loud_reachable ⟨rfl, rfl⟩ loud_run rfl hst).2 ⟨rfl, 1, _, b!"Connection authenticateWithPassword: \"no\";", [], rfl, rfl, rfl, rfl, by decide +kernel, .inr
      ⟨b!"authenticateWithPassword:", [b!"\"no\""], reads (by kernel_rfl)⟩⟩))

/-! ### C93 -/

theorem ctx_eps : (Fl.fin false 0).toF32 = .fin false 0 := by decide +kernel
theorem created_run : lrun (LServer.init [] (Ctx.init 3 (.fin false 0) true true) b!"old\n") oneCreation = some (.done ⟨oneCreated, ⟨b!"old\n" ++ oneLine, true⟩⟩) :=
  oneCreation_run _
theorem created_clean : ∀ x ∈ oneCreation, Stamp x.stamp ∧ AllTaken x := (lifeOf_clean (xs := oneCreation) (.inl rfl)).2
example := C93_nothing_overwritten ctx_eps (fun x hx => (created_clean x hx).1) created_run
example := C93_complete ctx_eps (fun x hx => (created_clean x hx).1) (fun x hx => (created_clean x hx).2) created_run
example := C93_what_is_saved (part := oneLine) (u := oneLine) ctx_eps (fun x hx => (created_clean x hx).1) created_run rfl
  ⟨[], by simp, by simp, .inr (by decide +kernel)⟩

/-! ### C62 -/

theorem logged_text : LogText loggedServer.ctx.fileLog (b!"[2026-11-18 01:02:03] Integer create: i withValue: 7; -> null\n" ++ b!"[2026-11-18 01:02:03] i get; -> 7\n") :=
  ⟨[b!"[2026-11-18 01:02:03]", b!"[2026-11-18 01:02:03]"], rfl, by
    intro t ht
    simp only [List.mem_cons, List.not_mem_nil, or_false, or_self] at ht
    rw [ht]; exact ⟨b!"2026-11-18 01:02:03", by decide, by decide, by decide⟩, by decide +kernel⟩
example := C62_log_determines_data_on_the_wire ctx_eps logged_run logged_run logged_text logged_text

end more

end Knuckle.Props

/-
Every theorem with hypotheses, applied to a case that meets them. The files of Props/ show for each group of theorems that its
hypotheses can be met; the last section of Agree, Scalars, Strings, Variables, Requests, Characters, Containers and Tolerance, and
this file, apply the theorems one by one to concrete data. (An `example` without a stated type has the theorem's conclusion
for that data as its type; that it is accepted shows that all hypotheses hold there.)
-/
import Verif.Props.Grammar
import Verif.Props.Strings
import Verif.Props.Scalars
import Verif.Props.Floats
import Verif.Props.Variables
import Verif.Props.Requests
import Verif.Props.Undefined
import Verif.Props.Containers
import Verif.Props.Lines
import Verif.Props.Server
import Verif.Props.Isolation
import Verif.Props.Numbers
import Verif.Props.Characters
import Verif.Props.Cost
import Verif.Props.Storage
import Verif.Props.Rebuild
import Verif.Props.Log
import Verif.Props.Main
import Verif.Props.Reference
import Verif.Props.Liveness
import Verif.Props.Concurrency
import Verif.Props.Retry
import Verif.Props.Sizes
import Verif.Props.Observe
import Verif.Props.Settings
import Verif.Props.Crash
import Verif.Props.Rename
import Verif.Props.Undo
import Verif.Props.Apart
import Verif.Props.Stable
import Verif.Props.Reads
import Verif.Props.Machine
import Verif.Props.Anonymous
import Verif.Props.Heap
import Verif.Props.Sessions
import Verif.Props.FloatContainers
import Verif.Props.Tolerance
import Verif.Props.AnySort
import Verif.Props.Guess
import Verif.Props.Single
import Verif.Props.Arrival
import Verif.Props.Process
import Verif.Props.Scarce
import Verif.Props.ScarceServer
import Verif.Props.LogFile
import Verif.Props.Work
import Verif.Props.Doubt
import Verif.Props.Schedules
import Verif.Props.Disjoint
import Verif.Props.Orders
import Verif.Props.Template
import Verif.Props.Agree
import Verif.Props.Client
import Verif.Props.Agreement
import Verif.Props.Pool
import Verif.Props.LongReplies
import Verif.Props.Sums
import Verif.Props.Console
import Verif.Props.Indexed
import Verif.Props.LongStrings
import Verif.Props.LongVectors
import Verif.Props.Whole
import Verif.Props.LongSets

set_option linter.unusedSectionVars false

namespace Knuckle.Props

open Spec

section cases

variable [StdSort]

/-! ### C17–C19 -/

theorem demo_float : Holds demo b!"f" (.float (.fin false (3 * 2 ^ 1073))) := by unfold Holds; kernel_rfl
theorem lit_half : Denotes b!"Float" b!".5" (.float (.fin false (2 ^ 1073))) := denotes_atof (by decide +kernel) (by kernel_rfl)

example := C17_exactly_one (pwd := []) (s := none) (c := demo) (n := b!"f") (a := b!"2.25") (t₁ := b!"f isLessThan? 2.25;")
  (t₂ := b!"f isEqualTo? 2.25;") (t₃ := b!"f isGreaterThan? 2.25;") demo_reachable (by unfold NotNegative; decide +kernel) demo_float (by meets) (by meets) (by meets) (by meets)
example := C17_exactly_one_integer (pwd := []) (s := none) (c := demo) (n := b!"i") (v := -7) (a := b!"2.25") (t₁ := b!"i isLessThan? 2.25;")
  (t₂ := b!"i isEqualTo? 2.25;") (t₃ := b!"i isGreaterThan? 2.25;") demo_reachable (by unfold NotNegative; decide +kernel) (by meets) (by meets)
  (fun h => absurd ((isIntegerValue_iff _).2 h) (by decide +kernel)) (by meets) (by meets) (by meets)
example := C17_or_equal (pwd := []) (s := none) (c := demo) (n := b!"f") (a := b!"2.25") (t₁ := b!"f isLessThan? 2.25;")
  (t₂ := b!"f isEqualTo? 2.25;") (t₃ := b!"f isGreaterThan? 2.25;") (t₄ := b!"f isLessThanOrEqualTo? 2.25;")
  (t₅ := b!"f isGreaterThanOrEqualTo? 2.25;") demo_reachable demo_float (by meets) (by meets) (by meets) (by meets) (by meets) (by meets)

/-- Two Floats, one half and one. -/
def twoFloats : Ctx := { fresh with vars := [(b!"f", .float (.fin false (2 ^ 1073))), (b!"g", .float (.fin false (2 ^ 1074)))] }
theorem twoFloats_reachable : Reachable twoFloats :=
  after_reachable (pwd := []) (s := none) (ts := [b!"Float create: f withValue: .5;", b!"Float create: g withValue: 1;"]) fresh_reachable (by kernel_rfl)
example := C17_mirror (pwd := []) (s := none) (c := twoFloats) (n := b!"f") (m := b!"g") (a := b!".5") (b := b!"1") (t₁ := b!"f isLessThan? 1;")
  (t₂ := b!"g isGreaterThan? .5;") twoFloats_reachable (by unfold Holds; kernel_rfl) (by unfold Holds; kernel_rfl) lit_half
  (denotes_atof (x := .fin false (2 ^ 1074)) (by decide +kernel) (by kernel_rfl)) (by meets) (by meets)
example := C18_zero_tolerance_is_exact (pwd := []) (s := none) (c := demo) (n := b!"f") (a := b!".5") (t₁ := b!"f isLessThan? .5;")
  (t₂ := b!"f isEqualTo? .5;") (t₃ := b!"f isGreaterThan? .5;") (z := false) demo_reachable rfl demo_float lit_half rfl rfl
  (by meets) (by meets) (by meets)
example := C18_zero_tolerance_strict_weak true [.float (.fin false (2 ^ 1073)), .float (.inf true), .float (.fin true 0)]
  (by intro x hx; simp only [List.mem_cons, List.not_mem_nil, or_false] at hx
      rcases hx with rfl | rfl | rfl <;> exact ⟨rfl, by unfold ValueOk; change Fl.toF32 _ = _; kernel_rfl⟩) (by decide)
example := C18_positive_tolerance_breaks (2 ^ 1073) (Nat.two_pow_pos _) (by decide +kernel)
example := C18_positive_tolerance_not_strict_weak (2 ^ 1073) (Nat.two_pow_pos _) (by decide +kernel)
  [.float (.fin true (2 ^ 1073)), .float (.fin false 0), .float (.fin false (2 ^ 1073))] (fun _ h => h)

/-- A set of -0.5 and 0.5 under the tolerance 0.5. -/
def pairSet : Ctx := { Ctx.init 3 (.fin false (2 ^ 1073)) false true with vars := [(b!"s", .set b!"Float"
  [.float (.fin true (2 ^ 1073)), .float (.fin false (2 ^ 1073))])] }
theorem pairSet_reachable : Reachable pairSet :=
  after_reachable (pwd := []) (s := none)
    (ts := [b!"Context setFloatComparisonTolerance: .5;", b!"Set<Float> create: s;", b!"s add: -.5;", b!"s add: .5;"])
    fresh_reachable (by kernel_rfl)
example := C18_set_undefined (pwd := []) (s := none) (c := pairSet) (n := b!"s") (t := b!"s contains? 0;") (a := b!"0") (name := b!"contains?")
  (l := [.float (.fin true (2 ^ 1073)), .float (.fin false (2 ^ 1073))]) (k := 2 ^ 1073) pairSet_reachable (Nat.two_pow_pos _) (by kernel_rfl) (by decide +kernel)
  (by unfold Holds; kernel_rfl) halfKeys_zero
  (by generalize 2 ^ 1073 = k; intro x hx; simp only [List.mem_cons, List.not_mem_nil, or_false] at hx ⊢; tauto) (.head _) (by meets)

/-- A NaN: infinity less infinity. -/
def nanned : Ctx := { fresh with vars := [(b!"x", .float .nan)] }
theorem nanned_reachable : Reachable nanned :=
  after_reachable (pwd := []) (s := none) (ts := [b!"Float create: x withValue: 1e39;", b!"x multiplyBy: 0;"]) fresh_reachable (by kernel_rfl)
example := C19_nan (pwd := []) (s := none) (c := nanned) (n := b!"x") (a := b!"2") (t₁ := b!"x isLessThan? 2;") (t₂ := b!"x isEqualTo? 2;")
  (t₃ := b!"x isGreaterThan? 2;") nanned_reachable (by unfold Holds; kernel_rfl) (by meets) (by meets) (by meets) (by meets)

/-! ### C26 -/

/-- A Vector, a Set and a Dictionary of Floats, printed with 46 decimals. -/
def preciseAll : Ctx := { fresh with
  cfg := { fresh.cfg with prec := 46 }
  vars := [(b!"d", .dictionary b!"Float" b!"Float" [(.float (.fin false (2 ^ 1073)), .float (.fin true (2 ^ 1074)))]),
    (b!"s", .set b!"Float" [.float (.fin false (2 ^ 1073))]), (b!"v", .vector b!"Float" [.float (.fin false (2 ^ 1073))])] }
theorem preciseAll_reachable : Reachable preciseAll :=
  after_reachable (pwd := []) (s := none) (ts := [b!"Context setFloatPrecision: 46;", b!"Vector<Float> create: v;", b!"v pushBack: .5;",
    b!"Set<Float> create: s;", b!"s add: .5;", b!"Dictionary<Float, Float> create: d;", b!"d associateValue: -1 withKey: 5e-1;"])
    fresh_reachable (by kernel_rfl)
example := C26_float_vectors (c := preciseAll) (d := preciseAll) (pwd := []) (pwd' := b!"x") (s := none) (s' := some ⟨true, true⟩) (n := b!"v") (m := b!"v") (t := b!"Float")
  (text := b!"v get;") (text' := b!"v  get;") (l := [.float (.fin false (2 ^ 1073))]) (l' := [.float (.fin false (2 ^ 1073))])
  (r := b!"[0.5000000000000000000000000000000000000000000000]")
  preciseAll_reachable preciseAll_reachable (by decide +kernel) rfl (by unfold Holds; kernel_rfl) (by unfold Holds; kernel_rfl) (by meets) (by meets)
  (by meets) (by meets)
example := C26_float_sets (c := preciseAll) (d := preciseAll) (pwd := []) (pwd' := b!"x") (s := none) (s' := some ⟨true, true⟩) (n := b!"s") (m := b!"s") (t := b!"Float")
  (text := b!"s get;") (text' := b!"s  get;") (l := [.float (.fin false (2 ^ 1073))]) (l' := [.float (.fin false (2 ^ 1073))])
  (r := b!"{0.5000000000000000000000000000000000000000000000}")
  preciseAll_reachable preciseAll_reachable (by decide +kernel) rfl (by unfold Holds; kernel_rfl) (by unfold Holds; kernel_rfl) (by meets) (by meets)
  (by meets) (by meets)
example := C26_float_dictionaries (c := preciseAll) (d := preciseAll) (pwd := []) (pwd' := b!"x") (s := none) (s' := some ⟨true, true⟩) (n := b!"d") (m := b!"d") (t := b!"Float")
  (u := b!"Float") (text := b!"d get;") (text' := b!"d  get;") (l := [(.float (.fin false (2 ^ 1073)), .float (.fin true (2 ^ 1074)))])
  (l' := [(.float (.fin false (2 ^ 1073)), .float (.fin true (2 ^ 1074)))])
  (r := b!"((0.5000000000000000000000000000000000000000000000,-1.0000000000000000000000000000000000000000000000))")
  preciseAll_reachable preciseAll_reachable (by decide +kernel) rfl (by unfold Holds; kernel_rfl) (by unfold Holds; kernel_rfl) (by meets) (by meets)
  (by meets) (by meets)

/-! ### C01–C08 -/

example := C01_other_texts_are_syntax_errors b!"pw" demo none b!"v get" (by
  rintro ⟨a, n, l, h⟩
  exact absurd ((C01_parser_is_grammar _ _ _ _).2 h) (by rw [show parse b!"v get" = .err .invalidStatement by kernel_rfl]; exact fun h => nomatch h))
example := C04_white_space_irrelevant b!"pw" demo none b!"Vector<Integer> create: q;" b!"Vector< Integer >   create: q  ;"
  b!"Vector<Integer>" b!"Vector< Integer >" b!"create:" [b!"q"] (by meets) (by meets) (by unfold SameButSpaces; decide +kernel)
example := C08_one_receiver b!"Vector< Integer > create: q  ;" b!"Vector< Integer >" b!"create:" [b!"q"] (by meets)
/-! ### C58, C59 -/

example := C58_statements_at_most_quadratic (text := b!"d associateValue: 1 withKey: 'k';") (a := b!"d") (name := b!"associateValue:withKey:")
  (args := [b!"1", b!"'k'"]) (by meets)

example := C59_one_object_per_request (pwd := []) (s := none) (c := demo) (c' := demo) (s' := none) (text := b!"t size;") (r := b!"2")
  (by meets) (by meets)

/-! ### C39, C49 -/

theorem demo_vec : Holds demo b!"v" (.vector b!"Integer" [.integer 3, .integer 1, .integer 2]) := by meets
example := C39_only_known_causes (pwd := []) (c := demo) (s := none) (text := b!"i subtract: 2147483647;") (by meets) (by meets)
example := (C49_invalid_message (pwd := []) (c := demo) (s := none) (text := b!"v insert: 1;") (a := b!"v") (name := b!"insert:") (args := [b!"1"])
  (by meets) (by meets)).1 (by meets)
example := C49_invalid_argument_why (pwd := []) (c := demo) (s := none) (text := b!"v insert: 1 beforeIndex: 4;") (a := b!"v") (name := b!"insert:beforeIndex:")
  (args := [b!"1", b!"4"]) (by meets) (by meets) (by meets)
example := C49_value_not_allowed (pwd := []) (c := demo) (s := none) (text := b!"v insert: 1 beforeIndex: 4;") (a := b!"v") (name := b!"insert:beforeIndex:")
  (args := [b!"1", b!"4"]) (by meets) (by meets) (.index demo_vec (Behaves.vector (cfg := demo.cfg) (l := [.integer 3, .integer 1, .integer 2])
    (VecSays.insert (t := b!"Integer") (lit_int (a := b!"1") (n := 1) rfl rfl (by decide)) (lit_int (a := b!"4") (n := 4) rfl rfl (by decide)))))
example := (C49_name_already_used (pwd := []) (c := demo) (s := none) (text := b!"Integer create: i withValue: 1;") (a := b!"Integer")
  (name := b!"create:withValue:") (args := [b!"i", b!"1"]) (by meets) (by meets)).1 (by meets)
example := (C49_unknown_variable (pwd := []) (c := demo) (s := none) (text := b!"w get;") (a := b!"w") (name := b!"get") (args := [])
  (by meets) (by meets)).1 (by meets)
example := (C49_unknown_variable (pwd := []) (c := demo) (s := none) (text := b!"Context deleteVariable: w;") (a := b!"Context")
  (name := b!"deleteVariable:") (args := [b!"w"]) (by meets) (by meets)).1 (by meets)
example := (C49_wrong_password (pwd := b!"pw") (c := demo) (s := some ⟨true, false⟩) (text := b!"Connection authenticateWithPassword: \"px\";") (a := b!"Connection")
  (name := b!"authenticateWithPassword:") (args := [b!"\"px\""]) (by meets) (by meets)).1 (by meets)

/-! ### C69, C76 -/

theorem undo_vec : Undoes (.vector b!"Integer" [.integer 3, .integer 1, .integer 2]) b!"popAtIndex:" [b!"1"] b!"insert:beforeIndex:" [b!"1", b!"1"] :=
  Undoes.popAtIndex (l := [.integer 3]) (l' := [.integer 2]) (o := .integer 1) (by meets) (by meets)
example := C76_undone (pwd := []) (pwd' := []) (s := none) (s' := none) (c := demo) (n := b!"v") (t1 := b!"v popAtIndex: 1;")
  (t2 := b!"v insert: 1 beforeIndex: 1;") demo_reachable demo_vec undo_vec (by meets) (by meets)
example := C76_restored (pwd := []) (pwd' := []) (s := none) (s' := none) (c := demo) (n := b!"v") (t1 := b!"v popAtIndex: 1;")
  (t2 := b!"v insert: 1 beforeIndex: 1;") demo_reachable demo_vec undo_vec (by meets) (by meets)
theorem creates_z : CreationOf b!"Integer create: z withValue: 5;" b!"z" (.integer 5) :=
  ⟨b!"Integer", b!"create:withValue:", [b!"z", b!"5"], by meets, .value (o := .integer 5) (by meets) (by decide) (by meets) (by meets)⟩
example := C76_creation (pwd := []) (pwd' := []) (s := none) (s' := none) (c := demo) (n := b!"z") (t1 := b!"Integer create: z withValue: 5;")
  (t2 := b!"Context deleteVariable: z;") (i := .integer 5) (by meets) (by meets) creates_z (by meets)
example := C69_same_reply (pwd := []) (c := demo) (s := none) (s1 := none) (text := b!"t add: \"x\";") (n := b!"t") (r := b!"null")
  (i := .set b!"String" [.string b!"x", .string b!"y"]) (name := b!"add:") (args := [b!"\"x\""]) (c1 := demo) (by meets) (by meets) (by meets) (by meets)
  (.inr (.head _))

/-! ### C99 -/

theorem proposes1 : Proposes b!"Integer createIfNotExists: leader withValue: 1;" b!"leader" (.integer 1) :=
  ⟨b!"Integer", b!"1", by meets, by meets, by meets, by meets⟩
theorem proposes2 : Proposes b!"Integer createIfNotExists: leader withValue: 2;" b!"leader" (.integer 2) :=
  ⟨b!"Integer", b!"2", by meets, by meets, by meets, by meets⟩
theorem asks_leader : AsksFor b!"leader get;" b!"leader" := reads (by kernel_rfl)
theorem agreement_protocol : ∀ x ∈ agreementLog, ByProtocol b!"leader" x.line := by
  intro x hx
  simp only [agreementLog, List.mem_cons, List.not_mem_nil, or_false] at hx
  rcases hx with rfl | rfl | rfl | rfl
  · exact .inl ⟨_, proposes1⟩
  · exact .inl ⟨_, proposes2⟩
  · exact .inr (.inl asks_leader)
  · exact .inr (.inl asks_leader)
theorem agreement_serial : Serial [] fresh agreementLog { fresh with vars := [(b!"leader", .integer 1)] } :=
  serially_serial (ls := [(0, b!"Integer createIfNotExists: leader withValue: 1;"),
    (1, b!"Integer createIfNotExists: leader withValue: 2;"), (1, b!"leader get;"), (0, b!"leader get;")]) .nil (by simp) (by kernel_rfl)
theorem agreement_first : FirstProposal b!"leader" agreementLog (.integer 1) :=
  ⟨[], _, _, rfl, (by decide : b!"null" ∉ errorTexts), proposes1, by simp⟩
example : Holds { fresh with vars := [(b!"leader", .integer 1)] } b!"leader" (.integer 1) :=
  C99_first_wins fresh_reachable rfl agreement_serial agreement_protocol agreement_first
example := C99_proposals_are_accepted (l := [agreementLog[0]]) (q := agreementLog[1]) (l' := agreementLog.drop 2) fresh_reachable agreement_serial
  proposes2 (.inl rfl)
example := C99_answer (n := b!"leader") (l := agreementLog.take 2) (q := agreementLog[2]) (l' := agreementLog.drop 3) (by meets) fresh_reachable rfl
  agreement_serial (fun x hx => agreement_protocol x (List.mem_of_mem_take hx)) asks_leader (.inl rfl)
example := C99_agreement (n := b!"leader") (l1 := agreementLog.take 2) (q1 := agreementLog[2]) (l2 := []) (q2 := agreementLog[3]) (l3 := []) (by meets)
  fresh_reachable rfl agreement_serial (fun x hx => agreement_protocol x (List.mem_of_mem_take (i := 3) hx)) asks_leader asks_leader
  (by decide : b!"1" ∉ errorTexts) (by decide : b!"1" ∉ errorTexts)
example := C99_wait_free (n := b!"leader") (l1 := agreementLog.take 1) (p := agreementLog[1]) (l2 := []) (q := agreementLog[2]) (l3 := agreementLog.drop 3)
  fresh_reachable rfl agreement_serial (fun x hx => agreement_protocol x (List.mem_of_mem_take (i := 2) hx)) proposes2 (.inl rfl) asks_leader rfl

/-! ### C40, C41, C45 -/

example := C41_server (i := 1) fresh_reachable demo_run rfl rfl
theorem curious_never_presents : ∀ line, Sent 0 curiousEvents line → ¬ Presents b!"pw" line := by
  rintro line hl ⟨a, hs, _⟩
  rw [curious_sent hl] at hs
  exact absurd (statement_unique hs (reads (by decide +kernel) : Statement b!"i get;" b!"i" b!"get" [])).1 (by decide)
example := C40_only_its_own_bytes (i := 0) (j := 0) demo_reachable demo_reachable (by decide) curious_run curious_run rfl rfl (List.prefix_refl _)
  curious_never_presents

/-! ### C66–C68 -/

example := C66_exists_iff (n := b!"leader") fresh_reachable agreement_serial

/-! ### Theorems about all runs of the server, applied to the run of the demonstration -/

example := C47_history fresh_reachable demo_run
example := C80_server fresh_reachable demo_run
example := C44_serialized fresh_reachable demo_run
example := C66_server fresh_reachable demo_run
example := C67_server fresh_reachable demo_run
example := C68_server fresh_reachable demo_run demo_run
example := C79_server fresh_reachable demo_run
example := C101_server fresh_reachable demo_run
example := C46_accepting fresh_reachable demo_run
example := C52_runs_while_accepting fresh_reachable demo_run (by decide)
example := C95_at_most_one (i := 0) fresh_reachable demo_run rfl
example := C70_sizes fresh_reachable rfl demo_run
example := C89_at_once demo_run
example := C47_partial_writes_are_undefined (s := demoServer) (i := 0) rfl rfl
example := C48_pending_writes_can_complete (s := demoServer) (i := 0) rfl rfl
example := C80_every_request (pwd := []) (s := none) (text := b!"v sort;") demo_reachable

/-! ### C50, C72 -/

theorem touches_i {n : Str} (h : Touches b!"i add: 1;" n) : n = b!"i" := by
  have hs : Statement b!"i add: 1;" b!"i" b!"add:" [b!"1"] := by meets
  cases h with
  | message _ h => exact (statement_unique h hs).1
  | creation h =>
    obtain ⟨a, name, args, h, hc⟩ := h
    obtain ⟨rfl, rfl, rfl⟩ := statement_unique h hs
    cases hc
  | delete h => exact absurd (statement_unique h hs).1 (by decide)
  | deleteNamespace h => exact absurd (statement_unique h hs).1 (by decide)
  | listNamespace h => exact absurd (statement_unique h hs).1 (by decide)
  | listVariables h => exact absurd (statement_unique h hs).1 (by decide)
  | listNamespaces h => exact absurd (statement_unique h hs).1 (by decide)
example := C50_changes_only_touched_variables (pwd := []) (s := none) (s' := none) (c := demo) (text := b!"i add: 1;") (r := b!"null") (n := b!"v")
  (c' := { demo with vars := updateVar b!"i" (.integer (-6)) demo.vars }) demo_reachable (by meets) (fun h => absurd (touches_i h) (by decide))

/-! ### C61 -/

/-- A set, a vector and a dictionary of floats with the tolerance zero. -/
def zeroAll : Ctx := { fresh with vars := [
  (b!"d", .dictionary b!"Float" b!"Integer" [(.float (.fin true (2 ^ 1073)), .integer 1), (.float (.fin false (2 ^ 1073)), .integer 2)]),
  (b!"s", .set b!"Float" [.float (.fin true (2 ^ 1073)), .float (.fin false (2 ^ 1073))]),
  (b!"v", .vector b!"Float" [.float (.fin false (2 ^ 1073)), .float (.fin true (2 ^ 1073))])] }
theorem zeroAll_reachable : Reachable zeroAll :=
  after_reachable (pwd := []) (s := none) (ts := [b!"Dictionary<Float, Integer> create: d;", b!"d associateValue: 1 withKey: -.5;",
    b!"d associateValue: 2 withKey: .5;", b!"Set<Float> create: s;", b!"s add: .5;", b!"s add: -.5;", b!"Vector<Float> create: v;",
    b!"v pushBack: .5;", b!"v pushBack: -.5;"]) fresh_reachable (by kernel_rfl)
theorem zeroAll_s : Holds zeroAll b!"s" (.set b!"Float" [.float (.fin true (2 ^ 1073)), .float (.fin false (2 ^ 1073))]) := by unfold Holds; kernel_rfl
theorem zeroAll_v : Holds zeroAll b!"v" (.vector b!"Float" [.float (.fin false (2 ^ 1073)), .float (.fin true (2 ^ 1073))]) := by unfold Holds; kernel_rfl
theorem zeroAll_d : Holds zeroAll b!"d" (.dictionary b!"Float" b!"Integer" [(.float (.fin true (2 ^ 1073)), .integer 1), (.float (.fin false (2 ^ 1073)), .integer 2)]) := by
  unfold Holds; kernel_rfl
example := C61_contains (pwd := []) (s := none) (c := zeroAll) (z := false) (text := b!"s contains? .5;") zeroAll_reachable rfl zeroAll_s (by meets) lit_half
example := C61_add (pwd := []) (s := none) (c := zeroAll) (z := false) (text := b!"s add: .5;") zeroAll_reachable rfl zeroAll_s (by meets) lit_half
example := C61_remove (pwd := []) (s := none) (c := zeroAll) (z := false) (text := b!"s remove: .5;") zeroAll_reachable rfl zeroAll_s (by meets) lit_half
example := C61_sort (pwd := []) (s := none) (c := zeroAll) (z := false) (text := b!"v sort;") zeroAll_reachable rfl zeroAll_v (by meets)
example := C61_containsKey (pwd := []) (s := none) (c := zeroAll) (z := false) (text := b!"d containsKey? .5;") zeroAll_reachable rfl zeroAll_d (by meets) lit_half
example := C61_getValueForKey (pwd := []) (s := none) (c := zeroAll) (z := false) (text := b!"d getValueForKey: .5;") zeroAll_reachable rfl zeroAll_d (by meets)
  lit_half (.tail _ (.head _)) (.inl ⟨_, rfl, rfl⟩)
example := C61_associate (pwd := []) (s := none) (c := zeroAll) (z := false) (text := b!"d associateValue: 7 withKey: .5;") (b := b!"7") (v := .integer 7)
  zeroAll_reachable rfl zeroAll_d (by meets) (by meets) lit_half
example := C61_removeKey (pwd := []) (s := none) (c := zeroAll) (z := false) (text := b!"d removeKey: .5;") zeroAll_reachable rfl zeroAll_d (by meets) lit_half
example := C61_sets_ascend zeroAll_reachable zeroAll_s

end cases

end Knuckle.Props

/-
C101: floats as sums.
-/
import Verif.Proofs.Sums
import Verif.Props.Single
import Verif.Props.Schedules

namespace Knuckle.Props

open Spec

variable {pwd n : Str} {c c' c1 c2 : Ctx} {es es1 es2 : List Event} {s s1 s2 : Server} {log log1 log2 : List Request}
variable {ops ops1 ops2 : List (Str × List Str × Str)} {qs qs1 qs2 : List ℚ} {v : Fl} {p : ℚ}

/-- C101: a Float that the clients only add to and subtract from, at most 2²² times, holds the sum of what it was and of all the numbers that
were accepted, up to an error of 2⁻²³ of their magnitudes (and 2⁻¹⁴⁸) for each request. -/
theorem C101_error [StdSort] (hc : Reachable c) (hn : Holds c n (.float v)) (hv : number v = some p) (h : Serial pwd c log c')
    (ho : UpdatesOf n log ops) (hq : SumOps ops qs) (hm : |p| + magnitude qs ≤ 2 ^ 127) (hl : qs.length ≤ 2 ^ 22) :
    ∃ x r, Holds c' n (.float x) ∧ number x = some r ∧
      |r - (p + qs.sum)| ≤ qs.length * (2 ^ (-23 : ℤ) * (|p| + magnitude qs) + 2 ^ (-148 : ℤ)) := by
  obtain ⟨_, i, hi, hch⟩ := updates_chain hc hn (serial_updates h ho)
  obtain ⟨x, r, rfl, h1, h2⟩ := chain_sum (S := p) (A := |p|) (k := 0) hq hch hv le_rfl le_rfl hm (by simpa using hl) (by simp)
  exact ⟨x, r, hi, h1, by simpa using h2⟩

/-- C101: the sum is exact if all the numbers are multiples of one power of two (for example whole numbers) and their magnitudes are not
more than 2²⁴ times that power. -/
theorem C101_exact [StdSort] {g : ℤ} (hc : Reachable c) (hn : Holds c n (.float v)) (hv : number v = some p) (h : Serial pwd c log c')
    (ho : UpdatesOf n log ops) (hq : SumOps ops qs) (hg : -149 ≤ g) (hg' : g ≤ 103) (hp : MultipleOf g p) (hm : ∀ q ∈ qs, MultipleOf g q)
    (hb : |p| + magnitude qs ≤ 2 ^ (24 + g)) : ∃ x, Holds c' n (.float x) ∧ number x = some (p + qs.sum) := by
  obtain ⟨_, i, hi, hch⟩ := updates_chain hc hn (serial_updates h ho)
  obtain ⟨x, rfl, h1⟩ := chain_exact hg hg' hq hch hv hp hm hb
  exact ⟨x, hi, h1⟩

theorem number_determines {x y : Fl} {q : ℚ} (hx : number x = some q) (hy : number y = some q) (hs : 0 < q) : x = y := by
  cases x with
  | nan => cases hx
  | inf b => cases hx
  | fin a k => cases y with
    | nan => cases hy
    | inf b => cases hy
    | fin b m =>
      have pos : ∀ {a : Bool} {k : ℕ}, number (.fin a k) = some q → a = false ∧ (k : ℚ) = q * 2 ^ 1074 := by
        intro a k h
        have h := Option.some.inj h
        have h0 : (0 : ℚ) < 2 ^ 1074 := by positivity
        have hk : (0 : ℚ) ≤ k := Nat.cast_nonneg k
        cases a with
        | true =>
          exfalso
          simp only [if_true] at h
          have : -(k : ℚ) / 2 ^ 1074 ≤ 0 := div_nonpos_of_nonpos_of_nonneg (by linarith) h0.le
          linarith
        | false =>
          simp only [Bool.false_eq_true, if_false] at h
          exact ⟨rfl, by rw [← h, div_mul_cancel₀ _ h0.ne']⟩
      obtain ⟨rfl, e1⟩ := pos hx
      obtain ⟨rfl, e2⟩ := pos hy
      have : k = m := by exact_mod_cast e1.trans e2.symm
      rw [this]

/-- C101: but a Float that holds 2²⁴ stays there, however often 1 is added, although each of these requests is accepted. -/
theorem C101_stuck [StdSort] (hc : Reachable c) (hn : Holds c n (.float v)) (hv : number v = some (2 ^ 24)) (h : Serial pwd c log c')
    (ho : UpdatesOf n log ops) (hq : ∀ op ∈ ops, op.1 = b!"add:" ∧ ∃ a neg, op.2.1 = [a] ∧ FloatLiteral a neg 1) : Holds c' n (.float v) := by
  obtain ⟨_, i, hi, hch⟩ := updates_chain hc hn (serial_updates h ho)
  suffices i = .float v by rw [this] at hi; exact hi
  have hv' : v = .fin false (2 ^ 24 * 2 ^ 1074) := number_determines hv (by
    simp only [number, Bool.false_eq_true, if_false]
    push_cast
    rw [mul_div_cancel_right₀ _ (by positivity)]; norm_num) (by norm_num)
  have one : ∀ {a : Str} {neg : Bool}, FloatLiteral a neg 1 → atof a = .fin false (2 ^ 1074) := fun {a neg} ha => by
    have h1 : number (atof a) = some 1 := rounds_grid (.inr rfl) (atof_rounds ha) ⟨1, 0, by norm_num, by decide, by decide⟩ (by
      rw [abs_one]; exact one_lt_pow₀ (by norm_num) (by decide))
    refine number_determines h1 ?_ one_pos
    simp only [number, Bool.false_eq_true, if_false]
    push_cast
    rw [div_self (by positivity)]
  have same : ((Fl.add f64 (.fin false (2 ^ 24 * 2 ^ 1074)) (.fin false (2 ^ 1074))).toF32) = .fin false (2 ^ 24 * 2 ^ 1074) := by decide +kernel
  clear hi hv hn ho h hc
  induction ops generalizing v with
  | nil => cases hch; rfl
  | cons op ops ih =>
    cases hch with
    | @cons cfg _ i' _ name args r _ hw hb _ hch =>
      obtain ⟨e1, a, neg, e2, ha⟩ := hq (name, args, r) List.mem_cons_self
      dsimp only at e1 e2
      subst e1 e2
      have : i' = .float v := by
        generalize hx : Result.gives i' r = x at hb
        cases hb with
        | @float _ _ _ m hm =>
          obtain ⟨w, e, rfl⟩ := map_gives hx.symm
          cases hm with
          | add hf =>
            cases e
            rw [one ha, hv', same]
      subst this
      exact ih (fun op hop => hq op (List.mem_cons_of_mem _ hop)) hch hv'

/-- C101 for every schedule. -/
theorem C101_server [StdSort] (hc : Reachable c) (h : run (Server.init pwd c) es = some (.done s)) :
    ∃ log, Explains pwd c es s log ∧ ∀ n v p ops qs, Holds c n (.float v) → number v = some p → UpdatesOf n log ops → SumOps ops qs →
      (|p| + magnitude qs ≤ 2 ^ 127 → qs.length ≤ 2 ^ 22 → ∃ x r, Holds s.ctx n (.float x) ∧ number x = some r ∧
        |r - (p + qs.sum)| ≤ qs.length * (2 ^ (-23 : ℤ) * (|p| + magnitude qs) + 2 ^ (-148 : ℤ))) ∧
      (∀ g : ℤ, -149 ≤ g → g ≤ 103 → MultipleOf g p → (∀ q ∈ qs, MultipleOf g q) → |p| + magnitude qs ≤ 2 ^ (24 + g) →
        ∃ x, Holds s.ctx n (.float x) ∧ number x = some (p + qs.sum)) := by
  obtain ⟨log, hl⟩ := C44_serialized hc h
  exact ⟨log, hl, fun n v p ops qs hn hv ho hq => ⟨fun hm hlen => C101_error hc hn hv hl.serial ho hq hm hlen,
    fun g h1 h2 hp hm hb => C101_exact hc hn hv hl.serial ho hq h1 h2 hp hm hb⟩⟩

theorem magnitude_perm (h : qs1.Perm qs2) : magnitude qs1 = magnitude qs2 := (h.map abs).sum_eq

/-- C101: two orders of the same additions differ by no more than the two errors. -/
theorem C101_order [StdSort] (hc : Reachable c) (hn : Holds c n (.float v)) (hv : number v = some p) (h1 : Serial pwd c log1 c1)
    (h2 : Serial pwd c log2 c2) (o1 : UpdatesOf n log1 ops1) (o2 : UpdatesOf n log2 ops2) (q1 : SumOps ops1 qs1) (q2 : SumOps ops2 qs2)
    (hp : qs1.Perm qs2) (hm : |p| + magnitude qs1 ≤ 2 ^ 127) (hl : qs1.length ≤ 2 ^ 22) :
    ∃ x1 x2 r1 r2, Holds c1 n (.float x1) ∧ Holds c2 n (.float x2) ∧ number x1 = some r1 ∧ number x2 = some r2 ∧
      |r1 - r2| ≤ qs1.length * (2 ^ (-22 : ℤ) * (|p| + magnitude qs1) + 2 ^ (-147 : ℤ)) := by
  obtain ⟨x1, r1, a1, a2, a3⟩ := C101_error hc hn hv h1 o1 q1 hm hl
  obtain ⟨x2, r2, b1, b2, b3⟩ := C101_error hc hn hv h2 o2 q2 (by rwa [← magnitude_perm hp]) (by rwa [← hp.length_eq])
  refine ⟨x1, x2, r1, r2, a1, b1, a2, b2, ?_⟩
  rw [← magnitude_perm hp, ← hp.length_eq, ← hp.sum_eq] at b3
  have e : |r1 - r2| ≤ |r1 - (p + qs1.sum)| + |r2 - (p + qs1.sum)| := by
    have := abs_sub_le r1 (p + qs1.sum) r2
    rwa [abs_sub_comm (p + qs1.sum) r2] at this
  have e2 : (qs1.length : ℚ) * (2 ^ (-22 : ℤ) * (|p| + magnitude qs1) + 2 ^ (-147 : ℤ)) =
      2 * (qs1.length * (2 ^ (-23 : ℤ) * (|p| + magnitude qs1) + 2 ^ (-148 : ℤ))) := by
    rw [show (2 : ℚ) ^ (-22 : ℤ) = 2 * 2 ^ (-23 : ℤ) by norm_num, show (2 : ℚ) ^ (-147 : ℤ) = 2 * 2 ^ (-148 : ℤ) by norm_num]
    ring
  linarith

/-! ### Examples -/

theorem f_number : number (.fin false (3 * 2 ^ 1073)) = some (3 / 2) := by
  simp only [number, Bool.false_eq_true, if_false]
  push_cast
  rw [show (2 : ℚ) ^ 1074 = 2 * 2 ^ 1073 by rw [← pow_succ']]
  rw [mul_div_mul_right _ _ (by positivity)]

/-- Two clients add 0.1 and 3 to the Float `f`, which is 1.5. -/
def sumLog : List Request := [⟨0, b!"f add: .1;", b!"null"⟩, ⟨1, b!"f subtract: 3;", b!"null"⟩, ⟨0, b!"f get;", b!"-1.400"⟩]

def sumResult : Ctx := { demo with vars := updateVar b!"f" (.float (Fl.sub f64 (Fl.add f64 (.fin false (3 * 2 ^ 1073)) (atof b!".1")).toF32 (atof b!"3")).toF32) demo.vars }

theorem sum_serial [StdSort] : Serial [] demo sumLog sumResult :=
  serially_serial (ls := [(0, b!"f add: .1;"), (1, b!"f subtract: 3;"), (0, b!"f get;")]) .nil (by simp) (by kernel_rfl)

theorem sum_updates : UpdatesOf b!"f" sumLog [(b!"add:", [b!".1"], b!"null"), (b!"subtract:", [b!"3"], b!"null")] := by
  have na : ¬ Question b!"add:" := by decide
  have ns : ¬ Question b!"subtract:" := by decide
  have acc : ∀ i l, (⟨i, l, b!"null"⟩ : Request).accepted := fun i l => (by decide : b!"null" ∉ errorTexts)
  exact .update (reads (by kernel_rfl)) na (acc _ _) (.update (reads (by kernel_rfl)) ns (acc _ _)
    (.other (.inr (.inl ⟨b!"get", [], reads (by kernel_rfl), by decide⟩)) .nil))

example [StdSort] : Reachable demo ∧ Holds demo b!"f" (.float (.fin false (3 * 2 ^ 1073))) ∧ Serial [] demo sumLog sumResult ∧
    ∃ ops, UpdatesOf b!"f" sumLog ops ∧ SumOps ops [1 / 10, -3] ∧ |(3 / 2 : ℚ)| + magnitude [1 / 10, -3] ≤ 2 ^ 127 :=
  ⟨demo_reachable, by decide +kernel, sum_serial, _, sum_updates, .add tenth (.subtract three .nil), by
    simp only [magnitude, List.map_cons, List.map_nil, List.sum_cons, List.sum_nil, abs_neg]
    rw [abs_of_pos, abs_of_pos, abs_of_pos] <;> norm_num⟩

/-- The numbers of `C101_exact`: halves. -/
example : MultipleOf (-1) (3 / 2 : ℚ) ∧ MultipleOf (-1) (-3 : ℚ) ∧ |(3 / 2 : ℚ)| + magnitude [-3] ≤ 2 ^ (24 + (-1 : ℤ)) :=
  ⟨⟨3, by norm_num⟩, ⟨-6, by norm_num⟩, by
    simp only [magnitude, List.map_cons, List.map_nil, List.sum_cons, List.sum_nil, abs_neg]
    rw [abs_of_pos, abs_of_pos] <;> norm_num⟩

/-- A Float that holds 2²⁴. -/
def full : Ctx := { fresh with vars := [(b!"f", .float (.fin false (2 ^ 24 * 2 ^ 1074)))] }

theorem full_reachable [StdSort] : Reachable full :=
  after_reachable (pwd := []) (s := none) (ts := [b!"Float create: f withValue: 16777216;"]) fresh_reachable (by kernel_rfl)

theorem literal_one : FloatLiteral b!"1" false 1 := by
  refine ⟨[], b!"1", [], (decimal b!"1" : ℚ), 0, rfl, .inl rfl, .whole (by decide) (by unfold Digits Digit; decide), .none, by decide, ?_⟩
  rw [show decimal b!"1" = 1 from rfl]; norm_num

example [StdSort] : ∃ ops, Reachable full ∧ Holds full b!"f" (.float (.fin false (2 ^ 24 * 2 ^ 1074))) ∧
    Serial [] full [⟨0, b!"f add: 1;", b!"null"⟩, ⟨1, b!"f add: 1;", b!"null"⟩] full ∧
    UpdatesOf b!"f" [⟨0, b!"f add: 1;", b!"null"⟩, ⟨1, b!"f add: 1;", b!"null"⟩] ops ∧ SumOps ops [1, 1] := by
  have na : ¬ Question b!"add:" := by decide
  have acc : ∀ i l, (⟨i, l, b!"null"⟩ : Request).accepted := fun i l => (by decide : b!"null" ∉ errorTexts)
  exact ⟨_, full_reachable, by decide +kernel, serially_serial (ls := [(0, b!"f add: 1;"), (1, b!"f add: 1;")]) .nil (by simp) (by kernel_rfl),
    .update (reads (by kernel_rfl)) na (acc _ _) (.update (reads (by kernel_rfl)) na (acc _ _) .nil), .add literal_one (.add literal_one .nil)⟩

end Knuckle.Props

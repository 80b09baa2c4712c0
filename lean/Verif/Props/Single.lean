/-
C88: arithmetic of floats is arithmetic in single precision.
-/
import Verif.Proofs.Twice
import Verif.Props.Numbers
import Verif.Props.Variables

namespace Knuckle.Props

open Spec

variable {pwd pwd' : Str} {c c' : Ctx} {s s' : Option Session}

theorem number_sign_inj {x y : Fl} {q : ℚ} (hx : number x = some q) (hy : number y = some q) (h : signBit x = signBit y) : x = y := by
  obtain ⟨a, j, rfl, e⟩ := number_eq hx
  obtain ⟨b, k, rfl, e'⟩ := number_eq hy
  have h : a = b := h
  subst h
  have hu := unit_pos.ne'
  have hs : (if a then (-1 : ℚ) else 1) ≠ 0 := by cases a <;> norm_num
  have e := mul_left_cancel₀ hs (e.symm.trans e')
  rw [div_left_inj' hu, Nat.cast_inj] at e
  rw [e]

/-- A literal for a number that is a `float` is read as that `float`. -/
theorem literal_single {a : Str} {neg : Bool} {q : ℚ} {l : Fl} (ha : FloatLiteral a neg q) (h1 : OnGrid 24 149 q) (h2 : |q| < 2 ^ 128)
    (h : Rounds double neg q l) : number l = some q ∧ signBit l = neg ∧ l.toF32 = l := by
  obtain ⟨g1, g2⟩ := denotes_single ha h1 h2 ((C53_denotes a _).2 ⟨_, _, _, _, ha, h, converts_toF32 l, rfl⟩)
  obtain ⟨r, k1, k2, k3⟩ := h
  have e := nearest_unique (by decide) (by decide) k1 (nearest_self (single_on_double h1))
  subst e
  rcases k3 with ⟨_, k3⟩ | ⟨k3, _⟩
  · exact ⟨k3, k2, number_sign_inj g1 k3 (g2.trans k2.symm)⟩
  · exfalso
    have : (2 : ℚ) ^ (128 : ℤ) ≤ 2 ^ (1024 : ℤ) := zpow_le_of (by norm_num)
    have k3 : (2 : ℚ) ^ (1024 : ℕ) ≤ |r| := k3
    have : (2 : ℚ) ^ (128 : ℕ) ≤ 2 ^ (1024 : ℕ) := by exact_mod_cast this
    exact absurd (lt_of_lt_of_le h2 (this.trans k3)) (lt_irrefl _)

/-- C88: an operation on two `float`s computed in `double` and then converted to `float` is the operation computed in `float`. -/
theorem C88_computed_in_double {name : Str} {op : Format → Fl → Fl → Fl → Prop} {v l d x : Fl} (hop : (name, op) ∈ fltOps)
    (hv : Converts v v) (hl : Converts l l) (h : op double v l d) (hx : Converts d x) : op single v l x := by
  have hv := (converts_iff.1 hv).symm
  have hl := (converts_iff.1 hl).symm
  simp only [fltOps, List.mem_cons, Prod.mk.injEq, List.not_mem_nil, or_false] at hop
  rcases hop with ⟨_, rfl⟩ | ⟨_, rfl⟩ | ⟨_, rfl⟩ | ⟨_, rfl⟩
  · exact sum_twice hv hl h hx
  · exact difference_twice hv hl h hx
  · exact product_twice hv hl h hx
  · exact quotient_twice hv hl h hx

/-- C88: if the argument writes a number that is a `float`, then `add:`, `subtract:`, `multiplyBy:` and `divideBy:` of a Float give the
result of the operation of IEEE 754 in single precision: the exact result, rounded once. -/
theorem C88_single_precision [StdSort] {n t a name : Str} {v : Fl} {neg : Bool} {q : ℚ} {op : Format → Fl → Fl → Fl → Prop}
    (hc : Reachable c) (hn : Holds c n (.float v)) (ha : FloatLiteral a neg q) (h1 : OnGrid 24 149 q) (h2 : |q| < 2 ^ 128)
    (hop : (name, op) ∈ fltOps) (h : Statement t n name [a]) :
    ∃ w x c₁, number w = some q ∧ signBit w = neg ∧ op single v w x ∧ Replies pwd c s t b!"null" c₁ ∧ OnlyChanged c c₁ n (.float x) := by
  obtain ⟨l, d, x, c₁, h3, h4, h5, h6, h7⟩ := C55_arithmetic (pwd := pwd) (s := s) hc hn ha hop h
  obtain ⟨g1, g2, g3⟩ := literal_single ha h1 h2 h3
  have hv : v.toF32 = v := (C25_containers_are_typed hc hn).2.2.2.2 v rfl
  exact ⟨l, x, c₁, g1, g2, C88_computed_in_double hop (converts_iff.2 hv.symm) (converts_iff.2 g3.symm) h4 h5, h6, h7⟩

theorem sum_comm {F : Format} {x y z : Fl} (h : Sum F x y z) : Sum F y x z := by
  cases h with
  | nanLeft => exact .nanRight _
  | nanRight => exact .nanLeft _
  | opposite h => exact .opposite h.symm
  | infinities => exact .infinities _
  | infLeft h => exact .infRight h
  | infRight h => exact .infLeft h
  | zero h1 h2 h3 => rw [Bool.and_comm]; exact .zero h2 h1 (by rw [add_comm]; exact h3)
  | number h1 h2 h3 h4 => rw [add_comm] at h3 h4; exact .number h2 h1 h3 h4

theorem xor_swap (a b : Bool) : (a != b) = (b != a) := by cases a <;> cases b <;> rfl

theorem product_comm {F : Format} {x y z : Fl} (h : Product F x y z) : Product F y x z := by
  cases h with
  | nanLeft => exact .nanRight _
  | nanRight => exact .nanLeft _
  | zeroTimesInf h => exact .infTimesZero h
  | infTimesZero h => exact .zeroTimesInf h
  | infinities a b => rw [xor_swap]; exact .infinities _ _
  | infLeft h h' => rw [xor_swap]; exact .infRight h h'
  | infRight h h' => rw [xor_swap]; exact .infLeft h h'
  | number h1 h2 h4 => rw [xor_swap, mul_comm] at h4; exact .number h2 h1 h4

/-- C88: adding and multiplying Floats is commutative: adding the value of `m` to `n` and the value of `n` to `m` gives the same. -/
theorem C88_commutative [StdSort] {n m t t' a b name : Str} {v w : Fl} {p q : ℚ} (hc : Reachable c) (hn : Holds c n (.float v))
    (hm : Holds c m (.float w)) (hp : number v = some p) (hq : number w = some q) (ha : FloatLiteral a (signBit w) q)
    (hb : FloatLiteral b (signBit v) p) (hname : name = b!"add:" ∨ name = b!"multiplyBy:") (h : Statement t n name [a])
    (h' : Statement t' m name [b]) :
    ∃ x c₁ c₂, Replies pwd c s t b!"null" c₁ ∧ OnlyChanged c c₁ n (.float x) ∧
      Replies pwd' c s' t' b!"null" c₂ ∧ OnlyChanged c c₂ m (.float x) := by
  obtain ⟨g1, b1⟩ := single_number ((C25_containers_are_typed hc hn).2.2.2.2 v rfl) hp
  obtain ⟨g2, b2⟩ := single_number ((C25_containers_are_typed hc hm).2.2.2.2 w rfl) hq
  obtain ⟨op, hop, hcomm⟩ : ∃ op : Format → Fl → Fl → Fl → Prop, (name, op) ∈ fltOps ∧ ∀ {x y z}, op single x y z → op single y x z := by
    rcases hname with rfl | rfl
    · exact ⟨Sum, by simp [fltOps], sum_comm⟩
    · exact ⟨Product, by simp [fltOps], product_comm⟩
  obtain ⟨w', x, c₁, k1, k2, k3, k4, k5⟩ := C88_single_precision (pwd := pwd) (s := s) hc hn ha g2 b2 hop h
  obtain ⟨v', y, c₂, l1, l2, l3, l4, l5⟩ := C88_single_precision (pwd := pwd') (s := s') hc hm hb g1 b1 hop h'
  rw [number_sign_inj k1 hq k2] at k3
  rw [number_sign_inj l1 hp l2] at l3
  obtain ⟨z, _, hz⟩ := C55_determined (.inl rfl) hop v w
  rw [hz _ k3] at k5
  rw [hz _ (hcomm l3)] at l5
  exact ⟨z, c₁, c₂, k4, k5, l4, l5⟩

theorem rounds_single_exact {neg : Bool} {r : ℚ} {x : Fl} (h : Rounds single neg r x) (h1 : OnGrid 24 149 r) (h2 : |r| < 2 ^ 128) :
    number x = some r := by
  obtain ⟨r', k1, _, k3⟩ := h
  have e := nearest_unique (by decide) (by decide) k1 (nearest_self h1)
  subst e
  rcases k3 with ⟨_, k3⟩ | ⟨k3, _⟩
  · exact k3
  · exact absurd h2 (not_lt.2 k3)

theorem sum_exact {x y z : Fl} {p q : ℚ} (h : Sum single x y z) (hp : number x = some p) (hq : number y = some q)
    (h1 : OnGrid 24 149 (p + q)) (h2 : |p + q| < 2 ^ 128) : number z = some (p + q) := by
  cases h with
  | nanLeft => cases hp
  | nanRight => cases hq
  | opposite => cases hp
  | infinities => cases hp
  | infLeft => cases hp
  | infRight => cases hq
  | zero k1 k2 k3 =>
    rw [hp] at k1; rw [hq] at k2; cases k1; cases k2
    rw [k3, number_fin]; simp
  | number k1 k2 k3 k4 =>
    rw [hp] at k1; rw [hq] at k2; cases k1; cases k2
    exact rounds_single_exact k4 h1 h2

/-- The exact results. -/
def exactOps : List (Str × (ℚ → ℚ → ℚ)) :=
  [(b!"add:", fun p q => p + q), (b!"subtract:", fun p q => p - q), (b!"multiplyBy:", fun p q => p * q), (b!"divideBy:", fun p q => p / q)]

/-- C88: if the value, the argument and the exact result are numbers that a `float` can hold, the new value is the exact result. -/
theorem C88_exact [StdSort] {n t a name : Str} {v : Fl} {neg : Bool} {p q : ℚ} {f : ℚ → ℚ → ℚ}
    (hc : Reachable c) (hn : Holds c n (.float v)) (hp : number v = some p) (ha : FloatLiteral a neg q) (h1 : OnGrid 24 149 q)
    (h2 : |q| < 2 ^ 128) (hf : (name, f) ∈ exactOps) (h0 : name = b!"divideBy:" → q ≠ 0) (h3 : OnGrid 24 149 (f p q))
    (h4 : |f p q| < 2 ^ 128) (h : Statement t n name [a]) :
    ∃ x c₁, number x = some (f p q) ∧ Replies pwd c s t b!"null" c₁ ∧ OnlyChanged c c₁ n (.float x) := by
  simp only [exactOps, List.mem_cons, Prod.mk.injEq, List.not_mem_nil, or_false] at hf
  rcases hf with ⟨rfl, rfl⟩ | ⟨rfl, rfl⟩ | ⟨rfl, rfl⟩ | ⟨rfl, rfl⟩
  · obtain ⟨w, x, c₁, k1, _, k3, k4, k5⟩ :=
      C88_single_precision (op := Sum) (pwd := pwd) (s := s) hc hn ha h1 h2 (List.mem_of_getElem? (i := 0) rfl) h
    exact ⟨x, c₁, sum_exact k3 hp k1 h3 h4, k4, k5⟩
  · obtain ⟨w, x, c₁, k1, _, k3, k4, k5⟩ :=
      C88_single_precision (op := Difference) (pwd := pwd) (s := s) hc hn ha h1 h2 (List.mem_of_getElem? (i := 1) rfl) h
    simp only [sub_eq_add_neg] at h3 h4 ⊢
    exact ⟨x, c₁, sum_exact k3 hp (number_opposite k1) h3 h4, k4, k5⟩
  · obtain ⟨w, x, c₁, k1, _, k3, k4, k5⟩ :=
      C88_single_precision (op := Product) (pwd := pwd) (s := s) hc hn ha h1 h2 (List.mem_of_getElem? (i := 2) rfl) h
    refine ⟨x, c₁, ?_, k4, k5⟩
    cases k3 with
    | number l1 l2 l3 =>
      rw [hp] at l1; rw [k1] at l2; cases l1; cases l2
      exact rounds_single_exact l3 h3 h4
    | nanLeft => cases hp
    | nanRight => cases k1
    | zeroTimesInf => cases k1
    | infTimesZero => cases hp
    | infinities => cases hp
    | infLeft => cases hp
    | infRight => cases k1
  · obtain ⟨w, x, c₁, k1, _, k3, k4, k5⟩ :=
      C88_single_precision (op := Spec.Quotient) (pwd := pwd) (s := s) hc hn ha h1 h2 (List.mem_of_getElem? (i := 3) rfl) h
    refine ⟨x, c₁, ?_, k4, k5⟩
    have h0 := h0 rfl
    cases k3 with
    | number l1 l2 _ l3 =>
      rw [hp] at l1; rw [k1] at l2; cases l1; cases l2
      exact rounds_single_exact l3 h3 h4
    | nanLeft => cases hp
    | nanRight => cases k1
    | infinities => cases hp
    | zeros _ l2 => rw [k1] at l2; cases l2; exact absurd rfl h0
    | byZero _ _ l2 => rw [k1] at l2; cases l2; exact absurd rfl h0
    | infLeft => cases hp
    | infRight => cases k1

/-- A literal for a number just below the middle of the greatest `float` and its successor 2¹²⁸. -/
theorem almost : FloatLiteral b!"340282356779733642748073463979561713664" false (2 ^ 128 - 2 ^ 103 - 2 ^ 74) := by
  refine ⟨[], b!"340282356779733642748073463979561713664", [], (decimal b!"340282356779733642748073463979561713664" : ℚ), 0, rfl, .inl rfl,
    .whole (by decide) (by unfold Digits Digit; decide +kernel), .none, by decide, ?_⟩
  rw [show decimal b!"340282356779733642748073463979561713664" = 340282356779733642748073463979561713664 by decide +kernel]; norm_num

/-- C88: for literals this is not so: the written number is rounded twice, and the result can be another `float` than the nearest one
(here an infinity instead of the greatest finite `float`). -/
theorem C88_literals_are_rounded_twice : ∃ a neg q x y, FloatLiteral a neg q ∧ Denotes b!"Float" a (.float x) ∧ Rounds single neg q y ∧
    x = .inf false ∧ number y = some (2 ^ 128 - 2 ^ 104) := by
  have hd : Denotes b!"Float" b!"340282356779733642748073463979561713664"
      (.float (atof b!"340282356779733642748073463979561713664").toF32) := .float ((floatLiteral_exists _).2 ⟨_, _, almost⟩)
  obtain ⟨y, hy⟩ := rounds_exists f32_is (neg := false) (q := 2 ^ 128 - 2 ^ 103 - 2 ^ 74) (by unfold Signed; norm_num)
  refine ⟨_, _, _, _, y, almost, hd, hy, (C53_overflow almost hd).2 (le_abs_self _), ?_⟩
  obtain ⟨r, h1, h2, h3⟩ := hy
  have hg : OnGrid 24 149 ((2 : ℚ) ^ 128 - 2 ^ 104) := ⟨2 ^ 24 - 1, 104, by norm_num, by norm_num, by norm_num⟩
  have hb := h1.2.1 _ hg
  -- other floats are at least 2^103 away from the greatest
  have hr : r = 2 ^ 128 - 2 ^ 104 := by
    by_contra hne
    have hup : OnGrid 24 149 ((2 : ℚ) ^ 128) := ⟨1, 128, by norm_num, by norm_num, by norm_num⟩
    have hle : r ≤ 2 ^ 128 := nearest_mono (by decide) (by decide) h1 (nearest_self hup) (by norm_num)
    have hge : 2 ^ 128 - 2 ^ 104 ≤ r := nearest_mono (by decide) (by decide) (nearest_self hg) h1 (by norm_num)
    have hne' : r ≠ 2 ^ 128 := by
      rintro rfl
      norm_num at hb
    obtain ⟨m, k, rfl, hm, hk⟩ := h1.1
    have hmb := cast_bound (p := 24) (k := k) hm
    rw [abs_of_nonneg (le_trans (by norm_num) hge)] at hmb
    have hk' : 104 ≤ k := by
      by_contra hc
      have : (2 : ℚ) ^ ((24 : ℕ) + k : ℤ) ≤ 2 ^ (127 : ℤ) := zpow_le_of (by push_cast; omega)
      norm_num at *
      linarith
    rw [zpow_split hk', ← mul_assoc, ← Int.cast_mul] at hne hle hge hne'
    generalize m * 2 ^ (k - 104).toNat = M at *
    have l1 : ((2 ^ 24 - 1 : ℤ) : ℚ) ≤ M := by
      have : ((2 ^ 24 - 1 : ℤ) : ℚ) * 2 ^ (104 : ℤ) ≤ M * 2 ^ (104 : ℤ) := by refine le_trans (le_of_eq ?_) hge; norm_num
      exact le_of_mul_le_mul_right this (zpos _)
    have l2 : (M : ℚ) ≤ ((2 ^ 24 : ℤ) : ℚ) := by
      have : (M : ℚ) * 2 ^ (104 : ℤ) ≤ ((2 ^ 24 : ℤ) : ℚ) * 2 ^ (104 : ℤ) := by refine le_trans hle (le_of_eq ?_); norm_num
      exact le_of_mul_le_mul_right this (zpos _)
    have l1 : (2 ^ 24 - 1 : ℤ) ≤ M := by exact_mod_cast l1
    have l2 : M ≤ 2 ^ 24 := by exact_mod_cast l2
    rcases (by omega : M = 2 ^ 24 - 1 ∨ M = 2 ^ 24) with rfl | rfl
    · exact hne (by norm_num)
    · exact hne' (by norm_num)
  subst hr
  rcases h3 with ⟨_, h3⟩ | ⟨h3, _⟩
  · exact h3
  · exfalso; norm_num [single] at h3

theorem three : FloatLiteral b!"3" false 3 := by
  refine ⟨[], b!"3", [], (decimal b!"3" : ℚ), 0, rfl, .inl rfl, .whole (by decide) (by unfold Digits Digit; decide), .none, by decide, ?_⟩
  rw [show decimal b!"3" = 3 from rfl]; norm_num

/-- The Float `f` (1.5) divided by 3. -/
example [StdSort] : ∃ w x c₁, number w = some 3 ∧ signBit w = false ∧ Spec.Quotient single (.fin false (3 * 2 ^ 1073)) w x ∧
    Replies [] demo none b!"f divideBy: 3;" b!"null" c₁ ∧ OnlyChanged demo c₁ b!"f" (.float x) :=
  C88_single_precision (name := b!"divideBy:") (op := Spec.Quotient) demo_reachable (by decide +kernel) three
    ⟨3, 0, by norm_num, by norm_num, by norm_num⟩ (by norm_num) (List.mem_of_getElem? (i := 3) rfl) (reads (by decide +kernel))

/-- `f` divided by 3 is exactly a half. -/
example [StdSort] : ∃ x c₁, number x = some (3 / 2 / 3) ∧ Replies [] demo none b!"f divideBy: 3;" b!"null" c₁ ∧
    OnlyChanged demo c₁ b!"f" (.float x) :=
  C88_exact (name := b!"divideBy:") (f := fun p q => p / q) demo_reachable (by decide +kernel) demo_f three
    ⟨3, 0, by norm_num, by norm_num, by norm_num⟩ (by norm_num) (List.mem_of_getElem? (i := 3) rfl) (fun _ => by norm_num)
    ⟨1, -1, by norm_num, by norm_num, by norm_num⟩ (by rw [abs_of_pos] <;> norm_num) (reads (by decide +kernel))

theorem literal_f : FloatLiteral b!"1.5" false (3 / 2) := by
  refine ⟨[], b!"1.5", [], (decimal b!"1" : ℚ) + (decimal b!"5" : ℚ) / 10 ^ (b!"5").length, 0, rfl, .inl rfl,
    .point (a := b!"1") (b := b!"5") (by unfold Digits Digit; decide) (by unfold Digits Digit; decide) (.inl (by decide)), .none, by decide, ?_⟩
  rw [show decimal b!"1" = 1 from rfl, show decimal b!"5" = 5 from rfl]; norm_num

/-- The hypotheses of `C88_commutative`, with `f` in both roles. -/
example [StdSort] : ∃ x c₁ c₂, Replies [] demo none b!"f add: 1.5;" b!"null" c₁ ∧ OnlyChanged demo c₁ b!"f" (.float x) ∧
    Replies b!"pw" demo none b!" f add:1.5 ;" b!"null" c₂ ∧ OnlyChanged demo c₂ b!"f" (.float x) :=
  C88_commutative (name := b!"add:") (v := .fin false (3 * 2 ^ 1073)) (w := .fin false (3 * 2 ^ 1073)) demo_reachable (by decide +kernel)
    (by decide +kernel) demo_f demo_f literal_f literal_f (.inl rfl) (reads (by decide +kernel)) (reads (by decide +kernel))

end Knuckle.Props

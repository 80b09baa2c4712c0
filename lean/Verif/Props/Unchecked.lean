/-
C111: the settings given on the command line are not checked, and what follows if they are not such as requests could have made them.
-/
import Verif.Props.Main
import Verif.Props.Numbers
import Verif.Proofs.Rebuild

namespace Knuckle.Props

open Spec

section
variable {opens : Str → Bool} {binds : Bool} {o : CommandLine} {srv : Server} {p : Int} {e : Fl}

/-- C111: whatever precision and tolerance are given on the command line, the server starts and has them. -/
theorem C111_settings_are_taken [StdSort] {t : Str} {s : Option Session} {pwd : Str} (h : main opens binds (some o) = .serving srv)
    (hp : o.floatPrecision = some p) (he : o.floatComparisonTolerance = some e) (hs : Statement t b!"Context" b!"getFloatPrecision" []) :
    srv.ctx.cfg.prec = p ∧ srv.ctx.cfg.eps = e ∧ JustReplies pwd srv.ctx s t (intStr p) := by
  have h1 : srv.ctx.cfg.prec = p ∧ srv.ctx.cfg.eps = e := by
    rw [main_serving h, hp, he]; exact ⟨rfl, rfl⟩
  have h2 := (C37_getSettings (pwd := pwd) (c := srv.ctx) (s := s) (t₂ := b!"Context getFloatComparisonTolerance;") (l₂ := []) hs
    (reads (by decide +kernel))).1
  rw [h1.1] at h2
  exact ⟨h1.1, h1.2, h2⟩

/-- C111: and the server starts with any. -/
theorem C111_any_settings_start (hh : o.help = false) (hp : o.port ≠ none) :
    ∃ srv, main opens true (some { o with floatPrecision := some p, floatComparisonTolerance := some e }) = .serving srv := by
  obtain ⟨q, hq⟩ := Option.ne_none_iff_exists'.1 hp
  exact (C63_when_it_serves _).2 ⟨rfl, _, q, rfl, hh, hq⟩

end

section
variable {pwd : Str} {c c' : Ctx} {s : Option Session} {n t t₁ t₂ t₃ t₄ t₅ a : Str} {v w : Fl} {p q e : ℚ}

/-- C111: requests, on the other hand, make neither a precision that is not positive nor a negative tolerance of others. -/
theorem C111_requests_keep_valid [StdSort] {h : List (Str × Str)} (hc : Reachable c) (hh : History c h c') (hp : 0 < c.cfg.prec)
    (he : ¬ Less c.cfg.eps (.fin false 0)) : 0 < c'.cfg.prec ∧ ¬ Less c'.cfg.eps (.fin false 0) := by
  induction hh with
  | nil => exact ⟨hp, he⟩
  | @cons pwd c c₁ c' s s' text r h hex _ ih =>
    refine ih (.step hc hex) ?_ ?_
    · by_cases hq : r = b!"null" ∧ ∃ b, Statement text b!"Context" b!"setFloatPrecision:" [b]
      · obtain ⟨rfl, b, hb⟩ := hq
        rcases integerLit_cases b with ⟨k, _, hd, _⟩ | ⟨_, hn⟩ | ⟨h1, _⟩
        · have h3 := C37_setFloatPrecision (pwd := pwd) (c := c) (s := s) hb hd
          by_cases hk : 0 < k
          · obtain ⟨x, hr, _, hcf⟩ := h3.1 hk
            unfold Replies at hr; rw [hex] at hr; cases hr; rw [hcf]; exact hk
          · obtain ⟨x, hr, _⟩ := h3.2 hk
            unfold Replies at hr; rw [hex] at hr; cases hr
        · obtain ⟨x, hr, _⟩ := C37_setFloatPrecision_literal (pwd := pwd) (c := c) (s := s) hb hn
          unfold Replies at hr; rw [hex] at hr; cases hr
        · have h4 := execute_statement pwd c s _ _ _ _ hb
          rw [executeParsed_context _ _ _ _ (by simp [isContext])] at h4
          have hd : dispatch c (contextTable c) b!"setFloatPrecision:" [b] = opSetFloatPrecision c [b] := rfl
          rw [hd] at h4
          simp only [opSetFloatPrecision, op1, h1] at h4
          rw [hex] at h4
          cases h4
      · rw [precision_kept hc hex hq]; exact hp
    · by_cases hq : r = b!"null" ∧ ∃ b, Statement text b!"Context" b!"setFloatComparisonTolerance:" [b]
      · obtain ⟨rfl, b, hb⟩ := hq
        by_cases hd : ∃ x, Denotes b!"Float" b (.float x)
        · obtain ⟨x, hd⟩ := hd
          have h3 := C37_tolerance (pwd := pwd) (c := c) (s := s) hb hd
          by_cases hk : Less x (.fin false 0)
          · obtain ⟨x, hr, _⟩ := h3.2 hk
            unfold Replies at hr; rw [hex] at hr; cases hr
          · obtain ⟨x, hr, _, hcf⟩ := h3.1 hk
            unfold Replies at hr; rw [hex] at hr; cases hr; rw [hcf]; exact hk
        · obtain ⟨x, hr, _⟩ := C37_tolerance_not_a_literal (pwd := pwd) (c := c) (s := s) hb hd
          unfold Replies at hr; rw [hex] at hr; cases hr
      · rw [tolerance_kept hc hex hq]; exact he

/-- C111: with a negative precision floats are printed with six decimals. -/
theorem C111_negative_precision [StdSort] (hc : Reachable c) (hp : c.cfg.prec < 0) (hn : Holds c n (.float v)) (h : Statement t n b!"get" []) :
    JustReplies pwd c s t (fmtFixed 6 v) := by
  have := justReplies_of hc hn (answers_flt (pwd := pwd) (s := s) hc hn h .get)
  rwa [show fmtFixed c.cfg.prec v = fmtFixed 6 v by cases v <;> simp [fmtFixed, hp]] at this

theorem below_negative {eps : Fl} (he : number eps = some e) (h0 : e < 0) (hv : number v = some p) (hw : number w = some q) (hle : p ≤ q) :
    below eps v w := by
  rw [below_iff]
  have ho := number_opposite he
  have hw' := number_opposite hw
  have hd := difference_sub f32_is v w
  unfold Difference at hd
  generalize opposite w = ow at hd hw'
  generalize v.sub f32 w = z at hd ⊢
  cases hd with
  | nanLeft => cases hv
  | nanRight => cases hw'
  | opposite _ => cases hv
  | infinities _ => cases hv
  | infLeft _ => cases hv
  | infRight _ => cases hw'
  | zero _ _ _ =>
    refine .numbers (p := 0) ?_ ho (by linarith)
    cases (signBit v && signBit ow) <;> simp [number]
  | number h1 h2 h3 h4 =>
    rw [hv] at h1; rw [hw'] at h2; injection h1 with h1; injection h2 with h2; subst h1; subst h2
    obtain ⟨r, g1, _, ⟨_, g3⟩ | ⟨_, g3⟩⟩ := h4
    · have hr : r ≤ 0 := nearest_mono (p := 24) (e := 149) (by decide) (by decide) g1 (nearest_self (onGrid_zero _ _)) (by linarith)
      exact .numbers g3 ho (by linarith)
    · rw [g3, decide_eq_true (show p + -q < 0 by
        rcases lt_or_eq_of_le (show p + -q ≤ 0 by linarith) with h | h
        · exact h
        · exact absurd h h3)]
      exact .fromMinusInf (fun x => by rw [x] at ho; cases ho) (fun x => by rw [x] at ho; cases ho)

/-- C111: with a negative tolerance a float is less than everything that is not less than it, itself included, and greater than
everything that is not greater; and nothing is equal to anything. -/
theorem C111_negative_tolerance [StdSort] (hc : Reachable c) (he : number c.cfg.eps = some e) (h0 : e < 0) (hn : Holds c n (.float v))
    (ha : Denotes b!"Float" a (.float w)) (hv : number v = some p) (hw : number w = some q) (h₁ : Statement t₁ n b!"isLessThan?" [a])
    (h₂ : Statement t₂ n b!"isEqualTo?" [a]) (h₃ : Statement t₃ n b!"isGreaterThan?" [a]) :
    (p ≤ q → JustReplies pwd c s t₁ b!"true") ∧ JustReplies pwd c s t₂ b!"false" ∧ (q ≤ p → JustReplies pwd c s t₃ b!"true") := by
  cases ha with | float ha =>
  have r₁ := justReplies_of hc hn (answers_flt (pwd := pwd) (s := s) hc hn h₁ (.lt ha))
  have r₂ := justReplies_of hc hn (answers_flt (pwd := pwd) (s := s) hc hn h₂ (.eq ha))
  have r₃ := justReplies_of hc hn (answers_flt (pwd := pwd) (s := s) hc hn h₃ (.gt ha))
  have b1 : p ≤ q → below c.cfg.eps v (atof a).toF32 := below_negative he h0 hv hw
  have b2 : q ≤ p → above c.cfg.eps v (atof a).toF32 := fun h => by
    rw [← C17_mirror_values]; exact below_negative he h0 hw hv h
  refine ⟨fun h => ?_, ?_, fun h => ?_⟩
  · rwa [truth_true (b1 h)] at r₁
  · rwa [truth_false (fun h => (le_total p q).elim (fun x => h.1 (b1 x)) (fun x => h.2 (b2 x)))] at r₂
  · rwa [truth_true (b2 h)] at r₃

/-- No order in which a number is less than itself is strict. -/
theorem negative_not_strict {l : List Obj} {x : Fl} {eps : Fl} (he : number eps = some e) (h0 : e < 0) (hx : number x = some p) (hm : Obj.float x ∈ l) :
    ¬ StrictWeakOrder (less eps) l := by
  rintro ⟨h, _⟩
  refine h _ hm ?_
  simp only [less]
  exact decide_eq_true (below_negative he h0 hx hx le_rfl)

/-- C111: with a negative tolerance every lookup, addition and removal of a number in a set of floats is undefined behaviour. -/
theorem C111_negative_tolerance_set [StdSort] {l : List Obj} {name : Str} (hc : Reachable c) (he : number c.cfg.eps = some e) (h0 : e < 0)
    (hn : Holds c n (.set b!"Float" l)) (ha : Denotes b!"Float" a (.float w)) (hw : number w = some q)
    (hm : name ∈ [b!"contains?", b!"add:", b!"remove:"]) (h : Statement t n name [a]) : execute pwd c s t = .ub := by
  have hs : ¬ Searchable (less c.cfg.eps) l (.float w) := fun hs => negative_not_strict he h0 hw (by simp) hs.1
  simp only [List.mem_cons, List.not_mem_nil, or_false] at hm
  rcases hm with rfl | rfl | rfl
  · have := answers_set (pwd := pwd) (s := s) hc hn h (.contains ha)
    rw [setMeaning, if_neg hs] at this; exact this
  · have := answers_set (pwd := pwd) (s := s) hc hn h (.add ha)
    rw [setMeaning, if_neg hs] at this; exact this
  · have := answers_set (pwd := pwd) (s := s) hc hn h (.remove ha)
    rw [setMeaning, if_neg hs] at this; exact this

/-- C111: and so is sorting a vector with a number. -/
theorem C111_negative_tolerance_sort [StdSort] {l : List Obj} {x : Fl} (hc : Reachable c) (he : number c.cfg.eps = some e) (h0 : e < 0)
    (hn : Holds c n (.vector b!"Float" l)) (hx : number x = some p) (hm : Obj.float x ∈ l) (h : Statement t n b!"sort" []) :
    execute pwd c s t = .ub := by
  rcases answers_any (pwd := pwd) (s := s) hc hn h with ⟨h1, _⟩ | ⟨ks, hks, h'⟩
  · exact absurd rfl (h1 (b!"sort", []) (by simp [signature]))
  · have : ks = [] := by simpa [signature] using hks
    subst this
    rcases h' with ⟨h1, _⟩ | ⟨_, ⟨p, hp, _⟩, _⟩ | ⟨_, _, h1⟩ | ⟨_, _, r, hr, ha⟩
    · exact absurd rfl h1
    · simp at hp
    · exact h1
    · cases hr with
      | vector hm => cases hm
      | sort h1 => exact absurd h1 (negative_not_strict he h0 hx hm)
      | sortUndefined _ => exact ha

theorem not_below_nan (x y : Fl) : ¬ below .nan x y := by
  rw [below_iff]; generalize x.sub f32 y = z
  intro h; cases h with
  | numbers _ h _ => cases h
  | fromMinusInf h => exact h rfl

theorem not_above_nan (x y : Fl) : ¬ above .nan x y := by rw [← C17_mirror_values]; exact not_below_nan _ _

/-- C111: if the tolerance is not a number all floats are equal. -/
theorem C111_nan_tolerance [StdSort] (hc : Reachable c) (he : c.cfg.eps = .nan) (hn : Holds c n (.float v)) (ha : FloatValue a)
    (h₁ : Statement t₁ n b!"isLessThan?" [a]) (h₂ : Statement t₂ n b!"isEqualTo?" [a]) (h₃ : Statement t₃ n b!"isGreaterThan?" [a]) :
    JustReplies pwd c s t₁ b!"false" ∧ JustReplies pwd c s t₂ b!"true" ∧ JustReplies pwd c s t₃ b!"false" := by
  have r₁ := justReplies_of hc hn (answers_flt (pwd := pwd) (s := s) hc hn h₁ (.lt ha))
  have r₂ := justReplies_of hc hn (answers_flt (pwd := pwd) (s := s) hc hn h₂ (.eq ha))
  have r₃ := justReplies_of hc hn (answers_flt (pwd := pwd) (s := s) hc hn h₃ (.gt ha))
  rw [he] at r₁ r₂ r₃
  rw [truth_false (not_below_nan _ _)] at r₁
  rw [truth_true ⟨not_below_nan _ _, not_above_nan _ _⟩] at r₂
  rw [truth_false (not_above_nan _ _)] at r₃
  exact ⟨r₁, r₂, r₃⟩

/-- C111: and a set of floats that is not empty contains, it says, every float; it cannot get a second element. -/
theorem C111_nan_tolerance_set [StdSort] {l : List Obj} {x : Obj} (hc : Reachable c) (he : c.cfg.eps = .nan)
    (hn : Holds c n (.set b!"Float" l)) (ha : Denotes b!"Float" a (.float w)) (hl : l = [x])
    (h₁ : Statement t₁ n b!"contains?" [a]) (h₂ : Statement t₂ n b!"add:" [a]) :
    JustReplies pwd c s t₁ b!"true" ∧ JustReplies pwd c s t₂ b!"null" := by
  subst hl
  obtain ⟨y, rfl⟩ : ∃ y, x = .float y := by
    have h1 := ((holds_wellTyped hc hn).2.1 x (by simp)).1
    cases x with
    | float y => exact ⟨y, rfl⟩
    | _ => simp [Obj.type] at h1
  have hless : ∀ u v : Fl, less .nan (.float u) (.float v) = false := fun u v => by
    simp only [less]; exact decide_eq_false (not_below_nan u v)
  have hs : Searchable (less c.cfg.eps) [.float y] (.float w) := by
    rw [he]
    refine ⟨⟨?_, ?_, ?_⟩, by simp⟩ <;> simp [hless]
  have ht : ∃ x ∈ [Obj.float y], tied (less c.cfg.eps) (.float w) x := ⟨.float y, by simp, by rw [he]; simp [tied, hless]⟩
  have r₁ := answers_set (pwd := pwd) (s := s) hc hn h₁ (.contains ha)
  have r₂ := answers_set (pwd := pwd) (s := s) hc hn h₂ (.add ha)
  rw [setMeaning, if_pos hs, truth_true ht] at r₁
  rw [setMeaning, if_pos hs, if_pos ht] at r₂
  exact ⟨justReplies_of hc hn r₁, justReplies_of hc hn r₂⟩

end

/-! ### Cases -/

/-- A float, a vector and a set of floats in a server that was started with `--floatprecision -1 --floatcomparisontolerance` -1 or `nan`. -/
def startedWith (e : Fl) : Ctx := { Ctx.init (-1) e false true with
  vars := [(b!"f", .float (.fin false (2 ^ 1073))), (b!"s", .set b!"Float" []), (b!"v", .vector b!"Float" [.float (.fin false (2 ^ 1073))])] }

def minusOne : Fl := .fin true (2 ^ 1074)

theorem startedWith_reachable [StdSort] (e : Fl) (he : e.toF32 = e) : Reachable (startedWith e) :=
  after_reachable (pwd := []) (s := none)
    (ts := [b!"Float create: f withValue: .5;", b!"Set<Float> create: s;", b!"Vector<Float> create: v;", b!"v pushBack: .5;"])
    (.init (-1) e false true he) (by kernel_rfl)

theorem minusOne_number : number minusOne = some (-1) := by
  simp only [minusOne, number, if_true, Option.some.injEq]
  rw [Nat.cast_pow, Nat.cast_ofNat, neg_div, div_self (pow_ne_zero _ two_ne_zero)]

theorem half_number : number (.fin false (2 ^ 1073)) = some (1 / 2) := by
  simp only [number, Bool.false_eq_true, if_false, Option.some.injEq]
  rw [Nat.cast_pow, Nat.cast_ofNat, show (2 : ℚ) ^ 1074 = 2 ^ 1073 * 2 by rw [← pow_succ]]
  rw [div_mul_eq_div_div, div_self (pow_ne_zero _ two_ne_zero)]

theorem half_literal : Denotes b!"Float" b!".5" (.float (.fin false (2 ^ 1073))) := denotes_atof (by decide +kernel) (by kernel_rfl)

/-- `f isLessThan? .5;`, `f isEqualTo? .5;`, `f isGreaterThan? .5;` where `f` is 0.5. -/
example [StdSort] : JustReplies [] (startedWith minusOne) none b!"f isLessThan? .5;" b!"true" ∧
    JustReplies [] (startedWith minusOne) none b!"f isEqualTo? .5;" b!"false" ∧
    JustReplies [] (startedWith minusOne) none b!"f isGreaterThan? .5;" b!"true" := by
  have h := C111_negative_tolerance (pwd := []) (s := none) (n := b!"f") (startedWith_reachable minusOne (by decide +kernel)) minusOne_number (by norm_num)
    (by unfold Holds; kernel_rfl) half_literal half_number half_number
    (reads (by decide +kernel) : Statement b!"f isLessThan? .5;" b!"f" b!"isLessThan?" [b!".5"])
    (reads (by decide +kernel) : Statement b!"f isEqualTo? .5;" b!"f" b!"isEqualTo?" [b!".5"])
    (reads (by decide +kernel) : Statement b!"f isGreaterThan? .5;" b!"f" b!"isGreaterThan?" [b!".5"])
  exact ⟨h.1 le_rfl, h.2.1, h.2.2 le_rfl⟩

example [StdSort] : execute [] (startedWith minusOne) none b!"s add: .5;" = .ub :=
  C111_negative_tolerance_set (n := b!"s") (l := []) (name := b!"add:") (startedWith_reachable minusOne (by decide +kernel)) minusOne_number (by norm_num)
    (by unfold Holds; kernel_rfl) half_literal half_number (by simp) (reads (by decide +kernel))
example [StdSort] : execute [] (startedWith minusOne) none b!"v sort;" = .ub :=
  C111_negative_tolerance_sort (n := b!"v") (l := [.float (.fin false (2 ^ 1073))]) (startedWith_reachable minusOne (by decide +kernel)) minusOne_number (by norm_num)
    (by unfold Holds; kernel_rfl) half_number (by simp) (reads (by decide +kernel))
example [StdSort] := C111_negative_precision (v := .fin false (2 ^ 1073)) (pwd := []) (s := none) (n := b!"f") (t := b!"f get;") (startedWith_reachable minusOne (by decide +kernel))
  (by decide) (by unfold Holds; kernel_rfl) (reads (by decide +kernel))
example [StdSort] := C111_nan_tolerance (v := .fin false (2 ^ 1073)) (pwd := []) (s := none) (n := b!"f") (a := b!"7") (startedWith_reachable .nan rfl) rfl (by unfold Holds; kernel_rfl)
  ((isFloatValue_iff _).1 (by decide +kernel)) (reads (by decide +kernel) : Statement b!"f isLessThan? 7;" b!"f" b!"isLessThan?" [b!"7"])
  (reads (by decide +kernel) : Statement b!"f isEqualTo? 7;" b!"f" b!"isEqualTo?" [b!"7"])
  (reads (by decide +kernel) : Statement b!"f isGreaterThan? 7;" b!"f" b!"isGreaterThan?" [b!"7"])

/-- A set with one float, and a tolerance that is not a number: it contains 7. -/
def nanSet : Ctx := { Ctx.init 3 .nan false true with vars := [(b!"s", .set b!"Float" [.float (.fin false (2 ^ 1073))])] }
theorem nanSet_reachable [StdSort] : Reachable nanSet :=
  after_reachable (pwd := []) (s := none) (ts := [b!"Set<Float> create: s;", b!"s add: .5;"]) (.init 3 .nan false true rfl) (by kernel_rfl)
example [StdSort] := C111_nan_tolerance_set (x := .float (.fin false (2 ^ 1073))) (l := [.float (.fin false (2 ^ 1073))]) (pwd := []) (s := none) (n := b!"s") (a := b!"7") nanSet_reachable rfl (by unfold Holds; kernel_rfl)
  (.float ((isFloatValue_iff _).1 (by decide +kernel))) rfl (reads (by decide +kernel) : Statement b!"s contains? 7;" b!"s" b!"contains?" [b!"7"])
  (reads (by decide +kernel) : Statement b!"s add: 7;" b!"s" b!"add:" [b!"7"])

example : ∃ srv, main (fun _ => true) true (some ⟨false, true, some 8001, none, none, some (-1), some minusOne⟩) = .serving srv :=
  C111_any_settings_start (o := ⟨false, true, some 8001, none, none, none, none⟩) rfl (by decide)
example [StdSort] {srv : Server} (h : main (fun _ => true) true (some ⟨false, true, some 8001, none, none, some (-1), some minusOne⟩) = .serving srv) :
    JustReplies [] srv.ctx none b!"Context getFloatPrecision;" b!"-1" :=
  (C111_settings_are_taken h rfl rfl (reads (by decide +kernel))).2.2
example [StdSort] := C111_requests_keep_valid (h := []) demo_reachable .nil (by decide) (by rw [less_iff]; decide +kernel)

end Knuckle.Props

/-
C17–C19: comparisons of floats.
-/
import Verif.Proofs.SetDict
import Verif.Proofs.FloatArith
import Verif.Props.Demo

namespace Knuckle.Props

open Spec

variable {pwd pwd' : Str} {c c' : Ctx} {s s' : Option Session}

/-- The tolerance is not a negative number. -/
def NotNegative (eps : Fl) : Prop := eps.lt (.fin false 0) = false

/-! ### C17 -/

theorem truth_true {p : Prop} [Decidable p] (h : p) : truth p = b!"true" := by unfold truth; rw [if_pos h]
theorem truth_false {p : Prop} [Decidable p] (h : ¬ p) : truth p = b!"false" := by unfold truth; rw [if_neg h]

theorem truth_congr {p q : Prop} [Decidable p] [Decidable q] (h : p ↔ q) : truth p = truth q := by
  unfold truth; simp only [h]

/-- C17: exactly one of `isLessThan?`, `isEqualTo?`, `isGreaterThan?` answers true, for any float (also an infinity or NaN)
and any float literal. -/
theorem C17_exactly_one [StdSort] {n a t₁ t₂ t₃ : Str} {v : Fl} (hc : Reachable c) (he : NotNegative c.cfg.eps)
    (hn : Holds c n (.float v)) (ha : FloatValue a) (h₁ : Statement t₁ n b!"isLessThan?" [a])
    (h₂ : Statement t₂ n b!"isEqualTo?" [a]) (h₃ : Statement t₃ n b!"isGreaterThan?" [a]) :
    (JustReplies pwd c s t₁ b!"true" ∧ JustReplies pwd c s t₂ b!"false" ∧ JustReplies pwd c s t₃ b!"false") ∨
    (JustReplies pwd c s t₁ b!"false" ∧ JustReplies pwd c s t₂ b!"true" ∧ JustReplies pwd c s t₃ b!"false") ∨
    (JustReplies pwd c s t₁ b!"false" ∧ JustReplies pwd c s t₂ b!"false" ∧ JustReplies pwd c s t₃ b!"true") := by
  have r₁ := justReplies_of hc hn (answers_flt (pwd := pwd) (s := s) hc hn h₁ (.lt ha))
  have r₂ := justReplies_of hc hn (answers_flt (pwd := pwd) (s := s) hc hn h₂ (.eq ha))
  have r₃ := justReplies_of hc hn (answers_flt (pwd := pwd) (s := s) hc hn h₃ (.gt ha))
  by_cases hb : below c.cfg.eps v (atof a).toF32
  · have hab : ¬ above c.cfg.eps v (atof a).toF32 := by
      have := fl_exclusive v (atof a).toF32 c.cfg.eps he hb
      unfold above; rw [this]; decide
    rw [truth_true hb] at r₁
    rw [truth_false (fun e => e.1 hb)] at r₂
    rw [truth_false hab] at r₃
    exact .inl ⟨r₁, r₂, r₃⟩
  · rw [truth_false hb] at r₁
    by_cases hab : above c.cfg.eps v (atof a).toF32
    · rw [truth_false (fun e => e.2 hab)] at r₂
      rw [truth_true hab] at r₃
      exact .inr (.inr ⟨r₁, r₂, r₃⟩)
    · rw [truth_true ⟨hb, hab⟩] at r₂
      rw [truth_false hab] at r₃
      exact .inr (.inl ⟨r₁, r₂, r₃⟩)

/-- C17: the same for an integer variable compared with a float literal. -/
theorem C17_exactly_one_integer [StdSort] {n a t₁ t₂ t₃ : Str} {v : Int} (hc : Reachable c) (he : NotNegative c.cfg.eps)
    (hn : Holds c n (.integer v)) (ha : FloatValue a) (hi : ¬ IntegerValue a) (h₁ : Statement t₁ n b!"isLessThan?" [a])
    (h₂ : Statement t₂ n b!"isEqualTo?" [a]) (h₃ : Statement t₃ n b!"isGreaterThan?" [a]) :
    (JustReplies pwd c s t₁ b!"true" ∧ JustReplies pwd c s t₂ b!"false" ∧ JustReplies pwd c s t₃ b!"false") ∨
    (JustReplies pwd c s t₁ b!"false" ∧ JustReplies pwd c s t₂ b!"true" ∧ JustReplies pwd c s t₃ b!"false") ∨
    (JustReplies pwd c s t₁ b!"false" ∧ JustReplies pwd c s t₂ b!"false" ∧ JustReplies pwd c s t₃ b!"true") := by
  have r₁ := justReplies_of hc hn (answers_int (pwd := pwd) (s := s) hc hn h₁ (.lt (.flt ha hi)))
  have r₂ := justReplies_of hc hn (answers_int (pwd := pwd) (s := s) hc hn h₂ (.eq (.flt ha hi)))
  have r₃ := justReplies_of hc hn (answers_int (pwd := pwd) (s := s) hc hn h₃ (.gt (.flt ha hi)))
  by_cases hb : below c.cfg.eps (ofInt32 v) (atof a).toF32
  · have hab : ¬ above c.cfg.eps (ofInt32 v) (atof a).toF32 := by
      have := fl_exclusive (ofInt32 v) (atof a).toF32 c.cfg.eps he hb
      unfold above; rw [this]; decide
    rw [truth_true hb] at r₁
    rw [truth_false (fun e => e.1 hb)] at r₂
    rw [truth_false hab] at r₃
    exact .inl ⟨r₁, r₂, r₃⟩
  · rw [truth_false hb] at r₁
    by_cases hab : above c.cfg.eps (ofInt32 v) (atof a).toF32
    · rw [truth_false (fun e => e.2 hab)] at r₂
      rw [truth_true hab] at r₃
      exact .inr (.inr ⟨r₁, r₂, r₃⟩)
    · rw [truth_true ⟨hb, hab⟩] at r₂
      rw [truth_false hab] at r₃
      exact .inr (.inl ⟨r₁, r₂, r₃⟩)

/-- C17: `isLessThanOrEqualTo?` is the disjunction of `isLessThan?` and `isEqualTo?`, and `isGreaterThanOrEqualTo?` that of
`isGreaterThan?` and `isEqualTo?`. -/
theorem C17_or_equal [StdSort] {n a t₁ t₂ t₃ t₄ t₅ : Str} {v : Fl} (hc : Reachable c)
    (hn : Holds c n (.float v)) (ha : FloatValue a) (h₁ : Statement t₁ n b!"isLessThan?" [a])
    (h₂ : Statement t₂ n b!"isEqualTo?" [a]) (h₃ : Statement t₃ n b!"isGreaterThan?" [a])
    (h₄ : Statement t₄ n b!"isLessThanOrEqualTo?" [a]) (h₅ : Statement t₅ n b!"isGreaterThanOrEqualTo?" [a]) :
    ∃ lt eq gt : Bool, JustReplies pwd c s t₁ (truth (lt = true)) ∧ JustReplies pwd c s t₂ (truth (eq = true)) ∧
      JustReplies pwd c s t₃ (truth (gt = true)) ∧ JustReplies pwd c s t₄ (truth (lt = true ∨ eq = true)) ∧
      JustReplies pwd c s t₅ (truth (gt = true ∨ eq = true)) := by
  have r₁ := justReplies_of hc hn (answers_flt (pwd := pwd) (s := s) hc hn h₁ (.lt ha))
  have r₂ := justReplies_of hc hn (answers_flt (pwd := pwd) (s := s) hc hn h₂ (.eq ha))
  have r₃ := justReplies_of hc hn (answers_flt (pwd := pwd) (s := s) hc hn h₃ (.gt ha))
  have r₄ := justReplies_of hc hn (answers_flt (pwd := pwd) (s := s) hc hn h₄ (.le ha))
  have r₅ := justReplies_of hc hn (answers_flt (pwd := pwd) (s := s) hc hn h₅ (.ge ha))
  refine ⟨decide (below c.cfg.eps v (atof a).toF32),
    decide (¬ below c.cfg.eps v (atof a).toF32 ∧ ¬ above c.cfg.eps v (atof a).toF32),
    decide (above c.cfg.eps v (atof a).toF32), ?_⟩
  have d := fun (p : Prop) [Decidable p] => decide_eq_true_iff (p := p)
  refine ⟨?_, ?_, ?_, ?_, ?_⟩
  · rw [truth_congr (d _)]; exact r₁
  · rw [truth_congr (d _)]; exact r₂
  · rw [truth_congr (d _)]; exact r₃
  · have e : truth _ = truth _ := truth_congr (p := below c.cfg.eps v (atof a).toF32 ∨ ¬ above c.cfg.eps v (atof a).toF32)
      (q := decide (below c.cfg.eps v (atof a).toF32) = true ∨
        decide (¬ below c.cfg.eps v (atof a).toF32 ∧ ¬ above c.cfg.eps v (atof a).toF32) = true) (by rw [d, d]; tauto)
    exact e ▸ r₄
  · have e : truth _ = truth _ := truth_congr (p := above c.cfg.eps v (atof a).toF32 ∨ ¬ below c.cfg.eps v (atof a).toF32)
      (q := decide (above c.cfg.eps v (atof a).toF32) = true ∨
        decide (¬ below c.cfg.eps v (atof a).toF32 ∧ ¬ above c.cfg.eps v (atof a).toF32) = true) (by rw [d, d]; tauto)
    exact e ▸ r₅

/-- C17: mirror: if `m` holds the value of the literal `b` and `n` that of `a`, then `n isLessThan? b` and
`m isGreaterThan? a` have the same answer. -/
theorem C17_mirror [StdSort] {n m a b t₁ t₂ : Str} {v w : Fl} (hc : Reachable c) (hn : Holds c n (.float v))
    (hm : Holds c m (.float w)) (ha : Denotes b!"Float" a (.float v)) (hb : Denotes b!"Float" b (.float w))
    (h₁ : Statement t₁ n b!"isLessThan?" [b]) (h₂ : Statement t₂ m b!"isGreaterThan?" [a]) :
    ∃ r, JustReplies pwd c s t₁ r ∧ JustReplies pwd c s t₂ r := by
  cases ha with | float ha => cases hb with | float hb =>
  have r₁ := justReplies_of hc hn (answers_flt (pwd := pwd) (s := s) hc hn h₁ (.lt hb))
  have r₂ := justReplies_of hc hm (answers_flt (pwd := pwd) (s := s) hc hm h₂ (.gt ha))
  refine ⟨_, r₁, ?_⟩
  have : truth (below c.cfg.eps (atof a).toF32 (atof b).toF32) = truth (above c.cfg.eps (atof b).toF32 (atof a).toF32) := by
    unfold truth below above; simp only [fl_mirror]
  rw [this]; exact r₂

theorem C17_mirror_values (eps x y : Fl) : below eps x y ↔ above eps y x := by
  unfold below above; rw [fl_mirror]

example [StdSort] : NotNegative demo.cfg.eps ∧ Holds demo b!"f" (.float (.fin false (3 * 2 ^ 1073))) ∧
    FloatValue b!"-.5e3" ∧ Statement b!"f isLessThan? -.5e3;" b!"f" b!"isLessThan?" [b!"-.5e3"] ∧
    ¬ IntegerValue b!"-.5e3" :=
  ⟨by unfold NotNegative; decide +kernel, by decide +kernel, (isFloatValue_iff _).1 (by decide +kernel), reads (by decide +kernel),
   fun h => by have := (isIntegerValue_iff _).2 h; revert this; decide +kernel⟩

/-! ### C18 -/

/-- With tolerance zero the program's order is the order of the values. -/
theorem below_zero (x y : Fl) (z : Bool) (hx : x.toF32 = x) (hy : y.toF32 = y) (hx' : x ≠ .nan) (hy' : y ≠ .nan) :
    below (.fin z 0) x y ↔ x.lt y = true := by
  unfold below
  by_cases h : ∀ b, x = .inf b → y ≠ .inf b
  · rw [show (Fl.fin z 0).neg = .fin (!z) 0 from rfl, fl_zero_tolerance x y hx hy hx' hy' _ h]
  · simp only [not_forall, Classical.not_not] at h
    obtain ⟨b, rfl, rfl⟩ := h
    cases b <;> simp [Fl.sub, Fl.neg, Fl.add, Fl.lt]

/-- C18: with tolerance zero the comparison messages report the order of the rational numbers that are the values. -/
theorem C18_zero_tolerance_is_exact [StdSort] {n a t₁ t₂ t₃ : Str} {v w : Fl} {p q : ℚ} {z : Bool} (hc : Reachable c)
    (he : c.cfg.eps = .fin z 0) (hn : Holds c n (.float v)) (ha : Denotes b!"Float" a (.float w))
    (hp : number v = some p) (hq : number w = some q) (h₁ : Statement t₁ n b!"isLessThan?" [a])
    (h₂ : Statement t₂ n b!"isEqualTo?" [a]) (h₃ : Statement t₃ n b!"isGreaterThan?" [a]) :
    JustReplies pwd c s t₁ (truth (p < q)) ∧ JustReplies pwd c s t₂ (truth (p = q)) ∧
      JustReplies pwd c s t₃ (truth (p > q)) := by
  have hw : w.toF32 = w := by cases ha with | float h => exact isF32_toF32 _
  cases ha with | float ha =>
  have hv := holds_wellTyped hc hn
  have n1 : v ≠ .nan := by rintro rfl; cases hp
  have n2 : (atof a).toF32 ≠ .nan := by intro h; rw [h] at hq; cases hq
  have r₁ := justReplies_of hc hn (answers_flt (pwd := pwd) (s := s) hc hn h₁ (.lt ha))
  have r₂ := justReplies_of hc hn (answers_flt (pwd := pwd) (s := s) hc hn h₂ (.eq ha))
  have r₃ := justReplies_of hc hn (answers_flt (pwd := pwd) (s := s) hc hn h₃ (.gt ha))
  have e₁ : below c.cfg.eps v (atof a).toF32 ↔ p < q := by
    rw [he, below_zero v _ z hv hw n1 n2, number_lt hp hq]
  have e₃ : above c.cfg.eps v (atof a).toF32 ↔ p > q := by
    rw [← C17_mirror_values, he, below_zero _ v z hw hv n2 n1, number_lt hq hp]
  have key : ∀ (P Q : Prop) [Decidable P] [Decidable Q], (P ↔ Q) → truth P = truth Q := by
    intro P Q _ _ h; unfold truth; simp only [h]
  rw [key _ _ e₁] at r₁
  rw [key _ (p = q) (by rw [e₁, e₃]; constructor
                        · rintro ⟨h1, h2⟩; exact le_antisymm (not_lt.1 h2) (not_lt.1 h1)
                        · rintro rfl; exact ⟨lt_irrefl _, lt_irrefl _⟩)] at r₂
  rw [key _ _ e₃] at r₃
  exact ⟨r₁, r₂, r₃⟩

theorem lt_trans_fl {x y z : Fl} (h1 : x.lt y = true) (h2 : y.lt z = true) : x.lt z = true := by
  cases x <;> cases y <;> cases z <;> simp_all [Fl.lt]
  omega

theorem lt_incomp_fl {x y z : Fl} (hx : x ≠ .nan) (hy : y ≠ .nan) (hz : z ≠ .nan) (h1 : x.lt y = false)
    (h2 : y.lt z = false) : x.lt z = false := by
  cases x <;> cases y <;> cases z <;> simp_all [Fl.lt] 
  omega

/-- C18: with tolerance zero and without NaN, the order of floats is a strict weak order, so sorting and the containers over
floats are well defined. -/
theorem C18_zero_tolerance_strict_weak (z : Bool) (l : List Obj) (h : ∀ x ∈ l, HasType b!"Float" x) (hn : Obj.float .nan ∉ l) :
    StrictWeakOrder (less (.fin z 0)) l := by
  have key : ∀ a ∈ l, ∃ x, a = .float x ∧ x.toF32 = x ∧ x ≠ .nan := by
    intro a ha
    obtain ⟨h1, h2⟩ := h a ha
    cases a with
    | float x => exact ⟨x, rfl, h2, by rintro rfl; exact hn ha⟩
    | _ => simp [Obj.type] at h1
  have e : ∀ x y : Fl, x.toF32 = x → y.toF32 = y → x ≠ .nan → y ≠ .nan → less (.fin z 0) (.float x) (.float y) = x.lt y := by
    intro x y h1 h2 h3 h4
    have := below_zero x y z h1 h2 h3 h4
    simp only [less]
    cases hb : x.lt y with
    | true => exact decide_eq_true (this.2 hb)
    | false => exact decide_eq_false (fun h => by rw [this.1 h] at hb; cases hb)
  refine ⟨fun a ha => ?_, fun a ha b hb d hd => ?_, fun a ha b hb d hd => ?_⟩
  · obtain ⟨x, rfl, hx, hx'⟩ := key a ha
    rw [e x x hx hx hx' hx']
    cases x <;> simp [Fl.lt]
  · obtain ⟨x, rfl, hx, hx'⟩ := key a ha
    obtain ⟨y, rfl, hy, hy'⟩ := key b hb
    obtain ⟨w, rfl, hw, hw'⟩ := key d hd
    rw [e x y hx hy hx' hy', e y w hy hw hy' hw', e x w hx hw hx' hw']
    exact lt_trans_fl
  · obtain ⟨x, rfl, hx, hx'⟩ := key a ha
    obtain ⟨y, rfl, hy, hy'⟩ := key b hb
    obtain ⟨w, rfl, hw, hw'⟩ := key d hd
    rw [e x y hx hy hx' hy', e y x hy hx hy' hx', e y w hy hw hy' hw', e w y hw hy hw' hy', e x w hx hw hx' hw', e w x hw hx hw' hx']
    simp only [Bool.not_eq_true]
    intro h1 h2 h3 h4
    exact ⟨lt_incomp_fl hx' hy' hw' h1 h3, lt_incomp_fl hw' hy' hx' h4 h2⟩

/-- C18: with a finite positive tolerance `e`, the three values -e, 0, e break the strict weak order: 0 is tied with both
ends, but -e is less than e. -/
theorem C18_positive_tolerance_breaks (k : Nat) (hk : 0 < k) (he : (Fl.fin false k).toF32 = .fin false k) :
    tied (less (.fin false k)) (.float (.fin true k)) (.float (.fin false 0)) = true ∧
    tied (less (.fin false k)) (.float (.fin false 0)) (.float (.fin false k)) = true ∧
    less (.fin false k) (.float (.fin true k)) (.float (.fin false k)) = true := by
  obtain ⟨hr, hl⟩ := (isF32_fin false k).1 he
  have e1 : ∀ s : Bool, f32.round s k 1 = .fin s k := by
    intro s; exact (isF32_fin s k).2 ⟨hr, hl⟩
  have s1 : (Fl.fin true k).sub f32 (.fin false 0) = .fin true k := by
    simp only [Fl.sub, Fl.neg, Fl.add, sgn]
    simp [show k ≠ 0 by omega, hk, e1]
  have s2 : (Fl.fin false 0).sub f32 (.fin true k) = .fin false k := by
    simp only [Fl.sub, Fl.neg, Fl.add, sgn]
    simp [show k ≠ 0 by omega, e1]
  have s3 : (Fl.fin false 0).sub f32 (.fin false k) = .fin true k := by
    simp only [Fl.sub, Fl.neg, Fl.add, sgn]
    simp [show k ≠ 0 by omega, hk, e1]
  have s4 : (Fl.fin false k).sub f32 (.fin false 0) = .fin false k := by
    simp only [Fl.sub, Fl.neg, Fl.add, sgn]
    simp [show k ≠ 0 by omega, e1]
  have s5 : ((Fl.fin true k).sub f32 (.fin false k)).lt (.fin true k) = true := by
    have h0 : sgn true k + sgn (!false) k = -((2 * k : Nat) : Int) := by simp [sgn]; omega
    simp only [Fl.sub, Fl.neg, Fl.add, h0]
    rw [if_neg (by omega)]
    have h1 : decide (-((2 * k : Nat) : Int) < 0) = true := by simp; omega
    have h2 : (-((2 * k : Nat) : Int)).natAbs = 2 * k := by omega
    rw [h1, h2]
    have hr2 : f32.Rep (2 * k) := by
      obtain ⟨m, e, rfl, hm, hge⟩ := hr
      exact ⟨m, e + 1, by ring, hm, by omega⟩
    have h3 := roundMag_rep f32 (2 * k) 1 (by omega) hr2
    rw [Nat.mul_one] at h3
    rcases round_cases f32 true (2 * k) 1 with h | h
    · rw [h]; rfl
    · rw [h, h3]; simp [Fl.lt, sgn]; omega
  have n0 : (Fl.fin false k).neg = .fin true k := rfl
  have s6 : less (.fin false k) (.float (.fin true k)) (.float (.fin false k)) = true := by
    simp only [less, below, n0, s5, decide_true]
  refine ⟨?_, ?_, s6⟩ <;> simp only [tied, less, below, n0, s1, s2, s3, s4, Fl.lt, sgn] <;> simp

/-- C18: so it is not a strict weak order there. -/
theorem C18_positive_tolerance_not_strict_weak (k : Nat) (hk : 0 < k) (he : (Fl.fin false k).toF32 = .fin false k) (l : List Obj)
    (hl : ∀ x ∈ [Obj.float (.fin true k), .float (.fin false 0), .float (.fin false k)], x ∈ l) :
    ¬ StrictWeakOrder (less (.fin false k)) l := by
  rintro ⟨_, _, h⟩
  obtain ⟨h1, h2, h3⟩ := C18_positive_tolerance_breaks k hk he
  simp only [tied, Bool.and_eq_true, Bool.not_eq_true'] at h1 h2
  have := (h _ (hl (.float (.fin true k)) (by simp)) _ (hl (.float (.fin false 0)) (by simp)) _ (hl (.float (.fin false k)) (by simp))
    (by simp [h1.1]) (by simp [h1.2]) (by simp [h2.1]) (by simp [h2.2])).1
  exact this h3

/-- C18: with a finite positive tolerance `e`, sorting a vector that contains -e, 0 and e is undefined behaviour. -/
theorem C18_sort_undefined [StdSort] {n t : Str} {l : List Obj} {k : Nat} (hc : Reachable c) (hk : 0 < k)
    (he : c.cfg.eps = .fin false k) (hf : (Fl.fin false k).toF32 = .fin false k) (hn : Holds c n (.vector b!"Float" l))
    (hl : ∀ x ∈ [Obj.float (.fin true k), .float (.fin false 0), .float (.fin false k)], x ∈ l)
    (h : Statement t n b!"sort" []) : execute pwd c s t = .ub := by
  rcases answers_any (pwd := pwd) (s := s) hc hn h with ⟨h1, _⟩ | ⟨ks, hks, h'⟩
  · exact absurd rfl (h1 (b!"sort", []) (by simp [signature]))
  · have : ks = [] := by simpa [signature] using hks
    subst this
    rcases h' with ⟨h1, _⟩ | ⟨_, ⟨p, hp, _⟩, _⟩ | ⟨_, _, h1⟩ | ⟨_, _, r, hr, ha⟩
    · exact absurd rfl h1
    · simp at hp
    · exact h1
    · cases hr with
      | vector hm => cases hm
      | sort h1 => rw [he] at h1; exact absurd h1 (C18_positive_tolerance_not_strict_weak k hk hf l hl)
      | sortUndefined _ => exact ha

/-- C18: looking up an element in such a set, or adding or removing one, is undefined too (when the element and the set
together contain -e, 0 and e); likewise for the keys of a dictionary. -/
theorem C18_set_undefined [StdSort] {n t a name : Str} {l : List Obj} {o : Obj} {k : Nat} (hc : Reachable c) (hk : 0 < k)
    (he : c.cfg.eps = .fin false k) (hf : (Fl.fin false k).toF32 = .fin false k) (hn : Holds c n (.set b!"Float" l))
    (ha : Denotes b!"Float" a o)
    (hl : ∀ x ∈ [Obj.float (.fin true k), .float (.fin false 0), .float (.fin false k)], x ∈ o :: l)
    (hm : name ∈ [b!"contains?", b!"add:", b!"remove:"]) (h : Statement t n name [a]) : execute pwd c s t = .ub := by
  have hs : ¬ Searchable (less c.cfg.eps) l o := by
    rintro ⟨h1, _⟩; rw [he] at h1
    exact C18_positive_tolerance_not_strict_weak k hk hf _ hl h1
  simp only [List.mem_cons, List.not_mem_nil, or_false] at hm
  rcases hm with rfl | rfl | rfl
  · have := answers_set (pwd := pwd) (s := s) hc hn h (.contains ha)
    rw [setMeaning, if_neg hs] at this; exact this
  · have := answers_set (pwd := pwd) (s := s) hc hn h (.add ha)
    rw [setMeaning, if_neg hs] at this; exact this
  · have := answers_set (pwd := pwd) (s := s) hc hn h (.remove ha)
    rw [setMeaning, if_neg hs] at this; exact this

/-- C18: and so are the lookup, the change and the removal of a key of such a dictionary. -/
theorem C18_dictionary_undefined [StdSort] {n t u : Str} {l : List (Obj × Obj)} {o : Obj} {k : Nat} {name : Str} {args : List Str}
    (hc : Reachable c) (hk : 0 < k) (he : c.cfg.eps = .fin false k) (hf : (Fl.fin false k).toF32 = .fin false k)
    (hn : Holds c n (.dictionary b!"Float" u l))
    (hl : ∀ x ∈ [Obj.float (.fin true k), .float (.fin false 0), .float (.fin false k)], x ∈ o :: l.map (·.1))
    (hm : (∃ a, Denotes b!"Float" a o ∧ args = [a] ∧ name ∈ [b!"containsKey?", b!"getValueForKey:", b!"removeKey:"]) ∨
      (∃ b v a, Denotes u b v ∧ Denotes b!"Float" a o ∧ args = [b, a] ∧ name = b!"associateValue:withKey:"))
    (h : Statement t n name args) : execute pwd c s t = .ub := by
  have hs : ¬ Searchable (less c.cfg.eps) (l.map (·.1)) o := by
    rintro ⟨h1, _⟩; rw [he] at h1
    exact C18_positive_tolerance_not_strict_weak k hk hf _ hl h1
  rcases hm with ⟨a, ha, rfl, hm⟩ | ⟨b, v, a, hb, ha, rfl, rfl⟩
  · simp only [List.mem_cons, List.not_mem_nil, or_false] at hm
    rcases hm with rfl | rfl | rfl
    · have := answers_dict (pwd := pwd) (s := s) hc hn h (.containsKey ha)
      rw [dictMeaning, if_neg hs] at this; exact this
    · have := answers_dict (pwd := pwd) (s := s) hc hn h (.getValueForKey ha)
      rw [dictMeaning, if_neg hs] at this; exact this
    · have := answers_dict (pwd := pwd) (s := s) hc hn h (.removeKey ha)
      rw [dictMeaning, if_neg hs] at this; exact this
  · have := answers_dict (pwd := pwd) (s := s) hc hn h (.associate hb ha)
    rw [dictMeaning, if_neg hs] at this; exact this

/-- C18: with an infinite tolerance no float is less than another. -/
theorem C18_infinite_tolerance (x y : Fl) : less (.inf false) (.float x) (.float y) = false := by
  simp only [less, below, Fl.neg]
  cases x.sub f32 y <;> simp [Fl.lt]

/-- A reachable context with tolerance 0.5 and a vector of -0.5, 0, 0.5. -/
def halves : Ctx := { Ctx.init 3 (.fin false (2 ^ 1073)) false true with vars := [(b!"v", .vector b!"Float"
  [.float (.fin true (2 ^ 1073)), .float (.fin false 0), .float (.fin false (2 ^ 1073))])] }

theorem halves_reachable [StdSort] : Reachable halves :=
  after_reachable (pwd := []) (s := none)
    (ts := [b!"Context setFloatComparisonTolerance: .5;", b!"Vector<Float> create: v;", b!"v pushBack: -.5;", b!"v pushBack: 0;", b!"v pushBack: 5e-1;"])
    fresh_reachable (by kernel_rfl)

example [StdSort] : execute [] halves none b!"v sort;" = .ub :=
  C18_sort_undefined (n := b!"v") (l := [.float (.fin true (2 ^ 1073)), .float (.fin false 0), .float (.fin false (2 ^ 1073))])
    (k := 2 ^ 1073) halves_reachable (Nat.two_pow_pos _) rfl (by decide +kernel) (by decide +kernel) (by intro x hx; exact hx)
    (reads (by decide +kernel))

/-- A reachable context with tolerance 0.5 and a dictionary with the keys -0.5 and 0.5 (which differ by more than 0.5). -/
def halfKeys : Ctx := { Ctx.init 3 (.fin false (2 ^ 1073)) false true with vars := [(b!"d", .dictionary b!"Float" b!"Integer"
  [(.float (.fin true (2 ^ 1073)), .integer 1), (.float (.fin false (2 ^ 1073)), .integer 2)])] }

theorem halfKeys_reachable [StdSort] : Reachable halfKeys :=
  after_reachable (pwd := []) (s := none)
    (ts := [b!"Context setFloatComparisonTolerance: .5;", b!"Dictionary<Float, Integer> create: d;",
      b!"d associateValue: 1 withKey: -.5;", b!"d associateValue: 2 withKey: .5;"])
    fresh_reachable (by kernel_rfl)

theorem halfKeys_zero : Denotes b!"Float" b!"0" (.float (.fin false 0)) := by
  have : (atof b!"0").toF32 = Fl.fin false 0 := by kernel_rfl
  rw [← this]
  exact .float ((isFloatValue_iff _).1 (by decide +kernel))

example [StdSort] : execute [] halfKeys none b!"d associateValue: 3 withKey: 0;" = .ub :=
  C18_dictionary_undefined (n := b!"d") (u := b!"Integer") (o := .float (.fin false 0)) (args := [b!"3", b!"0"])
    (l := [(.float (.fin true (2 ^ 1073)), .integer 1), (.float (.fin false (2 ^ 1073)), .integer 2)])
    (k := 2 ^ 1073) halfKeys_reachable (Nat.two_pow_pos _) rfl (by decide +kernel) (by unfold Holds; kernel_rfl)
    (by generalize 2 ^ 1073 = k; intro x hx; simp only [List.mem_cons, List.not_mem_nil, or_false, List.map] at hx ⊢; tauto)
    (.inr ⟨b!"3", .integer 3, b!"0", lit_int rfl rfl (by decide), halfKeys_zero, rfl, rfl⟩)
    (reads (by decide +kernel))

example : number (.fin false (2 ^ 1074)) = some 1 := by
  have h : ((2 : ℚ) ^ 1074) ≠ 0 := by positivity
  simp only [number, Nat.cast_pow, Nat.cast_ofNat, Bool.false_eq_true, if_false, div_self h]

example : Denotes b!"Float" b!"1.5" (.float (.fin false (3 * 2 ^ 1073))) := by
  have : (atof b!"1.5").toF32 = Fl.fin false (3 * 2 ^ 1073) := by kernel_rfl
  rw [← this]
  exact .float ((isFloatValue_iff _).1 (by decide +kernel))

/-! ### C19 -/

/-- C19: a NaN float is reported equal to every literal, and neither less nor greater, whatever the tolerance. -/
theorem C19_nan [StdSort] {n a t₁ t₂ t₃ : Str} (hc : Reachable c) (hn : Holds c n (.float .nan)) (ha : FloatValue a)
    (h₁ : Statement t₁ n b!"isLessThan?" [a]) (h₂ : Statement t₂ n b!"isEqualTo?" [a])
    (h₃ : Statement t₃ n b!"isGreaterThan?" [a]) :
    JustReplies pwd c s t₁ b!"false" ∧ JustReplies pwd c s t₂ b!"true" ∧ JustReplies pwd c s t₃ b!"false" := by
  have r₁ := justReplies_of hc hn (answers_flt (pwd := pwd) (s := s) hc hn h₁ (.lt ha))
  have r₂ := justReplies_of hc hn (answers_flt (pwd := pwd) (s := s) hc hn h₂ (.eq ha))
  have r₃ := justReplies_of hc hn (answers_flt (pwd := pwd) (s := s) hc hn h₃ (.gt ha))
  have h1 : ∀ x, (Fl.nan).lt x = false := by intro x; cases x <;> rfl
  have h2 : ∀ x : Fl, x.lt .nan = false := by intro x; cases x <;> rfl
  have h3 : Fl.nan.sub f32 (atof a).toF32 = .nan := by
    unfold Fl.sub; cases (atof a).toF32.neg <;> rfl
  have b1 : ¬ below c.cfg.eps .nan (atof a).toF32 := by unfold below; rw [h3, h1]; decide
  have b2 : ¬ above c.cfg.eps .nan (atof a).toF32 := by unfold above; rw [h3, h2]; decide
  rw [truth_false b1] at r₁
  rw [truth_true ⟨b1, b2⟩] at r₂
  rw [truth_false b2] at r₃
  exact ⟨r₁, r₂, r₃⟩

/-- C19: NaN is reachable. -/
theorem C19_nan_reachable [StdSort] : ∃ c, Reachable c ∧ Holds c b!"x" (.float .nan) :=
  ⟨_, after_reachable (pwd := []) (s := none) (ts := [b!"Float create: x withValue: 1e39;", b!"x multiplyBy: 0;"])
    (c' := { fresh with vars := [(b!"x", .float .nan)] }) fresh_reachable (by kernel_rfl), rfl⟩

end Knuckle.Props

/-
C60 (which data a server can hold, and copying it) and C61 (tolerance zero).
-/
import Verif.Proofs.Rebuild
import Verif.Props.Isolation
import Verif.Props.Containers
import Verif.Props.Undefined

namespace Knuckle.Props

open Spec

variable {pwd : Str} {s : Option Session} {c c' d : Ctx} {text n t u : Str}

/-! ### C60 -/

/-- C60: the data of a reachable context is proper, and all proper data is reachable. -/
theorem C60_reachable_data [StdSort] (l : List (Str × Inst)) : (∃ c, Reachable c ∧ c.vars = l) ↔ ProperData l := by
  constructor
  · rintro ⟨c, hc, rfl⟩; exact reachable_properData hc
  · intro hl
    obtain ⟨c', h1, _, h2⟩ := rebuild_vars (pwd := []) (s := none) fresh_reachable rfl rfl hl
    exact ⟨c', h1.reachable fresh_reachable, h2⟩

/-- C60: the values that elements of a container can have: of the right type, 32 bits for integers and single precision for floats,
not NaN, and no string with an odd run of backslashes before a quote or at its end. -/
theorem C60_elements (t : Str) (o : Obj) :
    Writable t o ↔ HasType t o ∧ o ≠ .float .nan ∧ ∀ v, o = .string v → EvenRuns v := by
  constructor
  · intro h
    refine ⟨writable_type h, (by rintro rfl; exact writable_not_nan h), ?_⟩
    rintro v rfl
    obtain ⟨a, ha⟩ := writable_string h
    rw [evenRuns_iff, ← quoted_literal_iff, literal_quoted a v ha]; exact ha
  · rintro ⟨h1, h2, h3⟩
    exact ⟨_, denotes_of_type h1 h2 fun v e => ⟨_, (quoted_literal_iff v).2 ((evenRuns_iff v).1 (h3 v e))⟩⟩

/-- C60: sending the requests of `backup c` to an empty server, whatever its settings, makes it have the variables and settings of `c`,
if these settings can be requested at all (a positive precision that fits 32 bits, a tolerance that is not negative and not NaN). -/
theorem C60_backup [StdSort] (hc : Reachable c) (hd : Reachable d) (h0 : d.vars = []) (hp : 0 < c.cfg.prec) (hp' : IsInt32 c.cfg.prec)
    (he : c.cfg.eps ≠ .nan) (he' : ¬ Less c.cfg.eps (.fin false 0)) : ∃ d', Accepted pwd s d (backup c) d' ∧ SameData c d' := by
  have ctx : ∀ {tok a : Str}, isKeywordMessageToken tok = true → Argument a → Statement (request b!"Context" [(tok, a)]) b!"Context" tok [a] :=
    fun h1 h2 => one_statement (.inr (.inl rfl)) h1 h2
  have hf : FloatValue b!"0" := (isFloatValue_iff _).1 (by decide +kernel)
  have hz : (atof b!"0").toF32 = .fin false 0 := by kernel_rfl
  obtain ⟨d1, a1, b1, e1⟩ := (C37_setFloatComparisonTolerance (pwd := pwd) (s := s) (c := d)
    (ctx (by decide +kernel) (.inl (.inr (.inr (.inr (.inl hf))))))).1 hf (by rw [hz]; decide +kernel)
  have r1 : Reachable d1 := .step hd a1
  have e1' : d1.cfg.eps = (atof b!"0").toF32 := by rw [e1]
  obtain ⟨d2, a2, e2, b2⟩ := rebuild_vars (pwd := pwd) (s := s) r1 (e1'.trans hz) (b1.trans h0) (reachable_properData hc)
  have hl := float_literal (reachable_inv hc).eps he
  generalize hx : literal (.float c.cfg.eps) = x at hl
  generalize hy : Obj.float c.cfg.eps = o at hl
  have hlit : FloatValue x ∧ (atof x).toF32 = c.cfg.eps := by
    cases hl with | float h => exact ⟨h, (Obj.float.inj hy).symm⟩
  obtain ⟨d3, a3, b3, e3⟩ := (C37_setFloatComparisonTolerance (pwd := pwd) (s := s) (c := d2)
    (ctx (by decide +kernel) (.inl (.inr (.inr (.inr (.inl hlit.1))))))).1 hlit.1 (by
      rw [hlit.2]
      cases h : c.cfg.eps.lt (.fin false 0)
      · rfl
      · exact absurd (less_iff.2 h) he')
  have hi := intStr_literal c.cfg.prec
  obtain ⟨d4, a4, b4, e4⟩ := (C37_setFloatPrecision (pwd := pwd) (s := s) (c := d3)
    (ctx (by decide +kernel) (.inl (.inr (.inr (.inl ((intLiteral_exists _).2 ⟨_, hi⟩)))))) (.integer hi hp')).1 hp
  refine ⟨d4, ?_, ?_, ?_⟩
  · unfold backup
    rw [hx]
    exact .cons a1 (a2.append (.cons a3 (.one a4)))
  · rw [b4, b3, b2]
  · rw [e4, e3, hlit.2]

/-- C60: the variables can be copied whatever the settings of the two servers are (even if these were given on the command line
and cannot be requested). -/
theorem C60_backup_variables [StdSort] (hc : Reachable c) (hd : Reachable d) (h0 : d.vars = []) :
    ∃ d', Accepted pwd s d (request b!"Context" [(b!"setFloatComparisonTolerance:", b!"0")] :: rebuildAll c.vars) d' ∧ d'.vars = c.vars := by
  have hf : FloatValue b!"0" := (isFloatValue_iff _).1 (by decide +kernel)
  have hz : (atof b!"0").toF32 = .fin false 0 := by kernel_rfl
  obtain ⟨d1, a1, b1, e1⟩ := (C37_setFloatComparisonTolerance (pwd := pwd) (s := s) (c := d)
    (one_statement (.inr (.inl rfl)) (by decide +kernel) (.inl (.inr (.inr (.inr (.inl hf))))))).1 hf (by rw [hz]; decide +kernel)
  have e1' : d1.cfg.eps = (atof b!"0").toF32 := by rw [e1]
  obtain ⟨d2, a2, _, b2⟩ := rebuild_vars (pwd := pwd) (s := s) (.step hd a1) (e1'.trans hz) (b1.trans h0) (reachable_properData hc)
  exact ⟨d2, .cons a1 a2, b2⟩

/-- C60: from then on the copy gives the same replies: whatever sequence of requests the one answers, the other answers in the same
way, and their data stays the same. -/
theorem C60_copies_answer_alike [StdSort] {h : List (Str × Str)} (hd : SameData c d) (hh : History c h c') :
    ∃ d', History d h d' ∧ SameData c' d' := by
  induction hh generalizing d with
  | nil => exact ⟨d, .nil, hd⟩
  | @cons pwd _ c1 _ s s' text r _ he _ ih =>
    have h1 := C51_logging_does_not_matter (pwd := pwd) (s := s) (text := text) hd
    rw [he] at h1
    cases hx : execute pwd d s text with
    | ub => rw [hx] at h1; exact h1.elim
    | done y =>
      obtain ⟨d1, s1, r1⟩ := y
      rw [hx] at h1
      obtain ⟨h2, rfl, rfl⟩ := h1
      obtain ⟨d', h3, h4⟩ := ih h2
      exact ⟨d', .cons hx h3, h4⟩

/-- The requests that copy the demonstration. -/
example : backup demo = [
    b!"Context setFloatComparisonTolerance: 0;",
    b!"Character create: a::c withValue: 'x';",
    b!"String create: a::s;", b!"a::s pushBack: 's';", b!"a::s pushBack: 'a';", b!"a::s pushBack: 'y';", b!"a::s pushBack: ' ';",
    b!"a::s pushBack: '\"';", b!"a::s pushBack: 'h';", b!"a::s pushBack: 'i';", b!"a::s pushBack: '\"';",
    b!"Boolean create: b withValue: true;",
    b!"Dictionary<Character,Integer> create: d;", b!"d associateValue: 1 withKey: 'k';",
    b!"Float create: f withValue: 1.5000000000000000000000000000000000000000000000;",
    b!"Integer create: i withValue: -7;",
    b!"Set<String> create: t;", b!"t add: \"x\";", b!"t add: \"y\";",
    b!"Vector<Integer> create: v;", b!"v pushBack: 3;", b!"v pushBack: 1;", b!"v pushBack: 2;",
    b!"Context setFloatComparisonTolerance: 0.0000000000000000000000000000000000000000000000;",
    b!"Context setFloatPrecision: 3;"] := by kernel_rfl

/-- The demonstration meets the hypotheses of `C60_backup`. -/
example [StdSort] : Reachable demo ∧ 0 < demo.cfg.prec ∧ IsInt32 demo.cfg.prec ∧ demo.cfg.eps ≠ .nan ∧
    ¬ Less demo.cfg.eps (.fin false 0) :=
  ⟨demo_reachable, by decide, by decide, by decide, by rw [less_iff]; decide +kernel⟩

/-- Data that is not proper: a set that is not ascending, and a container with NaN. -/
example : ¬ ProperData [(b!"t", .set b!"Integer" [.integer 2, .integer 1])] ∧
    ¬ ProperData [(b!"t", .vector b!"Float" [.float .nan])] := by
  constructor
  · rintro ⟨_, h⟩
    have := (h _ (List.mem_singleton.2 rfl)).2.2.2
    have := List.rel_of_pairwise_cons this (List.mem_singleton.2 rfl)
    have : natLt (.integer 2) (.integer 1) = true := this
    revert this; decide
  · rintro ⟨_, h⟩
    exact writable_not_nan ((h _ (List.mem_singleton.2 rfl)).2.2 _ (List.mem_singleton.2 rfl))

/-! ### C61 -/

theorem holds_proper [StdSort] {i : Inst} (hc : Reachable c) (hn : Holds c n i) : Proper i := reachable_proper hc n i hn

/-- C61: while the tolerance is zero, whatever it was before, no request has undefined behaviour because of the order of floats: what
remains are numbers that do not fit 32 bits, integer arithmetic, and requests to the connection where there is none. -/
theorem C61_zero_tolerance_is_defined [StdSort] {z : Bool} (hc : Reachable c) (hz : c.cfg.eps = .fin z 0)
    (h : execute pwd c s text = .ub) :
    (∃ a name args ks, Statement text a name args ∧ Understands c a name ks ∧ args.length = ks.length ∧
        ∃ q ∈ ks.zip args, Overflows q.1 q.2) ∨
    (∃ n v name a x m, Statement text n name [a] ∧ Holds c n (.integer v) ∧ NumDenotes a x ∧
        (m = IntMsg.add x ∨ m = .subtract x ∨ m = .multiplyBy x ∨ m = .divideBy x) ∧ IntSays name [a] m ∧
        intMeaning c.cfg.eps v m = .undefined) ∨
    (∃ name args, Statement text b!"Connection" name args ∧ s = none) := by
  cases C39_only_known_causes hc h with
  | literal h1 h2 h3 h4 => exact .inl ⟨_, _, _, _, h1, h2, h3, h4⟩
  | arithmetic h1 h2 h3 h4 h5 h6 => exact .inr (.inl ⟨_, _, _, _, _, _, h1, h2, h3, h4, h5, h6⟩)
  | sort h1 h2 h3 =>
    rw [hz] at h3
    exact absurd (swo_zero (holds_proper hc h2).2) h3
  | set h1 h2 h3 h4 h5 =>
    rw [hz] at h5
    have hp := holds_proper hc h3
    exact absurd (searchable_zero hp.2.1 ⟨_, h4⟩ hp.2.2) h5
  | dictionary h1 h2 h3 h4 h5 =>
    rw [hz] at h5
    have hp := holds_proper hc h3
    refine absurd (searchable_zero (fun o ho => ?_) ⟨_, h4⟩ (List.pairwise_map.2 hp.2.2.2)) h5
    obtain ⟨x, hx, rfl⟩ := List.mem_map.1 ho
    exact (hp.2.2.1 x hx).1
  | connection h1 h2 => exact .inr (.inr ⟨_, _, h1, h2⟩)

/-- The same real number (zero has two signs), or the same infinity. -/
def SameNumber (x y : Fl) : Prop := (∃ q, number x = some q ∧ number y = some q) ∨ ∃ b, x = .inf b ∧ y = .inf b

theorem sameNumber_iff {x y : Fl} (hx : x ≠ .nan) (hy : y ≠ .nan) : SameNumber x y ↔ ¬ Less x y ∧ ¬ Less y x := by
  rw [less_iff, less_iff]
  cases x with
  | nan => exact absurd rfl hx
  | inf a => cases y with
    | nan => exact absurd rfl hy
    | inf b => cases a <;> cases b <;> simp [SameNumber, number, Fl.lt]
    | fin b k => cases a <;> simp [SameNumber, number, Fl.lt]
  | fin a j => cases y with
    | nan => exact absurd rfl hy
    | inf b => cases b <;> simp [SameNumber, number, Fl.lt]
    | fin b k =>
      rw [number_lt (number_fin a j) (number_fin b k), number_lt (number_fin b k) (number_fin a j)]
      constructor
      · rintro (⟨q, h1, h2⟩ | ⟨_, h, _⟩)
        · rw [number_fin] at h1 h2
          rw [Option.some.inj h1, Option.some.inj h2]; exact ⟨lt_irrefl _, lt_irrefl _⟩
        · cases h
      · rintro ⟨h1, h2⟩
        exact .inl ⟨_, number_fin a j, by rw [number_fin b k, le_antisymm (not_lt.1 h1) (not_lt.1 h2)]⟩

theorem tied_zero {z : Bool} {x y : Fl} (hx : Writable b!"Float" (.float x)) (hy : Writable b!"Float" (.float y)) :
    tied (less (.fin z 0)) (.float x) (.float y) = true ↔ SameNumber x y := by
  rw [sameNumber_iff (by rintro rfl; exact writable_not_nan hx) (by rintro rfl; exact writable_not_nan hy)]
  have h1 := before_less (z := z) hx hy
  have h2 := before_less (z := z) hy hx
  change _ ↔ Less x y at h1
  change _ ↔ Less y x at h2
  rw [← h1, ← h2]
  simp [tied]

/-- C61: whatever the tolerance is and was, the elements of a Float set are listed in strictly ascending order of numbers, never NaN. -/
theorem C61_sets_ascend [StdSort] {l : List Obj} (hc : Reachable c) (hn : Holds c n (.set b!"Float" l)) :
    ∃ xs : List Fl, l = xs.map .float ∧ xs.Pairwise Less ∧ .nan ∉ xs := by
  have hp := holds_proper hc hn
  have : ∀ l : List Obj, (∀ o ∈ l, Writable b!"Float" o) → ∃ xs : List Fl, l = xs.map .float := by
    intro l hl
    induction l with
    | nil => exact ⟨[], rfl⟩
    | cons o l ih =>
      obtain ⟨x, rfl, _⟩ := hasType_float (writable_type (hl o (by simp)))
      obtain ⟨xs, h⟩ := ih fun o ho => hl o (by simp [ho])
      exact ⟨x :: xs, by rw [h]; rfl⟩
  obtain ⟨xs, rfl⟩ := this l hp.2.1
  exact ⟨xs, rfl, (List.pairwise_map (f := Obj.float) (R := Before)).1 hp.2.2, fun h => writable_not_nan (hp.2.1 _ (List.mem_map_of_mem h))⟩

section
variable [StdSort] {z : Bool} {l : List Obj} {a : Str} {x : Fl}

open Classical in
/-- C61: with tolerance zero `contains?` tells whether the number is an element. -/
theorem C61_contains (hc : Reachable c) (hz : c.cfg.eps = .fin z 0) (hn : Holds c n (.set b!"Float" l))
    (h : Statement text n b!"contains?" [a]) (ha : Denotes b!"Float" a (.float x)) :
    JustReplies pwd c s text (truth (∃ y, .float y ∈ l ∧ SameNumber x y)) := by
  have hp := holds_proper hc hn
  have h1 := answers_set (pwd := pwd) (s := s) hc hn h (.contains ha)
  simp only [setMeaning] at h1
  rw [hz] at h1
  rw [if_pos (searchable_zero hp.2.1 ⟨_, ha⟩ hp.2.2)] at h1
  have e : (∃ o ∈ l, tied (less (.fin z 0)) (.float x) o = true) ↔ ∃ y, .float y ∈ l ∧ SameNumber x y := by
    constructor
    · rintro ⟨o, ho, h2⟩
      obtain ⟨y, rfl, _⟩ := hasType_float (writable_type (hp.2.1 o ho))
      exact ⟨y, ho, (tied_zero ⟨_, ha⟩ (hp.2.1 _ ho)).1 h2⟩
    · rintro ⟨y, hy, h2⟩
      exact ⟨_, hy, (tied_zero ⟨_, ha⟩ (hp.2.1 _ hy)).2 h2⟩
  have e' : truth (∃ o ∈ l, tied (less (.fin z 0)) (.float x) o = true) = truth (∃ y, .float y ∈ l ∧ SameNumber x y) := by
    simp only [e]
  rw [e'] at h1
  exact justReplies_of hc hn h1

/-- C61: with tolerance zero `add:` adds the number, unless it is an element already. -/
theorem C61_add (hc : Reachable c) (hz : c.cfg.eps = .fin z 0) (hn : Holds c n (.set b!"Float" l))
    (h : Statement text n b!"add:" [a]) (ha : Denotes b!"Float" a (.float x)) :
    ∃ l', Answers pwd c s text n (.gives (.set b!"Float" l') b!"null") ∧
      ∀ o, o ∈ l' ↔ o ∈ l ∨ (o = .float x ∧ ¬ ∃ y, .float y ∈ l ∧ SameNumber x y) := by
  have hp := holds_proper hc hn
  have h1 := answers_set (pwd := pwd) (s := s) hc hn h (.add ha)
  simp only [setMeaning] at h1
  rw [hz] at h1
  have hs := searchable_zero (z := z) hp.2.1 ⟨_, ha⟩ hp.2.2
  rw [if_pos hs] at h1
  have key : ∀ o ∈ l, tied (less (.fin z 0)) (.float x) o = true ↔ ∃ y, o = .float y ∧ SameNumber x y := by
    intro o ho
    obtain ⟨y, rfl, _⟩ := hasType_float (writable_type (hp.2.1 o ho))
    rw [tied_zero ⟨_, ha⟩ (hp.2.1 _ ho)]
    exact ⟨fun h => ⟨y, rfl, h⟩, fun ⟨y', e, h⟩ => by cases e; exact h⟩
  by_cases hx : ∃ o ∈ l, tied (less (.fin z 0)) (.float x) o = true
  · rw [if_pos hx] at h1
    obtain ⟨o, ho, h2⟩ := hx
    obtain ⟨y, rfl, h3⟩ := (key o ho).1 h2
    exact ⟨l, h1, fun o => ⟨.inl, fun h => h.elim id fun h => absurd ⟨y, ho, h3⟩ h.2⟩⟩
  · rw [if_neg hx] at h1
    refine ⟨_, h1, fun o => ?_⟩
    simp only [List.mem_append, List.mem_cons, List.mem_filter]
    constructor
    · rintro (⟨h2, _⟩ | rfl | ⟨h2, _⟩)
      · exact .inl h2
      · exact .inr ⟨rfl, fun ⟨y, hy, h2⟩ => hx ⟨_, hy, (key _ hy).2 ⟨y, rfl, h2⟩⟩⟩
      · exact .inl h2
    · rintro (h2 | ⟨rfl, _⟩)
      · have h3 : ¬ tied (less (.fin z 0)) (.float x) o = true := fun h => hx ⟨o, h2, h⟩
        simp only [tied, Bool.and_eq_true, Bool.not_eq_true', not_and, Bool.not_eq_false] at h3
        cases h4 : less (.fin z 0) (.float x) o with
        | true => exact .inr (.inr ⟨h2, rfl⟩)
        | false => exact .inl ⟨h2, h3 h4⟩
      · exact .inr (.inl rfl)

/-- C61: with tolerance zero `remove:` removes the number. -/
theorem C61_remove (hc : Reachable c) (hz : c.cfg.eps = .fin z 0) (hn : Holds c n (.set b!"Float" l))
    (h : Statement text n b!"remove:" [a]) (ha : Denotes b!"Float" a (.float x)) :
    ∃ l', Answers pwd c s text n (.gives (.set b!"Float" l') b!"null") ∧ ∀ y, .float y ∈ l' ↔ .float y ∈ l ∧ ¬ SameNumber x y := by
  have hp := holds_proper hc hn
  have h1 := answers_set (pwd := pwd) (s := s) hc hn h (.remove ha)
  simp only [setMeaning] at h1
  rw [hz] at h1
  rw [if_pos (searchable_zero (z := z) hp.2.1 ⟨_, ha⟩ hp.2.2)] at h1
  refine ⟨_, h1, fun y => ?_⟩
  rw [List.mem_filter]
  constructor
  · rintro ⟨h2, h3⟩
    rw [← tied_zero (z := z) ⟨_, ha⟩ (hp.2.1 _ h2)]
    exact ⟨h2, by simpa using h3⟩
  · rintro ⟨h2, h3⟩
    rw [← tied_zero (z := z) ⟨_, ha⟩ (hp.2.1 _ h2)] at h3
    exact ⟨h2, by simpa using h3⟩

/-- C61: with tolerance zero `sort` puts a Float vector in ascending order of numbers. -/
theorem C61_sort (hc : Reachable c) (hz : c.cfg.eps = .fin z 0) (hn : Holds c n (.vector b!"Float" l))
    (h : Statement text n b!"sort" []) : ∃ l', Answers pwd c s text n (.gives (.vector b!"Float" l') b!"null") ∧ l'.Perm l ∧
      l'.Pairwise fun o o' => ¬ Before o' o := by
  have hp := holds_proper hc hn
  obtain ⟨l', h1, h2, h3⟩ := C21_sort_orders (pwd := pwd) (s := s) hc hn h (by rw [hz]; exact swo_zero hp.2)
  refine ⟨l', h1, h2, h3.imp_of_mem fun {o o'} ho ho' h4 => ?_⟩
  rw [hz, before_less (hp.2 _ (h2.mem_iff.1 ho')) (hp.2 _ (h2.mem_iff.1 ho))] at h4
  exact h4

end

section
variable [StdSort] {z : Bool} {l : List (Obj × Obj)} {a b : Str} {x : Fl} {v : Obj}

theorem dict_zero (hc : Reachable c) (hn : Holds c n (.dictionary b!"Float" u l)) (ha : Denotes b!"Float" a (.float x)) :
    Searchable (less (.fin z 0)) (l.map (·.1)) (.float x) ∧
      ∀ p ∈ l, (tied (less (.fin z 0)) (.float x) p.1 = true ↔ ∃ y, p.1 = .float y ∧ SameNumber x y) := by
  have hp := holds_proper hc hn
  refine ⟨searchable_zero (fun o ho => ?_) ⟨_, ha⟩ (List.pairwise_map.2 hp.2.2.2), fun p h => ?_⟩
  · obtain ⟨q, hq, rfl⟩ := List.mem_map.1 ho
    exact (hp.2.2.1 q hq).1
  · have hw := (hp.2.2.1 p h).1
    obtain ⟨y, hy, _⟩ := hasType_float (writable_type hw)
    rw [hy] at hw ⊢
    rw [tied_zero ⟨_, ha⟩ hw]
    exact ⟨fun h => ⟨y, rfl, h⟩, fun ⟨y', e, h⟩ => by cases e; exact h⟩

open Classical in
/-- C61: with tolerance zero `containsKey?` tells whether the number is a key. -/
theorem C61_containsKey (hc : Reachable c) (hz : c.cfg.eps = .fin z 0) (hn : Holds c n (.dictionary b!"Float" u l))
    (h : Statement text n b!"containsKey?" [a]) (ha : Denotes b!"Float" a (.float x)) :
    JustReplies pwd c s text (truth (∃ y v, (.float y, v) ∈ l ∧ SameNumber x y)) := by
  obtain ⟨hs, hk⟩ := dict_zero (z := z) hc hn ha
  have h1 := answers_dict (pwd := pwd) (s := s) hc hn h (.containsKey ha)
  simp only [dictMeaning] at h1
  rw [hz] at h1
  rw [if_pos hs] at h1
  have e : (∃ p ∈ l, tied (less (.fin z 0)) (.float x) p.1 = true) ↔ ∃ y v, (.float y, v) ∈ l ∧ SameNumber x y := by
    constructor
    · rintro ⟨⟨k, v⟩, hp, h2⟩
      obtain ⟨y, rfl, h3⟩ := (hk _ hp).1 h2
      exact ⟨y, v, hp, h3⟩
    · rintro ⟨y, v, hp, h2⟩
      exact ⟨_, hp, (hk _ hp).2 ⟨y, rfl, h2⟩⟩
  have e' : truth (∃ p ∈ l, tied (less (.fin z 0)) (.float x) p.1 = true) = truth (∃ y v, (.float y, v) ∈ l ∧ SameNumber x y) := by
    simp only [e]
  rw [e'] at h1
  exact justReplies_of hc hn h1

/-- C61: with tolerance zero `getValueForKey:` returns the value associated with the number. -/
theorem C61_getValueForKey {y : Fl} (hc : Reachable c) (hz : c.cfg.eps = .fin z 0) (hn : Holds c n (.dictionary b!"Float" u l))
    (h : Statement text n b!"getValueForKey:" [a]) (ha : Denotes b!"Float" a (.float x)) (hv : (.float y, v) ∈ l)
    (hy : SameNumber x y) : JustReplies pwd c s text (v.repr c.cfg.prec) := by
  obtain ⟨hs, hk⟩ := dict_zero (z := z) hc hn ha
  have h1 := answers_dict (pwd := pwd) (s := s) hc hn h (.getValueForKey ha)
  simp only [dictMeaning] at h1
  rw [hz] at h1
  rw [if_pos hs] at h1
  cases hf : l.find? fun p => tied (less (.fin z 0)) (.float x) p.1 with
  | none => exact absurd ((hk _ hv).2 ⟨y, rfl, hy⟩) (by simpa using List.find?_eq_none.1 hf _ hv)
  | some p =>
    rw [hf] at h1
    have hp := List.mem_of_find?_eq_some hf
    obtain ⟨y', e, hy'⟩ := (hk p hp).1 (List.find?_some (p := fun p : Obj × Obj => tied (less (.fin z 0)) (.float x) p.1) hf)
    suffices p = (.float y, v) by subst this; exact justReplies_of hc hn h1
    have hasc := (holds_proper hc hn).2.2.2
    have hne : ∀ q ∈ l, ∀ y, q.1 = .float y → y ≠ .nan := by
      rintro q hq y e rfl
      exact writable_not_nan (e ▸ ((holds_proper hc hn).2.2.1 q hq).1)
    have hsame : ¬ Less y' y ∧ ¬ Less y y' := by
      have hx : x ≠ .nan := by rintro rfl; exact writable_not_nan ⟨_, ha⟩
      rw [← sameNumber_iff (hne p hp y' e) (hne _ hv y rfl)]
      rcases hy with ⟨q, h2, h3⟩ | ⟨w, rfl, rfl⟩
      · rcases hy' with ⟨q', h4, h5⟩ | ⟨w, rfl, _⟩
        · rw [h2] at h4; cases h4; exact .inl ⟨q, h5, h3⟩
        · cases h2
      · rcases hy' with ⟨q', h4, h5⟩ | ⟨w', e', rfl⟩
        · cases h4
        · cases e'; exact .inr ⟨_, rfl, rfl⟩
    by_contra hpe
    rcases List.pairwise_iff_getElem.1 hasc with hasc
    obtain ⟨i, hi, hi'⟩ := List.getElem_of_mem hp
    obtain ⟨j, hj, hj'⟩ := List.getElem_of_mem hv
    rcases Nat.lt_trichotomy i j with hij | rfl | hij
    · have := hasc i j hi hj hij
      rw [hi', hj', e] at this; exact hsame.1 this
    · rw [hi'] at hj'; exact hpe hj'
    · have := hasc j i hj hi hij
      rw [hi', hj', e] at this; exact hsame.2 this

/-- C61: … and `null` if no key is this number. -/
theorem C61_getValueForKey_unknown (hc : Reachable c) (hz : c.cfg.eps = .fin z 0) (hn : Holds c n (.dictionary b!"Float" u l))
    (h : Statement text n b!"getValueForKey:" [a]) (ha : Denotes b!"Float" a (.float x))
    (hv : ∀ y v, (.float y, v) ∈ l → ¬ SameNumber x y) : JustReplies pwd c s text b!"null" := by
  obtain ⟨hs, hk⟩ := dict_zero (z := z) hc hn ha
  have h1 := answers_dict (pwd := pwd) (s := s) hc hn h (.getValueForKey ha)
  simp only [dictMeaning] at h1
  rw [hz] at h1
  rw [if_pos hs, List.find?_eq_none.2] at h1
  · exact justReplies_of hc hn h1
  · intro p hp h2
    obtain ⟨y, e, h3⟩ := (hk p hp).1 h2
    obtain ⟨k, v⟩ := p
    cases e
    exact hv y v hp h3

/-- C61: with tolerance zero `associateValue:withKey:` changes the value of the key that is this number, or adds the key if there is none;
the other associations stay. -/
theorem C61_associate (hc : Reachable c) (hz : c.cfg.eps = .fin z 0) (hn : Holds c n (.dictionary b!"Float" u l))
    (h : Statement text n b!"associateValue:withKey:" [b, a]) (hb : Denotes u b v) (ha : Denotes b!"Float" a (.float x)) :
    ∃ l', Answers pwd c s text n (.gives (.dictionary b!"Float" u l') b!"null") ∧
      ∀ k w, (.float k, w) ∈ l' ↔ (¬ SameNumber x k ∧ (.float k, w) ∈ l) ∨ (w = v ∧ SameNumber x k ∧ ∃ w', (.float k, w') ∈ l) ∨
        (w = v ∧ k = x ∧ ∀ y w', (.float y, w') ∈ l → ¬ SameNumber x y) := by
  obtain ⟨hs, hk⟩ := dict_zero (z := z) hc hn ha
  have hk' : ∀ y w, (.float y, w) ∈ l → (tied (less (.fin z 0)) (.float x) (.float y) = true ↔ SameNumber x y) := fun y w hm => by
    rw [hk (.float y, w) hm]
    exact ⟨fun ⟨y', e, h⟩ => by cases e; exact h, fun h => ⟨y, rfl, h⟩⟩
  have h1 := answers_dict (pwd := pwd) (s := s) hc hn h (.associate hb ha)
  simp only [dictMeaning] at h1
  rw [hz, if_pos hs] at h1
  by_cases ht : ∃ p ∈ l, tied (less (.fin z 0)) (.float x) p.1 = true
  · rw [if_pos ht] at h1
    refine ⟨_, h1, fun k w => ?_⟩
    obtain ⟨⟨o, w0⟩, hp, htp⟩ := ht
    obtain ⟨y0, e0, hy0⟩ := (hk _ hp).1 htp
    change o = _ at e0
    subst e0
    rw [List.mem_map]
    constructor
    · rintro ⟨⟨o, w1⟩, hm, e⟩
      by_cases ht' : tied (less (.fin z 0)) (.float x) o = true
      · rw [if_pos ht'] at e
        cases e
        exact .inr (.inl ⟨rfl, (hk' k w1 hm).1 ht', w1, hm⟩)
      · rw [if_neg ht'] at e
        cases e
        exact .inl ⟨fun h => ht' ((hk' k w hm).2 h), hm⟩
    · rintro (⟨h2, h3⟩ | ⟨rfl, h2, w', h3⟩ | ⟨_, _, h4⟩)
      · exact ⟨_, h3, if_neg fun h => h2 ((hk' k w h3).1 h)⟩
      · exact ⟨_, h3, if_pos ((hk' k w' h3).2 h2)⟩
      · exact absurd hy0 (h4 y0 w0 hp)
  · rw [if_neg ht] at h1
    refine ⟨_, h1, fun k w => ?_⟩
    have hno : ∀ y w', (.float y, w') ∈ l → ¬ SameNumber x y := fun y w' hm h => ht ⟨_, hm, (hk' y w' hm).2 h⟩
    simp only [List.mem_append, List.mem_cons, List.mem_filter]
    constructor
    · rintro (⟨h2, _⟩ | e | ⟨h2, _⟩)
      · exact .inl ⟨hno k w h2, h2⟩
      · cases e; exact .inr (.inr ⟨rfl, rfl, hno⟩)
      · exact .inl ⟨hno k w h2, h2⟩
    · rintro (⟨h2, h3⟩ | ⟨_, h2, w', h3⟩ | ⟨rfl, rfl, _⟩)
      · have h4 : ¬ tied (less (.fin z 0)) (.float x) (.float k) = true := fun h => ht ⟨_, h3, h⟩
        simp only [tied, Bool.and_eq_true, Bool.not_eq_true', not_and, Bool.not_eq_false] at h4
        cases h5 : less (.fin z 0) (.float x) (.float k) with
        | true => exact .inr (.inr ⟨h3, rfl⟩)
        | false => exact .inl ⟨h3, h4 h5⟩
      · exact absurd h2 (hno k w' h3)
      · exact .inr (.inl rfl)

/-- C61: with tolerance zero `removeKey:` removes the association of the number. -/
theorem C61_removeKey (hc : Reachable c) (hz : c.cfg.eps = .fin z 0) (hn : Holds c n (.dictionary b!"Float" u l))
    (h : Statement text n b!"removeKey:" [a]) (ha : Denotes b!"Float" a (.float x)) :
    ∃ l', Answers pwd c s text n (.gives (.dictionary b!"Float" u l') b!"null") ∧
      ∀ k w, (.float k, w) ∈ l' ↔ (.float k, w) ∈ l ∧ ¬ SameNumber x k := by
  obtain ⟨hs, hk⟩ := dict_zero (z := z) hc hn ha
  have h1 := answers_dict (pwd := pwd) (s := s) hc hn h (.removeKey ha)
  simp only [dictMeaning] at h1
  rw [hz, if_pos hs] at h1
  refine ⟨_, h1, fun k w => ?_⟩
  rw [List.mem_filter]
  have hk' : (.float k, w) ∈ l → (tied (less (.fin z 0)) (.float x) (.float k) = true ↔ SameNumber x k) := fun hm => by
    rw [hk (.float k, w) hm]
    exact ⟨fun ⟨y', e, h⟩ => by cases e; exact h, fun h => ⟨k, rfl, h⟩⟩
  constructor
  · rintro ⟨h2, h3⟩
    rw [← hk' h2]
    exact ⟨h2, by simpa using h3⟩
  · rintro ⟨h2, h3⟩
    rw [← hk' h2] at h3
    exact ⟨h2, by simpa using h3⟩

end

/-- A Float set filled while the tolerance was large, which is zero now: a state that meets the hypotheses of the theorems above. -/
def halfSet : Ctx := { fresh with vars := [(b!"t", .set b!"Float" [.float (.fin false (2 ^ 1073)), .float (.fin false (2 ^ 1075))])] }

theorem halfSet_reachable [StdSort] : Reachable halfSet :=
  after_reachable (pwd := []) (s := none) (ts := [b!"Context setFloatComparisonTolerance: 1;", b!"Set<Float> create: t;", b!"t add: .5;",
    b!"t add: 1;", b!"t add: 2;", b!"Context setFloatComparisonTolerance: 0;"]) fresh_reachable (by kernel_rfl)

example : Holds halfSet b!"t" (.set b!"Float" [.float (.fin false (2 ^ 1073)), .float (.fin false (2 ^ 1075))]) ∧
    halfSet.cfg.eps = .fin false 0 ∧ Statement b!"t contains? 1;" b!"t" b!"contains?" [b!"1"] ∧
    Denotes b!"Float" b!"1" (.float (.fin false (2 ^ 1074))) :=
  ⟨rfl, rfl, reads (by decide +kernel), denotes_atof (by decide +kernel) (by kernel_rfl)⟩

end Knuckle.Props

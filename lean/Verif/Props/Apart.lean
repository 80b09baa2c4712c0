/-
C77: with numbers that are far apart the tolerance does not matter.
-/
import Verif.Proofs.Apart
import Verif.Props.Settings
import Verif.Props.Rebuild

namespace Knuckle.Props

open Spec

variable {pwd text n : Str} {s : Option Session} {c d : Ctx}

theorem rounds_single {neg : Bool} {q : ℚ} {x : Fl} (h : Rounds single neg q x) : x.toF32 = x := by
  obtain ⟨r, h1, h2, ⟨h3, h4⟩ | ⟨_, rfl⟩⟩ := h
  · exact (converts_iff.1 (.num h4 ⟨r, nearest_self h1.1, rfl, .inl ⟨h3, h4⟩⟩)).symm
  · rfl

theorem compared_single {i : Inst} {args : List Str} {x : Fl} (hw : Proper i) (h : Compared i args x) : x.toF32 = x := by
  have den : ∀ {a : Str} {x : Fl}, Denotes b!"Float" a (.float x) → x.toF32 = x := fun h => (denotes_type h).2
  cases h with
  | float => exact hw
  | floatArgument h => exact den h
  | integer h => exact rounds_single h
  | integerArgument h => exact den h
  | vector h => exact (writable_type (hw.2 _ h)).2
  | vectorArgument h => exact den h
  | set h => exact (writable_type (hw.2.1 _ h)).2
  | setArgument h => exact den h
  | dictionary h => exact (writable_type (hw.2.2.1 _ h).1).2
  | dictionaryArgument h => exact den h

theorem agree_apart {e e' : Fl} {i : Inst} {args : List Str} (hw : Proper i) (he : e.toF32 = e) (he' : e'.toF32 = e') (hs : Sensible e)
    (hs' : Sensible e') (h : FarApart e i args) (h' : FarApart e' i args) : Agree e e' i args := fun x y hx hy =>
  (below_apart (compared_single hw hx) (compared_single hw hy) he hs (h x y hx hy)).trans
    (below_apart (compared_single hw hx) (compared_single hw hy) he' hs' (h' x y hx hy)).symm

/-- C77: two servers that differ only in the tolerance execute a request alike, with the same reply, if the floats it can compare are far
apart for both: equal or at least twice the tolerance apart. -/
theorem C77_far_apart [StdSort] (hc : Reachable c) (hd : Reachable d) (h : SameButTolerance c d) (hs : Sensible c.cfg.eps)
    (hs' : Sensible d.cfg.eps)
    (hf : ComparesFloats c text ∨ SearchesFloats c text → ∀ n name args i, Statement text n name args → Holds c n i →
      FarApart c.cfg.eps i args ∧ FarApart d.cfg.eps i args)
    (hsort : ¬ SortsFloats c text) (hask : ¬ AsksTolerance text) :
    EndAlike SameButTolerance True (execute pwd c s text) (execute pwd d s text) := by
  by_cases hcs : ComparesFloats c text ∨ SearchesFloats c text
  · refine execute_alike (R := fun a b => a.prec = b.prec) (reachable_inv hc) h (fun _ => rfl) (fun _ => h.2) ?_ (fun _ _ _ => h.2) ?_
    · intro n name args i hst hi
      obtain ⟨f1, f2⟩ := hf hcs n name args i hst hi
      have e : d.cfg = ⟨c.cfg.prec, d.cfg.eps⟩ := by rw [h.2]
      rw [e]
      refine runAlike_of_eq (receive_at (p := c.cfg.prec) (holds_wellTyped hc hi)
        (agree_apart (holds_proper hc hi) (reachable_inv hc).eps (reachable_inv hd).eps hs hs' f1 f2) ?_)
      rintro l rfl ⟨rfl, rfl⟩
      exact hsort ⟨n, l, hst, hi⟩
    · exact fun args hst => absurd ⟨args, hst⟩ hask
  · have := C73_tolerance (pwd := pwd) (s := s) hc h fun hx => hcs (.inr hx)
    generalize execute pwd c s text = x at this
    generalize execute pwd d s text = y at this
    cases x <;> cases y <;> first | exact this | skip
    exact ⟨this.1, this.2.1, fun _ => this.2.2 fun hx => hcs (.inl hx)⟩

/-! ### Nothing is undefined -/

theorem less_apart {e : Fl} {x y : Obj} (hx : HasType b!"Float" x) (hy : HasType b!"Float" y) (he : e.toF32 = e) (hs : Sensible e)
    (ha : ∀ a b, x = .float a → y = .float b → Apart e a b) : less e x y = less (.fin false 0) x y := by
  obtain ⟨a, rfl, h1⟩ := hasType_float hx
  obtain ⟨b, rfl, h2⟩ := hasType_float hy
  have := below_apart h1 h2 he hs (ha a b rfl rfl)
  unfold less
  exact decide_eq_decide.2 this

theorem swo_congr {f g : Obj → Obj → Bool} {l : List Obj} (h : ∀ x ∈ l, ∀ y ∈ l, f x y = g x y) (hg : StrictWeakOrder g l) :
    StrictWeakOrder f l := by
  obtain ⟨h1, h2, h3⟩ := hg
  refine ⟨fun a ha => by rw [h a ha a ha]; exact h1 a ha, fun a ha b hb c hc => ?_, fun a ha b hb c hc => ?_⟩
  · rw [h a ha b hb, h b hb c hc, h a ha c hc]; exact h2 a ha b hb c hc
  · rw [h a ha b hb, h b hb a ha, h b hb c hc, h c hc b hb, h a ha c hc, h c hc a ha]; exact h3 a ha b hb c hc

theorem searchable_congr {f g : Obj → Obj → Bool} {l : List Obj} {k : Obj} (h : ∀ x ∈ k :: l, ∀ y ∈ k :: l, f x y = g x y)
    (hg : Searchable g l k) : Searchable f l k :=
  ⟨swo_congr h hg.1, hg.2.imp_of_mem fun {a b} ha hb hab => by rw [h a (.tail _ ha) b (.tail _ hb)]; exact hab⟩

theorem swo_apart {e : Fl} {l : List Obj} {args : List Str} (hp : Proper (.vector b!"Float" l)) (he : e.toF32 = e) (hs : Sensible e)
    (hf : FarApart e (.vector b!"Float" l) args) : StrictWeakOrder (less e) l :=
  swo_congr (fun x hx y hy => less_apart (writable_type (hp.2 x hx)) (writable_type (hp.2 y hy)) he hs fun a b ha hb => by
    subst ha hb; exact hf a b (.vector hx) (.vector hy)) (swo_zero hp.2)

/-- C77: if the floats the request can compare are far apart, then whatever the tolerance was before, no request has undefined behaviour
because of the order of floats: what remains are numbers that do not fit 32 bits, integer arithmetic, and requests to the connection where
there is none. -/
theorem C77_far_apart_is_defined [StdSort] (hc : Reachable c) (hs : Sensible c.cfg.eps)
    (hf : ∀ n name args i, Statement text n name args → Holds c n i → FarApart c.cfg.eps i args) (h : execute pwd c s text = .ub) :
    (∃ a name args ks, Statement text a name args ∧ Understands c a name ks ∧ args.length = ks.length ∧
        ∃ q ∈ ks.zip args, Overflows q.1 q.2) ∨
    (∃ n v name a x m, Statement text n name [a] ∧ Holds c n (.integer v) ∧ NumDenotes a x ∧
        (m = IntMsg.add x ∨ m = .subtract x ∨ m = .multiplyBy x ∨ m = .divideBy x) ∧ IntSays name [a] m ∧
        intMeaning c.cfg.eps v m = .undefined) ∨
    (∃ name args, Statement text b!"Connection" name args ∧ s = none) := by
  have he := (reachable_inv hc).eps
  cases C39_only_known_causes hc h with
  | literal h1 h2 h3 h4 => exact .inl ⟨_, _, _, _, h1, h2, h3, h4⟩
  | arithmetic h1 h2 h3 h4 h5 h6 => exact .inr (.inl ⟨_, _, _, _, _, _, h1, h2, h3, h4, h5, h6⟩)
  | sort h1 h2 h3 => exact absurd (swo_apart (holds_proper hc h2) he hs (hf _ _ _ _ h1 h2)) h3
  | @set n l name a o h1 h2 h3 h4 h5 =>
    have hp := holds_proper hc h3
    refine absurd (searchable_congr (fun x hx y hy => ?_) (searchable_zero (z := false) hp.2.1 ⟨_, h4⟩ hp.2.2)) h5
    have ty : ∀ x ∈ o :: l, HasType b!"Float" x := by
      intro x hx
      rcases List.mem_cons.1 hx with rfl | hx
      · exact denotes_type h4
      · exact writable_type (hp.2.1 x hx)
    have cmp : ∀ z, .float z ∈ o :: l → Compared (.set b!"Float" l) [a] z := by
      intro z hz
      rcases List.mem_cons.1 hz with rfl | hz
      · exact .setArgument h4
      · exact .set hz
    exact less_apart (ty x hx) (ty y hy) he hs fun i j hi hj => by
      subst hi hj; exact hf _ _ _ _ h1 h3 i j (cmp i hx) (cmp j hy)
  | @dictionary n u l name args a o h1 h2 h3 h4 h5 =>
    have hp := holds_proper hc h3
    have hw : ∀ k ∈ l.map (·.1), Writable b!"Float" k := by
      intro k hk
      obtain ⟨x, hx, rfl⟩ := List.mem_map.1 hk
      exact (hp.2.2.1 x hx).1
    refine absurd (searchable_congr (fun x hx y hy => ?_) (searchable_zero (z := false) hw ⟨_, h4⟩ (List.pairwise_map.2 hp.2.2.2))) h5
    have ty : ∀ x ∈ o :: l.map (·.1), HasType b!"Float" x := by
      intro x hx
      rcases List.mem_cons.1 hx with rfl | hx
      · exact denotes_type h4
      · exact writable_type (hw x hx)
    have ha : ∃ as, args = as ++ [a] := by
      rcases h2 with ⟨rfl, _⟩ | ⟨b, _, rfl, _⟩
      · exact ⟨[], rfl⟩
      · exact ⟨[b], rfl⟩
    obtain ⟨as, rfl⟩ := ha
    have cmp : ∀ z, .float z ∈ o :: l.map (·.1) → Compared (.dictionary b!"Float" u l) (as ++ [a]) z := by
      intro z hz
      rcases List.mem_cons.1 hz with rfl | hz
      · exact .dictionaryArgument h4
      · obtain ⟨⟨k, v⟩, hk, e⟩ := List.mem_map.1 hz
        simp only at e; subst e
        exact .dictionary hk
    exact less_apart (ty x hx) (ty y hy) he hs fun i j hi hj => by
      subst hi hj; exact hf _ _ _ _ h1 h3 i j (cmp i hx) (cmp j hy)
  | connection h1 h2 => exact .inr (.inr ⟨_, _, h1, h2⟩)

/-- C77: `sort` puts numbers that are far apart in ascending order. -/
theorem C77_sort [StdSort] {l : List Obj} (hc : Reachable c) (hs : Sensible c.cfg.eps) (hn : Holds c n (.vector b!"Float" l))
    (hf : FarApart c.cfg.eps (.vector b!"Float" l) []) (h : Statement text n b!"sort" []) :
    ∃ l', Answers pwd c s text n (.gives (.vector b!"Float" l') b!"null") ∧ l'.Perm l ∧ l'.Pairwise fun o o' => ¬ Before o' o := by
  have hp := holds_proper hc hn
  have he := (reachable_inv hc).eps
  obtain ⟨l', h1, h2, h3⟩ := C21_sort_orders (pwd := pwd) (s := s) hc hn h (swo_apart hp he hs hf)
  refine ⟨l', h1, h2, h3.imp_of_mem fun {o o'} ho ho' h4 => ?_⟩
  have m1 := h2.mem_iff.1 ho
  have m2 := h2.mem_iff.1 ho'
  rw [less_apart (writable_type (hp.2 _ m2)) (writable_type (hp.2 _ m1)) he hs fun a b ha hb => by subst ha hb; exact hf a b (.vector m2) (.vector m1),
    before_less (hp.2 _ m2) (hp.2 _ m1)] at h4
  exact h4


/-! ### Tolerance zero -/

theorem far_zero {e : Fl} {i : Inst} {args : List Str} (he : number e = some 0) : FarApart e i args := by
  intro x y _ _ p q r _ _ hr
  rw [he] at hr; cases hr
  exact .inr (by simp)

theorem number_zero (b : Bool) : number (.fin b 0) = some 0 := by
  rw [number_fin]; simp

/-- C77: so one can set the tolerance to zero, at which everything is known of floats (C61), without changing what happens. -/
theorem C77_like_tolerance_zero [StdSort] (hc : Reachable c) (hs : Sensible c.cfg.eps)
    (hf : ∀ n name args i, Statement text n name args → Holds c n i → FarApart c.cfg.eps i args)
    (hsort : ¬ SortsFloats c text) (hask : ¬ AsksTolerance text) :
    ∃ d, execute pwd c s b!"Context setFloatComparisonTolerance: 0;" = .done (d, s, b!"null") ∧ d.cfg.eps = .fin false 0 ∧
      EndAlike SameButTolerance True (execute pwd c s text) (execute pwd d s text) := by
  have st : Statement b!"Context setFloatComparisonTolerance: 0;" b!"Context" b!"setFloatComparisonTolerance:" [b!"0"] := reads (by decide +kernel)
  have hfv : FloatValue b!"0" := (isFloatValue_iff _).1 (by decide +kernel)
  have hz : (atof b!"0").toF32 = .fin false 0 := by kernel_rfl
  obtain ⟨d, a, b, e⟩ := (C37_setFloatComparisonTolerance (pwd := pwd) (c := c) (s := s) st).1 hfv (by rw [hz]; rfl)
  have he' : d.cfg.eps = (atof b!"0").toF32 := by rw [e]
  have he : d.cfg.eps = .fin false 0 := he'.trans hz
  refine ⟨d, a, he, C77_far_apart hc (.step hc a) ⟨b.symm, by rw [e]⟩ hs ⟨0, by rw [he]; exact number_zero _, le_refl _⟩ ?_ hsort hask⟩
  intro _ n name args i h1 h2
  exact ⟨hf n name args i h1 h2, by rw [he]; exact far_zero (number_zero _)⟩

/-! ### The hypotheses can be met -/

/-- A set of floats, at tolerance a quarter. -/
def quarterSet : Ctx := { fresh with
  cfg := ⟨3, .fin false (2 ^ 1072)⟩, vars := [(b!"t", .set b!"Float" [.float (.fin false (2 ^ 1073)), .float (.fin false (2 ^ 1075))])] }

theorem quarterSet_reachable [StdSort] : Reachable quarterSet :=
  after_reachable (pwd := []) (s := none) (ts := [b!"Set<Float> create: t;", b!"t add: .5;", b!"t add: 2;",
    b!"Context setFloatComparisonTolerance: .25;"]) fresh_reachable (by kernel_rfl)

theorem number_power (k : ℕ) : number (.fin false (2 ^ k)) = some (2 ^ (k : ℤ) / 2 ^ (1074 : ℤ)) := by
  rw [number_fin, if_neg (by simp), one_mul, unit_two]
  congr 1
  push_cast
  norm_cast

theorem number_pow (k : ℕ) (j : ℤ) (h : (k : ℤ) - 1074 = j) : number (.fin false (2 ^ k)) = some (2 ^ j) := by
  rw [number_power, ← zpow_sub₀ (by norm_num), h]

/-- The elements are one half and two, the argument is one. -/
theorem quarter_far {i : Inst} {name : Str} {args : List Str} (hs : Statement b!"t add: 1;" n name args) (hi : Holds quarterSet n i) :
    FarApart quarterSet.cfg.eps i args := by
  have st : Statement b!"t add: 1;" b!"t" b!"add:" [b!"1"] := reads (by decide +kernel)
  obtain ⟨rfl, rfl, rfl⟩ := statement_same st hs
  have ht : Holds quarterSet b!"t" (.set b!"Float" [.float (.fin false (2 ^ 1073)), .float (.fin false (2 ^ 1075))]) := by
    unfold Holds; kernel_rfl
  have he : quarterSet.cfg.eps = .fin false (2 ^ 1072) := by kernel_rfl
  unfold Holds at ht hi
  rw [ht] at hi
  have hi' := Option.some.inj hi
  clear hi ht
  have h1 : Denotes b!"Float" b!"1" (.float (.fin false (2 ^ 1074))) := denotes_atof (by decide +kernel) (by kernel_rfl)
  have n0 : number quarterSet.cfg.eps = some (2 ^ (-2 : ℤ)) := by rw [he]; exact number_pow 1072 (-2) (by norm_num)
  have n1 := number_pow 1073 (-1) (by norm_num)
  have n2 := number_pow 1074 0 (by norm_num)
  have n3 := number_pow 1075 1 (by norm_num)
  generalize Fl.fin false (2 ^ 1073) = x1 at hi' n1
  generalize Fl.fin false (2 ^ 1074) = x2 at h1 n2
  generalize Fl.fin false (2 ^ 1075) = x3 at hi' n3
  subst hi'
  have cmp : ∀ x, Compared (.set b!"Float" [.float x1, .float x3]) [b!"1"] x → ∃ p, number x = some p ∧ (p = 1 / 2 ∨ p = 1 ∨ p = 2) := by
    intro x hx
    cases hx with
    | set h =>
      rcases List.mem_cons.1 h with h | h
      · cases h; exact ⟨_, n1, .inl (by norm_num)⟩
      · rcases List.mem_cons.1 h with h | h
        · cases h; exact ⟨_, n3, .inr (.inr (by norm_num))⟩
        · cases h
    | setArgument h =>
      cases denotes_unique h1 h
      exact ⟨_, n2, .inr (.inl (by norm_num))⟩
  intro x y hx hy p q r hp hq hr
  obtain ⟨p', a1, a2⟩ := cmp x hx
  obtain ⟨q', b1, b2⟩ := cmp y hy
  rw [hp] at a1; cases a1
  rw [hq] at b1; cases b1
  rw [n0] at hr; cases hr
  rcases a2 with rfl | rfl | rfl <;> rcases b2 with rfl | rfl | rfl <;> first | exact .inl rfl | (right; norm_num [abs_of_pos, abs_of_neg])

example [StdSort] : Reachable quarterSet ∧ Sensible quarterSet.cfg.eps ∧ ¬ SortsFloats quarterSet b!"t add: 1;" ∧ ¬ AsksTolerance b!"t add: 1;" ∧
    SearchesFloats quarterSet b!"t add: 1;" ∧
    ∀ n name args i, Statement b!"t add: 1;" n name args → Holds quarterSet n i → FarApart quarterSet.cfg.eps i args := by
  have hask : ¬ AsksTolerance b!"t add: 1;" := by
    rintro ⟨args, h⟩
    have st : Statement b!"t add: 1;" b!"t" b!"add:" [b!"1"] := reads (by decide +kernel)
    exact absurd (statement_same st h).1 (by decide)
  have hsort : ¬ SortsFloats quarterSet b!"t add: 1;" := by
    rintro ⟨n, l, h, _⟩
    have st : Statement b!"t add: 1;" b!"t" b!"add:" [b!"1"] := reads (by decide +kernel)
    exact absurd (statement_same st h).2.1 (by decide)
  have he : Sensible quarterSet.cfg.eps := by
    have h1 : quarterSet.cfg.eps = .fin false (2 ^ 1072) := by kernel_rfl
    have h2 := number_pow 1072 (-2) (by norm_num)
    rw [← h1] at h2
    exact ⟨2 ^ (-2 : ℤ), h2, by norm_num⟩
  have st : Statement b!"t add: 1;" b!"t" b!"add:" [b!"1"] := reads (by decide +kernel)
  have ht : Holds quarterSet b!"t" (.set b!"Float" [.float (.fin false (2 ^ 1073)), .float (.fin false (2 ^ 1075))]) := by
    unfold Holds; kernel_rfl
  exact ⟨quarterSet_reachable, he, hsort, hask, .set st ht (by decide), fun _ _ _ _ h1 h2 => quarter_far h1 h2⟩

end Knuckle.Props

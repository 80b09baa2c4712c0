/-
C85: a greater tolerance confuses more floats, never fewer.
-/
import Verif.Props.Apart
import Verif.Props.Containers

namespace Knuckle.Props

open Spec

variable {pwd text n a : Str} {s : Option Session} {c d : Ctx}

theorem neg_opposite (x : Fl) : x.neg = opposite x := by cases x <;> rfl

theorem below_mono {e e' z : Fl} (h : Wider e e') (hz : z.lt e'.neg = true) : z.lt e.neg = true := by
  rw [neg_opposite] at hz ⊢
  cases h with
  | infinite h1 _ => cases z <;> simp [Fl.lt, opposite] at hz
  | numbers h1 h2 h3 h4 =>
    rw [← less_iff] at hz ⊢
    have n1 := number_opposite h1
    have n2 := number_opposite h2
    generalize opposite e' = y at *
    cases hz with
    | numbers g1 g2 g3 => rw [n2] at g2; cases g2; exact .numbers g1 n1 (by linarith)
    | fromMinusInf g1 g2 => exact .fromMinusInf (by rintro e; rw [e] at n1; cases n1) (by rintro e; rw [e] at n1; cases n1)
    | toInf g1 g2 => cases n2

theorem above_mono {e e' z : Fl} (h : Wider e e') (hz : e'.lt z = true) : e.lt z = true := by
  cases h with
  | infinite h1 _ => cases z <;> simp [Fl.lt] at hz
  | numbers h1 h2 h3 h4 =>
    rw [← less_iff] at hz ⊢
    cases hz with
    | numbers g1 g2 g3 => rw [h2] at g1; cases g1; exact .numbers h1 g2 (by linarith)
    | fromMinusInf g1 g2 => cases h2
    | toInf g1 g2 => exact .toInf (by rintro rfl; cases h1) (by rintro rfl; cases h1)

theorem not_both {e z : Fl} {r : ℚ} (he : number e = some r) (h0 : 0 ≤ r) (h : z.lt e.neg = true) (h' : e.lt z = true) : False := by
  rw [neg_opposite, ← less_iff] at h
  rw [← less_iff] at h'
  have n1 := number_opposite he
  generalize opposite e = y at *
  cases h with
  | numbers g1 g2 g3 =>
    rw [n1] at g2; cases g2
    cases h' with
    | numbers k1 k2 k3 => rw [he] at k1; cases k1; rw [g1] at k2; cases k2; linarith
    | fromMinusInf k1 k2 => cases he
    | toInf k1 k2 => cases g1
  | fromMinusInf g1 g2 =>
    cases h' with
    | numbers k1 k2 k3 => cases k2
    | fromMinusInf k1 k2 => cases he
  | toInf g1 g2 => cases n1

/-- What is less stays less with a smaller tolerance, what is equal stays equal with a greater one. -/
theorem below_wider {e e' x y : Fl} (h : Wider e e') : below e' x y → below e x y := below_mono h
theorem above_wider {e e' x y : Fl} (h : Wider e e') : above e' x y → above e x y := above_mono h
theorem le_wider {e e' x y : Fl} (h : Wider e e') (g : below e x y ∨ ¬ above e x y) : below e' x y ∨ ¬ above e' x y := by
  refine .inr fun k => ?_
  have k' := above_wider h k
  rcases g with g | g
  · cases h with
    | infinite h1 h0 => exact not_both h1 h0 g k'
    | numbers h1 _ h0 _ => exact not_both h1 h0 g k'
  · exact g k'
theorem ge_wider {e e' x y : Fl} (h : Wider e e') (g : above e x y ∨ ¬ below e x y) : above e' x y ∨ ¬ below e' x y := by
  refine .inr fun k => ?_
  have k' := below_wider h k
  rcases g with g | g
  · cases h with
    | infinite h1 h0 => exact not_both h1 h0 k' g
    | numbers h1 _ h0 _ => exact not_both h1 h0 k' g
  · exact g k'

theorem same_wider {e e' : Fl} {x y : Obj} (h : Wider e e') (g : same e x y = true) : same e' x y = true := by
  cases x <;> cases y <;> try exact g
  rename_i x y
  simp only [same, Bool.and_eq_true, Bool.not_eq_true', ← Bool.not_eq_true] at g ⊢
  exact ⟨fun k => g.1 (below_wider h k), fun k => g.2 (above_wider h k)⟩

theorem tied_wider {e e' : Fl} {x y : Obj} (h : Wider e e') (g : tied (less e) x y = true) : tied (less e') x y = true := by
  cases x <;> cases y <;> try exact g
  rename_i x y
  simp only [tied, less, Bool.and_eq_true, Bool.not_eq_true', decide_eq_false_iff_not] at g ⊢
  exact ⟨fun k => g.1 (below_wider h k), fun k => g.2 (below_wider h k)⟩

theorem truth_iff {p : Prop} [Decidable p] : truth p = b!"true" ↔ p := by
  unfold truth; split <;> simp_all

section
variable [StdSort]

/-- If the reply tells the truth of a proposition, it is `true` exactly if the proposition holds. -/
theorem true_iff {p : Prop} [Decidable p] (h : JustReplies pwd c s text (truth p)) : JustReplies pwd c s text b!"true" ↔ p :=
  ⟨fun h' => truth_iff.1 (reply_unique h h'), fun hp => by rw [truth_iff.2 hp] at h; exact h⟩

theorem holds_same {i : Inst} (h : SameButTolerance c d) (hn : Holds c n i) : Holds d n i := by unfold Holds; rw [← h.1]; exact hn

/-- C85: if a Float is less or greater than a number with some tolerance, then also with every smaller one. -/
theorem C85_unequal {v : Fl} {name : Str} (hc : Reachable c) (hd : Reachable d) (h : SameButTolerance c d)
    (hw : Wider c.cfg.eps d.cfg.eps) (hn : Holds c n (.float v)) (ha : FloatValue a)
    (hname : name ∈ [b!"isLessThan?", b!"isGreaterThan?"]) (hs : Statement text n name [a])
    (e : JustReplies pwd d s text b!"true") : JustReplies pwd c s text b!"true" := by
  have hn' := holds_same h hn
  simp only [List.mem_cons, List.not_mem_nil, or_false] at hname
  rcases hname with rfl | rfl
  · exact (true_iff (justReplies_of hc hn (answers_flt hc hn hs (.lt ha)))).2
      (below_wider hw ((true_iff (justReplies_of hd hn' (answers_flt hd hn' hs (.lt ha)))).1 e))
  · exact (true_iff (justReplies_of hc hn (answers_flt hc hn hs (.gt ha)))).2
      (above_wider hw ((true_iff (justReplies_of hd hn' (answers_flt hd hn' hs (.gt ha)))).1 e))

/-- C85: if a Float is equal to a number, or at most, or at least, with some tolerance, then also with every greater one. -/
theorem C85_equal {v : Fl} {name : Str} (hc : Reachable c) (hd : Reachable d) (h : SameButTolerance c d)
    (hw : Wider c.cfg.eps d.cfg.eps) (hn : Holds c n (.float v)) (ha : FloatValue a)
    (hname : name ∈ [b!"isEqualTo?", b!"isLessThanOrEqualTo?", b!"isGreaterThanOrEqualTo?"]) (hs : Statement text n name [a])
    (e : JustReplies pwd c s text b!"true") : JustReplies pwd d s text b!"true" := by
  have hn' := holds_same h hn
  simp only [List.mem_cons, List.not_mem_nil, or_false] at hname
  rcases hname with rfl | rfl | rfl
  · have g := (true_iff (justReplies_of hc hn (answers_flt hc hn hs (.eq ha)))).1 e
    exact (true_iff (justReplies_of hd hn' (answers_flt hd hn' hs (.eq ha)))).2
      ⟨fun k => g.1 (below_wider hw k), fun k => g.2 (above_wider hw k)⟩
  · exact (true_iff (justReplies_of hd hn' (answers_flt hd hn' hs (.le ha)))).2
      (le_wider hw ((true_iff (justReplies_of hc hn (answers_flt hc hn hs (.le ha)))).1 e))
  · exact (true_iff (justReplies_of hd hn' (answers_flt hd hn' hs (.ge ha)))).2
      (ge_wider hw ((true_iff (justReplies_of hc hn (answers_flt hc hn hs (.ge ha)))).1 e))

/-- C85: the same for an Integer that is compared with a number that is not an integer literal. -/
theorem C85_unequal_integer {v : ℤ} {name : Str} (hc : Reachable c) (hd : Reachable d) (h : SameButTolerance c d)
    (hw : Wider c.cfg.eps d.cfg.eps) (hn : Holds c n (.integer v)) (ha : FloatValue a) (hi : ¬ IntegerValue a)
    (hname : name ∈ [b!"isLessThan?", b!"isGreaterThan?"]) (hs : Statement text n name [a])
    (e : JustReplies pwd d s text b!"true") : JustReplies pwd c s text b!"true" := by
  have hn' := holds_same h hn
  simp only [List.mem_cons, List.not_mem_nil, or_false] at hname
  rcases hname with rfl | rfl
  · exact (true_iff (justReplies_of hc hn (answers_int hc hn hs (.lt (.flt ha hi))))).2
      (below_wider hw ((true_iff (justReplies_of hd hn' (answers_int hd hn' hs (.lt (.flt ha hi))))).1 e))
  · exact (true_iff (justReplies_of hc hn (answers_int hc hn hs (.gt (.flt ha hi))))).2
      (above_wider hw ((true_iff (justReplies_of hd hn' (answers_int hd hn' hs (.gt (.flt ha hi))))).1 e))

/-- C85: the same for an Integer that is compared with a number that is not an integer literal. -/
theorem C85_equal_integer {v : ℤ} {name : Str} (hc : Reachable c) (hd : Reachable d) (h : SameButTolerance c d)
    (hw : Wider c.cfg.eps d.cfg.eps) (hn : Holds c n (.integer v)) (ha : FloatValue a) (hi : ¬ IntegerValue a)
    (hname : name ∈ [b!"isEqualTo?", b!"isLessThanOrEqualTo?", b!"isGreaterThanOrEqualTo?"]) (hs : Statement text n name [a])
    (e : JustReplies pwd c s text b!"true") : JustReplies pwd d s text b!"true" := by
  have hn' := holds_same h hn
  simp only [List.mem_cons, List.not_mem_nil, or_false] at hname
  rcases hname with rfl | rfl | rfl
  · have g := (true_iff (justReplies_of hc hn (answers_int hc hn hs (.eq (.flt ha hi))))).1 e
    exact (true_iff (justReplies_of hd hn' (answers_int hd hn' hs (.eq (.flt ha hi))))).2
      ⟨fun k => g.1 (below_wider hw k), fun k => g.2 (above_wider hw k)⟩
  · exact (true_iff (justReplies_of hd hn' (answers_int hd hn' hs (.le (.flt ha hi))))).2
      (le_wider hw ((true_iff (justReplies_of hc hn (answers_int hc hn hs (.le (.flt ha hi))))).1 e))
  · exact (true_iff (justReplies_of hd hn' (answers_int hd hn' hs (.ge (.flt ha hi))))).2
      (ge_wider hw ((true_iff (justReplies_of hc hn (answers_int hc hn hs (.ge (.flt ha hi))))).1 e))

/-! ### Vectors -/

variable {t : Str} {l : List Obj} {o : Obj}

/-- C85: a vector that contains an element with some tolerance contains it with every greater one. -/
theorem C85_vector_contains (hc : Reachable c) (hd : Reachable d) (h : SameButTolerance c d) (hw : Wider c.cfg.eps d.cfg.eps)
    (hn : Holds c n (.vector t l)) (ha : Denotes t a o) (hs : Statement text n b!"contains?" [a])
    (e : JustReplies pwd c s text b!"true") : JustReplies pwd d s text b!"true" := by
  have hn' := holds_same h hn
  obtain ⟨x, hx, g⟩ := (true_iff (justReplies_of hc hn (answers_vec hc hn hs (.contains ha)))).1 e
  exact (true_iff (justReplies_of hd hn' (answers_vec hd hn' hs (.contains ha)))).2 ⟨x, hx, same_wider hw g⟩

/-- C85: and it counts at least as many. -/
theorem C85_vector_count (hc : Reachable c) (hd : Reachable d) (h : SameButTolerance c d) (hw : Wider c.cfg.eps d.cfg.eps)
    (hn : Holds c n (.vector t l)) (ha : Denotes t a o) (hs : Statement text n b!"count:" [a]) :
    ∃ k k' : ℕ, JustReplies pwd c s text (intStr k) ∧ JustReplies pwd d s text (intStr k') ∧ k ≤ k' ∧ k' ≤ l.length := by
  have hn' := holds_same h hn
  exact ⟨_, _, justReplies_of hc hn (answers_vec hc hn hs (.count ha)), justReplies_of hd hn' (answers_vec hd hn' hs (.count ha)),
    List.countP_mono_left fun x _ g => same_wider hw g, List.countP_le_length⟩

/-- C85: what is found at a place with some tolerance is found there or earlier with a greater one. -/
theorem C85_vector_first_index {k : ℕ} (hc : Reachable c) (hd : Reachable d) (h : SameButTolerance c d) (hw : Wider c.cfg.eps d.cfg.eps)
    (hn : Holds c n (.vector t l)) (ha : Denotes t a o) (hs : Statement text n b!"firstIndexOf:" [a])
    (e : JustReplies pwd c s text (intStr k)) : ∃ k' ≤ k, JustReplies pwd d s text (intStr k') := by
  have hn' := holds_same h hn
  have g := reply_unique e (justReplies_of hc hn (answers_vec hc hn hs (.firstIndexOf ha)))
  have g' := justReplies_of (s := s) (pwd := pwd) hd hn' (answers_vec hd hn' hs (.firstIndexOf ha))
  cases f : l.findIdx? (same c.cfg.eps · o) with
  | none =>
    rw [f] at g
    exact absurd (intStr_inj k (-1) (g.trans (by decide))) (by omega)
  | some i =>
    rw [f] at g
    have ki : k = i := by have := intStr_inj k i g; omega
    subst ki
    obtain ⟨hk, p, _⟩ := List.findIdx?_eq_some_iff_getElem.1 f
    cases f' : l.findIdx? (same d.cfg.eps · o) with
    | none => exact absurd (List.findIdx?_eq_none_iff.1 f' _ (List.getElem_mem hk)) (by rw [same_wider hw p]; decide)
    | some j =>
      rw [f'] at g'
      refine ⟨j, ?_, g'⟩
      obtain ⟨hj, _, q⟩ := List.findIdx?_eq_some_iff_getElem.1 f'
      by_contra hjk
      exact q k (by omega) (same_wider hw p)

/-- C85: removeAll: removes at least as many elements: what remains with a greater tolerance remains with a smaller one, in the same order. -/
theorem C85_vector_remove_all (hc : Reachable c) (hd : Reachable d) (h : SameButTolerance c d) (hw : Wider c.cfg.eps d.cfg.eps)
    (hn : Holds c n (.vector t l)) (ha : Denotes t a o) (hs : Statement text n b!"removeAll:" [a]) :
    ∃ r r', Answers pwd c s text n (.gives (.vector t r) b!"null") ∧ Answers pwd d s text n (.gives (.vector t r') b!"null") ∧
      r'.Sublist r ∧ r.Sublist l := by
  have hn' := holds_same h hn
  refine ⟨_, _, answers_vec hc hn hs (.removeAll ha), answers_vec hd hn' hs (.removeAll ha), ?_, List.filter_sublist⟩
  have e : (l.filter fun x => !same d.cfg.eps x o) = (l.filter fun x => !same c.cfg.eps x o).filter fun x => !same d.cfg.eps x o := by
    rw [List.filter_filter]
    refine List.filter_congr fun x _ => ?_
    cases g : same c.cfg.eps x o with
    | true => rw [same_wider hw g]; rfl
    | false => simp
  rw [e]
  exact List.filter_sublist

/-! ### Sets and dictionaries -/

open Classical in
/-- C85: a set that contains an element with some tolerance contains it with every greater one, or the order is no order any more. -/
theorem C85_set_contains (hc : Reachable c) (hd : Reachable d) (h : SameButTolerance c d) (hw : Wider c.cfg.eps d.cfg.eps)
    (hn : Holds c n (.set t l)) (ha : Denotes t a o) (hs : Statement text n b!"contains?" [a])
    (e : JustReplies pwd c s text b!"true") : JustReplies pwd d s text b!"true" ∨ execute pwd d s text = .ub := by
  have hn' := holds_same h hn
  have g := answers_set (pwd := pwd) (s := s) hc hn hs (.contains ha)
  have g' := answers_set (pwd := pwd) (s := s) hd hn' hs (.contains ha)
  simp only [setMeaning] at g g'
  by_cases hs' : Searchable (less d.cfg.eps) l o
  · rw [if_pos hs'] at g'
    by_cases hs : Searchable (less c.cfg.eps) l o
    · rw [if_pos hs] at g
      obtain ⟨x, hx, k⟩ := (true_iff (justReplies_of hc hn g)).1 e
      exact .inl ((true_iff (justReplies_of hd hn' g')).2 ⟨x, hx, tied_wider hw k⟩)
    · rw [if_neg hs] at g
      obtain ⟨_, e, _⟩ := e
      exact absurd (e.symm.trans g) (by simp)
  · rw [if_neg hs'] at g'
    exact .inr g'

theorem find_tied {lt : Obj → Obj → Bool} {l : List (Obj × Obj)} {k : Obj} {x y : Obj × Obj} (h : Searchable lt (l.map (·.1)) k)
    (hx : x ∈ l) (hy : l.find? (fun z => tied lt k z.1) = some y) (g : tied lt k x.1 = true) : x = y := by
  have hy1 := List.mem_of_find?_eq_some hy
  have hy2 : tied lt k y.1 = true := by simpa using List.find?_some hy
  have p := List.pairwise_map.1 h.2
  simp only [tied, Bool.and_eq_true, Bool.not_eq_true', ← Bool.not_eq_true] at g hy2
  have mx : x.1 ∈ k :: l.map (·.1) := .tail _ (List.mem_map_of_mem hx)
  have my : y.1 ∈ k :: l.map (·.1) := .tail _ (List.mem_map_of_mem hy1)
  have t := h.1.2.2 x.1 mx k (.head _) y.1 my g.2 g.1 hy2.1 hy2.2
  obtain ⟨i, hi, rfl⟩ := List.getElem_of_mem hx
  obtain ⟨j, hj, rfl⟩ := List.getElem_of_mem hy1
  rcases Nat.lt_trichotomy i j with q | q | q
  · exact absurd (List.pairwise_iff_getElem.1 p i j hi hj q) t.1
  · subst q; rfl
  · exact absurd (List.pairwise_iff_getElem.1 p j i hj hi q) t.2

open Classical in
/-- C85: a dictionary that has a value for a key with some tolerance has the same value for it with every greater one, or the order of keys
is no order any more. -/
theorem C85_dictionary_value {u r : Str} {l : List (Obj × Obj)} (hc : Reachable c) (hd : Reachable d) (h : SameButTolerance c d)
    (hw : Wider c.cfg.eps d.cfg.eps) (hn : Holds c n (.dictionary t u l)) (ha : Denotes t a o)
    (hs : Statement text n b!"getValueForKey:" [a]) (e : JustReplies pwd c s text r) (hr : r ≠ b!"null") :
    JustReplies pwd d s text r ∨ execute pwd d s text = .ub := by
  have hn' := holds_same h hn
  have g := answers_dict (pwd := pwd) (s := s) hc hn hs (.getValueForKey ha)
  have g' := answers_dict (pwd := pwd) (s := s) hd hn' hs (.getValueForKey ha)
  simp only [dictMeaning] at g g'
  by_cases hs' : Searchable (less d.cfg.eps) (l.map (·.1)) o
  · rw [if_pos hs'] at g'
    by_cases hs : Searchable (less c.cfg.eps) (l.map (·.1)) o
    · rw [if_pos hs] at g
      cases f : l.find? fun x => tied (less c.cfg.eps) o x.1 with
      | none => rw [f] at g; exact absurd (reply_unique e (justReplies_of hc hn g)) hr
      | some x =>
        rw [f] at g
        have fx : tied (less d.cfg.eps) o x.1 = true := tied_wider hw (by simpa using List.find?_some f)
        have hx := List.mem_of_find?_eq_some f
        cases f' : l.find? fun x => tied (less d.cfg.eps) o x.1 with
        | none => exact absurd fx (by simpa using List.find?_eq_none.1 f' x hx)
        | some y =>
          rw [f'] at g'
          have := find_tied hs' hx f' fx
          subst this
          rw [reply_unique e (justReplies_of hc hn g), h.2]
          exact .inl (justReplies_of hd hn' g')
    · rw [if_neg hs] at g
      obtain ⟨_, e, _⟩ := e
      exact absurd (e.symm.trans g) (by simp)
  · rw [if_neg hs'] at g'
    exact .inr g'

end

/-! ### Examples -/

/-- A vector, a float and a dictionary, with the given tolerance. -/
def tolVars : List (Str × Inst) :=
  [(b!"d", .dictionary b!"Float" b!"Integer" [(.float (.fin false (2 ^ 1073)), .integer 7)]),
   (b!"f", .float (.fin false (2 ^ 1073))),
   (b!"g", .vector b!"Float" [.float (.fin false (2 ^ 1073)), .float (.fin false (2 ^ 1074))])]

def tolTexts : List Str := [b!"Dictionary<Float, Integer> create: d;", b!"d associateValue: 7 withKey: .5;", b!"Float create: f withValue: .5;",
  b!"Vector<Float> create: g;", b!"g pushBack: .5;", b!"g pushBack: 1;"]

/-- Tolerance zero. -/
def tolFine : Ctx := { fresh with vars := tolVars }

/-- Tolerance one quarter. -/
def tolCoarse : Ctx := { fresh with cfg := ⟨3, .fin false (2 ^ 1072)⟩, vars := tolVars }

theorem tolFine_reachable [StdSort] : Reachable tolFine :=
  after_reachable (pwd := []) (s := none) (ts := tolTexts) fresh_reachable (by kernel_rfl)

theorem tolCoarse_reachable [StdSort] : Reachable tolCoarse :=
  after_reachable (pwd := []) (s := none) (ts := tolTexts ++ [b!"Context setFloatComparisonTolerance: .25;"]) fresh_reachable (by kernel_rfl)

theorem tol_wider : Wider tolFine.cfg.eps tolCoarse.cfg.eps := by
  have e : tolFine.cfg.eps = .fin false 0 := by kernel_rfl
  have e' : tolCoarse.cfg.eps = .fin false (2 ^ 1072) := by kernel_rfl
  rw [e, e']
  exact .numbers (number_zero false) (number_pow 1072 (-2) (by norm_num)) le_rfl (by positivity)

/-- One half is less than 0.75 with tolerance zero but not with tolerance 0.25; the vector of one half and one contains no 0.75 with tolerance
zero but two with tolerance 0.25. -/
example [StdSort] : SameButTolerance tolFine tolCoarse ∧
    JustReplies [] tolFine none b!"f isLessThan? .75;" b!"true" ∧ JustReplies [] tolCoarse none b!"f isLessThan? .75;" b!"false" ∧
    JustReplies [] tolFine none b!"g count: .75;" b!"0" ∧ JustReplies [] tolCoarse none b!"g count: .75;" b!"2" ∧
    JustReplies [] tolFine none b!"g firstIndexOf: 1;" b!"1" ∧ JustReplies [] tolCoarse none b!"g firstIndexOf: .75;" b!"0" ∧
    JustReplies [] tolFine none b!"d getValueForKey: .75;" b!"null" ∧ JustReplies [] tolCoarse none b!"d getValueForKey: .75;" b!"7" :=
  ⟨⟨rfl, rfl⟩, just_replies (by kernel_rfl), just_replies (by kernel_rfl), just_replies (by kernel_rfl), just_replies (by kernel_rfl),
    just_replies (by kernel_rfl), just_replies (by kernel_rfl), just_replies (by kernel_rfl), just_replies (by kernel_rfl)⟩

/-- The hypotheses of the theorem about dictionaries can be met, with both tolerances. -/
example [StdSort] : JustReplies [] tolCoarse none b!"d getValueForKey: .5;" b!"7" := by
  have hn : Holds tolFine b!"d" (.dictionary b!"Float" b!"Integer" [(.float (.fin false (2 ^ 1073)), .integer 7)]) := by
    unfold Holds; kernel_rfl
  have ha : Denotes b!"Float" b!".5" (.float (.fin false (2 ^ 1073))) := denotes_atof (by decide +kernel) (by kernel_rfl)
  rcases C85_dictionary_value (pwd := []) (r := b!"7") (s := none) (text := b!"d getValueForKey: .5;") tolFine_reachable tolCoarse_reachable ⟨rfl, rfl⟩
    tol_wider hn ha (reads (by decide +kernel)) (just_replies (by kernel_rfl)) (by decide) with h | h
  · exact h
  · exact just_replies (by kernel_rfl)

section cases
variable [StdSort]

/-- One half, as a literal for a Float. -/
theorem tol_half : Denotes b!"Float" b!".5" (.float (.fin false (2 ^ 1073))) := denotes_atof (by decide +kernel) (by kernel_rfl)
theorem tol_g : Holds tolFine b!"g" (.vector b!"Float" [.float (.fin false (2 ^ 1073)), .float (.fin false (2 ^ 1074))]) := by
  unfold Holds; kernel_rfl
theorem tol_f : Holds tolFine b!"f" (.float (.fin false (2 ^ 1073))) := by unfold Holds; kernel_rfl

/-! Every theorem applied to a case. -/

example := C85_unequal (pwd := []) (s := none) (text := b!"f isLessThan? 1;") (a := b!"1") (name := b!"isLessThan?") tolFine_reachable tolCoarse_reachable ⟨rfl, rfl⟩
  tol_wider tol_f (by meets) (by decide) (by meets) (by meets)
example := C85_equal (pwd := []) (s := none) (text := b!"f isEqualTo? .5;") (a := b!".5") (name := b!"isEqualTo?") tolFine_reachable tolCoarse_reachable ⟨rfl, rfl⟩
  tol_wider tol_f (by meets) (by decide) (by meets) (by meets)
example := C85_vector_contains (pwd := []) (s := none) (text := b!"g contains? .5;") tolFine_reachable tolCoarse_reachable ⟨rfl, rfl⟩ tol_wider
  tol_g tol_half (by meets) (by meets)
example := C85_vector_count (pwd := []) (s := none) (text := b!"g count: .5;") tolFine_reachable tolCoarse_reachable ⟨rfl, rfl⟩ tol_wider
  tol_g tol_half (by meets)
example := C85_vector_first_index (pwd := []) (s := none) (text := b!"g firstIndexOf: .5;") (k := 0) tolFine_reachable tolCoarse_reachable ⟨rfl, rfl⟩ tol_wider
  tol_g tol_half (by meets) (just_replies (by kernel_rfl))
example := C85_vector_remove_all (pwd := []) (s := none) (text := b!"g removeAll: .5;") tolFine_reachable tolCoarse_reachable ⟨rfl, rfl⟩ tol_wider
  tol_g tol_half (by meets)

/-- The same with an Integer and a Set. -/
def tolMore (e : Fl) : Ctx := { fresh with cfg := ⟨3, e⟩, vars := [(b!"i", .integer 3), (b!"s", .set b!"Float" [.float (.fin false (2 ^ 1073))])] }
def tolMoreTexts : List Str := [b!"Integer create: i withValue: 3;", b!"Set<Float> create: s;", b!"s add: .5;"]
theorem tolMoreFine_reachable : Reachable (tolMore (.fin false 0)) :=
  after_reachable (pwd := []) (s := none) (ts := tolMoreTexts) fresh_reachable (by kernel_rfl)
theorem tolMoreCoarse_reachable : Reachable (tolMore (.fin false (2 ^ 1072))) :=
  after_reachable (pwd := []) (s := none) (ts := tolMoreTexts ++ [b!"Context setFloatComparisonTolerance: .25;"]) fresh_reachable (by kernel_rfl)
theorem tolMore_wider : Wider (tolMore (.fin false 0)).cfg.eps (tolMore (.fin false (2 ^ 1072))).cfg.eps := tol_wider

example := C85_unequal_integer (pwd := []) (s := none) (text := b!"i isGreaterThan? 2.5;") (a := b!"2.5") (n := b!"i") (v := 3) (name := b!"isGreaterThan?")
  tolMoreFine_reachable tolMoreCoarse_reachable ⟨by kernel_rfl, by kernel_rfl⟩ tolMore_wider (by meets) (by meets)
  (fun h => absurd ((isIntegerValue_iff _).2 h) (by decide +kernel)) (by decide) (by meets) (by meets)
example := C85_equal_integer (pwd := []) (s := none) (text := b!"i isEqualTo? 3.0;") (a := b!"3.0") (n := b!"i") (v := 3) (name := b!"isEqualTo?")
  tolMoreFine_reachable tolMoreCoarse_reachable ⟨by kernel_rfl, by kernel_rfl⟩ tolMore_wider (by meets) (by meets)
  (fun h => absurd ((isIntegerValue_iff _).2 h) (by decide +kernel)) (by decide) (by meets) (by meets)
example := C85_set_contains (pwd := []) (s := none) (text := b!"s contains? .5;") (n := b!"s") (l := [.float (.fin false (2 ^ 1073))])
  tolMoreFine_reachable tolMoreCoarse_reachable ⟨by kernel_rfl, by kernel_rfl⟩ tolMore_wider (by unfold Holds; kernel_rfl) tol_half (by meets) (by meets)

end cases

end Knuckle.Props

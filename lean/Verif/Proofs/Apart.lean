/-
With numbers that are far apart the tolerance does not matter.
-/
import Verif.Spec.Apart
import Verif.Proofs.Settings
import Verif.Props.Numbers
import Verif.Props.Floats

namespace Knuckle

open Spec Props

/-- Numbers that are at least twice the tolerance apart are told apart. -/
theorem difference_complete {x y z eps : Fl} {p q e : ℚ} (hx : number x = some p) (hy : number y = some q) (he : eps.toF32 = eps)
    (hne : number eps = some e) (h0 : 0 < e) (hz : Difference single x y z) (hl : p + 2 * e ≤ q) : Less z (opposite eps) := by
  obtain ⟨⟨m, k, hm1, hm2, hm3⟩, _⟩ := single_number he hne
  have hg2 : OnGrid 24 149 (-(2 * e)) := onGrid_neg ⟨m, k + 1, by rw [hm1, zpow_add₀ (by norm_num), zpow_one]; ring, hm2, by omega⟩
  have hy' := number_opposite hy
  have ho := number_opposite hne
  unfold Difference at hz
  generalize opposite eps = oe at ho
  generalize opposite y = oy at hy' hz
  cases hz with
  | zero h1 h2 h3 =>
    rw [hx] at h1; rw [hy'] at h2; injection h1 with h1; injection h2 with h2; subst h1; subst h2
    exfalso; linarith
  | number h1 h2 h3 h4 =>
    rw [hx] at h1; rw [hy'] at h2; injection h1 with h1; injection h2 with h2; subst h1; subst h2
    obtain ⟨r, g1, g2, g3⟩ := h4
    have hm : r ≤ -(2 * e) := nearest_mono (p := 24) (e := 149) (by decide) (by decide) g1 (nearest_self hg2) (by linarith)
    rcases g3 with ⟨_, g3⟩ | ⟨g3, g4⟩
    · exact .numbers g3 ho (by linarith)
    · have : p + -q < 0 := by linarith
      rw [g4, decide_eq_true this]
      refine .fromMinusInf ?_ ?_ <;> rintro rfl <;> cases ho
  | _ => simp_all [Spec.number]

theorem below_apart {e x y : Fl} (hx : x.toF32 = x) (hy : y.toF32 = y) (he : e.toF32 = e) (hs : Sensible e) (ha : Apart e x y) :
    below e x y ↔ below (.fin false 0) x y := by
  obtain ⟨r, hr, h0⟩ := hs
  have fin : ∃ a k, e = .fin a k := by
    obtain ⟨a, k, h, _⟩ := number_eq hr; exact ⟨a, k, h⟩
  obtain ⟨a, k, hak⟩ := fin
  cases hpx : number x with
  | none =>
    cases x with
    | fin => simp [number] at hpx
    | nan => simp [below, Fl.sub, Fl.add, Fl.lt]
    | inf b =>
      rw [hak]
      cases y with
      | nan => simp [below, Fl.sub, Fl.neg, Fl.add, Fl.lt]
      | inf c => cases b <;> cases c <;> simp [below, Fl.sub, Fl.neg, Fl.add, Fl.lt]
      | fin => simp [below, Fl.sub, Fl.neg, Fl.add, Fl.lt]
  | some p =>
    cases hpy : number y with
    | none =>
      rw [hak]
      cases x with
      | nan => cases hpx
      | inf => cases hpx
      | fin b j =>
        cases y with
        | fin => simp [number] at hpy
        | nan => simp [below, Fl.sub, Fl.neg, Fl.add, Fl.lt]
        | inf c => simp [below, Fl.sub, Fl.neg, Fl.add, Fl.lt]
    | some q =>
      have z := below_zero x y false hx hy (by rintro rfl; cases hpx) (by rintro rfl; cases hpy)
      rw [number_lt hpx hpy] at z
      rw [z]
      constructor
      · intro h
        have := difference_sound hpx hpy he hr (difference_sub f32_is _ _) ((below_iff _ _ _).1 h)
        linarith
      · intro h
        rcases ha p q r hpx hpy hr with e1 | e1
        · rw [e1] at h; exact absurd h (lt_irrefl _)
        · rcases lt_or_eq_of_le h0 with h1 | h1
          · rw [below_iff]
            refine difference_complete hpx hpy he hr h1 (difference_sub f32_is _ _) ?_
            rw [abs_of_neg (by linarith)] at e1
            linarith
          · have hz : ∃ b, e = .fin b 0 := by
              obtain ⟨b, j, rfl, hj⟩ := number_eq hr
              refine ⟨b, ?_⟩
              rw [← h1] at hj
              have hk : (j : ℚ) / unit = 0 := by
                cases b
                · rw [if_neg (by simp), one_mul] at hj; exact hj.symm
                · rw [if_pos rfl] at hj; linarith
              have : (j : ℚ) = 0 := (div_eq_zero_iff.1 hk).resolve_right unit_pos.ne'
              rw [Nat.cast_eq_zero.1 this]
            obtain ⟨b, rfl⟩ := hz
            exact (below_zero x y b hx hy (by rintro rfl; cases hpx) (by rintro rfl; cases hpy)).trans (number_lt hpx hpy) |>.2 h

/-! ### Messages -/

/-- The two tolerances agree on the floats the message can compare. -/
def Agree (e e' : Fl) (i : Inst) (args : List Str) : Prop :=
  ∀ x y, Compared i args x → Compared i args y → (below e x y ↔ below e' x y)

section
variable {e e' : Fl}

theorem agree_lt {x y : Fl} (h : below e x y ↔ below e' x y) : (x.sub f32 y).lt e.neg = (x.sub f32 y).lt e'.neg :=
  Bool.eq_iff_iff.2 h

theorem agree_gt {x y : Fl} (h : below e y x ↔ below e' y x) : e.lt (x.sub f32 y) = e'.lt (x.sub f32 y) := by
  rw [C17_mirror_values, C17_mirror_values] at h
  exact Bool.eq_iff_iff.2 h


/-- Comparing values of which the floats are told apart alike. -/
def Pair (e e' : Fl) (x y : Obj) : Prop :=
  ∀ a b, x = .float a → y = .float b → (below e a b ↔ below e' a b) ∧ (below e b a ↔ below e' b a)

theorem pair_less {x y : Obj} (hx : ¬ (x.type = b!"Float" ∧ y.type = b!"Integer") ∧ ¬ (x.type = b!"Integer" ∧ y.type = b!"Float"))
    (h : Pair e e' x y) : lessThan e x y = lessThan e' x y := by
  have ff : ∀ a b, Pair e e' (.float a) (.float b) → lessThan e (.float a) (.float b) = lessThan e' (.float a) (.float b) := fun a b h => by
    simp only [lessThan, agree_lt (h a b rfl rfl).1]
  cases x <;> cases y <;> first | exact ff _ _ h | exact absurd ⟨rfl, rfl⟩ hx.1 | exact absurd ⟨rfl, rfl⟩ hx.2 | rfl

theorem pair_greater {x y : Obj} (hx : ¬ (x.type = b!"Float" ∧ y.type = b!"Integer") ∧ ¬ (x.type = b!"Integer" ∧ y.type = b!"Float"))
    (h : Pair e e' x y) : greaterThan e x y = greaterThan e' x y := by
  have ff : ∀ a b, Pair e e' (.float a) (.float b) → greaterThan e (.float a) (.float b) = greaterThan e' (.float a) (.float b) := fun a b h => by
    simp only [greaterThan, agree_gt (h a b rfl rfl).2]
  cases x <;> cases y <;> first | exact ff _ _ h | exact absurd ⟨rfl, rfl⟩ hx.1 | exact absurd ⟨rfl, rfl⟩ hx.2 | rfl

theorem one_type {t : Str} {x y : Obj} (hx : HasType t x) (hy : HasType t y) :
    ¬ (x.type = b!"Float" ∧ y.type = b!"Integer") ∧ ¬ (x.type = b!"Integer" ∧ y.type = b!"Float") := by
  rw [hx.1, hy.1]
  constructor <;> rintro ⟨h1, h2⟩ <;> rw [h1] at h2 <;> exact absurd h2 (by decide)

theorem pair_equal {t : Str} {x y : Obj} (hx : HasType t x) (hy : HasType t y) (h : Pair e e' x y) : equalTo e x y = equalTo e' x y := by
  unfold equalTo
  rw [pair_less (one_type hx hy) h, pair_greater (one_type hx hy) h]

theorem pair_ltB {t : Str} {x y : Obj} (hx : HasType t x) (hy : HasType t y) (h : Pair e e' x y) : ltB e x y = ltB e' x y := by
  unfold ltB
  rw [pair_less (one_type hx hy) h]

theorem all_congr {α : Type} {l : List α} {f g : α → Bool} (h : ∀ x ∈ l, f x = g x) : l.all f = l.all g := by
  induction l with
  | nil => rfl
  | cons x xs ih => rw [List.all_cons, List.all_cons, h x (by simp), ih fun y hy => h y (by simp [hy])]

theorem ascending_congr {f g : Obj → Obj → Bool} : ∀ {l : List Obj}, (∀ x ∈ l, ∀ y ∈ l, f x y = g x y) → ascending f l = ascending g l
  | [], _ => rfl
  | x :: xs, h => by
    simp only [ascending]
    rw [all_congr fun y hy => h x (by simp) y (by simp [hy]), ascending_congr fun y hy z hz => h y (by simp [hy]) z (by simp [hz])]

theorem orderGuard_congr {t : Str} {l : List Obj} {k : Obj} (hl : ∀ x ∈ k :: l, HasType t x) (h : ∀ x ∈ k :: l, ∀ y ∈ k :: l, Pair e e' x y) :
    orderGuard e l k = orderGuard e' l k := by
  have hb : ∀ x ∈ k :: l, ∀ y ∈ k :: l, ltB e x y = ltB e' x y := fun x hx y hy => pair_ltB (hl x hx) (hl y hy) (h x hx y hy)
  have h1 : comparable e (k :: l) = comparable e' (k :: l) := by
    unfold comparable
    exact all_congr fun x hx => all_congr fun y hy => by rw [pair_less (one_type (hl x hx) (hl y hy)) (h x hx y hy)]
  have h2 : swoOn (ltB e) (k :: l) = swoOn (ltB e') (k :: l) := by
    unfold swoOn
    rw [all_congr fun x hx => by rw [hb x hx x hx],
      all_congr fun x hx => all_congr fun y hy => all_congr fun z hz => by rw [hb x hx y hy, hb y hy z hz, hb x hx z hz],
      all_congr (f := fun a => (k :: l).all fun b => (k :: l).all fun c => (ltB e a b || ltB e b a || ltB e b c || ltB e c b) || (!ltB e a c && !ltB e c a))
        fun x hx => all_congr fun y hy => all_congr fun z hz => by
          rw [hb x hx y hy, hb y hy x hx, hb y hy z hz, hb z hz y hy, hb x hx z hz, hb z hz x hx]]
  have h3 : ascending (ltB e) l = ascending (ltB e') l := ascending_congr fun x hx y hy => hb x (by simp [hx]) y (by simp [hy])
  unfold orderGuard
  rw [h1, h2, h3]

end

/-- The rows of two tables do the same with these arguments. -/
def TablesAt {σ : Type} (ok : Str → Prop) (args : List Str) (t t' : Table σ) : Prop :=
  List.Forall₂ (fun p q => p.1 = q.1 ∧ (ok p.1 → p.2 args = q.2 args)) t t'

theorem dispatch_at {σ : Type} {ok : Str → Prop} {args : List Str} {t t' : Table σ} (old : σ) (h : TablesAt ok args t t') (name : Str)
    (hn : ok name) : dispatch old t name args = dispatch old t' name args := by
  unfold TablesAt at h
  induction h with
  | nil => rfl
  | @cons p q t t' hr _ ih =>
    obtain ⟨n, op⟩ := p
    obtain ⟨n', op'⟩ := q
    obtain ⟨e, h⟩ := hr
    simp only at e h
    subst e
    simp only [dispatch]
    split
    · rename_i hm
      rw [beq_iff_eq] at hm; subst hm
      exact h hn
    · exact ih

theorem bind_congr {α β : Type} {x : Res α} {f g : α → Res β} (h : ∀ a, x = .ok a → f a = g a) : (x >>= f) = (x >>= g) := by
  cases x with
  | ok a => exact h a rfl
  | err => rfl
  | ub => rfl

theorem op1_congr {σ : Type} {old : σ} {f g : Str → Res (σ × Str)} {args : List Str} (h : ∀ a, args = [a] → f a = g a) :
    op1 old f args = op1 old g args := by
  match args with
  | [] => rfl
  | [a] => exact congrArg (Res.run old) (h a rfl)
  | _ :: _ :: _ => rfl

theorem op2_congr {σ : Type} {old : σ} {f g : Str → Str → Res (σ × Str)} {args : List Str} (h : ∀ a b, args = [a, b] → f a b = g a b) :
    op2 old f args = op2 old g args := by
  match args with
  | [] => rfl
  | [_] => rfl
  | [a, b] => exact congrArg (Res.run old) (h a b rfl)
  | _ :: _ :: _ :: _ => rfl

theorem op3_congr {σ : Type} {old : σ} {f g : Str → Str → Str → Res (σ × Str)} {args : List Str}
    (h : ∀ a b c, args = [a, b, c] → f a b c = g a b c) : op3 old f args = op3 old g args := by
  match args with
  | [] => rfl
  | [_] => rfl
  | [_, _] => rfl
  | [a, b, c] => exact congrArg (Res.run old) (h a b c rfl)
  | _ :: _ :: _ :: _ :: _ => rfl

/-- A row that is the same in both tables. -/
macro "same_at" : term => `(⟨rfl, fun _ => rfl⟩)

section
variable {e e' : Fl}

theorem floatLit_reads {a : Str} {x : Fl} (h : floatLit a = .ok x) : Denotes b!"Float" a (.float x) := by
  unfold floatLit at h
  split at h
  · cases h
  · rename_i hf
    cases h
    exact .float ((isFloatValue_iff a).1 (by simpa using hf))

theorem gsi_reads {t a : Str} {o : Obj} (ht : ObjectType t) (h : getSharedInstance t a = .ok o) : Denotes t a o := by
  rcases gsi_cases t a ht with ⟨o', h1, h2, _⟩ | ⟨h1, _⟩ | ⟨h1, _⟩
  · rw [h] at h1; cases h1; exact h2
  · rw [h] at h1; cases h1
  · rw [h] at h1; cases h1

theorem int_at {v : Int} {args : List Str} (h : Agree e e' (.integer v) args) : TablesAt (fun _ => True) args (intTable e v) (intTable e' v) := by
  have key : ∀ {f g : Obj → Obj → Res Bool}, (∀ b, f (.integer v) (.integer b) = g (.integer v) (.integer b)) →
      (∀ b, (∀ x y, (x = ofInt32 v ∨ x = b) → (y = ofInt32 v ∨ y = b) → (below e x y ↔ below e' x y)) → f (.integer v) (.float b) = g (.integer v) (.float b)) →
      intCmp f v args = intCmp g v args := by
    intro f g h1 h2
    unfold intCmp
    refine op1_congr fun a ha => ?_
    subst ha
    split
    · rfl
    · split
      · exact bind_congr fun b _ => by rw [h1 b]
      · refine bind_congr fun b hb => ?_
        rw [h2 b]
        have hv : Compared (.integer v) [a] (ofInt32 v) := .integer (rounds_ofInt32 v)
        have hb' : Compared (.integer v) [a] b := .integerArgument (floatLit_reads hb)
        have all : ∀ x, (x = ofInt32 v ∨ x = b) → Compared (.integer v) [a] x := by
          generalize ofInt32 v = w at hv
          intro x hx
          rcases hx with rfl | rfl
          · exact hv
          · exact hb'
        exact fun x y hx hy => h x y (all x hx) (all y hy)
  have hl : ∀ b, (∀ x y, (x = ofInt32 v ∨ x = b) → (y = ofInt32 v ∨ y = b) → (below e x y ↔ below e' x y)) →
      lessThan e (.integer v) (.float b) = lessThan e' (.integer v) (.float b) := fun b hb => by
    simp only [lessThan, agree_lt (hb (ofInt32 v) b (.inl rfl) (.inr rfl))]
  have hg : ∀ b, (∀ x y, (x = ofInt32 v ∨ x = b) → (y = ofInt32 v ∨ y = b) → (below e x y ↔ below e' x y)) →
      greaterThan e (.integer v) (.float b) = greaterThan e' (.integer v) (.float b) := fun b hb => by
    simp only [greaterThan, agree_gt (hb b (ofInt32 v) (.inr rfl) (.inl rfl))]
  unfold TablesAt intTable
  refine .cons same_at (.cons same_at (.cons ⟨rfl, fun _ => key (fun _ => rfl) fun b hb => ?_⟩ (.cons ⟨rfl, fun _ => key (fun _ => rfl) fun b hb => ?_⟩
    (.cons ⟨rfl, fun _ => key (fun _ => rfl) fun b hb => ?_⟩ (.cons ⟨rfl, fun _ => key (fun _ => rfl) fun b hb => ?_⟩
      (.cons ⟨rfl, fun _ => key (fun _ => rfl) fun b hb => ?_⟩ ?_))))))
  · simp only [equalTo, hl b hb, hg b hb]
  · exact hl b hb
  · simp only [lessThanOrEqualTo, equalTo, hl b hb, hg b hb]
  · exact hg b hb
  · simp only [greaterThanOrEqualTo, equalTo, hl b hb, hg b hb]
  repeat' first | exact .nil | refine .cons same_at ?_

theorem float_at {p : Int} {v : Fl} {args : List Str} (h : Agree e e' (.float v) args) :
    TablesAt (fun _ => True) args (floatTable ⟨p, e⟩ v) (floatTable ⟨p, e'⟩ v) := by
  have key : ∀ {f g : Obj → Obj → Res Bool}, (∀ b, (below e v b ↔ below e' v b) → (below e b v ↔ below e' b v) → f (.float v) (.float b) = g (.float v) (.float b)) →
      floatCmp f v args = floatCmp g v args := by
    intro f g h2
    unfold floatCmp
    refine op1_congr fun a ha => ?_
    subst ha
    refine bind_congr fun b hb => ?_
    have hv : Compared (.float v) [a] v := .float
    have hb' : Compared (.float v) [a] b := .floatArgument (floatLit_reads hb)
    rw [h2 b (h _ _ hv hb') (h _ _ hb' hv)]
  have hl : ∀ b, (below e v b ↔ below e' v b) → lessThan e (.float v) (.float b) = lessThan e' (.float v) (.float b) := fun b hb => by
    simp only [lessThan, agree_lt hb]
  have hg : ∀ b, (below e b v ↔ below e' b v) → greaterThan e (.float v) (.float b) = greaterThan e' (.float v) (.float b) := fun b hb => by
    simp only [greaterThan, agree_gt hb]
  unfold TablesAt floatTable
  refine .cons same_at (.cons same_at (.cons ⟨rfl, fun _ => key fun b h1 h2 => ?_⟩ (.cons ⟨rfl, fun _ => key fun b h1 h2 => ?_⟩
    (.cons ⟨rfl, fun _ => key fun b h1 h2 => ?_⟩ (.cons ⟨rfl, fun _ => key fun b h1 h2 => ?_⟩
      (.cons ⟨rfl, fun _ => key fun b h1 h2 => ?_⟩ ?_))))))
  · simp only [equalTo, hl b h1, hg b h2]
  · exact hl b h1
  · simp only [lessThanOrEqualTo, equalTo, hl b h1, hg b h2]
  · exact hg b h2
  · simp only [greaterThanOrEqualTo, equalTo, hl b h1, hg b h2]
  repeat' first | exact .nil | refine .cons same_at ?_

theorem vector_at [StdSort] {p : Int} {t : Str} {l : List Obj} {args : List Str} (ht : ObjectType t) (hl : ∀ x ∈ l, HasType t x)
    (h : t = b!"Float" → Agree e e' (.vector t l) args) :
    TablesAt (fun name => ¬ (t = b!"Float" ∧ name = b!"sort" ∧ args = [])) args (vectorTable ⟨p, e⟩ t l) (vectorTable ⟨p, e'⟩ t l) := by
  have eq : ∀ {a : Str} {as : List Str} {o : Obj}, args = a :: as → getSharedInstance t a = .ok o → ∀ x ∈ l, equalTo e x o = equalTo e' x o := by
    intro a as o ha ho x hx
    have hto := gsi_type ht ho
    refine pair_equal (hl x hx) hto fun u v hu hv => ?_
    subst hu hv
    have htf : t = b!"Float" := hto.1.symm
    subst htf
    have := h rfl
    subst ha
    have cu : Compared (.vector b!"Float" l) (a :: as) u := .vector hx
    have cv : Compared (.vector b!"Float" l) (a :: as) v := .vectorArgument (gsi_reads ht ho)
    exact ⟨this _ _ cu cv, this _ _ cv cu⟩
  have md : ∀ {k : Nat} {x : Obj}, x ∈ l.drop k → x ∈ l := fun hx => List.mem_of_mem_drop hx
  unfold TablesAt vectorTable
  refine .cons same_at (.cons same_at (.cons ⟨rfl, fun _ => ?_⟩ (.cons ⟨rfl, fun _ => ?_⟩
    (.cons ⟨rfl, fun _ => ?_⟩ (.cons same_at (.cons ⟨rfl, fun _ => ?_⟩ (.cons ⟨rfl, fun _ => ?_⟩
      (.cons ⟨rfl, fun _ => ?_⟩ ?_))))))))
  · refine op1_congr fun a ha => bind_congr fun o ho => ?_
    dsimp only; rw [findFrom_tol 0 (eq ha ho)]
  · refine op2_congr fun a b ha => bind_congr fun o ho => bind_congr fun i _ => bind_congr fun _ _ => ?_
    dsimp only; rw [findFrom_tol _ fun x hx => eq ha ho x (md hx)]
  · refine op1_congr fun a ha => bind_congr fun o ho => ?_
    dsimp only; rw [countLoop_tol 0 (eq ha ho)]
  · refine op1_congr fun a ha => bind_congr fun o ho => ?_
    dsimp only; rw [findFrom_tol 0 (eq ha ho)]
  · refine op2_congr fun a b ha => bind_congr fun o ho => bind_congr fun i _ => bind_congr fun _ _ => ?_
    dsimp only; rw [findFrom_tol _ fun x hx => eq ha ho x (md hx)]
  · refine op1_congr fun a ha => bind_congr fun o ho => ?_
    dsimp only; rw [indexesLoop_tol 0 [] (eq ha ho)]
  refine .cons same_at (.cons same_at (.cons same_at (.cons same_at (.cons same_at (.cons same_at (.cons same_at (.cons same_at
    (.cons same_at (.cons same_at (.cons same_at (.cons same_at (.cons same_at ?_))))))))))))
  refine .cons ⟨rfl, fun _ => ?_⟩ (.cons ⟨rfl, fun _ => ?_⟩ (.cons ⟨rfl, fun _ => ?_⟩
    (.cons ⟨rfl, fun _ => ?_⟩ (.cons ⟨rfl, fun _ => ?_⟩ (.cons ⟨rfl, fun _ => ?_⟩
      (.cons ⟨rfl, fun hp => ?_⟩ ?_))))))
  · refine op1_congr fun a ha => bind_congr fun o ho => ?_
    dsimp only; rw [removeFirstLoop_tol [] (eq ha ho)]
  · refine op2_congr fun a b ha => bind_congr fun o ho => bind_congr fun i _ => bind_congr fun _ _ => ?_
    dsimp only; rw [removeFirstLoop_tol _ fun x hx => eq ha ho x (md hx)]
  · match hargs : args with
    | [] => rfl
    | _ :: _ :: _ => rfl
    | [a] =>
      simp only [vecRemoveAll]
      cases ho : getSharedInstance t a with
      | ok o => exact removeAllLoop_tol [] (eq rfl ho)
      | err => rfl
      | ub => rfl
  · refine op2_congr fun a b ha => bind_congr fun o ho => bind_congr fun _ _ => ?_
    dsimp only; rw [replaceFirstLoop_tol [] (eq ha ho)]
  · refine op3_congr fun a b c ha => bind_congr fun o ho => bind_congr fun _ _ => bind_congr fun i _ => bind_congr fun _ _ => ?_
    dsimp only; rw [replaceFirstLoop_tol _ fun x hx => eq ha ho x (md hx)]
  · match hargs : args with
    | [] => rfl
    | [_] => rfl
    | _ :: _ :: _ :: _ => rfl
    | [a, b] =>
      simp only [vecReplaceAll]
      cases ho : getSharedInstance t a with
      | ok o =>
        cases hb : getSharedInstance t b with
        | ok _ => exact replaceAllLoop_tol [] (eq rfl ho)
        | err => rfl
        | ub => rfl
      | err => rfl
      | ub => rfl
  · dsimp only at hp
    by_cases htf : t = b!"Float"
    · match hargs : args with
      | [] => exact absurd ⟨htf, rfl, rfl⟩ hp
      | _ :: _ => simp only [vecSort, op0]
    · exact vecSort_tol htf hl p e e' args
  repeat' first | exact .nil | refine .cons same_at ?_

theorem set_at {p : Int} {t : Str} {l : List Obj} {args : List Str} (ht : ObjectType t) (hl : ∀ x ∈ l, HasType t x)
    (h : t = b!"Float" → Agree e e' (.set t l) args) :
    TablesAt (fun _ => True) args (setTable ⟨p, e⟩ t l) (setTable ⟨p, e'⟩ t l) := by
  have ty : ∀ {a : Str} {o : Obj}, getSharedInstance t a = .ok o → ∀ x ∈ o :: l, HasType t x := by
    intro a o ho x hx
    rcases List.mem_cons.1 hx with rfl | hx
    · exact gsi_type ht ho
    · exact hl x hx
  have pr : ∀ {a : Str} {o : Obj}, args = [a] → getSharedInstance t a = .ok o → ∀ x ∈ o :: l, ∀ y ∈ o :: l, Pair e e' x y := by
    intro a o ha ho x hx y hy u v hu hv
    subst hu hv ha
    have htf : t = b!"Float" := (ty ho _ hx).1.symm
    subst htf
    have cmp : ∀ z, .float z ∈ o :: l → Compared (.set b!"Float" l) [a] z := by
      intro z hz
      rcases List.mem_cons.1 hz with rfl | hz
      · exact .setArgument (gsi_reads ht ho)
      · exact .set hz
    exact ⟨h rfl _ _ (cmp u hx) (cmp v hy), h rfl _ _ (cmp v hy) (cmp u hx)⟩
  have lt : ∀ {a : Str} {o : Obj}, args = [a] → getSharedInstance t a = .ok o → ∀ x ∈ l, ltB e x o = ltB e' x o ∧ ltB e o x = ltB e' o x :=
    fun ha ho x hx => ⟨pair_ltB (hl x hx) (gsi_type ht ho) (pr ha ho x (by simp [hx]) _ (by simp)),
      pair_ltB (gsi_type ht ho) (hl x hx) (pr ha ho _ (by simp) x (by simp [hx]))⟩
  unfold TablesAt setTable
  refine .cons same_at (.cons same_at (.cons ⟨rfl, fun _ => op1_congr fun a ha => bind_congr fun o ho => ?_⟩ (.cons same_at
    (.cons ⟨rfl, fun _ => op1_congr fun a ha => bind_congr fun o ho => ?_⟩ (.cons ⟨rfl, fun _ => op1_congr fun a ha => bind_congr fun o ho => ?_⟩ (.cons same_at .nil))))))
  all_goals
    dsimp only
    rw [orderGuard_congr (ty ho) (pr ha ho)]
  · rw [setFind_congr _ _ o l (lt ha ho)]
  · rw [setInsert_congr _ _ o l (lt ha ho)]
  · rw [setErase_congr _ _ o l (lt ha ho)]

theorem dict_at {p : Int} {t u : Str} {l : List (Obj × Obj)} {args : List Str} (ht : ObjectType t) (hl : ∀ x ∈ l, HasType t x.1 ∧ HasType u x.2)
    (h : t = b!"Float" → Agree e e' (.dictionary t u l) args) :
    TablesAt (fun _ => True) args (dictTable ⟨p, e⟩ t u l) (dictTable ⟨p, e'⟩ t u l) := by
  have ty : ∀ {a : Str} {o : Obj}, getSharedInstance t a = .ok o → ∀ x ∈ o :: l.map (·.1), HasType t x := by
    intro a o ho x hx
    rcases List.mem_cons.1 hx with rfl | hx
    · exact gsi_type ht ho
    · obtain ⟨y, hy, rfl⟩ := List.mem_map.1 hx; exact (hl y hy).1
  have pr : ∀ {a : Str} {as : List Str} {o : Obj}, args = as ++ [a] → getSharedInstance t a = .ok o →
      ∀ x ∈ o :: l.map (·.1), ∀ y ∈ o :: l.map (·.1), Pair e e' x y := by
    intro a as o ha ho x hx y hy i j hi hj
    subst hi hj ha
    have htf : t = b!"Float" := (ty ho _ hx).1.symm
    subst htf
    have cmp : ∀ z, .float z ∈ o :: l.map (·.1) → Compared (.dictionary b!"Float" u l) (as ++ [a]) z := by
      intro z hz
      rcases List.mem_cons.1 hz with rfl | hz
      · exact .dictionaryArgument (gsi_reads ht ho)
      · obtain ⟨⟨k, v⟩, hy, hk⟩ := List.mem_map.1 hz
        simp only at hk; subst hk
        exact .dictionary hy
    exact ⟨h rfl _ _ (cmp i hx) (cmp j hy), h rfl _ _ (cmp j hy) (cmp i hx)⟩
  have lt : ∀ {a : Str} {as : List Str} {o : Obj}, args = as ++ [a] → getSharedInstance t a = .ok o →
      ∀ x ∈ l, ltB e x.1 o = ltB e' x.1 o ∧ ltB e o x.1 = ltB e' o x.1 :=
    fun ha ho x hx => ⟨pair_ltB (hl x hx).1 (gsi_type ht ho) (pr ha ho x.1 (.tail _ (List.mem_map_of_mem hx)) _ (by simp)),
      pair_ltB (gsi_type ht ho) (hl x hx).1 (pr ha ho _ (by simp) x.1 (.tail _ (List.mem_map_of_mem hx)))⟩
  unfold TablesAt dictTable
  refine .cons same_at (.cons same_at (.cons ⟨rfl, fun _ => op1_congr fun a ha => bind_congr fun o ho => ?_⟩ (.cons same_at (.cons same_at (.cons same_at
    (.cons ⟨rfl, fun _ => op1_congr fun a ha => bind_congr fun o ho => ?_⟩
      (.cons ⟨rfl, fun _ => op2_congr fun b a ha => bind_congr fun v _ => bind_congr fun o ho => ?_⟩
        (.cons ⟨rfl, fun _ => op1_congr fun a ha => bind_congr fun o ho => ?_⟩ (.cons same_at .nil)))))))))
  · dsimp only
    rw [orderGuard_congr (ty ho) (pr (as := []) ha ho), mapFind_congr _ _ o l (lt (as := []) ha ho)]
  · dsimp only
    rw [orderGuard_congr (ty ho) (pr (as := []) ha ho), mapFind_congr _ _ o l (lt (as := []) ha ho)]
  · dsimp only
    rw [orderGuard_congr (ty ho) (pr (as := [b]) ha ho), mapInsert_congr _ _ o v l (lt (as := [b]) ha ho)]
  · dsimp only
    rw [orderGuard_congr (ty ho) (pr (as := []) ha ho), mapErase_congr _ _ o l (lt (as := []) ha ho)]

theorem receive_at [StdSort] {p : Int} {i : Inst} (hw : WellTyped i) {name : Str} {args : List Str} (h : Agree e e' i args)
    (hs : ∀ l, i = .vector b!"Float" l → ¬ (name = b!"sort" ∧ args = [])) :
    receive ⟨p, e⟩ i name args = receive ⟨p, e'⟩ i name args := by
  cases i with
  | boolean v => rfl
  | character v =>
    have := wrap_alike .character (dispatch_alike v (char_tol e e' v) name args trivial)
    change wrap _ _ = wrap _ _
    revert this
    generalize wrap Inst.character (dispatch v (charTable e v) name args) = x
    generalize wrap Inst.character (dispatch v (charTable e' v) name args) = y
    intro this
    cases x <;> cases y <;> simp_all [RunAlike, NotCompared]
  | string v =>
    have := wrap_alike .string (dispatch_alike v (string_tol e e' v) name args trivial)
    change wrap _ _ = wrap _ _
    revert this
    generalize wrap Inst.string (dispatch v (stringTable e v) name args) = x
    generalize wrap Inst.string (dispatch v (stringTable e' v) name args) = y
    intro this
    cases x <;> cases y <;> simp_all [RunAlike, NotCompared]
  | integer v => exact congrArg (wrap _) (dispatch_at v (int_at h) name trivial)
  | float v => exact congrArg (wrap _) (dispatch_at v (float_at h) name trivial)
  | vector t l =>
    exact congrArg (wrap _) (dispatch_at l (vector_at hw.1 hw.2 fun _ => h) name fun ⟨h1, h2⟩ => hs l (by rw [h1]) h2)
  | set t l => exact congrArg (wrap _) (dispatch_at l (set_at hw.1 hw.2.1 fun _ => h) name trivial)
  | dictionary t u l => exact congrArg (wrap _) (dispatch_at l (dict_at hw.1 hw.2.2.1 fun _ => h) name trivial)

end

end Knuckle

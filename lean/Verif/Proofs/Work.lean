/-
C94: bounds for the counted execution.
-/
import Verif.Proofs.WorkSame
import Verif.Proofs.Storage
import Verif.Proofs.Apart
import Verif.Proofs.Creation
import Mathlib.Algebra.BigOperators.Ring.Finset

namespace Knuckle.Work

variable {α β σ : Type}

/-- The bytes of the elements of a container, and one for each. -/
def total (l : List Obj) : Nat := (l.map size).sum

/-- The bytes of the arguments, and one for each. -/
def argsSize (args : List Str) : Nat := (args.map fun a => a.length + 1).sum

theorem size_pos (o : Obj) : 1 ≤ size o := by cases o <;> simp [size]

theorem length_total (l : List Obj) : l.length ≤ total l := by
  induction l with
  | nil => exact Nat.zero_le _
  | cons x xs ih => have := size_pos x; simp only [total, List.map_cons, List.sum_cons, List.length_cons] at *; omega

theorem total_cons (x : Obj) (xs : List Obj) : total (x :: xs) = size x + total xs := rfl

theorem total_append (l m : List Obj) : total (l ++ m) = total l + total m := by simp [total]

theorem total_drop (n : Nat) (l : List Obj) : total (l.drop n) ≤ total l := by
  conv => rhs; rw [← List.take_append_drop n l, total_append]
  omega

theorem total_take (n : Nat) (l : List Obj) : total (l.take n) ≤ total l := by
  conv => rhs; rw [← List.take_append_drop n l, total_append]
  omega

theorem size_get {l : List Obj} {i : Nat} {o : Obj} (h : l[i]? = some o) : size o ≤ total l := by
  have : o ∈ l := List.mem_of_getElem? h
  exact List.le_sum_of_mem (List.mem_map_of_mem this)

/-- At most this many steps besides those of the reply. -/
def Within (X : Nat) (w : Work (σ × Str)) : Prop :=
  w.steps ≤ X + match w.res with
    | .ok p => p.2.length + 1
    | _ => 0

theorem within_answer (s : σ) (r : Str) : Within 0 (answer s r) := by simp [Within]

theorem within_free (x : Res (σ × Str)) : Within 0 (free x) := by simp [Within]

theorem Within.mono {X Y : Nat} {w : Work (σ × Str)} (h : Within X w) (hXY : X ≤ Y) : Within Y w := by
  unfold Within at *; omega

theorem within_bind {x : Work α} {f : α → Work (σ × Str)} {A B : Nat} (hx : x.steps ≤ A) (hf : ∀ a, x.res = .ok a → Within B (f a)) :
    Within (A + B) (x >>= f) := by
  show Within _ (Work.bind x f)
  unfold Work.bind
  cases h : x.res with
  | ok a => have := hf a h; unfold Within at *; simp only; omega
  | err e => simp only [Within]; omega
  | ub => simp only [Within]; omega

theorem within_ite {p : Prop} [Decidable p] {x y : Work (σ × Str)} {A : Nat} (hx : p → Within A x) (hy : ¬ p → Within A y) :
    Within A (if p then x else y) := by
  split
  · exact hx ‹_›
  · exact hy ‹_›

/-- The same for an operator. -/
def Bounded (X : Nat) (x : Counted (Run σ)) : Prop := x.2 ≤ X + (replyLength x.1 + 1)

theorem Bounded.mono {X Y : Nat} {x : Counted (Run σ)} (h : Bounded X x) (hXY : X ≤ Y) : Bounded Y x := by
  unfold Bounded at *; omega

theorem run_bounded {old : σ} {w : Work (σ × Str)} {X : Nat} (h : Within X w) : Bounded X (w.res.run old, w.steps) := by
  unfold Within at h
  unfold Bounded
  revert h
  rcases w.res with ⟨s, r⟩ | e | _ <;> simp [Res.run, replyLength] <;> omega

theorem op0_bounded {old : σ} {f : Work (σ × Str)} {X : Nat} (h : Within X f) (args : List Str) : Bounded X (op0 old f args) := by
  cases args with
  | nil => exact run_bounded h
  | cons => simp only [Bounded, op0]; omega

theorem op1_bounded {old : σ} {f : Str → Work (σ × Str)} {X : Nat} {args : List Str} (h : ∀ a, args = [a] → Within X (f a)) :
    Bounded X (op1 old f args) := by
  rcases args with _ | ⟨a, _ | _⟩
  · simp only [Bounded, op1]; omega
  · exact run_bounded (h a rfl)
  · simp only [Bounded, op1]; omega

theorem op2_bounded {old : σ} {f : Str → Str → Work (σ × Str)} {X : Nat} {args : List Str}
    (h : ∀ a b, args = [a, b] → Within X (f a b)) : Bounded X (op2 old f args) := by
  rcases args with _ | ⟨a, _ | ⟨b, _ | _⟩⟩
  · simp only [Bounded, op2]; omega
  · simp only [Bounded, op2]; omega
  · exact run_bounded (h a b rfl)
  · simp only [Bounded, op2]; omega

theorem op3_bounded {old : σ} {f : Str → Str → Str → Work (σ × Str)} {X : Nat} {args : List Str}
    (h : ∀ a b c, args = [a, b, c] → Within X (f a b c)) : Bounded X (op3 old f args) := by
  rcases args with _ | ⟨a, _ | ⟨b, _ | ⟨c, _ | _⟩⟩⟩
  · simp only [Bounded, op3]; omega
  · simp only [Bounded, op3]; omega
  · simp only [Bounded, op3]; omega
  · exact run_bounded (h a b c rfl)
  · simp only [Bounded, op3]; omega

theorem dispatch_bounded {old : σ} {t : Table σ} {name : Str} {args : List Str} {X : Nat}
    (h : ∀ r ∈ t, name = r.1 → Bounded X (r.2 args)) : Bounded (t.length * (name.length + 1) + X) (dispatch old t name args) := by
  induction t with
  | nil => simp only [Bounded, dispatch]; omega
  | cons r t ih =>
    obtain ⟨n, op⟩ := r
    simp only [dispatch, List.length_cons, Nat.succ_mul]
    split
    · have := h (n, op) (by simp) (eq_of_beq ‹_›)
      simp only [Bounded] at *
      omega
    · have := ih fun r hr => h r (List.mem_cons_of_mem _ hr)
      simp only [Bounded] at *
      omega

theorem literal_size {t a : Str} {o : Obj} (h : getSharedInstance t a = .ok o) : size o ≤ a.length + 1 := by
  have ht : Spec.ObjectType t := by
    simp only [getSharedInstance, beq_iff_eq] at h
    unfold Spec.ObjectType
    split at h
    · simp [*]
    split at h
    · simp [*]
    split at h
    · simp [*]
    split at h
    · simp [*]
    split at h
    · simp [*]
    · cases h
  have hl := denotes_length (gsi_reads ht h)
  cases o <;> simp only [size, Spec.textOf] at * <;> omega

theorem literal_steps (t a : Str) : (literal t a).steps ≤ a.length + 1 := Nat.le_refl _
theorem index_steps (a : Str) : (index a).steps ≤ a.length + 1 := Nat.le_refl _
theorem free_steps_le (x : Res α) : (free x).steps ≤ 0 := Nat.le_refl _
theorem spend_steps_le (n : Nat) : (spend n).steps ≤ n := Nat.le_refl _

theorem findFrom_steps (eps : Fl) (o : Obj) (l : List Obj) : ∀ i, (findFrom eps o l i).steps ≤ total l + l.length * size o := by
  induction l with
  | nil => intro i; exact Nat.zero_le _
  | cons x xs ih =>
    intro i
    simp only [findFrom, total_cons, List.length_cons, Nat.succ_mul]
    refine Nat.le_trans (bind_steps _ _ (spend_steps_le _) (B := total xs + xs.length * size o) fun _ _ => ?_) (by unfold compare; omega)
    refine Nat.le_trans (bind_steps _ _ (free_steps_le _) (B := total xs + xs.length * size o) fun b _ => ?_) (by omega)
    split
    · exact Nat.zero_le _
    · exact ih _

theorem countLoop_steps (eps : Fl) (o : Obj) (l : List Obj) : ∀ i, (countLoop eps o l i).steps ≤ total l + l.length * size o := by
  induction l with
  | nil => intro i; exact Nat.zero_le _
  | cons x xs ih =>
    intro i
    simp only [countLoop, total_cons, List.length_cons, Nat.succ_mul]
    refine Nat.le_trans (bind_steps _ _ (spend_steps_le _) (B := total xs + xs.length * size o) fun _ _ => ?_) (by unfold compare; omega)
    refine Nat.le_trans (bind_steps _ _ (free_steps_le _) (B := total xs + xs.length * size o) fun b _ => ?_) (by omega)
    split <;> exact ih _

theorem indexesLoop_steps (eps : Fl) (o : Obj) (l : List Obj) :
    ∀ i acc, (indexesLoop eps o l i acc).steps ≤ total l + l.length * size o := by
  induction l with
  | nil => intro i acc; exact Nat.zero_le _
  | cons x xs ih =>
    intro i acc
    simp only [indexesLoop, total_cons, List.length_cons, Nat.succ_mul]
    refine Nat.le_trans (bind_steps _ _ (spend_steps_le _) (B := total xs + xs.length * size o) fun _ _ => ?_) (by unfold compare; omega)
    refine Nat.le_trans (bind_steps _ _ (free_steps_le _) (B := total xs + xs.length * size o) fun b _ => ?_) (by omega)
    split <;> exact ih _ _

theorem removeFirstLoop_steps (eps : Fl) (o : Obj) (l : List Obj) :
    ∀ pre, (removeFirstLoop eps o pre l).steps ≤ 2 * total l + l.length * size o := by
  induction l with
  | nil => intro pre; exact Nat.zero_le _
  | cons x xs ih =>
    intro pre
    have := length_total xs
    simp only [removeFirstLoop, total_cons, List.length_cons, Nat.succ_mul]
    refine Nat.le_trans (bind_steps _ _ (spend_steps_le _) (B := size x + 2 * total xs + xs.length * size o) fun _ _ => ?_)
      (by unfold compare; omega)
    refine Nat.le_trans (bind_steps _ _ (free_steps_le _) (B := size x + 2 * total xs + xs.length * size o) fun b _ => ?_) (by omega)
    split
    · exact Nat.le_trans (bind_steps _ _ (spend_steps_le _) (B := 0) fun _ _ => Nat.zero_le _) (by omega)
    · exact Nat.le_trans (ih _) (by omega)

theorem replaceFirstLoop_steps (eps : Fl) (et b : Str) (o : Obj) (l : List Obj) :
    ∀ pre, (replaceFirstLoop eps et b o pre l).steps ≤ 2 * total l + l.length * size o + (b.length + 1) := by
  induction l with
  | nil => intro pre; exact Nat.zero_le _
  | cons x xs ih =>
    intro pre
    simp only [replaceFirstLoop, total_cons, List.length_cons, Nat.succ_mul]
    refine Nat.le_trans (bind_steps _ _ (spend_steps_le _) (B := size x + 2 * total xs + xs.length * size o + (b.length + 1))
      fun _ _ => ?_) (by unfold compare; omega)
    refine Nat.le_trans (bind_steps _ _ (free_steps_le _) (B := size x + 2 * total xs + xs.length * size o + (b.length + 1))
      fun b _ => ?_) (by omega)
    split
    · refine Nat.le_trans (bind_steps _ _ (literal_steps _ _) (B := size x) fun _ _ => ?_) (by omega)
      exact Nat.le_trans (bind_steps _ _ (spend_steps_le _) (B := 0) fun _ _ => Nat.zero_le _) (by omega)
    · exact Nat.le_trans (ih _) (by omega)

theorem removeAllLoop_steps (eps : Fl) (o : Obj) (l : List Obj) :
    ∀ pre, (removeAllLoop eps o pre l).2 ≤ 2 * total l + l.length * size o + l.length * l.length + 5 := by
  induction l with
  | nil => intro pre; simp [removeAllLoop]
  | cons x xs ih =>
    intro pre
    have e : (xs.length + 1) * (xs.length + 1) = xs.length * xs.length + 2 * xs.length + 1 := by ring
    simp only [removeAllLoop, total_cons, List.length_cons, Nat.succ_mul, e]
    have h1 := ih pre
    have h2 := ih (pre ++ [x])
    rcases equalTo eps x o with (_ | _) | _ | _ <;> simp only [compare] <;> nlinarith

theorem replaceAllLoop_steps (eps : Fl) (et b : Str) (o : Obj) (l : List Obj) :
    ∀ pre, (replaceAllLoop eps et b o pre l).2 ≤ 2 * total l + l.length * size o + l.length * (b.length + 1) + 5 := by
  induction l with
  | nil => intro pre; simp [replaceAllLoop]
  | cons x xs ih =>
    intro pre
    simp only [replaceAllLoop, total_cons, List.length_cons, Nat.succ_mul]
    have h2 := ih (pre ++ [x])
    rcases equalTo eps x o with (_ | _) | _ | _ <;> simp only [compare]
    · omega
    · rcases getSharedInstance et b with n | _ | _ <;> simp only
      · have h1 := ih (pre ++ [n]); omega
      · omega
      · omega
    · omega
    · omega

/-! ### Vectors -/

/-- What most operators may take: the elements and the arguments, and one argument for each element. -/
def room (S A : Nat) : Nat := 4 * (S * A + S + A + 1)

theorem answerVector_within {cfg : Cfg} {s : σ} {l : List Obj} : Within (2 * l.length) (answerVector cfg s l) :=
  within_bind (spend_steps_le _) fun _ _ => within_answer _ _

/-- What `removeAll:` and `sort` may take besides. -/
def vecExtra [Library] (name : Str) (l : List Obj) : Nat :=
  if name = b!"removeAll:" then l.length * l.length else if name = b!"sort" then sortingSteps l else 0

theorem args1 (a : Str) : argsSize [a] = a.length + 1 := rfl
theorem args2 (a b : Str) : argsSize [a, b] = a.length + 1 + (b.length + 1) := rfl
theorem args3 (a b c : Str) : argsSize [a, b, c] = a.length + 1 + (b.length + 1 + (c.length + 1)) := rfl

theorem prod_le {n S z A : Nat} (h : n ≤ S) (hz : z ≤ A) : n * z ≤ S * A := Nat.mul_le_mul h hz

theorem sum_sizes (l : List Obj) : (l.map size).sum = total l := rfl

theorem vectorTable_bounded [StdSort] [Library] (cfg : Cfg) (et : Str) (l : List Obj) (name : Str) (args : List Str) :
    ∀ r ∈ vectorTable cfg et l, name = r.1 → Bounded (room (total l) (argsSize args) + vecExtra name l) (r.2 args) := by
  have hn := length_total l
  have hd : ∀ i, (l.drop i).length ≤ l.length := fun i => by simp
  have htd := fun i => total_drop i l
  have htt := fun i => total_take i l
  simp only [vectorTable, List.forall_mem_cons]
  refine ⟨?_, ?_, ?_, ?_, ?_, ?_, ?_, ?_, ?_, ?_, ?_, ?_, ?_, ?_, ?_, ?_, ?_, ?_, ?_, ?_, ?_, ?_, ?_, ?_, ?_, ?_, ?_, ?_, ?_, ?_, ?_, ?_⟩
  · intro _; exact op0_bounded (answerVector_within.mono (by unfold room; omega)) _
  · intro _; exact op0_bounded ((within_answer _ _).mono (Nat.zero_le _)) _
  · intro _; refine op1_bounded fun a ha => ?_
    subst ha; rw [args1]
    refine (within_bind (literal_steps _ _) (B := total l + l.length * (a.length + 1) + 0) fun o ho => ?_).mono ?_
    · refine within_bind (Nat.le_trans (findFrom_steps _ _ _ _) ?_) fun _ _ => within_answer _ _
      have := Nat.mul_le_mul_left l.length (literal_size ho); omega
    · have := prod_le hn (Nat.le_refl (a.length + 1)); unfold room; omega
  · intro _; refine op2_bounded fun a b ha => ?_
    subst ha; rw [args2]
    refine (within_bind (literal_steps _ _) (B := (b.length + 1) + (0 + (total l + l.length * (a.length + 1) + 0))) fun o ho => ?_).mono ?_
    · refine within_bind (index_steps _) fun i _ => within_bind (free_steps_le _) fun _ _ =>
        within_bind (Nat.le_trans (findFrom_steps _ _ _ _) ?_) fun _ _ => within_answer _ _
      have := prod_le (hd i.toNat) (literal_size ho); have := htd i.toNat; omega
    · have := prod_le hn (by omega : a.length + 1 ≤ a.length + 1 + (b.length + 1)); unfold room; omega
  · intro _; refine op1_bounded fun a ha => ?_
    subst ha; rw [args1]
    refine (within_bind (literal_steps _ _) (B := total l + l.length * (a.length + 1) + 0) fun o ho => ?_).mono ?_
    · refine within_bind (Nat.le_trans (countLoop_steps _ _ _ _) ?_) fun _ _ => within_answer _ _
      have := Nat.mul_le_mul_left l.length (literal_size ho); omega
    · have := prod_le hn (Nat.le_refl (a.length + 1)); unfold room; omega
  · intro _; refine op1_bounded fun a ha => ?_
    subst ha; rw [args1]
    refine (within_bind (index_steps _) (B := 0 + 0) fun i _ => within_bind (free_steps_le _) fun _ _ => ?_).mono (by unfold room; omega)
    cases l[i.toNat]? with
    | none => exact within_free _
    | some o => exact within_answer _ _
  · intro _; refine op1_bounded fun a ha => ?_
    subst ha; rw [args1]
    refine (within_bind (literal_steps _ _) (B := total l + l.length * (a.length + 1) + 0) fun o ho => ?_).mono ?_
    · refine within_bind (Nat.le_trans (findFrom_steps _ _ _ _) ?_) fun _ _ => within_answer _ _
      have := Nat.mul_le_mul_left l.length (literal_size ho); omega
    · have := prod_le hn (Nat.le_refl (a.length + 1)); unfold room; omega
  · intro _; refine op2_bounded fun a b ha => ?_
    subst ha; rw [args2]
    refine (within_bind (literal_steps _ _) (B := (b.length + 1) + (0 + (total l + l.length * (a.length + 1) + 0))) fun o ho => ?_).mono ?_
    · refine within_bind (index_steps _) fun i _ => within_bind (free_steps_le _) fun _ _ =>
        within_bind (Nat.le_trans (findFrom_steps _ _ _ _) ?_) fun _ _ => within_answer _ _
      have := prod_le (hd i.toNat) (literal_size ho); have := htd i.toNat; omega
    · have := prod_le hn (by omega : a.length + 1 ≤ a.length + 1 + (b.length + 1)); unfold room; omega
  · intro _; refine op1_bounded fun a ha => ?_
    subst ha; rw [args1]
    refine (within_bind (literal_steps _ _) (B := total l + l.length * (a.length + 1) + 0) fun o ho => ?_).mono ?_
    · refine within_bind (Nat.le_trans (indexesLoop_steps _ _ _ _ _) ?_) fun _ _ => within_answer _ _
      have := Nat.mul_le_mul_left l.length (literal_size ho); omega
    · have := prod_le hn (Nat.le_refl (a.length + 1)); unfold room; omega
  · intro _; exact op0_bounded ((within_answer _ _).mono (Nat.zero_le _)) _
  · intro _; refine op1_bounded fun a ha => ?_
    subst ha; rw [args1]
    refine (within_bind (index_steps _) (B := 2 * l.length) fun i _ => within_ite (fun _ => (within_free _).mono (Nat.zero_le _))
      fun _ => answerVector_within.mono ?_).mono (by unfold room; omega)
    have := List.length_take_le (min i (l.length : Int)).toNat l
    have := List.length_take_le' (min i (l.length : Int)).toNat l
    omega
  · intro _; refine op1_bounded fun a ha => ?_
    subst ha; rw [args1]
    refine (within_bind (index_steps _) (B := 2 * l.length) fun i _ => within_ite (fun _ => (within_free _).mono (Nat.zero_le _))
      fun _ => answerVector_within.mono ?_).mono (by unfold room; omega)
    have := hd (l.length - (min i (l.length : Int)).toNat)
    omega
  · intro _; refine op1_bounded fun a ha => ?_
    subst ha; rw [args1]
    refine (within_bind (index_steps _) (B := 0 + 2 * l.length) fun i _ => within_bind (free_steps_le _)
      fun _ _ => answerVector_within.mono ?_).mono (by unfold room; omega)
    have := hd i.toNat
    omega
  · intro _; refine op2_bounded fun a b ha => ?_
    subst ha; rw [args2]
    refine (within_bind (index_steps _) (B := (b.length + 1) + (0 + 2 * l.length)) fun i _ => within_bind (index_steps _) fun j _ =>
      within_bind (free_steps_le _) fun _ _ => answerVector_within.mono ?_).mono (by unfold room; omega)
    simp only [List.length_drop, List.length_take]
    omega
  · intro _; refine op1_bounded fun a ha => ?_
    subst ha; rw [args1]
    exact (within_bind (literal_steps _ _) fun _ _ => within_bind (spend_steps_le _) fun _ _ => within_answer _ _).mono
      (by unfold room; omega)
  · intro _; refine op1_bounded fun a ha => ?_
    subst ha; rw [args1]
    exact (within_bind (literal_steps _ _) fun _ _ => within_bind (spend_steps_le _) fun _ _ => within_answer _ _).mono
      (by unfold room; omega)
  · intro _; refine op0_bounded (within_ite (fun _ => (within_answer _ _).mono (Nat.zero_le _)) fun _ => ?_) _
    cases h : l[l.length - 1]? with
    | none => exact (within_free _).mono (Nat.zero_le _)
    | some o =>
      refine (within_bind (spend_steps_le _) fun _ _ => within_answer _ _).mono ?_
      have := size_get h; unfold room; omega
  · intro _; refine op0_bounded (within_ite (fun _ => (within_answer _ _).mono (Nat.zero_le _)) fun _ => ?_) _
    cases h : l[0]? with
    | none => exact (within_free _).mono (Nat.zero_le _)
    | some o =>
      refine (within_bind (spend_steps_le _) fun _ _ => within_answer _ _).mono ?_
      have := size_get h; unfold room; omega
  · intro _; refine op1_bounded fun a ha => ?_
    subst ha; rw [args1]
    refine (within_bind (index_steps _) (B := 0 + 2 * total l) fun i _ => within_bind (free_steps_le _) fun _ _ => ?_).mono
      (by unfold room; omega)
    cases h : l[i.toNat]? with
    | none => exact (within_free _).mono (Nat.zero_le _)
    | some o =>
      refine (within_bind (spend_steps_le _) fun _ _ => within_answer _ _).mono ?_
      have := size_get h; omega
  · intro _; refine op2_bounded fun a b ha => ?_
    subst ha; rw [args2]
    exact (within_bind (literal_steps _ _) fun _ _ => within_bind (index_steps _) fun _ _ => within_bind (free_steps_le _) fun _ _ =>
      within_bind (spend_steps_le _) fun _ _ => within_answer _ _).mono (by unfold room; omega)
  · intro _; refine op1_bounded fun a ha => ?_
    subst ha; rw [args1]
    refine (within_bind (index_steps _) (B := 0 + (total l + 0)) fun i _ => within_bind (free_steps_le _) fun _ _ =>
      within_bind (Nat.le_trans (spend_steps_le _) ?_) fun _ _ => within_answer _ _).mono (by unfold room; omega)
    exact htd i.toNat
  · intro _; refine op2_bounded fun a b ha => ?_
    subst ha; rw [args2]
    refine (within_bind (index_steps _) (B := (b.length + 1) + (0 + (total l + (l.length + 0)))) fun i _ => within_bind (index_steps _)
      fun j _ => within_bind (free_steps_le _) fun _ _ => within_bind (Nat.le_trans (spend_steps_le _) ?_) fun _ _ =>
      within_bind (Nat.le_trans (spend_steps_le _) (hd _)) fun _ _ => within_answer _ _).mono (by unfold room; omega)
    exact Nat.le_trans (total_drop _ _) (htt _)
  · intro _; refine op1_bounded fun a ha => ?_
    subst ha; rw [args1]
    refine (within_bind (literal_steps _ _) (B := 2 * total l + l.length * (a.length + 1) + 0) fun o ho => ?_).mono ?_
    · refine within_bind (Nat.le_trans (removeFirstLoop_steps _ _ _ _) ?_) fun _ _ => within_answer _ _
      have := Nat.mul_le_mul_left l.length (literal_size ho); omega
    · have := prod_le hn (Nat.le_refl (a.length + 1)); unfold room; omega
  · intro _; refine op2_bounded fun a b ha => ?_
    subst ha; rw [args2]
    refine (within_bind (literal_steps _ _) (B := (b.length + 1) + (0 + (2 * total l + l.length * (a.length + 1) + 0)))
      fun o ho => ?_).mono ?_
    · refine within_bind (index_steps _) fun i _ => within_bind (free_steps_le _) fun _ _ =>
        within_bind (Nat.le_trans (removeFirstLoop_steps _ _ _ _) ?_) fun _ _ => within_answer _ _
      have := prod_le (hd i.toNat) (literal_size ho); have := htd i.toNat; omega
    · have := prod_le hn (by omega : a.length + 1 ≤ a.length + 1 + (b.length + 1)); unfold room; omega
  · intro hname
    rcases args with _ | ⟨a, _ | _⟩
    · simp only [Bounded, vecRemoveAll]; omega
    · rw [args1]
      simp only [Bounded, vecRemoveAll]
      cases ho : getSharedInstance et a with
      | ok o =>
        have h1 := removeAllLoop_steps cfg.eps o l []
        have h2 := prod_le hn (literal_size ho)
        simp only [vecExtra, hname, if_true, room]
        omega
      | err e => simp only [room]; omega
      | ub => simp only [room]; omega
    · simp only [Bounded, vecRemoveAll]; omega
  · intro _; refine op2_bounded fun a b ha => ?_
    subst ha; rw [args2]
    refine (within_bind (literal_steps _ _) (B := (b.length + 1) + (2 * total l + l.length * (a.length + 1) + (b.length + 1) + 0))
      fun o ho => within_bind (literal_steps _ _) fun _ _ =>
        within_bind (Nat.le_trans (replaceFirstLoop_steps _ _ _ _ _ _) ?_) fun _ _ => within_answer _ _).mono ?_
    · have := Nat.mul_le_mul_left l.length (literal_size ho); omega
    · have := prod_le hn (by omega : a.length + 1 ≤ a.length + 1 + (b.length + 1)); unfold room; omega
  · intro _; refine op3_bounded fun a b c ha => ?_
    subst ha; rw [args3]
    refine (within_bind (literal_steps _ _) (B := (c.length + 1) + ((b.length + 1) + (0 +
        (2 * total l + l.length * (a.length + 1) + (c.length + 1) + 0))))
      fun o ho => within_bind (literal_steps _ _) fun _ _ => within_bind (index_steps _) fun i _ => within_bind (free_steps_le _) fun _ _ =>
        within_bind (Nat.le_trans (replaceFirstLoop_steps _ _ _ _ _ _) ?_) fun _ _ => within_answer _ _).mono ?_
    · have := prod_le (hd i.toNat) (literal_size ho); have := htd i.toNat; omega
    · have := prod_le hn (by omega : a.length + 1 ≤ a.length + 1 + (b.length + 1 + (c.length + 1))); unfold room; omega
  · intro _
    rcases args with _ | ⟨a, _ | ⟨b, _ | _⟩⟩
    · simp only [Bounded, vecReplaceAll]; omega
    · simp only [Bounded, vecReplaceAll]; omega
    · rw [args2]
      simp only [Bounded, vecReplaceAll]
      cases ho : (do let o ← getSharedInstance et a; let _ ← getSharedInstance et b; .ok o : Res Obj) with
      | ok o =>
        have ho' : getSharedInstance et a = .ok o := by
          cases h : getSharedInstance et a <;> rw [h] at ho
          · cases h' : getSharedInstance et b <;> rw [h'] at ho
            · exact ho
            · cases ho
            · cases ho
          · cases ho
          · cases ho
        have h1 := replaceAllLoop_steps cfg.eps et b o l []
        have h2 := prod_le hn (literal_size ho')
        have h3 := prod_le hn (Nat.le_refl (b.length + 1))
        simp only [room, Nat.mul_add] at *
        omega
      | err e => simp only [room]; omega
      | ub => simp only [room]; omega
    · simp only [Bounded, vecReplaceAll]; omega
  · intro hname
    have he : vecExtra name l = sortingSteps l := by simp [vecExtra, hname]
    refine op0_bounded (within_ite (fun _ => (within_free _).mono (Nat.zero_le _)) fun _ => within_ite (fun _ => ?_)
      fun _ => (within_free _).mono (Nat.zero_le _)) _
    exact (within_bind (spend_steps_le _) fun _ _ => within_answer _ _).mono (by omega)
  · intro _; exact op0_bounded ((within_bind (spend_steps_le _) fun _ _ => within_answer _ _).mono (by unfold room; omega)) _
  · intro _; exact op0_bounded ((within_bind (spend_steps_le _) fun _ _ => within_answer _ _).mono
      (by rw [sum_sizes]; unfold room; omega)) _
  · intro r hr; cases hr

/-! ### Searching and sorting -/

theorem sum_le_mul' {α : Type} (l : List α) (f : α → Nat) {B : Nat} (h : ∀ x ∈ l, f x ≤ B) : (l.map f).sum ≤ l.length * B := by
  induction l with
  | nil => simp
  | cons x xs ih =>
    have := ih fun y hy => h y (List.mem_cons_of_mem _ hy)
    have := h x (by simp)
    simp only [List.map_cons, List.sum_cons, List.length_cons, Nat.succ_mul]
    omega

/-- Every position is passed a fixed number of times, so a path costs no more than that many times all elements. -/
theorem path_sum (l : List Nat) (q : List Nat) {f : Nat} (h : ∀ p, q.count p ≤ f) :
    (q.map fun p => l[p]?.getD 0).sum ≤ f * l.sum := by
  rw [Finset.sum_list_map_count]
  have h1 : ∑ m ∈ q.toFinset, q.count m • (l[m]?.getD 0) ≤ ∑ m ∈ q.toFinset, f * (l[m]?.getD 0) :=
    Finset.sum_le_sum fun m _ => by simpa using Nat.mul_le_mul_right _ (h m)
  refine Nat.le_trans h1 ?_
  rw [← Finset.mul_sum]
  refine Nat.mul_le_mul_left _ ?_
  have h2 : ∑ m ∈ q.toFinset, (l[m]?.getD 0) ≤ ∑ m ∈ q.toFinset ∪ Finset.range l.length, (l[m]?.getD 0) :=
    Finset.sum_le_sum_of_subset Finset.subset_union_left
  have h3 : ∑ m ∈ q.toFinset ∪ Finset.range l.length, (l[m]?.getD 0) = ∑ m ∈ Finset.range l.length, (l[m]?.getD 0) := by
    symm
    refine Finset.sum_subset Finset.subset_union_right fun m _ hm => ?_
    have : l.length ≤ m := by simpa using hm
    rw [List.getElem?_eq_none this]; rfl
  have h4 : ∑ m ∈ Finset.range l.length, (l[m]?.getD 0) = l.sum := by
    clear h h1 h2 h3
    induction l with
    | nil => rfl
    | cons x xs ih => rw [List.length_cons, Finset.sum_range_succ']; simp [ih, Nat.add_comm]
  omega

theorem searching_le [Library] (l : List Obj) (k : Obj) :
    searching l k ≤ Library.factor * total l + Library.factor * (Nat.log2 l.length + 1) * size k := by
  have e : ∀ p : Nat, (l[p]?.map fun x => compare x k).getD 0 ≤ (l.map size)[p]?.getD 0 + size k := by
    intro p
    rw [List.getElem?_map]
    cases l[p]? with
    | none => exact Nat.zero_le _
    | some x => exact Nat.le_refl _
  have h1 : searching l k ≤ ((Library.objects l k).map fun p => (l.map size)[p]?.getD 0 + size k).sum :=
    List.sum_le_sum fun p _ => e p
  rw [List.sum_map_add] at h1
  have h2 := path_sum (l.map size) (Library.objects l k) (Library.objects_path l k)
  have h3 : ((Library.objects l k).map fun _ => size k).sum ≤ Library.factor * (Nat.log2 l.length + 1) * size k :=
    Nat.le_trans (sum_le_mul' _ _ fun _ _ => Nat.le_refl _) (Nat.mul_le_mul_right _ (Library.objects_few l k))
  unfold total
  omega

theorem searching_short [Library] (l : List Obj) (k : Obj) {B : Nat} (h : ∀ x ∈ l, size x ≤ B) :
    searching l k ≤ Library.factor * (Nat.log2 l.length + 1) * (B + size k) := by
  refine Nat.le_trans (sum_le_mul' (B := B + size k) _ _ fun p _ => ?_) (Nat.mul_le_mul_right _ (Library.objects_few l k))
  cases hp : l[p]? with
  | none => exact Nat.zero_le _
  | some x => exact Nat.add_le_add_right (h x (List.mem_of_getElem? hp)) _

theorem sortingSteps_le [Library] (l : List Obj) {B : Nat} (h : ∀ x ∈ l, size x ≤ B) :
    sortingSteps l ≤ Library.factor * (l.length * (Nat.log2 l.length + 1)) * (2 * B + 1) := by
  have key : ∀ p : Nat, (l[p]?.map size).getD 0 ≤ B := by
    intro p
    cases hp : l[p]? with
    | none => exact Nat.zero_le _
    | some x => exact h x (List.mem_of_getElem? hp)
  refine Nat.le_trans (sum_le_mul' (B := 2 * B + 1) _ _ fun p _ => ?_) (Nat.mul_le_mul_right _ (Library.sorting_few l))
  have := key p.1
  have := key p.2
  omega

theorem size_mem {l : List Obj} {x : Obj} (h : x ∈ l) : size x ≤ total l := List.le_sum_of_mem (List.mem_map_of_mem h)

theorem searchingNames_le [Library] (l : List Str) (k : Str) :
    searchingNames l k ≤ Library.factor * (Nat.log2 l.length + 1) * (k.length + 1) := by
  refine Nat.le_trans (sum_le_mul' (B := k.length + 1) _ _ fun p _ => ?_) (Nat.mul_le_mul_right _ (Library.names_few l k))
  cases l[p]? with
  | none => exact Nat.zero_le _
  | some x => simp only [Option.map_some, Option.getD_some, compareNames]; omega

/-! ### Sets and dictionaries -/

/-- What `get` and `clear` may take besides. -/
def setExtra (name : Str) (l : List Obj) : Nat := if name = b!"get" ∨ name = b!"clear" then total l else 0

theorem setTable_bounded [Library] (cfg : Cfg) (et : Str) (l : List Obj) (name : Str) (args : List Str) {Q : Nat}
    (hQ : ∀ o, size o ≤ argsSize args → searching l o ≤ Q) :
    ∀ r ∈ setTable cfg et l, name = r.1 → Bounded (2 * argsSize args + Q + setExtra name l) (r.2 args) := by
  have hn := length_total l
  simp only [setTable, List.forall_mem_cons]
  refine ⟨?_, ?_, ?_, ?_, ?_, ?_, ?_, ?_⟩
  · intro hname
    exact op0_bounded ((within_bind (spend_steps_le _) fun _ _ => within_answer _ _).mono (by simp [setExtra, hname]; omega)) _
  · intro _; exact op0_bounded ((within_answer _ _).mono (Nat.zero_le _)) _
  · intro _; refine op1_bounded fun a ha => ?_
    subst ha; rw [args1] at *
    exact (within_bind (literal_steps _ _) (B := 0 + (Q + 0)) fun o ho => within_bind (free_steps_le _) fun _ _ =>
      within_bind (Nat.le_trans (spend_steps_le _) (hQ o (literal_size ho))) fun _ _ => within_answer _ _).mono (by omega)
  · intro _; exact op0_bounded ((within_answer _ _).mono (Nat.zero_le _)) _
  · intro _; refine op1_bounded fun a ha => ?_
    subst ha; rw [args1] at *
    exact (within_bind (literal_steps _ _) (B := 0 + (Q + 0)) fun o ho => within_bind (free_steps_le _) fun _ _ =>
      within_bind (Nat.le_trans (spend_steps_le _) (hQ o (literal_size ho))) fun _ _ => within_answer _ _).mono (by omega)
  · intro _; refine op1_bounded fun a ha => ?_
    subst ha; rw [args1] at *
    exact (within_bind (literal_steps _ _) (B := 0 + (Q + ((a.length + 1) + 0))) fun o ho => within_bind (free_steps_le _) fun _ _ =>
      within_bind (Nat.le_trans (spend_steps_le _) (hQ o (literal_size ho))) fun _ _ =>
      within_bind (Nat.le_trans (spend_steps_le _) (literal_size ho)) fun _ _ => within_answer _ _).mono (by omega)
  · intro hname
    exact op0_bounded ((within_bind (spend_steps_le _) fun _ _ => within_answer _ _).mono (by rw [sum_sizes]; simp [setExtra, hname])) _
  · intro r hr; cases hr

/-- What `get`, `keys`, `values` and `clear` may take besides. -/
def dictExtra (name : Str) (l : List (Obj × Obj)) : Nat :=
  if name = b!"get" ∨ name = b!"keys" ∨ name = b!"values" ∨ name = b!"clear" then pairsSize l else 0

theorem length_pairs (l : List (Obj × Obj)) : 2 * l.length ≤ pairsSize l := by
  induction l with
  | nil => exact Nat.zero_le _
  | cons p l ih =>
    have h1 := size_pos p.1
    have h2 := size_pos p.2
    simp only [pairsSize, List.map_cons, List.sum_cons, List.length_cons] at *
    omega

theorem mapFind_mem {κ α : Type} {lt : κ → κ → Bool} {k : κ} {l : List (κ × α)} {v : α} (h : mapFind lt k l = some v) :
    ∃ p ∈ l, p.2 = v := by
  induction l with
  | nil => cases h
  | cons x xs ih =>
    simp only [mapFind] at h
    split at h
    · obtain ⟨p, hp, e⟩ := ih h; exact ⟨p, List.mem_cons_of_mem _ hp, e⟩
    · split at h
      · cases h
      · exact ⟨x, by simp, Option.some.inj h⟩

theorem found_size {lt : Obj → Obj → Bool} {k : Obj} {l : List (Obj × Obj)} {V : Nat} (h : ∀ p ∈ l, size p.2 ≤ V) :
    ((mapFind lt k l).map size |>.getD 0) ≤ V := by
  cases hm : mapFind lt k l with
  | none => exact Nat.zero_le _
  | some v => obtain ⟨p, hp, rfl⟩ := mapFind_mem hm; exact h p hp

theorem dictTable_bounded [Library] (cfg : Cfg) (kt vt : Str) (l : List (Obj × Obj)) (name : Str) (args : List Str) {Q V : Nat}
    (hQ : ∀ o, size o ≤ argsSize args → searching (l.map (·.1)) o ≤ Q) (hV : ∀ p ∈ l, size p.2 ≤ V) :
    ∀ r ∈ dictTable cfg kt vt l, name = r.1 → Bounded (2 * argsSize args + Q + V + dictExtra name l) (r.2 args) := by
  have hn := length_pairs l
  simp only [dictTable, List.forall_mem_cons]
  refine ⟨?_, ?_, ?_, ?_, ?_, ?_, ?_, ?_, ?_, ?_, ?_⟩
  · intro hname
    exact op0_bounded ((within_bind (spend_steps_le _) fun _ _ => within_answer _ _).mono (by simp [dictExtra, hname]; omega)) _
  · intro _; exact op0_bounded ((within_answer _ _).mono (Nat.zero_le _)) _
  · intro _; refine op1_bounded fun a ha => ?_
    subst ha; rw [args1] at *
    exact (within_bind (literal_steps _ _) (B := 0 + (Q + 0)) fun o ho => within_bind (free_steps_le _) fun _ _ =>
      within_bind (Nat.le_trans (spend_steps_le _) (hQ o (literal_size ho))) fun _ _ => within_answer _ _).mono (by omega)
  · intro _; exact op0_bounded ((within_answer _ _).mono (Nat.zero_le _)) _
  · intro hname
    exact op0_bounded (answerVector_within.mono (by simp [dictExtra, hname]; omega)) _
  · intro hname
    exact op0_bounded (answerVector_within.mono (by simp [dictExtra, hname]; omega)) _
  · intro _; refine op1_bounded fun a ha => ?_
    subst ha; rw [args1] at *
    refine (within_bind (literal_steps _ _) (B := 0 + (Q + 0)) fun o ho => within_bind (free_steps_le _) fun _ _ =>
      within_bind (Nat.le_trans (spend_steps_le _) (hQ o (literal_size ho))) fun _ _ => ?_).mono (by omega)
    cases mapFind (ltB cfg.eps) o l with
    | none => exact within_answer _ _
    | some v => exact within_answer _ _
  · intro _; refine op2_bounded fun a b ha => ?_
    subst ha; rw [args2] at *
    exact (within_bind (literal_steps _ _) (B := (b.length + 1) + (0 + (Q + (V + 0)))) fun v _ => within_bind (literal_steps _ _)
      fun o ho => within_bind (free_steps_le _) fun _ _ =>
      within_bind (Nat.le_trans (spend_steps_le _) (hQ o (by have := literal_size ho; omega))) fun _ _ =>
      within_bind (Nat.le_trans (spend_steps_le _) (found_size hV)) fun _ _ => within_answer _ _).mono (by omega)
  · intro _; refine op1_bounded fun a ha => ?_
    subst ha; rw [args1] at *
    refine (within_bind (literal_steps _ _) (B := 0 + (Q + ((a.length + 1 + V) + 0))) fun o ho => within_bind (free_steps_le _) fun _ _ =>
      within_bind (Nat.le_trans (spend_steps_le _) (hQ o (literal_size ho))) fun _ _ =>
      within_bind (Nat.le_trans (spend_steps_le _) ?_) fun _ _ => within_answer _ _).mono (by omega)
    exact Nat.add_le_add (literal_size ho) (found_size hV)
  · intro hname
    exact op0_bounded ((within_bind (spend_steps_le _) fun _ _ => within_answer _ _).mono (by simp [dictExtra, hname])) _
  · intro r hr; cases hr

/-! ### Instances -/

theorem log2_mono {a b : Nat} (h : a ≤ b) : Nat.log2 a ≤ Nat.log2 b := by
  by_cases ha : a = 0
  · subst ha; rw [Nat.log2_zero]; exact Nat.zero_le _
  · rw [Nat.le_log2 (by omega)]
    exact Nat.le_trans ((Nat.le_log2 ha).1 (Nat.le_refl _)) h

theorem instSize_pos (i : Inst) : 1 ≤ instSize i := by cases i <;> simp [instSize]

/-- What the messages `removeAll:` and `sort` to a vector may take besides. -/
def instExtra [Library] (name : Str) : Inst → Nat
  | .vector _ l => vecExtra name l
  | _ => 0

theorem wrap_bounded {f : σ → Inst} {x : Counted (Run σ)} {X : Nat} (h : Bounded X x) : Bounded X (wrap f x) := by
  obtain ⟨x, w⟩ := x
  cases x <;> exact h

theorem room_mono {S A S' A' : Nat} (hS : S ≤ S') (hA : A ≤ A') : room S A ≤ room S' A' := by
  have := Nat.mul_le_mul hS hA
  unfold room; omega

theorem total_fst (l : List (Obj × Obj)) : total (l.map (·.1)) ≤ pairsSize l := by
  induction l with
  | nil => exact Nat.zero_le _
  | cons p l ih => simp only [total, pairsSize, List.map_cons, List.sum_cons] at *; omega

theorem pair_snd {l : List (Obj × Obj)} : ∀ p ∈ l, size p.2 ≤ pairsSize l := by
  intro p hp
  have : size p.1 + size p.2 ≤ pairsSize l := List.le_sum_of_mem (List.mem_map_of_mem (f := fun p : Obj × Obj => size p.1 + size p.2) hp)
  omega

theorem search_room [Library] {l : List Obj} {k : Obj} {S A : Nat} (hS : total l + 1 ≤ S) (hA : size k ≤ A) :
    searching l k ≤ Library.factor * (S * A + S) := by
  refine Nat.le_trans (searching_le l k) ?_
  have h1 : Nat.log2 l.length + 1 ≤ S := by
    have := Nat.log2_le_self l.length
    have := length_total l
    omega
  have h2 := Nat.mul_le_mul h1 hA
  have h3 := Nat.mul_le_mul_left Library.factor (Nat.add_le_add h2 (by omega : total l ≤ S))
  rw [Nat.mul_assoc, ← Nat.mul_add]
  exact Nat.le_trans (by rw [Nat.add_comm]) h3

theorem receive_bounded [StdSort] [Library] (cfg : Cfg) (i : Inst) (name : Str) (args : List Str) :
    Bounded (31 * (name.length + 1) + (Library.factor + 1) * room (instSize i) (argsSize args) + instExtra name i)
      (receive cfg i name args) := by
  have hmul : ∀ r, (Library.factor + 1) * r = Library.factor * r + r := fun r => Nat.succ_mul _ _
  have key : ∀ i : Inst, ∀ x, Bounded (31 * (name.length + 1) + (Library.factor + 1) * room (instSize i) (argsSize args) + 0)
      (simple i name args x) := by
    intro i x
    have e : (args.map fun a => a.length + 1).sum = argsSize args := rfl
    rw [hmul]
    simp only [Bounded, simple, room, e]
    omega
  cases i with
  | vector et l =>
    refine wrap_bounded ((dispatch_bounded (vectorTable_bounded cfg et l name args)).mono ?_)
    have h1 : room (total l) (argsSize args) ≤ room (instSize (.vector et l)) (argsSize args) :=
      room_mono (Nat.le_succ _) (Nat.le_refl _)
    have h2 : (vectorTable cfg et l).length = 31 := rfl
    rw [h2, hmul]
    simp only [instExtra]
    omega
  | set et l =>
    refine wrap_bounded ((dispatch_bounded (setTable_bounded cfg et l name args
      (fun o ho => search_room (S := instSize (.set et l)) (Nat.le_refl _) ho))).mono ?_)
    have h2 : (setTable cfg et l).length = 7 := rfl
    have h3 : setExtra name l ≤ instSize (.set et l) := by
      unfold setExtra
      split
      · exact Nat.le_succ _
      · exact Nat.zero_le _
    rw [h2, hmul]
    have h4 := Nat.mul_le_mul_left Library.factor
      (show instSize (.set et l) * argsSize args + instSize (.set et l) ≤ room (instSize (.set et l)) (argsSize args) by unfold room; omega)
    simp only [instExtra]
    unfold room at *
    omega
  | dictionary kt vt l =>
    refine wrap_bounded ((dispatch_bounded (dictTable_bounded cfg kt vt l name args
      (fun o ho => search_room (S := instSize (.dictionary kt vt l)) (Nat.succ_le_succ (total_fst l)) ho) pair_snd)).mono ?_)
    have h2 : (dictTable cfg kt vt l).length = 10 := rfl
    have h3 : dictExtra name l ≤ pairsSize l := by
      unfold dictExtra
      split
      · exact Nat.le_refl _
      · exact Nat.zero_le _
    have h5 : instSize (.dictionary kt vt l) = pairsSize l + 1 := rfl
    rw [h2, hmul]
    have h4 := Nat.mul_le_mul_left Library.factor
      (show instSize (.dictionary kt vt l) * argsSize args + instSize (.dictionary kt vt l) ≤
        room (instSize (.dictionary kt vt l)) (argsSize args) by unfold room; omega)
    simp only [instExtra]
    unfold room at *
    omega
  | boolean v => exact key _ _
  | character v => exact key _ _
  | integer v => exact key _ _
  | float v => exact key _ _
  | string v => exact key _ _

/-! ### The context -/

/-- The bytes of the names and values of a list of variables, and one for each object. -/
def varsSize (vars : List (Str × Inst)) : Nat := (vars.map fun v => v.1.length + 1 + instSize v.2).sum

theorem vars_length (vars : List (Str × Inst)) : 2 * vars.length ≤ varsSize vars := by
  induction vars with
  | nil => exact Nat.zero_le _
  | cons v vs ih =>
    have := instSize_pos v.2
    simp only [varsSize, List.map_cons, List.sum_cons, List.length_cons] at *
    omega

theorem vars_mem {vars : List (Str × Inst)} {v : Str × Inst} (h : v ∈ vars) : v.1.length + 1 + instSize v.2 ≤ varsSize vars :=
  List.le_sum_of_mem (List.mem_map_of_mem (f := fun v : Str × Inst => v.1.length + 1 + instSize v.2) h)

theorem vars_sum {vars : List (Str × Inst)} {f : Str × Inst → Nat} (h : ∀ v ∈ vars, f v ≤ v.1.length + 1 + instSize v.2) :
    (vars.map f).sum ≤ varsSize vars := List.sum_le_sum h

theorem namespacesOf_length (s : Str) : ∀ pre, (namespacesOf pre s).length ≤ s.length := by
  induction s with
  | nil => intro pre; exact Nat.zero_le _
  | cons c cs ih =>
    intro pre
    cases cs with
    | nil => exact Nat.zero_le _
    | cons d ds =>
      have := ih (pre ++ [c])
      simp only [namespacesOf]
      split
      · simp only [List.length_cons] at *; omega
      · simp only [List.length_cons] at *; omega

theorem namespacesOf_each (s : Str) : ∀ pre, ∀ n ∈ namespacesOf pre s, n.length ≤ pre.length + s.length := by
  induction s with
  | nil => intro pre n h; cases h
  | cons c cs ih =>
    intro pre n h
    cases cs with
    | nil => cases h
    | cons d ds =>
      simp only [namespacesOf] at h
      split at h
      · rcases List.mem_cons.1 h with h | h
        · subst h; omega
        · have := ih _ _ h; simp only [List.length_append, List.length_cons, List.length_nil] at *; omega
      · have := ih _ _ h; simp only [List.length_append, List.length_cons, List.length_nil] at *; omega

theorem setInsert_length {κ : Type} (lt : κ → κ → Bool) (k : κ) (l : List κ) : (setInsert lt k l).length ≤ l.length + 1 := by
  induction l with
  | nil => simp [setInsert]
  | cons x xs ih =>
    simp only [setInsert]
    split
    · simp only [List.length_cons]; omega
    · split <;> simp only [List.length_cons] <;> omega

theorem insertAll_bound [Library] {B M : Nat} (ns : List Str) (hB : ∀ n ∈ ns, n.length + 1 ≤ B) : ∀ x : Counted (List Str),
    x.1.length + ns.length ≤ M →
    (insertAll ns x).1.length ≤ x.1.length + ns.length ∧
    (insertAll ns x).2 ≤ x.2 + ns.length * (B + Library.factor * (Nat.log2 M + 1) * B) := by
  induction ns with
  | nil => intro x _; simp [insertAll]
  | cons n ns ih =>
    intro x hM
    simp only [List.length_cons] at hM
    have h1 := setInsert_length strLt n x.1
    obtain ⟨ha, hb⟩ := ih (fun m hm => hB m (List.mem_cons_of_mem _ hm)) (setInsert strLt n x.1, x.2 + n.length + 1 + searchingNames x.1 n)
      (by simp only; omega)
    have h2 := hB n (by simp)
    have h3 : searchingNames x.1 n ≤ Library.factor * (Nat.log2 M + 1) * B := by
      refine Nat.le_trans (searchingNames_le _ _) (Nat.mul_le_mul (Nat.mul_le_mul_left _ ?_) h2)
      exact Nat.succ_le_succ (log2_mono (by omega))
    simp only [insertAll, List.length_cons, Nat.succ_mul] at *
    constructor
    · omega
    · omega

/-- What `listNamespaces` may take: each prefix of each name is copied and inserted. -/
theorem allNamespaces_bound [Library] {B M : Nat} (vars : List (Str × Inst)) (hB : ∀ v ∈ vars, v.1.length + 1 ≤ B) :
    ∀ x : Counted (List Str), x.1.length + (vars.map fun v => v.1.length).sum ≤ M →
    let y := vars.foldl (fun x v => insertAll (namespacesOf [] v.1) (x.1, x.2 + v.1.length + 1)) x
    y.1.length ≤ x.1.length + (vars.map fun v => v.1.length).sum ∧
    y.2 ≤ x.2 + (vars.map fun v => v.1.length + 1).sum +
      (vars.map fun v => v.1.length).sum * (B + Library.factor * (Nat.log2 M + 1) * B) := by
  induction vars with
  | nil => intro x _; simp
  | cons v vs ih =>
    intro x hM
    simp only [List.map_cons, List.sum_cons, List.foldl_cons] at *
    have hl := namespacesOf_length v.1 []
    have he := namespacesOf_each v.1 []
    have hv := hB v (by simp)
    obtain ⟨h1, h2⟩ := insertAll_bound (B := B) (M := M) (namespacesOf [] v.1)
      (fun n hn => by have := he n hn; simp only [List.length_nil] at this; omega) (x.1, x.2 + v.1.length + 1) (by simp only; omega)
    simp only at h1 h2
    obtain ⟨h3, h4⟩ := ih (fun w hw => hB w (List.mem_cons_of_mem _ hw))
      (insertAll (namespacesOf [] v.1) (x.1, x.2 + v.1.length + 1)) (by omega)
    refine ⟨by omega, ?_⟩
    have h5 := Nat.mul_le_mul_right (B + Library.factor * (Nat.log2 M + 1) * B) hl
    rw [Nat.add_mul]
    omega

/-- What `listNamespaces` may take besides. -/
def ctxExtra [Library] (name : Str) (vars : List (Str × Inst)) : Nat :=
  if name = b!"listNamespaces" then
    varsSize vars * (varsSize vars + Library.factor * (Nat.log2 (varsSize vars) + 1) * varsSize vars)
  else 0

theorem contextTable_bounded [Library] (c : Ctx) (name : Str) (args : List Str) :
    ∀ r ∈ contextTable c, name = r.1 → Bounded (room (varsSize c.vars) (argsSize args) + ctxExtra name c.vars) (r.2 args) := by
  have hn := vars_length c.vars
  have hset : ∀ x, Bounded (room (varsSize c.vars) (argsSize args) + ctxExtra name c.vars) (setting args x) := by
    intro x
    have e : (args.map fun a => a.length + 1).sum = argsSize args := rfl
    simp only [Bounded, setting, room, e]
    omega
  have hpre : ∀ a : Str, (c.vars.map fun v => a.length + 3 + compareNames v.1 (a ++ b!"::")).sum ≤
      c.vars.length * (a.length + 3) + varsSize c.vars := by
    intro a
    rw [List.sum_map_add]
    refine Nat.add_le_add (sum_le_mul' _ _ fun _ _ => Nat.le_refl _) (vars_sum fun v _ => ?_)
    unfold compareNames; omega
  simp only [contextTable, List.forall_mem_cons]
  refine ⟨?_, ?_, ?_, ?_, ?_, fun _ => hset _, fun _ => hset _, fun _ => hset _, fun _ => hset _, ?_⟩
  · intro hname
    obtain ⟨h1, h2⟩ := allNamespaces_bound (B := varsSize c.vars) (M := varsSize c.vars) c.vars
      (fun v hv => by have := vars_mem hv; omega) ([], 0) (by
        simp only [List.length_nil, Nat.zero_add]; exact vars_sum fun v _ => by omega)
    have h3 : (c.vars.map fun v => v.1.length).sum ≤ varsSize c.vars := vars_sum fun v _ => by omega
    have h4 : (c.vars.map fun v => v.1.length + 1).sum ≤ varsSize c.vars := vars_sum fun v _ => by omega
    have h5 := Nat.mul_le_mul_right (varsSize c.vars + Library.factor * (Nat.log2 (varsSize c.vars) + 1) * varsSize c.vars) h3
    have e1 : (allNamespaces c.vars).1.length ≤ varsSize c.vars := by
      refine Nat.le_trans h1 ?_; simp only [List.length_nil]; omega
    have e2 : (allNamespaces c.vars).2 ≤ varsSize c.vars + ctxExtra name c.vars := by
      refine Nat.le_trans h2 ?_
      simp only [ctxExtra, hname, if_true]; omega
    refine op0_bounded ((within_bind (spend_steps_le _) fun _ _ => within_bind (spend_steps_le _) fun _ _ => within_answer _ _).mono ?_) _
    unfold room; omega
  · intro _
    exact op0_bounded ((within_bind (spend_steps_le _) fun _ _ => within_answer _ _).mono (by unfold room; omega)) _
  · intro _; refine op1_bounded fun a ha => ?_
    subst ha; rw [args1]
    refine (within_bind (spend_steps_le _) (B := c.vars.length * (a.length + 3) + varsSize c.vars) fun _ _ =>
      within_ite (fun _ => (within_free _).mono (Nat.zero_le _)) fun _ =>
      (within_bind (Nat.le_trans (spend_steps_le _) (hpre a)) fun _ _ => within_answer _ _).mono (Nat.le_refl _)).mono ?_
    have := prod_le (by omega : c.vars.length ≤ varsSize c.vars) (Nat.le_refl (a.length + 1))
    have e : c.vars.length * (a.length + 3) = c.vars.length * (a.length + 1) + c.vars.length * 2 := by ring
    unfold room; omega
  · intro _; refine op1_bounded fun a ha => ?_
    subst ha; rw [args1]
    refine (within_bind (spend_steps_le _) (B := 2 * varsSize c.vars) fun _ _ =>
      within_ite (fun _ => (within_free _).mono (Nat.zero_le _)) fun _ =>
      (within_bind (A := varsSize c.vars) (B := varsSize c.vars) (Nat.le_trans (spend_steps_le _) ?_) fun _ _ => ?_).mono (by omega)).mono
      (by unfold room; omega)
    · exact vars_sum fun v _ => by unfold compareNames; omega
    · cases he : eraseName a c.vars with
      | none => exact (within_free _).mono (Nat.zero_le _)
      | some vs =>
        refine (within_bind (A := varsSize c.vars) (Nat.le_trans (spend_steps_le _) ?_) fun _ _ => within_answer _ _).mono (Nat.le_refl _)
        cases hl : c.vars.lookup a with
        | none => exact Nat.zero_le _
        | some i =>
          have : a.length + 1 + instSize i ≤ varsSize c.vars := vars_mem (mem_of_lookup hl)
          simp only [Option.map_some, Option.getD_some]
          omega
  · intro _; refine op1_bounded fun a ha => ?_
    subst ha; rw [args1]
    have hf : ((c.vars.filter fun v => startsWith v.1 (a ++ b!"::")).map fun v => 2 + v.1.length + instSize v.2).sum ≤
        varsSize c.vars + c.vars.length := by
      have h1 : ((c.vars.filter fun v => startsWith v.1 (a ++ b!"::")).map fun v => 2 + v.1.length + instSize v.2).sum ≤
          (c.vars.map fun v => 2 + v.1.length + instSize v.2).sum := by
        exact (List.filter_sublist.map _).sum_le_sum (by simp)
      have h2 : (c.vars.map fun v => 2 + v.1.length + instSize v.2).sum = varsSize c.vars + c.vars.length := by
        clear * -
        induction c.vars with
        | nil => rfl
        | cons v vs ih => simp only [varsSize, List.map_cons, List.sum_cons, List.length_cons] at *; omega
      omega
    refine (within_bind (spend_steps_le _) (B := c.vars.length * (a.length + 3) + varsSize c.vars + (varsSize c.vars + c.vars.length))
      fun _ _ => within_ite (fun _ => (within_free _).mono (Nat.zero_le _)) fun _ =>
      (within_bind (Nat.le_trans (spend_steps_le _) (hpre a)) fun _ _ =>
        within_bind (Nat.le_trans (spend_steps_le _) hf) fun _ _ => within_answer _ _).mono (by omega)).mono ?_
    have := prod_le (by omega : c.vars.length ≤ varsSize c.vars) (Nat.le_refl (a.length + 1))
    have e : c.vars.length * (a.length + 3) = c.vars.length * (a.length + 1) + c.vars.length * 2 := by ring
    unfold room; omega
  · intro r hr; cases hr

open Spec

theorem creates_mem {a name n : Str} {args : List Str} {i : Inst} (h : Creates a name args n i) : n ∈ args := by
  cases h <;> simp

theorem made_mem {actor name n : Str} {args : List Str} {i : Inst} (ht : isType actor = true)
    (h : makeInstance actor name args = .ok (some (n, i))) : n ∈ args := by
  rcases makeInstance_cases actor name args ((isType_iff actor).1 ht) with ⟨_, e⟩ | ⟨ks, _, ⟨_, e⟩ | ⟨_, _, e⟩ | ⟨_, _, e⟩ | ⟨_, _, n', i', hc, e⟩⟩
  · rw [e] at h; cases h
  · rw [e] at h; cases h
  · rw [e] at h; cases h
  · rw [e] at h; cases h
  · rw [e] at h
    cases h
    exact creates_mem hc

theorem arg_size {n : Str} {args : List Str} (h : n ∈ args) : n.length + 1 ≤ argsSize args :=
  List.le_sum_of_mem (List.mem_map_of_mem (f := fun a : Str => a.length + 1) h)

theorem executeInType_bounded [Library] (c : Ctx) (p : Parsed) (ht : isType p.actor = true) :
    Bounded (p.actor.length + 1 + p.name.length + 1 + 2 * argsSize p.args +
      2 * (Library.factor * (Nat.log2 c.vars.length + 1) * argsSize p.args)) (executeInType c p) := by
  have e : (p.args.map fun a => a.length + 1).sum = argsSize p.args := rfl
  simp only [executeInType, e]
  cases h : makeInstance p.actor p.name p.args with
  | ok o =>
    cases o with
    | none => simp only [Bounded]; omega
    | some m =>
      obtain ⟨n, i⟩ := m
      have h1 := arg_size (made_mem ht h)
      have h2 : searchingNames (c.vars.map (·.1)) n ≤ Library.factor * (Nat.log2 c.vars.length + 1) * argsSize p.args := by
        refine Nat.le_trans (searchingNames_le _ _) ?_
        rw [List.length_map]
        exact Nat.mul_le_mul_left _ h1
      simp only
      cases mapFind strLt n c.vars with
      | none =>
        simp only [Bounded, replyLength, List.length_cons, List.length_nil]
        omega
      | some j =>
        simp only
        split <;> simp only [Bounded, replyLength, List.length_cons, List.length_nil] <;> omega
  | err e => simp only [Bounded]; omega
  | ub => simp only [Bounded]; omega

/-- What `removeAll:` and `sort` to a vector and `listNamespaces` may take besides. -/
def extra [Library] (name : Str) (W : Nat) : Nat :=
  if name = b!"removeAll:" then W * W
  else if name = b!"sort" then Library.factor * (W * (Nat.log2 W + 1)) * (2 * W + 1)
  else if name = b!"listNamespaces" then W * (W + Library.factor * (Nat.log2 W + 1) * W)
  else 0

theorem instExtra_le [Library] (name : Str) (i : Inst) {W : Nat} (h : instSize i ≤ W) : instExtra name i ≤ extra name W := by
  cases i with
  | vector et l =>
    have h1 : total l + 1 ≤ W := h
    have h2 := length_total l
    have h3 : l.length ≤ W := by omega
    simp only [instExtra, vecExtra, extra]
    split
    · exact Nat.mul_le_mul h3 h3
    · split
      · refine Nat.le_trans (sortingSteps_le l (B := W) fun x hx => by have := size_mem hx; omega) ?_
        refine Nat.mul_le_mul_right _ (Nat.mul_le_mul_left _ (Nat.mul_le_mul h3 (Nat.succ_le_succ (log2_mono h3))))
      · exact Nat.zero_le _
  | _ => exact Nat.zero_le _

theorem ctxExtra_le [Library] (name : Str) (vars : List (Str × Inst)) : ctxExtra name vars ≤ extra name (varsSize vars) := by
  unfold ctxExtra extra
  split
  · rename_i h
    subst h
    rw [if_neg (by decide), if_neg (by decide)]
  · exact Nat.zero_le _

theorem executeInVariable_bounded [StdSort] [Library] (c : Ctx) (p : Parsed) :
    Bounded (Library.factor * (Nat.log2 c.vars.length + 1) * (p.actor.length + 1) + 31 * (p.name.length + 1) +
      (Library.factor + 1) * room (varsSize c.vars) (argsSize p.args) + extra p.name (varsSize c.vars)) (executeInVariable c p) := by
  have h2 : searchingNames (c.vars.map (·.1)) p.actor ≤ Library.factor * (Nat.log2 c.vars.length + 1) * (p.actor.length + 1) := by
    refine Nat.le_trans (searchingNames_le _ _) ?_
    rw [List.length_map]
  unfold executeInVariable
  cases hm : mapFind strLt p.actor c.vars with
  | none => simp only [Bounded]; omega
  | some i =>
    obtain ⟨v, hv, e⟩ := mapFind_mem hm
    have h3 := vars_mem hv
    rw [e] at h3
    have h4 := receive_bounded c.cfg i p.name p.args
    have h5 := instExtra_le p.name i (W := varsSize c.vars) (by omega)
    have h6 := Nat.mul_le_mul_left (Library.factor + 1) (room_mono (S := instSize i) (S' := varsSize c.vars) (by omega)
      (Nat.le_refl (argsSize p.args)))
    have h7 := h4.mono (Nat.add_le_add (Nat.add_le_add_left h6 _) h5)
    simp only [Bounded] at h7 ⊢
    revert h7
    rcases receive c.cfg i p.name p.args with ⟨_ | _ | _, w⟩ <;> simp only [replyLength] <;> intro h7 <;> omega

theorem room_le {W T : Nat} (hT : 1 ≤ T) : room W T ≤ 8 * ((W + 1) * T) := by
  have h1 : W ≤ W * T := Nat.le_mul_of_pos_right W hT
  have e : (W + 1) * T = W * T + T := Nat.succ_mul _ _
  unfold room
  omega

theorem executeParsed_bounded [StdSort] [Library] (pwd : Str) (c : Ctx) (s : Option Session) (p : Parsed) {T : Nat}
    (hT : p.actor.length + 1 + p.name.length + 1 + argsSize p.args ≤ T) :
    Bounded (48 * ((Library.factor + 1) * ((varsSize c.vars + 1) * T)) + extra p.name (varsSize c.vars)) (executeParsed pwd c s p) := by
  have hf : (Library.factor + 1) * ((varsSize c.vars + 1) * T) =
      Library.factor * ((varsSize c.vars + 1) * T) + (varsSize c.vars + 1) * T := Nat.succ_mul _ _
  have hP : T ≤ (varsSize c.vars + 1) * T := Nat.le_mul_of_pos_left T (Nat.succ_pos _)
  have hlog : Nat.log2 c.vars.length + 1 ≤ varsSize c.vars + 1 := by
    have := Nat.log2_le_self c.vars.length
    have := vars_length c.vars
    omega
  have hsearch : ∀ z, z ≤ T → Library.factor * (Nat.log2 c.vars.length + 1) * z ≤ Library.factor * ((varsSize c.vars + 1) * T) := by
    intro z hz
    rw [Nat.mul_assoc]
    exact Nat.mul_le_mul_left _ (Nat.mul_le_mul hlog hz)
  have hroom : room (varsSize c.vars) (argsSize p.args) ≤ 8 * ((varsSize c.vars + 1) * T) :=
    Nat.le_trans (room_mono (Nat.le_refl _) (by omega)) (room_le (by omega))
  have hroom' : (Library.factor + 1) * room (varsSize c.vars) (argsSize p.args) ≤
      8 * (Library.factor * ((varsSize c.vars + 1) * T)) + 8 * ((varsSize c.vars + 1) * T) := by
    refine Nat.le_trans (Nat.mul_le_mul_left _ hroom) ?_
    rw [Nat.mul_left_comm, hf]
    omega
  by_cases h1 : isType p.actor = true
  · have hb := executeInType_bounded c p h1
    have hs := hsearch (argsSize p.args) (by omega)
    simp only [executeParsed, h1, if_true]
    revert hb
    rcases executeInType c p with ⟨_ | _ | _, w⟩ <;> simp only [Bounded, replyLength] <;> intro hb <;> omega
  by_cases h2 : isContext p.actor = true
  · have hb := (dispatch_bounded (old := c) (contextTable_bounded c p.name p.args)).mono
      (Nat.add_le_add_left (Nat.add_le_add_left (ctxExtra_le p.name c.vars) _) _)
    have hl : (contextTable c).length = 9 := rfl
    rw [hl] at hb
    simp only [executeParsed, h1, h2, if_true]
    revert hb
    rcases dispatch c (contextTable c) p.name p.args with ⟨_ | _ | _, w⟩ <;> simp only [Bounded, replyLength] <;> intro hb <;>
      simp only [Bool.false_eq_true, if_false] <;> omega
  by_cases h3 : isVariable p.actor = true
  · have hb := executeInVariable_bounded c p
    have hs := hsearch (p.actor.length + 1) (by omega)
    simp only [executeParsed, h1, h2, h3, if_true]
    revert hb
    rcases executeInVariable c p with ⟨_ | _ | _, w⟩ <;> simp only [Bounded, replyLength] <;> intro hb <;>
      simp only [Bool.false_eq_true, if_false] <;> omega
  · have e : (p.args.map fun a => a.length + 1).sum = argsSize p.args := rfl
    simp only [executeParsed, h1, h2, h3, e, Bool.false_eq_true, if_false, Bounded]
    omega

/-! ### Requests -/

theorem keyword_sizes {text name : Str} {args : List Str} (h : KeywordMessage text name args) :
    name.length + argsSize args ≤ text.length + 1 := by
  induction h with
  | one _ _ _ => simp only [args1, List.length_append]; omega
  | more _ _ _ _ _ _ ih =>
    simp only [argsSize, List.map_cons, List.sum_cons, List.length_append, List.length_cons] at *
    omega

theorem statement_sizes {text a name : Str} {args : List Str} (h : Statement text a name args) :
    a.length + 1 + name.length + 1 + argsSize args ≤ text.length + 1 := by
  obtain ⟨w₁, c, w₂, msg, w₃, w₄, rfl, -, -, -, -, hm, -, -⟩ := h
  have : name.length + argsSize args ≤ msg.length + 1 := by
    rcases hm with ⟨_, rfl, rfl⟩ | hm
    · exact Nat.le_succ _
    · exact keyword_sizes hm
  simp only [List.length_append, List.length_cons, List.length_nil]
  omega

theorem execute_bounded [StdSort] [Library] {pwd : Str} {c c' : Ctx} {s s' : Option Session} {text a name r : Str} {args : List Str}
    (hs : Statement text a name args) (he : Knuckle.execute pwd c s text = .done (c', s', r)) :
    (execute pwd c s text).2 ≤ (parseC text).2 + 50 * ((Library.factor + 1) * ((varsSize c.vars + 1) * (text.length + 1))) +
      extra name (varsSize c.vars) + 3 * (r.length + 1) := by
  have hp := (parse_iff text ⟨a, name, args⟩).2 hs
  have hb := executeParsed_bounded pwd c s ⟨a, name, args⟩ (statement_sizes hs)
  have hP : text.length + 1 ≤ (Library.factor + 1) * ((varsSize c.vars + 1) * (text.length + 1)) :=
    Nat.le_trans (Nat.le_mul_of_pos_left _ (Nat.succ_pos _)) (Nat.le_mul_of_pos_left _ (Nat.succ_pos _))
  rw [← execute_fst] at he
  have hp' : (parseC text).1 = .ok ⟨a, name, args⟩ := by rw [parseC_fst]; exact hp
  simp only [execute, hp'] at he ⊢
  revert hb he
  rcases executeParsed pwd c s ⟨a, name, args⟩ with ⟨⟨c₁, s₁⟩ | ⟨c₁, s₁⟩ | _, w⟩
  · intro hb he
    simp only [Bounded, replyLength] at hb
    simp only [Outcome.done.injEq, Prod.mk.injEq] at he
    obtain ⟨-, -, rfl⟩ := he
    simp only
    omega
  · intro hb he
    simp only [Bounded, replyLength] at hb
    simp only [Outcome.done.injEq, Prod.mk.injEq] at he
    obtain ⟨-, -, rfl⟩ := he
    simp only
    omega
  · intro hb he; cases he

theorem execute_refused [StdSort] [Library] {pwd : Str} {c c' : Ctx} {s s' : Option Session} {text r : Str}
    (hs : ¬ ∃ a name args, Statement text a name args) (he : Knuckle.execute pwd c s text = .done (c', s', r)) :
    (execute pwd c s text).2 ≤ (parseC text).2 + 2 * (text.length + 1) + 2 * (r.length + 1) := by
  rw [← execute_fst] at he
  simp only [execute] at he ⊢
  cases h : (parseC text).1 with
  | ok p => rw [parseC_fst] at h; exact absurd ⟨_, _, _, (parse_iff text p).1 h⟩ hs
  | err e =>
    rw [h] at he
    simp only [Outcome.done.injEq, Prod.mk.injEq] at he
    obtain ⟨-, -, rfl⟩ := he
    simp only
    omega
  | ub => rw [h] at he; cases he

/-! ### In terms of what is stored -/

theorem total_texts (l : List Obj) : total l = l.length + ((l.map textOf).map List.length).sum := by
  induction l with
  | nil => rfl
  | cons x xs ih =>
    rw [total_cons, ih]
    cases x <;> simp [size, textOf] <;> omega

theorem pairs_texts (l : List (Obj × Obj)) :
    pairsSize l = 2 * l.length + ((l.map fun p => textOf p.1).map List.length).sum + ((l.map fun p => textOf p.2).map List.length).sum := by
  induction l with
  | nil => rfl
  | cons p l ih =>
    obtain ⟨x, y⟩ := p
    simp only [pairsSize, List.map_cons, List.sum_cons, List.length_cons] at *
    rw [ih]
    cases x <;> cases y <;> simp [size, textOf] <;> omega

theorem instSize_texts (i : Inst) : instSize i ≤ 2 * cellsOf i + ((textsOf i).map List.length).sum := by
  cases i with
  | vector t l => have := total_texts l; simp only [instSize, cellsOf, textsOf, sum_sizes] at *; omega
  | set t l => have := total_texts l; simp only [instSize, cellsOf, textsOf, sum_sizes] at *; omega
  | dictionary t u l =>
    have := pairs_texts l; simp only [instSize, cellsOf, textsOf, List.map_append, List.sum_append] at *; omega
  | string v => simp [instSize, cellsOf, textsOf]; omega
  | _ => simp [instSize, cellsOf, textsOf]

theorem varsSize_le (c : Ctx) : varsSize c.vars ≤ 3 * cells c + storedBytes c := by
  unfold cells storedBytes texts varsSize
  induction c.vars with
  | nil => exact Nat.zero_le _
  | cons v vs ih =>
    have h1 := instSize_texts v.2
    have h2 : 1 ≤ cellsOf v.2 := by cases v.2 <;> simp [cellsOf]
    simp only [List.map_cons, List.sum_cons, List.flatMap_cons, List.map_append, List.sum_append, List.cons_append] at *
    omega

theorem extra_mono [Library] (name : Str) {W V : Nat} (h : W ≤ V) : extra name W ≤ extra name V := by
  unfold extra
  have hl := Nat.succ_le_succ (log2_mono h)
  split
  · exact Nat.mul_le_mul h h
  · split
    · exact Nat.mul_le_mul (Nat.mul_le_mul_left _ (Nat.mul_le_mul h hl)) (by omega)
    · split
      · exact Nat.mul_le_mul h (Nat.add_le_add h (Nat.mul_le_mul (Nat.mul_le_mul_left _ hl) h))
      · exact Nat.zero_le _

/-! ### Messages to variables -/

theorem execute_variable [StdSort] [Library] {pwd : Str} {c c' : Ctx} {s s' : Option Session} {text n name r : Str} {args : List Str}
    {i : Inst} (hc : Inv c) (hn : Holds c n i) (hs : Statement text n name args)
    (he : Knuckle.execute pwd c s text = .done (c', s', r)) :
    (execute pwd c s text).2 = (parseC text).2 + (4 * (n.length + 1) + (searchingNames (c.vars.map (·.1)) n + (receive c.cfg i name args).2)) +
      2 * (text.length + 1) + 2 * (r.length + 1) ∧
    ∀ i' r', (receive c.cfg i name args).1 = .ret i' r' → r' = r := by
  have hv : isVariable n = true := (isVariable_iff n).2 (hc.vars _ (lookup_some_mem hn)).1
  have hx := (variable_not_special _ hv).2
  have ht : isType n = false := by
    cases h : isType n
    · rfl
    · rw [isType_not_variable n h] at hv; cases hv
  have hp' : (parseC text).1 = .ok ⟨n, name, args⟩ := by rw [parseC_fst]; exact (parse_iff text ⟨n, name, args⟩).2 hs
  have hm : mapFind strLt n c.vars = some i := by rw [hc.find]; exact hn
  rw [← execute_fst] at he
  simp only [execute, hp', executeParsed, ht, hx, hv, executeInVariable, hm, if_true, if_false, Bool.false_eq_true] at he ⊢
  revert he
  rcases receive c.cfg i name args with ⟨⟨i', r'⟩ | ⟨i', e⟩ | _, w⟩
  · intro he
    simp only [Outcome.done.injEq, Prod.mk.injEq] at he
    obtain ⟨-, -, rfl⟩ := he
    refine ⟨rfl, fun _ _ h => by cases h; rfl⟩
  · intro he
    simp only [Outcome.done.injEq, Prod.mk.injEq] at he
    obtain ⟨-, -, rfl⟩ := he
    exact ⟨rfl, fun _ _ h => by cases h⟩
  · intro he; cases he

theorem reply_le {x : Run Inst} {r : Str} (h : ∀ i' r', x = .ret i' r' → r' = r) : replyLength x ≤ r.length := by
  cases x with
  | ret i' r' => rw [h i' r' rfl]; exact Nat.le_refl _
  | thr => exact Nat.zero_le _
  | ub => exact Nat.zero_le _

theorem size_text (o : Obj) : size o = (textOf o).length + 1 := by cases o <;> rfl

theorem set_search [StdSort] [Library] {pwd : Str} {c c' : Ctx} {s s' : Option Session} {text n name r t : Str} {args : List Str}
    {l : List Obj} {B : Nat} (hc : Inv c) (hn : Holds c n (.set t l)) (hs : Statement text n name args)
    (hname : name ≠ b!"get" ∧ name ≠ b!"clear") (hB : ∀ x ∈ l, size x ≤ B)
    (he : Knuckle.execute pwd c s text = .done (c', s', r)) :
    (execute pwd c s text).2 ≤ (parseC text).2 + Library.factor * (Nat.log2 c.vars.length + 1) * (text.length + 1) +
      Library.factor * (Nat.log2 l.length + 1) * (B + (text.length + 1)) + 20 * (text.length + 1) + 3 * (r.length + 1) := by
  obtain ⟨h1, h2⟩ := execute_variable hc hn hs he
  have hsz := statement_sizes hs
  have hr := reply_le h2
  have h3 : Bounded _ (receive c.cfg (.set t l) name args) := wrap_bounded (dispatch_bounded (setTable_bounded c.cfg t l name args
    (Q := Library.factor * (Nat.log2 l.length + 1) * (B + argsSize args))
    (fun o ho => Nat.le_trans (searching_short l o hB) (Nat.mul_le_mul_left _ (Nat.add_le_add_left ho _)))))
  have h4 : (setTable c.cfg t l).length = 7 := rfl
  have h5 : setExtra name l = 0 := by simp [setExtra, hname.1, hname.2]
  have h6 := searchingNames_le (c.vars.map (·.1)) n
  rw [List.length_map] at h6
  have h7 := Nat.mul_le_mul_left (Library.factor * (Nat.log2 c.vars.length + 1)) (by omega : n.length + 1 ≤ text.length + 1)
  have h8 := Nat.mul_le_mul_left (Library.factor * (Nat.log2 l.length + 1)) (by omega : B + argsSize args ≤ B + (text.length + 1))
  unfold Bounded at h3
  rw [h4, h5] at h3
  rw [h1]
  omega

theorem dict_search [StdSort] [Library] {pwd : Str} {c c' : Ctx} {s s' : Option Session} {text n name r t u : Str} {args : List Str}
    {l : List (Obj × Obj)} {B V : Nat} (hc : Inv c) (hn : Holds c n (.dictionary t u l)) (hs : Statement text n name args)
    (hname : name ≠ b!"get" ∧ name ≠ b!"keys" ∧ name ≠ b!"values" ∧ name ≠ b!"clear") (hB : ∀ x ∈ l, size x.1 ≤ B)
    (hV : ∀ x ∈ l, size x.2 ≤ V) (he : Knuckle.execute pwd c s text = .done (c', s', r)) :
    (execute pwd c s text).2 ≤ (parseC text).2 + Library.factor * (Nat.log2 c.vars.length + 1) * (text.length + 1) +
      Library.factor * (Nat.log2 l.length + 1) * (B + (text.length + 1)) + V + 20 * (text.length + 1) + 3 * (r.length + 1) := by
  obtain ⟨h1, h2⟩ := execute_variable hc hn hs he
  have hsz := statement_sizes hs
  have hr := reply_le h2
  have hB' : ∀ x ∈ l.map (·.1), size x ≤ B := by
    intro x hx
    obtain ⟨p, hp, rfl⟩ := List.mem_map.1 hx
    exact hB p hp
  have h3 : Bounded _ (receive c.cfg (.dictionary t u l) name args) := wrap_bounded (dispatch_bounded (dictTable_bounded c.cfg t u l name args
    (Q := Library.factor * (Nat.log2 l.length + 1) * (B + argsSize args))
    (fun o ho => by
      have := searching_short (l.map (·.1)) o hB'
      rw [List.length_map] at this
      exact Nat.le_trans this (Nat.mul_le_mul_left _ (Nat.add_le_add_left ho _))) hV))
  have h4 : (dictTable c.cfg t u l).length = 10 := rfl
  have h5 : dictExtra name l = 0 := by simp [dictExtra, hname.1, hname.2.1, hname.2.2.1, hname.2.2.2]
  have h6 := searchingNames_le (c.vars.map (·.1)) n
  rw [List.length_map] at h6
  have h7 := Nat.mul_le_mul_left (Library.factor * (Nat.log2 c.vars.length + 1)) (by omega : n.length + 1 ≤ text.length + 1)
  have h8 := Nat.mul_le_mul_left (Library.factor * (Nat.log2 l.length + 1)) (by omega : B + argsSize args ≤ B + (text.length + 1))
  unfold Bounded at h3
  rw [h4, h5] at h3
  rw [h1]
  omega

/-! ### Lower bounds -/

theorem bind_ok_steps {x : Work α} {f : α → Work β} {a : α} (h : x.res = .ok a) : (x >>= f).steps = x.steps + (f a).steps := by
  show (Work.bind x f).steps = _
  unfold Work.bind
  rw [h]

theorem removeAllLoop_lower (eps : Fl) (o : Obj) (m : Nat) (h : equalTo eps o o = .ok true) :
    ∀ pre, m * m ≤ 2 * (removeAllLoop eps o pre (List.replicate m o)).2 := by
  induction m with
  | zero => intro pre; simp
  | succ m ih =>
    intro pre
    have := ih pre
    have h1 := size_pos o
    simp only [List.replicate_succ, removeAllLoop, h, compare, List.length_replicate]
    nlinarith

theorem dispatch_hit {old : σ} {t : Table σ} {name : Str} {args : List Str} {op : List Str → Counted (Run σ)}
    (h : t.find? (fun r => name == r.1) = some (name, op)) : (op args).2 ≤ (dispatch old t name args).2 := by
  induction t with
  | nil => cases h
  | cons r t ih =>
    obtain ⟨n, f⟩ := r
    rw [List.find?_cons] at h
    simp only [dispatch]
    by_cases hb : (name == n) = true
    · simp only [hb] at h
      cases h
      rw [if_pos hb]
      simp only
      omega
    · simp only [hb] at h
      rw [if_neg hb]
      have := ih h
      simp only
      omega

end Knuckle.Work

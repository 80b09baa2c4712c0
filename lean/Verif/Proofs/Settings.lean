/-
The influence of the settings on the execution of a request.
-/
import Verif.Proofs.Errors
import Verif.Proofs.Data
import Verif.Spec.Settings

namespace Knuckle

open Spec

/-- Two ends of an operator: related values, the same exception, and the same reply if `same`. -/
def RunAlike {σ τ : Type} (R : σ → τ → Prop) (same : Prop) : Run σ → Run τ → Prop
  | .ret a r, .ret b r' => R a b ∧ (same → r = r')
  | .thr a e, .thr b e' => R a b ∧ e = e'
  | .ub, .ub => True
  | _, _ => False

/-- The same for computations. -/
def ResAlike {σ : Type} (same : Prop) : Res (σ × Str) → Res (σ × Str) → Prop
  | .ok (a, r), .ok (b, r') => a = b ∧ (same → r = r')
  | .err e, .err e' => e = e'
  | .ub, .ub => True
  | _, _ => False

theorem resAlike_refl {σ : Type} {same : Prop} (x : Res (σ × Str)) : ResAlike same x x := by
  rcases x with ⟨_, _⟩ | _ | _ <;> simp [ResAlike]

theorem runAlike_refl {σ : Type} {same : Prop} (x : Run σ) : RunAlike Eq same x x := by
  cases x <;> simp [RunAlike]

theorem runAlike_of_eq {σ : Type} {same : Prop} {x y : Run σ} (h : x = y) : RunAlike Eq same x y := h ▸ runAlike_refl x

theorem runAlike_run {σ : Type} {same : Prop} {x y : Res (σ × Str)} (old : σ) (h : ResAlike same x y) :
    RunAlike Eq same (x.run old) (y.run old) := by
  rcases x with ⟨_, _⟩ | _ | _ <;> rcases y with ⟨_, _⟩ | _ | _ <;> simp_all [ResAlike, RunAlike, Res.run]

theorem resAlike_bind {α σ : Type} {same : Prop} {x : Res α} {f g : α → Res (σ × Str)} (h : ∀ a, x = .ok a → ResAlike same (f a) (g a)) :
    ResAlike same (x >>= f) (x >>= g) := by
  cases x with
  | ok a => exact h a rfl
  | err e => simp [ResAlike]
  | ub => simp [ResAlike]

theorem resAlike_ok {σ : Type} {same : Prop} {a : σ} {r r' : Str} (h : same → r = r') : ResAlike same (.ok (a, r)) (.ok (a, r')) :=
  ⟨rfl, h⟩

theorem alike0 {σ : Type} {same : List Str → Prop} {old : σ} {f g : Res (σ × Str)} (h : same [] → ResAlike True f g) (h' : ResAlike False f g)
    (args : List Str) : RunAlike Eq (same args) (op0 old f args) (op0 old g args) := by
  cases args with
  | nil =>
    refine runAlike_run old ?_
    by_cases hs : same []
    · have := h hs
      rcases f with ⟨_, _⟩ | _ | _ <;> rcases g with ⟨_, _⟩ | _ | _ <;> simp_all [ResAlike]
    · rcases f with ⟨_, _⟩ | _ | _ <;> rcases g with ⟨_, _⟩ | _ | _ <;> simp_all [ResAlike]
  | cons => exact runAlike_refl _

theorem alike1 {σ : Type} {same : List Str → Prop} {old : σ} {f g : Str → Res (σ × Str)} (h : ∀ a, ResAlike (same [a]) (f a) (g a))
    (args : List Str) : RunAlike Eq (same args) (op1 old f args) (op1 old g args) := by
  match args with
  | [] => exact runAlike_refl _
  | [a] => exact runAlike_run old (h a)
  | _ :: _ :: _ => exact runAlike_refl _

theorem alike2 {σ : Type} {same : List Str → Prop} {old : σ} {f g : Str → Str → Res (σ × Str)}
    (h : ∀ a b, ResAlike (same [a, b]) (f a b) (g a b)) (args : List Str) : RunAlike Eq (same args) (op2 old f args) (op2 old g args) := by
  match args with
  | [] => exact runAlike_refl _
  | [_] => exact runAlike_refl _
  | [a, b] => exact runAlike_run old (h a b)
  | _ :: _ :: _ :: _ => exact runAlike_refl _

theorem alike3 {σ : Type} {same : List Str → Prop} {old : σ} {f g : Str → Str → Str → Res (σ × Str)}
    (h : ∀ a b c, ResAlike (same [a, b, c]) (f a b c) (g a b c)) (args : List Str) :
    RunAlike Eq (same args) (op3 old f args) (op3 old g args) := by
  match args with
  | [] => exact runAlike_refl _
  | [_] => exact runAlike_refl _
  | [_, _] => exact runAlike_refl _
  | [a, b, c] => exact runAlike_run old (h a b c)
  | _ :: _ :: _ :: _ :: _ => exact runAlike_refl _

/-- The rows of two tables are alike. -/
def TablesAlike {σ : Type} (pre : Str → Prop) (same : Str → List Str → Prop) (t t' : Table σ) : Prop :=
  List.Forall₂ (fun p q => p.1 = q.1 ∧ (pre p.1 → ∀ a, RunAlike Eq (same p.1 a) (p.2 a) (q.2 a))) t t'

theorem dispatch_alike {σ : Type} {pre : Str → Prop} {same : Str → List Str → Prop} {t t' : Table σ} (old : σ) (h : TablesAlike pre same t t') (name : Str)
    (args : List Str) (hp : pre name) : RunAlike Eq (same name args) (dispatch old t name args) (dispatch old t' name args) := by
  unfold TablesAlike at h
  induction h with
  | nil => exact runAlike_refl _
  | @cons p q t t' hr _ ih =>
    obtain ⟨n, op⟩ := p
    obtain ⟨n', op'⟩ := q
    obtain ⟨e, h⟩ := hr
    simp only at e h
    subst e
    simp only [dispatch]
    split
    · rename_i hn
      rw [beq_iff_eq] at hn; subst hn
      exact h hp args
    · exact ih

theorem wrap_alike {σ : Type} {same : Prop} (f : σ → Inst) {x y : Run σ} (h : RunAlike Eq same x y) :
    RunAlike Eq same (wrap f x) (wrap f y) := by
  cases x <;> cases y <;> simp_all [RunAlike, wrap]

/-- A row that is the same in both tables. -/
macro "same_row" : term => `(⟨rfl, fun _ _ => runAlike_refl _⟩)

/-! ### The precision -/

theorem repr_prec {t : Str} {o : Obj} (ht : t ≠ b!"Float") (h : HasType t o) (p q : Int) : o.repr p = o.repr q := by
  cases o <;> first | exact absurd h.1.symm ht | rfl

theorem reprs_prec {t : Str} {l : List Obj} (ht : t ≠ b!"Float") (h : ∀ x ∈ l, HasType t x) (p q : Int) : l.map (Obj.repr p) = l.map (Obj.repr q) :=
  List.map_congr_left fun x hx => repr_prec ht (h x hx) p q

/-- The names of the messages whose reply shows elements or the value. -/
def showing : List Str := [b!"get", b!"atIndex:", b!"first:", b!"last:", b!"sliceFromIndex:", b!"sliceFromIndex:toIndex:", b!"popBack",
  b!"popFront", b!"popAtIndex:", b!"keys", b!"values", b!"getValueForKey:"]

/-- Membership in a list of names, of the name of a row of a table. -/
macro "shown" : tactic => `(tactic| first | decide | (dsimp only; decide))

/-- The reply does not depend on the precision. -/
def NoFloatShown (i : Inst) (name : Str) (_ : List Str) : Prop := HasFloats i → name ∉ showing

theorem float_prec (p q : Int) (e v : Fl) : TablesAlike (fun _ => True) (NoFloatShown (.float v)) (floatTable ⟨p, e⟩ v) (floatTable ⟨q, e⟩ v) := by
  unfold TablesAlike floatTable
  refine .cons ⟨rfl, fun _ => alike0 (fun h => absurd (h trivial) ?_) ⟨rfl, by simp⟩⟩ ?_
  · simp [showing]
  · repeat' first | exact .nil | refine .cons same_row ?_

theorem no_floats {i : Inst} {name : Str} (h : HasFloats i → name ∉ showing) (hn : name ∈ showing) : ¬ HasFloats i := fun hf => h hf hn

theorem vectorRepr_prec {t : Str} {l : List Obj} (ht : t ≠ b!"Float") (h : ∀ x ∈ l, HasType t x) (p q : Int) : vectorRepr p l = vectorRepr q l := by
  unfold vectorRepr; rw [reprs_prec ht h p q]

theorem vector_prec [StdSort] (p q : Int) (e : Fl) {t : Str} {l : List Obj} (hl : ∀ x ∈ l, HasType t x) :
    TablesAlike (fun _ => True) (NoFloatShown (.vector t l)) (vectorTable ⟨p, e⟩ t l) (vectorTable ⟨q, e⟩ t l) := by
  have sh : ∀ {name : Str} {args : List Str}, name ∈ showing → NoFloatShown (.vector t l) name args → t ≠ b!"Float" :=
    fun hn h => no_floats h hn
  have el : ∀ {n : Nat} {o : Obj}, l[n]? = some o → o ∈ l := fun h => List.mem_of_getElem? h
  unfold TablesAlike vectorTable
  refine .cons ⟨rfl, fun _ => alike0 (fun h => ⟨rfl, fun _ => vectorRepr_prec (sh (by shown) h) hl p q⟩) ⟨rfl, by simp⟩⟩ ?_
  refine .cons same_row (.cons same_row (.cons same_row (.cons same_row (.cons ⟨rfl, fun _ => alike1 fun a => ?_⟩ ?_))))
  · refine resAlike_bind fun i _ => resAlike_bind fun _ _ => ?_
    dsimp only
    cases ho : l[i.toNat]? with
    | none => exact resAlike_refl _
    | some o => exact ⟨rfl, fun h => repr_prec (sh (by shown) h) (hl o (el ho)) p q⟩
  refine .cons same_row (.cons same_row (.cons same_row (.cons same_row (.cons ⟨rfl, fun _ => alike1 fun a => ?_⟩ (.cons ⟨rfl, fun _ => alike1 fun a => ?_⟩
    (.cons ⟨rfl, fun _ => alike1 fun a => ?_⟩ (.cons ⟨rfl, fun _ => alike2 fun a b => ?_⟩ ?_)))))))
  · refine resAlike_bind fun i _ => ?_
    split
    · exact resAlike_refl _
    · exact ⟨rfl, fun h => vectorRepr_prec (sh (by shown) h) (fun x hx => hl x (List.mem_of_mem_take hx)) p q⟩
  · refine resAlike_bind fun i _ => ?_
    split
    · exact resAlike_refl _
    · exact ⟨rfl, fun h => vectorRepr_prec (sh (by shown) h) (fun x hx => hl x (List.mem_of_mem_drop hx)) p q⟩
  · exact resAlike_bind fun i _ => resAlike_bind fun _ _ =>
      ⟨rfl, fun h => vectorRepr_prec (sh (by shown) h) (fun x hx => hl x (List.mem_of_mem_drop hx)) p q⟩
  · exact resAlike_bind fun i _ => resAlike_bind fun j _ => resAlike_bind fun _ _ =>
      ⟨rfl, fun h => vectorRepr_prec (sh (by shown) h) (fun x hx => hl x (List.mem_of_mem_take (List.mem_of_mem_drop hx))) p q⟩
  refine .cons same_row (.cons same_row (.cons ⟨rfl, fun _ => ?_⟩ (.cons ⟨rfl, fun _ => ?_⟩ (.cons ⟨rfl, fun _ => alike1 fun a => ?_⟩ ?_))))
  · have key : ∀ same : Prop, (same → t ≠ b!"Float") → ResAlike same
        (if l.length == 0 then .ok (l, b!"null") else match l[l.length - 1]? with
          | some o => .ok (l.take (l.length - 1), o.repr p) | none => .ub)
        (if l.length == 0 then .ok (l, b!"null") else match l[l.length - 1]? with
          | some o => .ok (l.take (l.length - 1), o.repr q) | none => .ub) := by
      intro same hs
      split
      · exact resAlike_refl _
      · cases ho : l[l.length - 1]? with
        | none => exact resAlike_refl _
        | some o => exact ⟨rfl, fun h => repr_prec (hs h) (hl o (el ho)) p q⟩
    exact alike0 (fun h => key True fun _ => sh (by shown) h) (key False False.elim)
  · have key : ∀ same : Prop, (same → t ≠ b!"Float") → ResAlike same
        (if l.length == 0 then .ok (l, b!"null") else match l[0]? with
          | some o => .ok (l.drop 1, o.repr p) | none => .ub)
        (if l.length == 0 then .ok (l, b!"null") else match l[0]? with
          | some o => .ok (l.drop 1, o.repr q) | none => .ub) := by
      intro same hs
      split
      · exact resAlike_refl _
      · cases ho : l[0]? with
        | none => exact resAlike_refl _
        | some o => exact ⟨rfl, fun h => repr_prec (hs h) (hl o (el ho)) p q⟩
    exact alike0 (fun h => key True fun _ => sh (by shown) h) (key False False.elim)
  · refine resAlike_bind fun i _ => resAlike_bind fun _ _ => ?_
    dsimp only
    cases ho : l[i.toNat]? with
    | none => exact resAlike_refl _
    | some o => exact ⟨rfl, fun h => repr_prec (sh (by shown) h) (hl o (el ho)) p q⟩
  repeat' first | exact .nil | refine .cons same_row ?_

theorem set_prec (p q : Int) (e : Fl) {t : Str} {l : List Obj} (hl : ∀ x ∈ l, HasType t x) :
    TablesAlike (fun _ => True) (NoFloatShown (.set t l)) (setTable ⟨p, e⟩ t l) (setTable ⟨q, e⟩ t l) := by
  unfold TablesAlike setTable
  refine .cons ⟨rfl, fun _ => alike0 (fun h => ⟨rfl, fun _ => ?_⟩) ⟨rfl, by simp⟩⟩ ?_
  · unfold setRepr; rw [reprs_prec (no_floats h (by shown)) hl p q]
  repeat' first | exact .nil | refine .cons same_row ?_

theorem mapFind_mem {α : Type} {lt : Obj → Obj → Bool} {k : Obj} {v : α} : ∀ {l : List (Obj × α)}, mapFind lt k l = some v → ∃ x, (x, v) ∈ l
  | [], h => by cases h
  | y :: ys, h => by
    simp only [mapFind] at h
    split at h
    · obtain ⟨x, hx⟩ := mapFind_mem h; exact ⟨x, .tail _ hx⟩
    · split at h
      · cases h
      · cases h; exact ⟨y.1, .head _⟩

theorem dict_prec (p q : Int) (e : Fl) {t u : Str} {l : List (Obj × Obj)} (hl : ∀ x ∈ l, HasType t x.1 ∧ HasType u x.2) :
    TablesAlike (fun _ => True) (NoFloatShown (.dictionary t u l)) (dictTable ⟨p, e⟩ t u l) (dictTable ⟨q, e⟩ t u l) := by
  have sh : ∀ {name : Str} {args : List Str}, name ∈ showing → NoFloatShown (.dictionary t u l) name args → t ≠ b!"Float" ∧ u ≠ b!"Float" :=
    fun hn h => not_or.1 (no_floats h hn)
  unfold TablesAlike dictTable
  refine .cons ⟨rfl, fun _ => alike0 (fun h => ⟨rfl, fun _ => ?_⟩) ⟨rfl, by simp⟩⟩ ?_
  · have := sh (by shown) h
    unfold dictRepr
    rw [List.map_congr_left (g := fun kv : Obj × Obj => c!"(" :: (kv.1.repr q ++ c!"," :: (kv.2.repr q ++ [c!")"]))) fun x hx => ?_]
    rw [repr_prec this.1 (hl x hx).1 p q, repr_prec this.2 (hl x hx).2 p q]
  refine .cons same_row (.cons same_row (.cons same_row (.cons ⟨rfl, fun _ => alike0 (fun h => ⟨rfl, fun _ => ?_⟩) ⟨rfl, by simp⟩⟩
    (.cons ⟨rfl, fun _ => alike0 (fun h => ⟨rfl, fun _ => ?_⟩) ⟨rfl, by simp⟩⟩ (.cons ⟨rfl, fun _ => alike1 fun a => ?_⟩ ?_)))))
  · refine vectorRepr_prec (sh (by shown) h).1 ?_ p q
    intro x hx; obtain ⟨y, hy, rfl⟩ := List.mem_map.1 hx; exact (hl y hy).1
  · refine vectorRepr_prec (sh (by shown) h).2 ?_ p q
    intro x hx; obtain ⟨y, hy, rfl⟩ := List.mem_map.1 hx; exact (hl y hy).2
  · refine resAlike_bind fun k _ => resAlike_bind fun _ _ => ?_
    dsimp only
    cases ho : mapFind (ltB e) k l with
    | none => exact resAlike_refl _
    | some o =>
      obtain ⟨x, hx⟩ := mapFind_mem ho
      exact ⟨rfl, fun h => repr_prec (sh (by shown) h).2 (hl _ hx).2 p q⟩
  repeat' first | exact .nil | refine .cons same_row ?_

theorem receive_prec [StdSort] (p q : Int) (e : Fl) {i : Inst} (hw : WellTyped i) (name : Str) (args : List Str) :
    RunAlike Eq (NoFloatShown i name args) (receive ⟨p, e⟩ i name args) (receive ⟨q, e⟩ i name args) := by
  cases i with
  | boolean v => exact runAlike_refl _
  | character v => exact runAlike_refl _
  | integer v => exact runAlike_refl _
  | string v => exact runAlike_refl _
  | float v => exact wrap_alike _ (dispatch_alike v (float_prec p q e v) name args trivial)
  | vector t l => exact wrap_alike _ (dispatch_alike l (vector_prec p q e hw.2) name args trivial)
  | set t l => exact wrap_alike _ (dispatch_alike l (set_prec p q e hw.2.1) name args trivial)
  | dictionary t u l => exact wrap_alike _ (dispatch_alike l (dict_prec p q e hw.2.2.1) name args trivial)

/-! ### The tolerance -/

theorem same_tol {t : Str} {o : Obj} (ht : t ≠ b!"Float") (ho : HasType t o) (e e' : Fl) : (same e · o) = (same e' · o) := by
  funext x
  cases o <;> first | exact absurd ho.1.symm ht | (cases x <;> rfl)

theorem equalTo_tol {t : Str} {x o : Obj} (ht : t ≠ b!"Float") (hx : HasType t x) (ho : HasType t o) (e e' : Fl) : equalTo e x o = equalTo e' x o := by
  rw [equalTo_same e t x o hx ho, equalTo_same e' t x o hx ho]
  exact congrArg Res.ok (congrFun (same_tol ht ho e e') x)

theorem ltB_tol {t : Str} {x o : Obj} (ht : t ≠ b!"Float") (hx : HasType t x) (ho : HasType t o) (e e' : Fl) : ltB e x o = ltB e' x o := by
  rw [ltB_less e t x o hx ho, ltB_less e' t x o hx ho, less_natLt e t x o hx ho ht, less_natLt e' t x o hx ho ht]

section
variable {e e' : Fl} {o : Obj}

theorem findFrom_tol : ∀ {l : List Obj} (i : Nat), (∀ x ∈ l, equalTo e x o = equalTo e' x o) → findFrom e o l i = findFrom e' o l i
  | [], _, _ => rfl
  | x :: xs, i, h => by
    simp only [findFrom, h x (by simp), findFrom_tol (l := xs) (i + 1) fun y hy => h y (by simp [hy])]

theorem countLoop_tol : ∀ {l : List Obj} (i : Nat), (∀ x ∈ l, equalTo e x o = equalTo e' x o) → countLoop e o l i = countLoop e' o l i
  | [], _, _ => rfl
  | x :: xs, i, h => by
    have h' : ∀ y ∈ xs, equalTo e y o = equalTo e' y o := fun y hy => h y (by simp [hy])
    simp only [countLoop, h x (by simp), countLoop_tol (l := xs) (i + 1) h', countLoop_tol (l := xs) i h']

theorem indexesLoop_tol : ∀ {l : List Obj} (i : Nat) (acc : Str), (∀ x ∈ l, equalTo e x o = equalTo e' x o) →
    indexesLoop e o l i acc = indexesLoop e' o l i acc
  | [], _, _, _ => rfl
  | x :: xs, i, acc, h => by
    have h' : ∀ y ∈ xs, equalTo e y o = equalTo e' y o := fun y hy => h y (by simp [hy])
    simp only [indexesLoop, h x (by simp), fun acc => indexesLoop_tol (l := xs) (i + 1) acc h']

theorem removeFirstLoop_tol : ∀ {l : List Obj} (pre : List Obj), (∀ x ∈ l, equalTo e x o = equalTo e' x o) →
    removeFirstLoop e o pre l = removeFirstLoop e' o pre l
  | [], _, _ => rfl
  | x :: xs, pre, h => by
    simp only [removeFirstLoop, h x (by simp), removeFirstLoop_tol (l := xs) (pre ++ [x]) fun y hy => h y (by simp [hy])]

theorem removeAllLoop_tol : ∀ {l : List Obj} (pre : List Obj), (∀ x ∈ l, equalTo e x o = equalTo e' x o) →
    removeAllLoop e o pre l = removeAllLoop e' o pre l
  | [], _, _ => rfl
  | x :: xs, pre, h => by
    have h' : ∀ y ∈ xs, equalTo e y o = equalTo e' y o := fun y hy => h y (by simp [hy])
    simp only [removeAllLoop, h x (by simp), removeAllLoop_tol (l := xs) (pre ++ [x]) h', removeAllLoop_tol (l := xs) pre h']

theorem replaceFirstLoop_tol {t b : Str} : ∀ {l : List Obj} (pre : List Obj), (∀ x ∈ l, equalTo e x o = equalTo e' x o) →
    replaceFirstLoop e t b o pre l = replaceFirstLoop e' t b o pre l
  | [], _, _ => rfl
  | x :: xs, pre, h => by
    simp only [replaceFirstLoop, h x (by simp), replaceFirstLoop_tol (l := xs) (pre ++ [x]) fun y hy => h y (by simp [hy])]

theorem replaceAllLoop_tol {t b : Str} : ∀ {l : List Obj} (pre : List Obj), (∀ x ∈ l, equalTo e x o = equalTo e' x o) →
    replaceAllLoop e t b o pre l = replaceAllLoop e' t b o pre l
  | [], _, _ => rfl
  | x :: xs, pre, h => by
    have h' : ∀ y ∈ xs, equalTo e y o = equalTo e' y o := fun y hy => h y (by simp [hy])
    simp only [replaceAllLoop, h x (by simp), replaceAllLoop_tol (l := xs) _ h']

end

theorem gsi_type {t a : Str} {o : Obj} (ht : ObjectType t) (h : getSharedInstance t a = .ok o) : HasType t o := by
  rcases gsi_cases t a ht with ⟨o', h1, _, h2⟩ | ⟨h1, _⟩ | ⟨h1, _⟩
  · rw [h] at h1; cases h1; exact h2
  · rw [h] at h1; cases h1
  · rw [h] at h1; cases h1

/-- The comparisons of numbers. -/
def comparisons : List Str := [b!"isEqualTo?", b!"isLessThan?", b!"isLessThanOrEqualTo?", b!"isGreaterThan?", b!"isGreaterThanOrEqualTo?"]

/-- The questions of vectors that compare elements. -/
def finding : List Str := [b!"contains?", b!"contains?fromIndex:", b!"count:", b!"firstIndexOf:", b!"firstIndexOf:fromIndex:", b!"allIndexesOf:"]

/-- The other messages of vectors that compare elements. -/
def vecSearching : List Str := [b!"removeFirst:", b!"removeFirst:fromIndex:", b!"removeAll:", b!"replaceFirst:with:",
  b!"replaceFirst:fromIndex:with:", b!"replaceAll:with:", b!"sort"]

/-- The messages of sets that compare elements. -/
def setSearching : List Str := [b!"contains?", b!"add:", b!"remove:"]

/-- The messages of dictionaries that compare keys. -/
def dictSearching : List Str := [b!"containsKey?", b!"getValueForKey:", b!"associateValue:withKey:", b!"removeKey:"]

/-- Whether the message can change data or be undefined depending on the tolerance: no. -/
def NotSearched : Inst → Str → Prop
  | .vector t _, name => t = b!"Float" → name ∉ vecSearching
  | .set t _, name => t = b!"Float" → name ∉ setSearching
  | .dictionary t _ _, name => t = b!"Float" → name ∉ dictSearching
  | _, _ => True

/-- The reply does not depend on the tolerance. -/
def NotCompared : Inst → Str → List Str → Prop
  | .float _, name, _ => name ∉ comparisons
  | .integer _, name, args => name ∈ comparisons → ∀ a, args = [a] → IntegerValue a
  | .vector t _, name, _ => t = b!"Float" → name ∉ finding
  | _, _, _ => True

theorem char_tol (e e' : Fl) (v : Byte) : TablesAlike (fun _ => True) (NotCompared (.character v)) (charTable e v) (charTable e' v) := by
  unfold TablesAlike charTable
  refine .cons same_row (.cons same_row (.cons same_row (.cons same_row (.cons same_row (.cons same_row
    (.cons ⟨rfl, fun _ => alike1 fun a => ?_⟩ (.cons ⟨rfl, fun _ => alike1 fun a => ?_⟩ (.cons ⟨rfl, fun _ => alike1 fun a => ?_⟩
      (.cons ⟨rfl, fun _ => alike1 fun a => ?_⟩ (.cons ⟨rfl, fun _ => alike1 fun a => ?_⟩ .nil))))))))))
  all_goals exact resAlike_bind fun b _ => resAlike_refl _

theorem string_tol (e e' : Fl) (v : Str) : TablesAlike (fun _ => True) (NotCompared (.string v)) (stringTable e v) (stringTable e' v) := by
  unfold TablesAlike stringTable
  refine .cons same_row (.cons same_row (.cons same_row (.cons same_row (.cons same_row
    (.cons ⟨rfl, fun _ => alike1 fun a => ?_⟩ (.cons ⟨rfl, fun _ => alike1 fun a => ?_⟩ (.cons ⟨rfl, fun _ => alike1 fun a => ?_⟩
      (.cons ⟨rfl, fun _ => alike1 fun a => ?_⟩ (.cons ⟨rfl, fun _ => alike1 fun a => ?_⟩ ?_)))))))))
  iterate 5 exact resAlike_bind fun b _ => resAlike_refl _
  repeat' first | exact .nil | refine .cons same_row ?_

/-- A comparison of an integer. -/
theorem intCmp_tol {v : Int} {name : Str} (hn : name ∈ comparisons) {f g : Obj → Obj → Res Bool} (h : ∀ b, f (.integer v) (.integer b) = g (.integer v) (.integer b))
    (h' : ∀ b, ∃ x y, f (.integer v) (.float b) = .ok x ∧ g (.integer v) (.float b) = .ok y) (args : List Str) :
    RunAlike Eq (NotCompared (.integer v) name args) (intCmp f v args) (intCmp g v args) := by
  refine alike1 (same := fun args => NotCompared (.integer v) name args) (fun a => ?_) args
  split
  · exact resAlike_refl _
  · split
    · refine resAlike_bind fun b _ => ?_
      rw [h b]; exact resAlike_refl _
    · rename_i hi
      refine resAlike_bind fun b _ => ?_
      obtain ⟨x, y, h1, h2⟩ := h' b
      rw [h1, h2]
      exact ⟨rfl, fun hs => absurd ((isIntegerValue_iff a).2 (hs hn a rfl)) hi⟩

theorem floatCmp_tol {v : Fl} {name : Str} (hn : name ∈ comparisons) {f g : Obj → Obj → Res Bool}
    (h' : ∀ b, ∃ x y, f (.float v) (.float b) = .ok x ∧ g (.float v) (.float b) = .ok y) (args : List Str) :
    RunAlike Eq (NotCompared (.float v) name args) (floatCmp f v args) (floatCmp g v args) := by
  refine alike1 (same := fun args => NotCompared (.float v) name args) (fun a => ?_) args
  refine resAlike_bind fun b _ => ?_
  obtain ⟨x, y, h1, h2⟩ := h' b
  rw [h1, h2]
  exact ⟨rfl, fun hs => absurd hn hs⟩

/-- Whatever two numbers are compared, there is an answer. -/
theorem cmp_ok (e : Fl) {x y : Obj} {a b : Bool} (h1 : lessThan e x y = .ok a) (h2 : greaterThan e x y = .ok b) :
    (∃ z, lessThan e x y = .ok z) ∧ (∃ z, greaterThan e x y = .ok z) ∧ (∃ z, equalTo e x y = .ok z) ∧
      (∃ z, lessThanOrEqualTo e x y = .ok z) ∧ (∃ z, greaterThanOrEqualTo e x y = .ok z) := by
  simp only [equalTo, lessThanOrEqualTo, greaterThanOrEqualTo, h1, h2, Res.bind_ok]
  cases a <;> cases b <;> simp

theorem int_tol (e e' : Fl) (v : Int) : TablesAlike (fun _ => True) (NotCompared (.integer v)) (intTable e v) (intTable e' v) := by
  have ok := fun (e b : Fl) => cmp_ok e (x := .integer v) (y := .float b) rfl rfl
  unfold TablesAlike intTable
  refine .cons same_row (.cons same_row (.cons ⟨rfl, fun _ => intCmp_tol (by shown) (fun _ => rfl) fun b => ?_⟩
    (.cons ⟨rfl, fun _ => intCmp_tol (by shown) (fun _ => rfl) fun b => ?_⟩ (.cons ⟨rfl, fun _ => intCmp_tol (by shown) (fun _ => rfl) fun b => ?_⟩
      (.cons ⟨rfl, fun _ => intCmp_tol (by shown) (fun _ => rfl) fun b => ?_⟩ (.cons ⟨rfl, fun _ => intCmp_tol (by shown) (fun _ => rfl) fun b => ?_⟩ ?_))))))
  · obtain ⟨x, hx⟩ := (ok e b).2.2.1; obtain ⟨y, hy⟩ := (ok e' b).2.2.1; exact ⟨x, y, hx, hy⟩
  · obtain ⟨x, hx⟩ := (ok e b).1; obtain ⟨y, hy⟩ := (ok e' b).1; exact ⟨x, y, hx, hy⟩
  · obtain ⟨x, hx⟩ := (ok e b).2.2.2.1; obtain ⟨y, hy⟩ := (ok e' b).2.2.2.1; exact ⟨x, y, hx, hy⟩
  · obtain ⟨x, hx⟩ := (ok e b).2.1; obtain ⟨y, hy⟩ := (ok e' b).2.1; exact ⟨x, y, hx, hy⟩
  · obtain ⟨x, hx⟩ := (ok e b).2.2.2.2; obtain ⟨y, hy⟩ := (ok e' b).2.2.2.2; exact ⟨x, y, hx, hy⟩
  repeat' first | exact .nil | refine .cons same_row ?_

theorem float_tol (p : Int) (e e' v : Fl) : TablesAlike (fun _ => True) (NotCompared (.float v)) (floatTable ⟨p, e⟩ v) (floatTable ⟨p, e'⟩ v) := by
  have ok := fun (e b : Fl) => cmp_ok e (x := .float v) (y := .float b) rfl rfl
  unfold TablesAlike floatTable
  refine .cons same_row (.cons same_row (.cons ⟨rfl, fun _ => floatCmp_tol (by shown) fun b => ?_⟩
    (.cons ⟨rfl, fun _ => floatCmp_tol (by shown) fun b => ?_⟩ (.cons ⟨rfl, fun _ => floatCmp_tol (by shown) fun b => ?_⟩
      (.cons ⟨rfl, fun _ => floatCmp_tol (by shown) fun b => ?_⟩ (.cons ⟨rfl, fun _ => floatCmp_tol (by shown) fun b => ?_⟩ ?_))))))
  · obtain ⟨x, hx⟩ := (ok e b).2.2.1; obtain ⟨y, hy⟩ := (ok e' b).2.2.1; exact ⟨x, y, hx, hy⟩
  · obtain ⟨x, hx⟩ := (ok e b).1; obtain ⟨y, hy⟩ := (ok e' b).1; exact ⟨x, y, hx, hy⟩
  · obtain ⟨x, hx⟩ := (ok e b).2.2.2.1; obtain ⟨y, hy⟩ := (ok e' b).2.2.2.1; exact ⟨x, y, hx, hy⟩
  · obtain ⟨x, hx⟩ := (ok e b).2.1; obtain ⟨y, hy⟩ := (ok e' b).2.1; exact ⟨x, y, hx, hy⟩
  · obtain ⟨x, hx⟩ := (ok e b).2.2.2.2; obtain ⟨y, hy⟩ := (ok e' b).2.2.2.2; exact ⟨x, y, hx, hy⟩
  repeat' first | exact .nil | refine .cons same_row ?_

/-- Sorting elements that are not floats. -/
theorem vecSort_tol [StdSort] {t : Str} {l : List Obj} (ht : t ≠ b!"Float") (hl : ∀ x ∈ l, HasType t x) (p : Int) (e e' : Fl) (args : List Str) :
    vecSort ⟨p, e⟩ l args = vecSort ⟨p, e'⟩ l args := by
  cases args with
  | cons => simp only [vecSort, op0]
  | nil =>
    have h1 : ∀ e, swoOn (ltB e) l = true := fun e =>
      (swoOn_iff _ _ _ fun a ha b hb => ltB_less e t a b (hl a ha) (hl b hb)).2 (swo_nonfloat e t ht l hl)
    have h2 : ∀ e, ∃ l', vecSort ⟨p, e⟩ l [] = .ret l' b!"null" ∧ l'.Perm l ∧ l'.Pairwise fun a b => ¬ natLt b a = true := by
      intro e
      obtain ⟨r, hb, hr⟩ := vec_sort ⟨p, e⟩ t l hl
      have hr' : wrap (.vector t) (vecSort ⟨p, e⟩ l []) = r.run (.vector t l) := hr
      have hsw := swo_nonfloat e t ht l hl
      generalize hn : b!"sort" = name at hb
      generalize hi : Inst.vector t l = i at hb
      generalize ha : ([] : List Str) = args at hb
      cases hb with
      | @sort t' l0 l' _ hp hs =>
        cases hi
        refine ⟨l', ?_, hp, hs.imp_of_mem ?_⟩
        · generalize vecSort ⟨p, e⟩ l [] = y at hr'
          cases y <;> cases hr'
          rfl
        · intro a b ha hb hab
          rw [less_natLt e t b a (hl b (hp.mem_iff.1 hb)) (hl a (hp.mem_iff.1 ha)) ht] at hab
          exact hab
      | sortUndefined h => cases hi; exact absurd hsw h
      | vector h => cases h <;> exact absurd hn (by decide)
      | boolean => cases hi
      | character => cases hi
      | integer => cases hi
      | float => cases hi
      | string => cases hi
      | set => cases hi
      | dictionary => cases hi
    obtain ⟨a, ha, pa, sa⟩ := h2 e
    obtain ⟨b, hb, pb, sb⟩ := h2 e'
    rw [ha, hb]
    have : a = b := by
      refine List.Perm.eq_of_pairwise ?_ sa sb (pa.trans pb.symm)
      intro x y hx hy h1 h2
      have tx := hl x (pa.mem_iff.1 hx)
      have ty := hl y (pb.mem_iff.1 hy)
      exact (natLt_sto t ht).tot x y tx ty (by simpa using h2) (by simpa using h1)
    rw [this]

theorem vector_tol [StdSort] (p : Int) (e e' : Fl) {t : Str} {l : List Obj} (ht : ObjectType t) (hl : ∀ x ∈ l, HasType t x) :
    TablesAlike (NotSearched (.vector t l)) (NotCompared (.vector t l)) (vectorTable ⟨p, e⟩ t l) (vectorTable ⟨p, e'⟩ t l) := by
  have eq : t ≠ b!"Float" → ∀ {o : Obj}, HasType t o → ∀ x ∈ l, equalTo e x o = equalTo e' x o :=
    fun hf o ho x hx => equalTo_tol hf (hl x hx) ho e e'
  have nf : ∀ {name : Str} {args : List Str}, name ∈ finding → NotCompared (.vector t l) name args → t ≠ b!"Float" :=
    fun hn h hf => h hf hn
  have ns : ∀ {name : Str}, name ∈ vecSearching → NotSearched (.vector t l) name → t ≠ b!"Float" := fun hn h hf => h hf hn
  have hd : ∀ (k : Nat), ∀ x ∈ l.drop k, HasType t x := fun k x hx => hl x (List.mem_of_mem_drop hx)
  have md : ∀ {k : Nat} {x : Obj}, x ∈ l.drop k → x ∈ l := fun hx => List.mem_of_mem_drop hx
  -- a search that decides only the reply
  have find : ∀ {same : Prop} {o : Obj} (ho : HasType t o) (l' : List Obj) (hl' : ∀ x ∈ l', HasType t x) (i : Nat) (f : Option Nat → Str),
      (same → t ≠ b!"Float") → ResAlike same (findFrom e o l' i >>= fun r => .ok (l, f r)) (findFrom e' o l' i >>= fun r => .ok (l, f r)) := by
    intro same o ho l' hl' i f hs
    rw [findFrom_eq ho l' hl', findFrom_eq ho l' hl', Res.bind_ok, Res.bind_ok]
    exact ⟨rfl, fun h => by rw [same_tol (hs h) ho e e']⟩
  unfold TablesAlike vectorTable
  refine .cons same_row (.cons same_row (.cons ⟨rfl, fun _ => alike1 fun a => ?_⟩ (.cons ⟨rfl, fun _ => alike2 fun a b => ?_⟩
    (.cons ⟨rfl, fun _ => alike1 fun a => ?_⟩ (.cons same_row (.cons ⟨rfl, fun _ => alike1 fun a => ?_⟩ (.cons ⟨rfl, fun _ => alike2 fun a b => ?_⟩
      (.cons ⟨rfl, fun _ => alike1 fun a => ?_⟩ ?_))))))))
  · exact resAlike_bind fun o ho => find (gsi_type ht ho) l hl 0 (fun r => boolStr r.isSome) (nf (by shown))
  · exact resAlike_bind fun o ho => resAlike_bind fun i _ => resAlike_bind fun _ _ =>
      find (gsi_type ht ho) _ (hd _) _ (fun r => boolStr r.isSome) (nf (by shown))
  · refine resAlike_bind fun o ho => ?_
    rw [countLoop_eq (gsi_type ht ho) l hl, countLoop_eq (gsi_type ht ho) l hl]
    exact ⟨rfl, fun h => by rw [same_tol (nf (by shown) h) (gsi_type ht ho) e e']⟩
  · exact resAlike_bind fun o ho => find (gsi_type ht ho) l hl 0 indexReply (nf (by shown))
  · exact resAlike_bind fun o ho => resAlike_bind fun i _ => resAlike_bind fun _ _ =>
      find (gsi_type ht ho) _ (hd _) _ indexReply (nf (by shown))
  · refine resAlike_bind fun o ho => ?_
    have h1 := fun e => indexesLoop_eq (eps := e) (gsi_type ht ho) l hl 0 [] (by simp)
    by_cases hf : t = b!"Float"
    · have h2 : ∀ e, ∃ r, indexesLoop e o l 0 [] = .ok r := fun e => ⟨_, h1 e⟩
      obtain ⟨r, hr⟩ := h2 e
      obtain ⟨r', hr'⟩ := h2 e'
      dsimp only
      rw [hr, hr']
      exact ⟨rfl, fun h => absurd hf (nf (by shown) h)⟩
    · dsimp only
      rw [indexesLoop_tol 0 [] (eq hf (gsi_type ht ho))]
      exact resAlike_refl _
  refine .cons same_row (.cons same_row (.cons same_row (.cons same_row (.cons same_row (.cons same_row (.cons same_row (.cons same_row
    (.cons same_row (.cons same_row (.cons same_row (.cons same_row (.cons same_row ?_))))))))))))
  refine .cons ⟨rfl, fun hp => alike1 fun a => ?_⟩ (.cons ⟨rfl, fun hp => alike2 fun a b => ?_⟩ (.cons ⟨rfl, fun hp args => ?_⟩
    (.cons ⟨rfl, fun hp => alike2 fun a b => ?_⟩ (.cons ⟨rfl, fun hp => alike3 fun a b c => ?_⟩ (.cons ⟨rfl, fun hp args => ?_⟩
      (.cons ⟨rfl, fun hp args => ?_⟩ ?_))))))
  · refine resAlike_bind fun o ho => ?_
    dsimp only
    rw [removeFirstLoop_tol [] (eq (ns (by shown) hp) (gsi_type ht ho))]
    exact resAlike_refl _
  · refine resAlike_bind fun o ho => resAlike_bind fun i _ => resAlike_bind fun _ _ => ?_
    dsimp only
    rw [removeFirstLoop_tol _ fun x hx => eq (ns (by shown) hp) (gsi_type ht ho) x (md hx)]
    exact resAlike_refl _
  · refine runAlike_of_eq ?_
    match args with
    | [] => rfl
    | _ :: _ :: _ => rfl
    | [a] =>
      simp only [vecRemoveAll]
      cases ho : getSharedInstance t a with
      | ok o => exact removeAllLoop_tol [] (eq (ns (by shown) hp) (gsi_type ht ho))
      | err => rfl
      | ub => rfl
  · refine resAlike_bind fun o ho => resAlike_bind fun _ _ => ?_
    dsimp only
    rw [replaceFirstLoop_tol [] (eq (ns (by shown) hp) (gsi_type ht ho))]
    exact resAlike_refl _
  · refine resAlike_bind fun o ho => resAlike_bind fun _ _ => resAlike_bind fun i _ => resAlike_bind fun _ _ => ?_
    dsimp only
    rw [replaceFirstLoop_tol _ fun x hx => eq (ns (by shown) hp) (gsi_type ht ho) x (md hx)]
    exact resAlike_refl _
  · refine runAlike_of_eq ?_
    match args with
    | [] => rfl
    | [_] => rfl
    | _ :: _ :: _ :: _ => rfl
    | [a, b] =>
      simp only [vecReplaceAll]
      cases ho : getSharedInstance t a with
      | ok o =>
        cases hb : getSharedInstance t b with
        | ok _ => exact replaceAllLoop_tol [] (eq (ns (by shown) hp) (gsi_type ht ho))
        | err => rfl
        | ub => rfl
      | err => rfl
      | ub => rfl
  · exact runAlike_of_eq (vecSort_tol (ns (by shown) hp) hl p e e' args)
  repeat' first | exact .nil | refine .cons same_row ?_

theorem set_tol (p : Int) (e e' : Fl) {t : Str} {l : List Obj} (ht : ObjectType t) (hl : ∀ x ∈ l, HasType t x)
    (ha : t ≠ b!"Float" → l.Pairwise fun a b => natLt a b) :
    TablesAlike (NotSearched (.set t l)) (NotCompared (.set t l)) (setTable ⟨p, e⟩ t l) (setTable ⟨p, e'⟩ t l) := by
  have ns : ∀ {name : Str}, name ∈ setSearching → NotSearched (.set t l) name → t ≠ b!"Float" := fun hn h hf => h hf hn
  have lt : t ≠ b!"Float" → ∀ {o : Obj}, HasType t o → ∀ x ∈ l, ltB e x o = ltB e' x o ∧ ltB e o x = ltB e' o x :=
    fun hf o ho x hx => ⟨ltB_tol hf (hl x hx) ho e e', ltB_tol hf ho (hl x hx) e e'⟩
  have g : t ≠ b!"Float" → ∀ {o : Obj}, HasType t o → ∀ e, orderGuard e l o = .ok () := fun hf o ho e => orderGuard_ok e t hf l o hl ho (ha hf)
  unfold TablesAlike setTable
  refine .cons same_row (.cons same_row (.cons ⟨rfl, fun hp => alike1 fun a => ?_⟩ (.cons same_row (.cons ⟨rfl, fun hp => alike1 fun a => ?_⟩
    (.cons ⟨rfl, fun hp => alike1 fun a => ?_⟩ (.cons same_row .nil))))))
  all_goals
    refine resAlike_bind fun o ho => ?_
    have hf := ns (by shown) hp
    have ho' := gsi_type ht ho
    dsimp only
    rw [g hf ho', g hf ho', Res.bind_ok, Res.bind_ok]
  · rw [setFind_congr _ _ o l (lt hf ho')]; exact resAlike_refl _
  · rw [setInsert_congr _ _ o l (lt hf ho')]; exact resAlike_refl _
  · rw [setErase_congr _ _ o l (lt hf ho')]; exact resAlike_refl _

theorem dict_tol (p : Int) (e e' : Fl) {t u : Str} {l : List (Obj × Obj)} (ht : ObjectType t) (hl : ∀ x ∈ l, HasType t x.1 ∧ HasType u x.2)
    (ha : t ≠ b!"Float" → l.Pairwise fun a b => natLt a.1 b.1) :
    TablesAlike (NotSearched (.dictionary t u l)) (NotCompared (.dictionary t u l)) (dictTable ⟨p, e⟩ t u l) (dictTable ⟨p, e'⟩ t u l) := by
  have ns : ∀ {name : Str}, name ∈ dictSearching → NotSearched (.dictionary t u l) name → t ≠ b!"Float" := fun hn h hf => h hf hn
  have lt : t ≠ b!"Float" → ∀ {o : Obj}, HasType t o → ∀ x ∈ l, ltB e x.1 o = ltB e' x.1 o ∧ ltB e o x.1 = ltB e' o x.1 :=
    fun hf o ho x hx => ⟨ltB_tol hf (hl x hx).1 ho e e', ltB_tol hf ho (hl x hx).1 e e'⟩
  have g : t ≠ b!"Float" → ∀ {o : Obj}, HasType t o → ∀ e, orderGuard e (l.map (·.1)) o = .ok () := fun hf o ho e =>
    orderGuard_ok e t hf _ o (fun x hx => by obtain ⟨y, hy, rfl⟩ := List.mem_map.1 hx; exact (hl y hy).1) ho (List.pairwise_map.2 (ha hf))
  unfold TablesAlike dictTable
  refine .cons same_row (.cons same_row (.cons ⟨rfl, fun hp => alike1 fun a => ?_⟩ (.cons same_row (.cons same_row (.cons same_row
    (.cons ⟨rfl, fun hp => alike1 fun a => ?_⟩ (.cons ⟨rfl, fun hp => alike2 fun a b => ?_⟩ (.cons ⟨rfl, fun hp => alike1 fun a => ?_⟩ (.cons same_row .nil)))))))))
  · refine resAlike_bind fun o ho => ?_
    have hf := ns (by shown) hp
    have ho' := gsi_type ht ho
    dsimp only
    rw [g hf ho', g hf ho', Res.bind_ok, Res.bind_ok, mapFind_congr _ _ o l (lt hf ho')]; exact resAlike_refl _
  · refine resAlike_bind fun o ho => ?_
    have hf := ns (by shown) hp
    have ho' := gsi_type ht ho
    dsimp only
    rw [g hf ho', g hf ho', Res.bind_ok, Res.bind_ok, mapFind_congr _ _ o l (lt hf ho')]; exact resAlike_refl _
  · refine resAlike_bind fun v _ => resAlike_bind fun o ho => ?_
    have hf := ns (by shown) hp
    have ho' := gsi_type ht ho
    dsimp only
    rw [g hf ho', g hf ho', Res.bind_ok, Res.bind_ok, mapInsert_congr _ _ o v l (lt hf ho')]; exact resAlike_refl _
  · refine resAlike_bind fun o ho => ?_
    have hf := ns (by shown) hp
    have ho' := gsi_type ht ho
    dsimp only
    rw [g hf ho', g hf ho', Res.bind_ok, Res.bind_ok, mapErase_congr _ _ o l (lt hf ho')]; exact resAlike_refl _

theorem receive_tol [StdSort] (p : Int) (e e' : Fl) {i : Inst} (hw : WellTyped i) (name : Str) (args : List Str) (hs : NotSearched i name) :
    RunAlike Eq (NotCompared i name args) (receive ⟨p, e⟩ i name args) (receive ⟨p, e'⟩ i name args) := by
  cases i with
  | boolean v => exact runAlike_refl _
  | character v => exact wrap_alike _ (dispatch_alike v (char_tol e e' v) name args trivial)
  | integer v => exact wrap_alike _ (dispatch_alike v (int_tol e e' v) name args trivial)
  | string v => exact wrap_alike _ (dispatch_alike v (string_tol e e' v) name args trivial)
  | float v => exact wrap_alike _ (dispatch_alike v (float_tol p e e' v) name args trivial)
  | vector t l => exact wrap_alike _ (dispatch_alike l (vector_tol p e e' hw.1 hw.2) name args hs)
  | set t l => exact wrap_alike _ (dispatch_alike l (set_tol p e e' hw.1 hw.2.1 hw.2.2) name args hs)
  | dictionary t u l => exact wrap_alike _ (dispatch_alike l (dict_tol p e e' hw.1 hw.2.2.1 hw.2.2.2) name args hs)

/-! ### Requests -/

/-- The same variables, and settings related by `R`. -/
def CtxAlike (R : Cfg → Cfg → Prop) (c d : Ctx) : Prop := c.vars = d.vars ∧ R c.cfg d.cfg

theorem execute_alike [StdSort] {pwd text : Str} {s : Option Session} {R : Cfg → Cfg → Prop} {same : Prop} {c d : Ctx} (hc : Inv c) (h : CtxAlike R c d)
    (h1 : ∀ p, R { c.cfg with prec := p } { d.cfg with prec := p }) (h2 : ∀ e, R { c.cfg with eps := e } { d.cfg with eps := e })
    (hv : ∀ n name args i, Statement text n name args → Holds c n i → RunAlike Eq same (receive c.cfg i name args) (receive d.cfg i name args))
    (hp : ∀ args, Statement text b!"Context" b!"getFloatPrecision" args → same → c.cfg.prec = d.cfg.prec)
    (he : ∀ args, Statement text b!"Context" b!"getFloatComparisonTolerance" args → same → c.cfg = d.cfg) :
    EndAlike (CtxAlike R) same (execute pwd c s text) (execute pwd d s text) := by
  have hfin : ∀ {x y : Run (Ctx × Option Session)}, RunAlike (fun a b => CtxAlike R a.1 b.1 ∧ a.2 = b.2) same x y →
      EndAlike (CtxAlike R) same (finish text x) (finish text y) := by
    intro x y hxy
    rcases x with ⟨⟨a, sa⟩, r⟩ | ⟨⟨a, sa⟩, r⟩ | _ <;> rcases y with ⟨⟨b, sb⟩, r'⟩ | ⟨⟨b, sb⟩, r'⟩ | _ <;>
      first | exact hxy.elim | skip
    · exact ⟨⟨by rw [record_vars, record_vars]; exact hxy.1.1.1, by rw [record_cfg, record_cfg]; exact hxy.1.1.2⟩, hxy.1.2, hxy.2⟩
    · obtain ⟨h1, rfl⟩ := hxy
      exact ⟨⟨by rw [record_vars, record_vars]; exact h1.1.1, by rw [record_cfg, record_cfg]; exact h1.1.2⟩, h1.2, fun _ => rfl⟩
    · trivial
  have hon : ∀ {x y : Run Ctx}, RunAlike (CtxAlike R) same x y →
      RunAlike (fun a b => CtxAlike R a.1 b.1 ∧ a.2 = b.2) same (onCtx s x) (onCtx s y) := by
    intro x y hxy
    cases x <;> cases y <;> first | exact hxy.elim | exact ⟨⟨hxy.1, rfl⟩, hxy.2⟩ | trivial
  have hrun : ∀ {x y : Res (Ctx × Str)}, (∀ a r, x = .ok (a, r) → ∃ b, y = .ok (b, r) ∧ CtxAlike R a b) → (∀ e, x = .err e → y = .err e) →
      (x = .ub → y = .ub) → RunAlike (CtxAlike R) same (x.run c) (y.run d) := by
    intro x y g1 g2 g3
    rcases x with ⟨a, r⟩ | e | _
    · obtain ⟨b, e, hb⟩ := g1 a r rfl
      rw [e]; exact ⟨hb, fun _ => rfl⟩
    · rw [g2 e rfl]; exact ⟨h, rfl⟩
    · rw [g3 rfl]; trivial
  by_cases hst : ∃ a n l, Statement text a n l
  swap
  · rw [execute_not_statement _ _ _ _ hst, execute_not_statement _ _ _ _ hst]
    exact ⟨⟨by rw [record_vars, record_vars]; exact h.1, by rw [record_cfg, record_cfg]; exact h.2⟩, rfl, fun _ => rfl⟩
  obtain ⟨a, n, l, hst⟩ := hst
  rw [execute_statement _ _ _ _ _ _ _ hst, execute_statement _ _ _ _ _ _ _ hst]
  refine hfin ?_
  rcases statement_actor _ _ _ _ hst with hA | hA | hA | hA
  · subst hA
    rw [executeParsed_connection _ _ _ _ (by simp [isConnection]), executeParsed_connection _ _ _ _ (by simp [isConnection])]
    cases s with
    | none => trivial
    | some x =>
      dsimp only
      cases x.receive pwd n l with
      | ret s' r => exact ⟨⟨h, rfl⟩, fun _ => rfl⟩
      | thr s' r => exact ⟨⟨h, rfl⟩, rfl⟩
      | ub => trivial
  · subst hA
    rw [executeParsed_context _ _ _ _ (by simp [isContext]), executeParsed_context _ _ _ _ (by simp [isContext])]
    refine hon ?_
    have row : ∀ {m : Str} {op op' : List Str → Run Ctx} {T T' : Table Ctx}, (n = m → RunAlike (CtxAlike R) same (op l) (op' l)) →
        RunAlike (CtxAlike R) same (dispatch c T n l) (dispatch d T' n l) →
        RunAlike (CtxAlike R) same (dispatch c ((m, op) :: T) n l) (dispatch d ((m, op') :: T') n l) := by
      intro m op op' T T' g1 g2
      simp only [dispatch]
      split
      · rename_i hm; exact g1 (beq_iff_eq.1 hm)
      · exact g2
    have r0 : ∀ {f g : Res (Ctx × Str)}, RunAlike (CtxAlike R) same (f.run c) (g.run d) →
        RunAlike (CtxAlike R) same (op0 c f l) (op0 d g l) := by
      intro f g hfg
      cases l with
      | nil => exact hfg
      | cons => exact ⟨h, rfl⟩
    have r1 : ∀ {f g : Str → Res (Ctx × Str)}, (∀ a, RunAlike (CtxAlike R) same ((f a).run c) ((g a).run d)) →
        RunAlike (CtxAlike R) same (op1 c f l) (op1 d g l) := by
      intro f g hfg
      match l with
      | [] => exact ⟨h, rfl⟩
      | [a] => exact hfg a
      | _ :: _ :: _ => exact ⟨h, rfl⟩
    unfold contextTable
    refine row (fun _ => r0 ?_) (row (fun _ => r0 ?_) (row (fun _ => r1 fun a => ?_) (row (fun _ => r1 fun a => ?_) (row (fun _ => r1 fun a => ?_)
      (row (fun hn => ?_) (row (fun _ => r1 fun a => ?_) (row (fun hn => ?_) (row (fun _ => r1 fun a => ?_) ⟨h, rfl⟩))))))))
    · exact ⟨h, fun _ => by rw [h.1]⟩
    · exact ⟨h, fun _ => by rw [h.1]⟩
    · split
      · exact ⟨h, rfl⟩
      · exact ⟨h, fun _ => by rw [h.1]⟩
    · split
      · exact ⟨h, rfl⟩
      · rw [← h.1]
        cases eraseName a c.vars with
        | none => exact ⟨h, rfl⟩
        | some vs => exact ⟨⟨rfl, h.2⟩, fun _ => rfl⟩
    · split
      · exact ⟨h, rfl⟩
      · exact ⟨⟨by dsimp only; rw [h.1], h.2⟩, fun _ => rfl⟩
    · subst hn
      exact ⟨h, fun hs => by rw [hp l hst hs]⟩
    · cases integerLit a with
      | err => exact ⟨h, rfl⟩
      | ub => trivial
      | ok p =>
        rw [Res.bind_ok, Res.bind_ok]
        split
        · exact ⟨h, rfl⟩
        · exact ⟨⟨h.1, h1 p⟩, fun _ => rfl⟩
    · subst hn
      exact ⟨h, fun hs => by rw [he l hst hs]⟩
    · cases floatLit a with
      | err => exact ⟨h, rfl⟩
      | ub => trivial
      | ok p =>
        rw [Res.bind_ok, Res.bind_ok]
        split
        · exact ⟨h, rfl⟩
        · exact ⟨⟨h.1, h2 p⟩, fun _ => rfl⟩
  · rw [executeParsed_type _ _ _ _ ((isType_iff _).2 hA), executeParsed_type _ _ _ _ ((isType_iff _).2 hA)]
    refine hon ?_
    unfold executeInType
    dsimp only
    cases makeInstance a n l with
    | err => exact ⟨h, rfl⟩
    | ub => trivial
    | ok o =>
      rw [Res.bind_ok, Res.bind_ok]
      cases o with
      | none => trivial
      | some x =>
        obtain ⟨v, i⟩ := x
        dsimp only
        rw [← h.1]
        cases mapFind strLt v c.vars with
        | none => exact ⟨⟨rfl, h.2⟩, fun _ => rfl⟩
        | some j =>
          dsimp only
          split
          · exact ⟨h, fun _ => rfl⟩
          · exact ⟨h, rfl⟩
  · rw [executeParsed_variable _ _ _ _ ((isVariable_iff _).2 hA), executeParsed_variable _ _ _ _ ((isVariable_iff _).2 hA)]
    refine hon ?_
    unfold executeInVariable
    dsimp only
    rw [← h.1]
    cases hl : mapFind strLt a c.vars with
    | none => exact ⟨h, rfl⟩
    | some i =>
      rw [hc.find] at hl
      have := hv a n l i hst hl
      dsimp only
      cases h3 : receive c.cfg i n l <;> cases h4 : receive d.cfg i n l <;> rw [h3, h4] at this <;>
        first | exact this.elim | skip
      · obtain ⟨rfl, h5⟩ := this; exact ⟨⟨rfl, h.2⟩, h5⟩
      · obtain ⟨rfl, h5⟩ := this; exact ⟨⟨rfl, h.2⟩, h5⟩
      · trivial

end Knuckle

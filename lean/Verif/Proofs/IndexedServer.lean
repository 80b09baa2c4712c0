/-
The whole server with the indices of the C++ and the one without agree as long as everything is shorter than 2^31.
-/
import Verif.Model.IndexedServer
import Verif.Proofs.IndexedVector
import Verif.Proofs.IndexedStack
import Verif.Proofs.Creation
import Verif.Proofs.Storage
import Verif.Proofs.Changes
import Verif.Proofs.Server

namespace Knuckle.Idx

theorem boolReceive_eq (v : Bool) (name : Str) (args : List Str) (ha : ∀ a ∈ args, Fits a) :
    find (boolTable v) name args = fromRun (dispatch v (Knuckle.boolTable v) name args) := by
  unfold boolTable Knuckle.boolTable
  refine find_cons (op0_eq (by rfl) _) (find_cons (op1_eq _ ha fun a h => lift_step fun b => by rfl) ?_)
  exact find_cons (op0_eq (by rfl) _) (find_cons (op0_eq (by rfl) _) rfl)

theorem charCmp_eq (cmp : Obj → Obj → Res Bool) (v : Byte) (args : List Str) (ha : ∀ a ∈ args, Fits a) :
    charCmp cmp v args = fromRun (Knuckle.charCmp cmp v args) := by
  refine op1_eq args ha fun a h => ?_
  rw [characterLit_eq]
  exact lift_step fun b => lift_step fun r => by rfl

theorem charReceive_eq (eps : Fl) (v : Byte) (name : Str) (args : List Str) (ha : ∀ a ∈ args, Fits a) :
    find (charTable eps v) name args = fromRun (dispatch v (Knuckle.charTable eps v) name args) := by
  unfold charTable Knuckle.charTable
  refine find_cons (op0_eq (by rfl) _) (find_cons (op1_eq _ ha fun a h => by rw [characterLit_eq]; exact lift_step fun b => by rfl) ?_)
  refine find_cons (op0_eq (by rfl) _) (find_cons (op0_eq (by rfl) _) (find_cons (op0_eq (by rfl) _) (find_cons (op0_eq (by rfl) _) ?_)))
  exact find_cons (charCmp_eq _ _ _ ha) (find_cons (charCmp_eq _ _ _ ha) (find_cons (charCmp_eq _ _ _ ha) (find_cons (charCmp_eq _ _ _ ha)
    (find_cons (charCmp_eq _ _ _ ha) rfl))))

theorem intCmp_eq (cmp : Obj → Obj → Res Bool) (v : Int) (args : List Str) (ha : ∀ a ∈ args, Fits a) :
    intCmp cmp v args = fromRun (Knuckle.intCmp cmp v args) := by
  refine op1_eq args ha fun a h => ?_
  rw [isIntegerValue_eq h, isFloatValue_eq h, integerLit_eq h, floatLit_eq h, not_ok, not_ok, and_ok_ok, bind_def, bind_ok, lift_ite, lift_err, bind_def,
    bind_ok, lift_ite]
  refine ite_congr rfl (fun _ => rfl) fun _ => ?_
  exact ite_congr rfl (fun _ => lift_step fun b => lift_step fun r => by rfl) fun _ => lift_step fun b => lift_step fun r => by rfl

theorem intArith_eq (f : Fl → Fl → Fl) (v : Int) (args : List Str) (ha : ∀ a ∈ args, Fits a) :
    intArith f v args = fromRun (Knuckle.intArith f v args) := by
  refine op1_eq args ha fun a h => ?_
  rw [isIntegerValue_eq h, isFloatValue_eq h, numArg_eq h, not_ok, not_ok, and_ok_ok, bind_def, bind_ok, lift_ite, lift_err]
  exact ite_congr rfl (fun _ => rfl) fun _ => lift_step fun b => lift_step fun r => by rfl

theorem intReceive_eq (eps : Fl) (v : Int) (name : Str) (args : List Str) (ha : ∀ a ∈ args, Fits a) :
    find (intTable eps v) name args = fromRun (dispatch v (Knuckle.intTable eps v) name args) := by
  unfold intTable Knuckle.intTable
  refine find_cons (op0_eq (by rfl) _) (find_cons (op1_eq _ ha fun a h => by rw [integerLit_eq h]; exact lift_step fun b => by rfl) ?_)
  refine find_cons (intCmp_eq _ _ _ ha) (find_cons (intCmp_eq _ _ _ ha) (find_cons (intCmp_eq _ _ _ ha) (find_cons (intCmp_eq _ _ _ ha)
    (find_cons (intCmp_eq _ _ _ ha) ?_))))
  exact find_cons (intArith_eq _ _ _ ha) (find_cons (intArith_eq _ _ _ ha) (find_cons (intArith_eq _ _ _ ha) (find_cons (intArith_eq _ _ _ ha) rfl)))

theorem floatCmp_eq (cmp : Obj → Obj → Res Bool) (v : Fl) (args : List Str) (ha : ∀ a ∈ args, Fits a) :
    floatCmp cmp v args = fromRun (Knuckle.floatCmp cmp v args) := by
  refine op1_eq args ha fun a h => ?_
  rw [floatLit_eq h]
  exact lift_step fun b => lift_step fun r => by rfl

theorem floatArith_eq (f : Fl → Fl → Fl) (v : Fl) (args : List Str) (ha : ∀ a ∈ args, Fits a) :
    floatArith f v args = fromRun (Knuckle.floatArith f v args) := by
  refine op1_eq args ha fun a h => ?_
  rw [isFloatValue_eq h, not_ok, bind_def, bind_ok, lift_ite, lift_err, lift_ok]

theorem floatReceive_eq (cfg : Cfg) (v : Fl) (name : Str) (args : List Str) (ha : ∀ a ∈ args, Fits a) :
    find (floatTable cfg v) name args = fromRun (dispatch v (Knuckle.floatTable cfg v) name args) := by
  unfold floatTable Knuckle.floatTable
  refine find_cons (op0_eq (by rfl) _) (find_cons (op1_eq _ ha fun a h => by rw [floatLit_eq h]; exact lift_step fun b => by rfl) ?_)
  refine find_cons (floatCmp_eq _ _ _ ha) (find_cons (floatCmp_eq _ _ _ ha) (find_cons (floatCmp_eq _ _ _ ha) (find_cons (floatCmp_eq _ _ _ ha)
    (find_cons (floatCmp_eq _ _ _ ha) ?_))))
  exact find_cons (floatArith_eq _ _ _ ha) (find_cons (floatArith_eq _ _ _ ha) (find_cons (floatArith_eq _ _ _ ha) (find_cons (floatArith_eq _ _ _ ha) rfl)))

theorem setRepr_eq (prec : Int) {l : List Obj} (h : FitsAll l) : setRepr prec l = .ok (Knuckle.setRepr prec l) := by
  unfold setRepr Knuckle.setRepr
  rw [reprs_eq prec h, bind_def, bind_ok]

theorem toInt_eq {n : Nat} (h : n < 2147483648) : toInt n = n := by
  unfold toInt
  rw [Nat.mod_eq_of_lt (by omega), if_pos h]

/-- `find_cons`, if the operators agree whenever they are called. -/
theorem find_cons' {σ : Type} {n : Str} {op : List Str → Ix (σ × Str)} {op' : List Str → Run σ} {t t'} {v : σ} {name : Str} {args : List Str}
    (h : name = n → op args = fromRun (op' args)) (ht : find t name args = fromRun (dispatch v t' name args)) :
    find ((n, op) :: t) name args = fromRun (dispatch v ((n, op') :: t') name args) := by
  rw [find, dispatch]
  split
  · rename_i e; exact h (eq_of_beq e)
  · exact ht

theorem setReceive_eq (cfg : Cfg) (t : Str) {l : List Obj} (hf : FitsAll l) (name : Str) (args : List Str)
    (hl : name = b!"size" → l.length < 2147483648) (ha : ∀ a ∈ args, Fits a) : find (setTable cfg t l) name args = fromRun (dispatch l (Knuckle.setTable cfg t l) name args) := by
  unfold setTable Knuckle.setTable
  refine find_cons (op0_eq (by rw [setRepr_eq _ hf]; rfl) _) (find_cons (op0_eq (by rfl) _) ?_)
  refine find_cons (op1_eq _ ha fun a h => by rw [getSharedInstance_eq t h]; exact lift_step fun o => lift_step fun k => by rfl) ?_
  refine find_cons' (fun e => op0_eq (by rw [toInt_eq (hl e)]; rfl) _) ?_
  refine find_cons (op1_eq _ ha fun a h => by rw [getSharedInstance_eq t h]; exact lift_step fun o => lift_step fun k => by rfl) ?_
  refine find_cons (op1_eq _ ha fun a h => by rw [getSharedInstance_eq t h]; exact lift_step fun o => lift_step fun k => by rfl) ?_
  exact find_cons (op0_eq (by rfl) _) rfl

/-- All keys and values are short. -/
def FitsPairs (l : List (Obj × Obj)) : Prop := ∀ p ∈ l, FitsObj p.1 ∧ FitsObj p.2

theorem pairReprs_eq (prec : Int) : ∀ {l : List (Obj × Obj)}, FitsPairs l →
    pairReprs prec l = .ok (l.map fun kv => c!"(" :: (kv.1.repr prec ++ c!"," :: (kv.2.repr prec ++ [c!")"]))) := by
  intro l
  induction l with
  | nil => intro _; rfl
  | cons p l ih =>
    intro h
    rw [pairReprs, repr_eq prec (h p (by simp)).1, bind_def, bind_ok, repr_eq prec (h p (by simp)).2, bind_def, bind_ok,
      ih fun x hx => h x (by simp [hx]), bind_def, bind_ok]
    rfl

theorem dictRepr_eq (prec : Int) {l : List (Obj × Obj)} (h : FitsPairs l) : dictRepr prec l = .ok (Knuckle.dictRepr prec l) := by
  unfold dictRepr Knuckle.dictRepr
  rw [pairReprs_eq prec h, bind_def, bind_ok]

theorem mapFind_mem {lt : Obj → Obj → Bool} {k v : Obj} : ∀ {l : List (Obj × Obj)}, mapFind lt k l = some v → ∃ p ∈ l, p.2 = v := by
  intro l
  induction l with
  | nil => intro h; cases h
  | cons p l ih =>
    intro h
    rw [mapFind] at h
    split at h
    · obtain ⟨q, hq, e⟩ := ih h
      exact ⟨q, by simp [hq], e⟩
    · split at h
      · cases h
      · cases h
        exact ⟨p, by simp, rfl⟩

theorem dictGet_eq (cfg : Cfg) (t : Str) {l : List (Obj × Obj)} (hf : FitsPairs l) (args : List Str) (ha : ∀ a ∈ args, Fits a) :
    dictGet cfg t l args = fromRun (Knuckle.dictGet cfg t l args) := by
  refine op1_eq args ha fun a h => ?_
  rw [getSharedInstance_eq t h]
  refine lift_step fun k => lift_step fun _ => ?_
  cases hm : mapFind (ltB cfg.eps) k l with
  | none => rfl
  | some v =>
    obtain ⟨p, hp, rfl⟩ := mapFind_mem hm
    show (do let r ← repr cfg.prec p.2; .ok (l, r) : Ix (List (Obj × Obj) × Str)) = _
    rw [repr_eq _ (hf p hp).2, bind_def, bind_ok]
    rfl

theorem dictReceive_eq (cfg : Cfg) (kt vt : Str) {l : List (Obj × Obj)} (hf : FitsPairs l) (name : Str) (args : List Str)
    (hl : name = b!"size" → l.length < 2147483648) (ha : ∀ a ∈ args, Fits a) : find (dictTable cfg kt vt l) name args = fromRun (dispatch l (Knuckle.dictTable cfg kt vt l) name args) := by
  unfold dictTable Knuckle.dictTable
  refine find_cons (op0_eq (by rw [dictRepr_eq _ hf]; rfl) _) (find_cons (op0_eq (by rfl) _) ?_)
  refine find_cons (op1_eq _ ha fun a h => by rw [getSharedInstance_eq kt h]; exact lift_step fun o => lift_step fun k => by rfl) ?_
  refine find_cons' (fun e => op0_eq (by rw [toInt_eq (hl e)]; rfl) _) ?_
  refine find_cons (op0_eq (by rw [vectorRepr_eq _ (fun o ho => by obtain ⟨p, hp, rfl⟩ := List.mem_map.1 ho; exact (hf p hp).1)]; rfl) _) ?_
  refine find_cons (op0_eq (by rw [vectorRepr_eq _ (fun o ho => by obtain ⟨p, hp, rfl⟩ := List.mem_map.1 ho; exact (hf p hp).2)]; rfl) _) ?_
  refine find_cons (dictGet_eq _ _ hf _ ha) ?_
  refine find_cons (op2_eq _ ha fun a b h h' => by
    rw [getSharedInstance_eq vt h, getSharedInstance_eq kt h']; exact lift_step fun o => lift_step fun k => lift_step fun _ => by rfl) ?_
  refine find_cons (op1_eq _ ha fun a h => by rw [getSharedInstance_eq kt h]; exact lift_step fun o => lift_step fun k => by rfl) ?_
  exact find_cons (op0_eq (by rfl) _) rfl

/-- A value is short: its strings, and the number of its elements. -/
def FitsInst : Inst → Prop
  | .string v => Fits v
  | .vector _ l => l.length < 2147483648 ∧ FitsAll l
  | .set _ l => l.length < 2147483648 ∧ FitsAll l
  | .dictionary _ _ l => l.length < 2147483648 ∧ FitsPairs l
  | _ => True

theorem wrap_eq {σ : Type} (f : σ → Inst) (x : Run σ) : wrapIx f (fromRun x) = fromRun (wrap f x) := by cases x <;> rfl

theorem instReceive_eq [StdSort] (cfg : Cfg) {i : Inst} (hi : FitsInst i) (name : Str) (args : List Str) (ha : ∀ a ∈ args, Fits a) :
    instReceive cfg i name args = fromRun (Knuckle.receive cfg i name args) := by
  cases i with
  | boolean v => exact (congrArg _ (boolReceive_eq v name args ha)).trans (wrap_eq _ _)
  | character v => exact (congrArg _ (charReceive_eq _ v name args ha)).trans (wrap_eq _ _)
  | integer v => exact (congrArg _ (intReceive_eq _ v name args ha)).trans (wrap_eq _ _)
  | float v => exact (congrArg _ (floatReceive_eq _ v name args ha)).trans (wrap_eq _ _)
  | string v => exact (congrArg _ (receive_eq hi _ name args ha)).trans (wrap_eq _ _)
  | vector t l => exact (congrArg _ (vecReceive_eq hi.1 hi.2 cfg t name args ha)).trans (wrap_eq _ _)
  | set t l => exact (congrArg _ (setReceive_eq cfg t hi.2 name args (fun _ => hi.1) ha)).trans (wrap_eq _ _)
  | dictionary k t l => exact (congrArg _ (dictReceive_eq cfg k t hi.2 name args (fun _ => hi.1) ha)).trans (wrap_eq _ _)

/-! ### Creation -/

theorem constructWithValue_eq {f : Str → Ix Inst} {g : Str → Res Inst} {v : Str → Ix Bool} {w : Str → Bool} (hv : ∀ b, Fits b → v b = .ok (w b))
    (hf : ∀ b, Fits b → w b = true → f b = lift (g b)) (args : List Str) (ha : ∀ a ∈ args, Fits a) :
    constructWithValue f v args = lift (Knuckle.constructWithValue g w args) := by
  match args with
  | [] => rfl
  | [a] => rfl
  | [a, b] =>
    rw [constructWithValue, Knuckle.constructWithValue, isVariable_eq (ha a (by simp)), hv b (ha b (by simp)), not_ok, not_ok, or_ok_ok, bind_def, bind_ok,
      lift_ite, lift_err]
    refine ite_congr rfl (fun _ => rfl) fun h => ?_
    rw [hf b (ha b (by simp)) (by simp at h; exact h.2)]
    exact lift_step fun i => by rfl
  | a :: b :: c :: l => rfl

theorem constructEmpty_eq (i : Inst) (args : List Str) (ha : ∀ a ∈ args, Fits a) : constructEmpty i args = lift (Knuckle.constructEmpty i args) := by
  match args with
  | [] => rfl
  | [a] => rw [constructEmpty, Knuckle.constructEmpty, isVariable_eq (ha a (by simp)), not_ok, bind_def, bind_ok, lift_ite, lift_err, lift_ok]
  | a :: b :: l => rfl

theorem newBoolean_eq (name : Str) (args : List Str) (ha : ∀ a ∈ args, Fits a) : newBoolean name args = lift (Knuckle.newBoolean name args) := by
  unfold newBoolean Knuckle.newBoolean
  rw [lift_ite, lift_err, constructWithValue_eq (g := fun b => .ok (.boolean (b == b!"true"))) (fun b _ => rfl) (fun b _ _ => by rfl) args ha]

theorem newCharacter_eq (name : Str) (args : List Str) (ha : ∀ a ∈ args, Fits a) : newCharacter name args = lift (Knuckle.newCharacter name args) := by
  unfold newCharacter Knuckle.newCharacter
  rw [lift_ite, lift_err, constructWithValue_eq (fun b _ => isCharacterValue_eq b) (fun b _ h => ?_) args ha]
  have h2 : b.length = 3 := by
    unfold Knuckle.isCharacterValue at h
    by_contra hc
    simp [hc] at h
  rw [show (1 : Int) = ((1 : Nat) : Int) from rfl, at_nat (by omega), bind_def, bind_ok, lift_ok]

theorem newInteger_eq (name : Str) (args : List Str) (ha : ∀ a ∈ args, Fits a) : newInteger name args = lift (Knuckle.newInteger name args) := by
  unfold newInteger Knuckle.newInteger
  rw [lift_ite, lift_err, constructWithValue_eq (fun b h => by rw [isIntegerValue_eq h, isFloatValue_eq h, or_ok_ok]) (fun b h _ => ?_) args ha]
  rw [numArg_eq h]
  exact lift_step fun x => lift_step fun i => by rfl

theorem newFloat_eq (name : Str) (args : List Str) (ha : ∀ a ∈ args, Fits a) : newFloat name args = lift (Knuckle.newFloat name args) := by
  unfold newFloat Knuckle.newFloat
  rw [lift_ite, lift_err, constructWithValue_eq (g := fun b => .ok (.float (atof b).toF32)) (fun b h => isFloatValue_eq h) (fun b _ _ => by rfl) args ha]

theorem newString_eq (name : Str) (args : List Str) (ha : ∀ a ∈ args, Fits a) : newString name args = lift (Knuckle.newString name args) := by
  unfold newString Knuckle.newString
  rw [lift_ite, lift_ite, lift_err, constructEmpty_eq _ _ ha, constructWithValue_eq (fun b h => isStringValue_eq h) (fun b h hb => ?_) args ha]
  have e := stringLit_eq h
  unfold stringLit Knuckle.stringLit at e
  rw [isStringValue_eq h, not_ok, bind_def, bind_ok, hb, if_neg (by simp), if_neg (by simp), lift_ok] at e
  rw [e, bind_def, bind_ok, lift_ok]

theorem newContainer_eq (i : Inst) (name : Str) (args : List Str) (ha : ∀ a ∈ args, Fits a) :
    newContainer i name args = lift (Knuckle.newContainer i name args) := by
  unfold newContainer Knuckle.newContainer
  rw [lift_ite, lift_err, constructEmpty_eq _ _ ha]

theorem dictLoop_eq (name : Str) (args : List Str) (ha : ∀ a ∈ args, Fits a) {ts : Str} (ht : Fits ts) : ∀ (suf pre : Str) (acc : Option (Str × Inst)),
    ts = pre ++ suf → up (dictBody name args ts) pre.length acc = lift (dictInstances name args pre suf acc) := by
  have ht' : ts.length < 2147483648 := ht
  intro suf
  induction suf with
  | nil =>
    intro pre acc e
    rw [List.append_nil] at e
    subst e
    rw [up_stop (b := acc) (by unfold dictBody; rw [size_eq ht, if_neg (by omega)])]
    rfl
  | cons c cs ih =>
    intro pre acc e
    have hlt := lt_cons e
    have hb : dictBody name args ts pre.length acc =
        if c == c!"," then (lift (Knuckle.newContainer (.dictionary pre cs []) name args)).bind fun x => .ok (.next (some x)) else .ok (.next acc) := by
      unfold dictBody
      rw [size_eq ht, if_pos hlt, at_cons e, bind_def, bind_ok]
      refine ite_congr rfl (fun _ => ?_) fun _ => rfl
      rw [substr_to e, bind_def, bind_ok, int_ok (by omega) (by omega), bind_def, bind_ok, substr_from e, bind_def, bind_ok, newContainer_eq _ _ _ ha, bind_def]
    have e2 : ts = (pre ++ [c]) ++ cs := by rw [e]; simp
    have hlen : ((pre.length : Int) + 1) = ((pre ++ [c]).length : Int) := by simp
    rw [dictInstances]
    by_cases hc : (c == c!",") = true
    · rw [if_pos hc] at hb ⊢
      cases hn : Knuckle.newContainer (.dictionary pre cs []) name args with
      | ok x =>
        rw [hn, lift_ok, bind_ok] at hb
        rw [up_next hb (by omega), hlen, ih _ _ e2]
        rfl
      | err x =>
        rw [hn, lift_err, bind_throws] at hb
        rw [up, hb]
        rfl
      | ub =>
        rw [hn, lift_ub, bind_ub] at hb
        rw [up, hb]
        rfl
    · rw [if_neg hc] at hb ⊢
      rw [up_next hb (by omega), hlen, ih _ _ e2]

/-- A type without its spaces is as long as its brackets say. -/
theorem type_brackets {a : Str} (h : Knuckle.isType a = true) :
    (Knuckle.startsWith (Knuckle.removeSpaces a) b!"Vector" = true → 8 ≤ (Knuckle.removeSpaces a).length) ∧
    (Knuckle.startsWith (Knuckle.removeSpaces a) b!"Set" = true → 5 ≤ (Knuckle.removeSpaces a).length) ∧
    (Knuckle.startsWith (Knuckle.removeSpaces a) b!"Dictionary" = true → 12 ≤ (Knuckle.removeSpaces a).length) := by
  have key : ∀ t : Str, Spec.ObjectType t → Knuckle.startsWith t b!"Vector" = false ∧ Knuckle.startsWith t b!"Set" = false ∧
      Knuckle.startsWith t b!"Dictionary" = false := by
    intro t ht
    refine objectType_cases (P := fun t => Knuckle.startsWith t b!"Vector" = false ∧ Knuckle.startsWith t b!"Set" = false ∧
      Knuckle.startsWith t b!"Dictionary" = false) t ht ?_ ?_ ?_ ?_ ?_ <;> decide
  rcases (isType_iff a).1 h with h | h
  · rw [removeSpaces_object a h]
    obtain ⟨h1, h2, h3⟩ := key a h
    rw [h1, h2, h3]
    simp
  · rcases h with ⟨w, t, w', rfl, hw, ht, hw'⟩ | ⟨w, t, w', rfl, hw, ht, hw'⟩ | ⟨w, t, w', v, u, v', rfl, hw, ht, hw', hv, hu, hv'⟩
    · have e : Knuckle.removeSpaces (b!"Vector<" ++ (w ++ (t ++ (w' ++ b!">")))) = b!"Vector<" ++ (t ++ b!">") := by
        simp only [removeSpaces_append, removeSpaces_spaces w hw, removeSpaces_spaces w' hw', removeSpaces_object t ht]
        rfl
      rw [e]
      refine ⟨fun _ => by simp, fun h => ?_, fun h => ?_⟩ <;> (obtain ⟨r, hr⟩ := (startsWith_iff _ _).1 h; simp at hr)
    · have e : Knuckle.removeSpaces (b!"Set<" ++ (w ++ (t ++ (w' ++ b!">")))) = b!"Set<" ++ (t ++ b!">") := by
        simp only [removeSpaces_append, removeSpaces_spaces w hw, removeSpaces_spaces w' hw', removeSpaces_object t ht]
        rfl
      rw [e]
      refine ⟨fun h => ?_, fun _ => by simp, fun h => ?_⟩ <;> (obtain ⟨r, hr⟩ := (startsWith_iff _ _).1 h; simp at hr)
    · have e : Knuckle.removeSpaces (b!"Dictionary<" ++ (w ++ (t ++ (w' ++ (b!"," ++ (v ++ (u ++ (v' ++ b!">")))))))) =
          b!"Dictionary<" ++ ((t ++ c!"," :: u) ++ b!">") := by
        simp only [removeSpaces_append, removeSpaces_spaces w hw, removeSpaces_spaces w' hw', removeSpaces_object t ht,
          removeSpaces_spaces v hv, removeSpaces_spaces v' hv', removeSpaces_object u hu]
        simp [Knuckle.removeSpaces, isSpace]
      rw [e]
      refine ⟨fun h => ?_, fun h => ?_, fun _ => by simp; omega⟩ <;> (obtain ⟨r, hr⟩ := (startsWith_iff _ _).1 h; simp at hr)

theorem fits_removeSpaces {s : Str} (h : Fits s) : Fits (Knuckle.removeSpaces s) := by
  refine fits_le h ?_
  rw [Knuckle.removeSpaces_eq]
  exact List.length_filter_le _ _

theorem makeInstance_eq {actor : Str} (hf : Fits actor) (ht : Knuckle.isType actor = true) (name : Str) (args : List Str) (ha : ∀ a ∈ args, Fits a) :
    makeInstance actor name args = lift (Knuckle.makeInstance actor name args) := by
  unfold makeInstance Knuckle.makeInstance
  have hr := fits_removeSpaces hf
  obtain ⟨hv, hs, hd⟩ := type_brackets ht
  rw [removeSpaces_eq hf, bind_def, bind_ok]
  generalize Knuckle.removeSpaces actor = t at hr hv hs hd
  have hr' : t.length < 2147483648 := hr
  simp only []
  rw [newBoolean_eq _ _ ha, newCharacter_eq _ _ ha, newInteger_eq _ _ ha, newFloat_eq _ _ ha, newString_eq _ _ ha, startsWith_eq hr, startsWith_eq hr, startsWith_eq hr,
    lift_ite, lift_ite, lift_ite, lift_ite, lift_ite, lift_ite, lift_ite, lift_ite, size_eq hr]
  refine ite_congr rfl (fun _ => lift_step fun x => by rfl) fun _ => ?_
  refine ite_congr rfl (fun _ => lift_step fun x => by rfl) fun _ => ?_
  refine ite_congr rfl (fun _ => lift_step fun x => by rfl) fun _ => ?_
  refine ite_congr rfl (fun _ => lift_step fun x => by rfl) fun _ => ?_
  refine ite_congr rfl (fun _ => lift_step fun x => by rfl) fun _ => ?_
  rw [bind_def, bind_ok]
  refine ite_congr rfl (fun h => ?_) fun _ => ?_
  · have := hv h
    rw [int_ok (by omega) (by omega), bind_def, bind_ok, show (7 : Int) = ((7 : Nat) : Int) from rfl, show (t.length : Int) - 8 = ((t.length - 8 : Nat) : Int) by omega,
      substr2_nat (by omega), bind_def, bind_ok, substrR_le (by omega), Res.bind_ok, newContainer_eq _ _ _ ha]
    exact lift_step fun x => by rfl
  rw [bind_def, bind_ok]
  refine ite_congr rfl (fun h => ?_) fun _ => ?_
  · have := hs h
    rw [int_ok (by omega) (by omega), bind_def, bind_ok, show (4 : Int) = ((4 : Nat) : Int) from rfl, show (t.length : Int) - 5 = ((t.length - 5 : Nat) : Int) by omega,
      substr2_nat (by omega), bind_def, bind_ok, substrR_le (by omega), Res.bind_ok, newContainer_eq _ _ _ ha]
    exact lift_step fun x => by rfl
  rw [bind_def, bind_ok]
  refine ite_congr rfl (fun h => ?_) fun _ => rfl
  have := hd h
  rw [int_ok (by omega) (by omega), bind_def, bind_ok, show (11 : Int) = ((11 : Nat) : Int) from rfl, show (t.length : Int) - 12 = ((t.length - 12 : Nat) : Int) by omega,
    substr2_nat (by omega), bind_def, bind_ok, substrR_le (by omega), Res.bind_ok]
  exact dictLoop_eq name args ha (fits_take (fits_drop hr _) _) _ [] none rfl

theorem executeInType_eq (c : Ctx) {p : Parsed} (hf : Fits p.actor) (ht : Knuckle.isType p.actor = true) (ha : ∀ a ∈ p.args, Fits a) :
    executeInType c p = fromRun (Knuckle.executeInType c p) := by
  unfold executeInType Knuckle.executeInType
  rw [fromRun_run, makeInstance_eq hf ht _ _ ha]
  refine lift_step fun x => ?_
  match x with
  | none => rfl
  | some (n, i) =>
    show (match mapFind strLt n c.vars with
      | none => Ix.ok ({ c with vars := mapInsert strLt n i c.vars }, b!"null")
      | some _ => do if ← startsWith p.name b!"createIfNotExists:" then .ok (c, b!"null") else .throws .nameAlreadyUsed : Ix (Ctx × Str)) =
      lift (match mapFind strLt n c.vars with
      | none => Res.ok ({ c with vars := mapInsert strLt n i c.vars }, b!"null")
      | some _ => if Knuckle.startsWith p.name b!"createIfNotExists:" then .ok (c, b!"null") else .err .nameAlreadyUsed)
    cases mapFind strLt n c.vars with
    | none => rfl
    | some j =>
      show (do if ← startsWith p.name b!"createIfNotExists:" then .ok (c, b!"null") else .throws .nameAlreadyUsed : Ix (Ctx × Str)) =
        lift (if Knuckle.startsWith p.name b!"createIfNotExists:" then .ok (c, b!"null") else .err .nameAlreadyUsed)
      rw [startsWith_fits (by unfold Fits; decide), bind_def, bind_ok, lift_ite, lift_ok, lift_err]

/-! ### The context -/

theorem namespaceLoop_eq {n : Str} (hn : Fits n) (acc : List Str) :
    up (namespaceBody n) 0 acc = .ok ((namespacesOf [] n).foldl (fun acc t => setInsert strLt t acc) acc) := by
  have hn' : n.length < 2147483648 := hn
  refine up_list hn (fun pre suf acc => (namespacesOf pre suf).foldl (fun acc t => setInsert strLt t acc) acc) ?_ ?_ n [] acc rfl
  · intro st
    unfold namespaceBody
    rw [size_eq hn, int_ok (by omega) (by omega), bind_def, bind_ok, if_neg (by omega)]
    rfl
  · intro pre c cs st e
    have hlen : n.length = pre.length + (cs.length + 1) := by rw [e]; simp
    cases cs with
    | nil =>
      right
      unfold namespaceBody
      rw [size_eq hn, int_ok (by omega) (by omega), bind_def, bind_ok, if_neg (by simp at hlen; omega)]
      rfl
    | cons d ds =>
      left
      have e2 : n = (pre ++ [c]) ++ d :: ds := by rw [e]; simp
      have h2 : «at» n ((pre.length : Int) + 1) = .ok d := by
        have := at_cons e2
        rw [List.length_append, List.length_singleton] at this
        exact this
      have hb : namespaceBody n pre.length st = if (c == c!":" && d == c!":") then .ok (.next (setInsert strLt pre st)) else .ok (.next st) := by
        unfold namespaceBody
        rw [size_eq hn, int_ok (by omega) (by omega), bind_def, bind_ok, if_pos (by simp at hlen; omega), at_cons e, bind_ok,
          int_ok (by omega) (by simp at hlen; omega), bind_ok, h2, bind_ok, and_ok_ok, bind_def, bind_ok, substr_to e, bind_def, bind_ok]
      rw [hb]
      by_cases hc : (c == c!":" && d == c!":") = true
      · rw [if_pos hc]
        refine ⟨_, rfl, ?_⟩
        show (namespacesOf pre (c :: d :: ds)).foldl _ st = _
        rw [namespacesOf, if_pos hc]
        rfl
      · rw [if_neg hc]
        refine ⟨_, rfl, ?_⟩
        show (namespacesOf pre (c :: d :: ds)).foldl _ st = _
        rw [namespacesOf, if_neg hc]

theorem allNamespaces_eq : ∀ (vars : List (Str × Inst)) (acc : List Str), (∀ v ∈ vars, Fits v.1) → allNamespaces vars acc =
    .ok (vars.foldl (fun acc v => (namespacesOf [] v.1).foldl (fun acc n => setInsert strLt n acc) acc) acc)
  | [], acc, _ => rfl
  | v :: vs, acc, h => by
    rw [allNamespaces, namespaceLoop_eq (h v (by simp)), bind_def, bind_ok, allNamespaces_eq vs _ fun x hx => h x (by simp [hx])]
    rfl

theorem listLoop_eq (pre : Str) : ∀ (vars : List (Str × Inst)) (acc : Str), (∀ v ∈ vars, Fits v.1) →
    listOfNamespaceLoop pre vars acc = .ok (Knuckle.listOfNamespaceLoop pre vars acc)
  | [], acc, _ => rfl
  | v :: vs, acc, h => by
    rw [listOfNamespaceLoop, Knuckle.listOfNamespaceLoop, startsWith_eq (h v (by simp)), not_ok, bind_def, bind_ok,
      listLoop_eq pre vs _ fun x hx => h x (by simp [hx]), listLoop_eq pre vs _ fun x hx => h x (by simp [hx])]
    split <;> rfl

theorem keepOutside_eq (pre : Str) : ∀ (vars : List (Str × Inst)), (∀ v ∈ vars, Fits v.1) →
    keepOutside pre vars = .ok (vars.filter fun v => !Knuckle.startsWith v.1 pre)
  | [], _ => rfl
  | v :: vs, h => by
    rw [keepOutside, startsWith_eq (h v (by simp)), bind_def, bind_ok, keepOutside_eq pre vs fun x hx => h x (by simp [hx]), bind_def, bind_ok, List.filter_cons]
    cases Knuckle.startsWith v.1 pre <;> rfl

theorem contextReceive_eq (c : Ctx) (hn : ∀ v ∈ c.vars, Fits v.1) (name : Str) (args : List Str) (ha : ∀ a ∈ args, Fits a) :
    find (contextTable c) name args = fromRun (dispatch c (Knuckle.contextTable c) name args) := by
  unfold contextTable Knuckle.contextTable
  refine find_cons (op0_eq (by rw [allNamespaces_eq _ _ hn]; rfl) _) (find_cons (op0_eq (by rfl) _) ?_)
  refine find_cons (op1_eq _ ha fun a h => ?_) ?_
  · rw [show isNamespace a = .ok (Knuckle.isNamespace a) from isIdentifier_eq h, not_ok, bind_def, bind_ok, lift_ite, lift_err, lift_ok, listLoop_eq _ _ _ hn, bind_def, bind_ok]
  refine find_cons (op1_eq _ ha fun a h => ?_) ?_
  · rw [isVariable_eq h, not_ok, bind_def, bind_ok, lift_ite, lift_err]
    refine ite_congr rfl (fun _ => rfl) fun _ => ?_
    cases eraseName a c.vars <;> rfl
  refine find_cons (op1_eq _ ha fun a h => ?_) ?_
  · rw [show isNamespace a = .ok (Knuckle.isNamespace a) from isIdentifier_eq h, not_ok, bind_def, bind_ok, lift_ite, lift_err, lift_ok, keepOutside_eq _ _ hn, bind_def, bind_ok]
  refine find_cons rfl ?_
  refine find_cons (op1_eq _ ha fun a h => ?_) ?_
  · rw [integerLit_eq h]
    refine lift_step fun p => ?_
    rw [lift_ite, lift_err, lift_ok]
  refine find_cons rfl ?_
  refine find_cons (op1_eq _ ha fun a h => ?_) rfl
  rw [floatLit_eq h]
  refine lift_step fun p => ?_
  rw [lift_ite, lift_err, lift_ok]

theorem sessionReceive_eq (pwd : Str) (s : Session) (name : Str) (args : List Str) (ha : ∀ a ∈ args, Fits a) :
    sessionReceive pwd s name args = fromRun (s.receive pwd name args) := by
  unfold sessionReceive Session.receive
  split
  · rfl
  split
  · refine op1_eq args ha fun a h => ?_
    rw [isStringValue_eq h, stringLit_eq h, not_ok, bind_def, bind_ok, lift_ite, lift_err]
    refine ite_congr rfl (fun _ => rfl) fun _ => lift_step fun v => ?_
    rw [lift_ite, lift_ok, lift_err]
  · rfl

/-- Everything in the context is short. -/
def FitsCtx (c : Ctx) : Prop := ∀ v ∈ c.vars, Fits v.1 ∧ FitsInst v.2

theorem mapFind_var {n : Str} {i : Inst} : ∀ {l : List (Str × Inst)}, mapFind strLt n l = some i → ∃ m, (m, i) ∈ l := by
  intro l
  induction l with
  | nil => intro h; cases h
  | cons p l ih =>
    intro h
    rw [mapFind] at h
    split at h
    · obtain ⟨m, hm⟩ := ih h
      exact ⟨m, by simp [hm]⟩
    · split at h
      · cases h
      · cases h
        exact ⟨p.1, by simp⟩

/-- An exception in the execution of a statement changes nothing. -/
theorem executeParsed_thr [StdSort] {pwd : Str} {c x : Ctx} (hc : Inv c) {s s' : Option Session} {p : Parsed} {e : Exc}
    (h : Knuckle.executeParsed pwd c s p = .thr (x, s') e) : x = c ∧ s' = s := by
  obtain ⟨a, n, l⟩ := p
  unfold Knuckle.executeParsed at h
  simp only [] at h
  have run : ∀ {y : Res (Ctx × Str)} {z : Ctx} {e : Exc}, Res.run c y = .thr z e → z = c := by
    intro y z e h
    cases y <;> simp [Res.run] at h
    exact h.1.symm
  split at h
  · cases hr : Knuckle.executeInType c ⟨a, n, l⟩ with
    | ret u b => rw [hr] at h; cases h
    | ub => rw [hr] at h; cases h
    | thr u b => rw [hr] at h; cases h; exact ⟨run hr, rfl⟩
  split at h
  · cases hr : dispatch c (Knuckle.contextTable c) n l with
    | ret u b => rw [hr] at h; cases h
    | ub => rw [hr] at h; cases h
    | thr u b =>
      rw [hr] at h; cases h
      have := context_does c hc n l
      rw [hr] at this
      cases this <;> exact ⟨rfl, rfl⟩
  split at h
  · cases hl : c.vars.lookup a with
    | none => rw [executeInVariable_none c hc _ hl] at h; cases h; exact ⟨rfl, rfl⟩
    | some i =>
      rw [executeInVariable_some c hc _ i hl] at h
      cases hr : Knuckle.receive c.cfg i n l with
      | ret u b => rw [hr] at h; cases h
      | ub => rw [hr] at h; cases h
      | thr u b => rw [hr] at h; cases h; exact ⟨rfl, rfl⟩
  split at h
  · cases s with
    | none => cases h
    | some s =>
      simp only [] at h
      have := session_does pwd s n l
      cases hr : s.receive pwd n l with
      | ret u b => rw [hr] at h; cases h
      | ub => rw [hr] at h; cases h
      | thr u b =>
        rw [hr] at h this; cases h
        cases this <;> exact ⟨rfl, rfl⟩
  · cases h

theorem executeParsed_eq [StdSort] (pwd : Str) {c : Ctx} (hf : FitsCtx c) (s : Option Session) {p : Parsed} (hp : Fits p.actor)
    (ha : ∀ a ∈ p.args, Fits a) : executeParsed pwd c s p = fromRun (Knuckle.executeParsed pwd c s p) := by
  have on : ∀ {x : Ix (Ctx × Str)} {y : Run Ctx}, x = fromRun y → (x >>= fun r => Ix.ok ((r.1, s), r.2)) = fromRun (match y with
      | .ret c' r => .ret (c', s) r
      | .thr c' e => .thr (c', s) e
      | .ub => .ub) := by
    intro x y h
    subst h
    cases y <;> rfl
  unfold executeParsed Knuckle.executeParsed
  rw [isType_eq hp, bind_def, bind_ok]
  by_cases h1 : Knuckle.isType p.actor = true
  · rw [if_pos h1, if_pos h1]
    exact on (executeInType_eq c hp h1 ha)
  rw [if_neg h1, if_neg h1]
  by_cases h2 : isContext p.actor = true
  · rw [if_pos h2, if_pos h2]
    exact on (contextReceive_eq c (fun v hv => (hf v hv).1) _ _ ha)
  rw [if_neg h2, if_neg h2, isVariable_eq hp, bind_def, bind_ok]
  by_cases h3 : Knuckle.isVariable p.actor = true
  · rw [if_pos h3, if_pos h3]
    refine on ?_
    unfold executeInVariable Knuckle.executeInVariable
    cases hm : mapFind strLt p.actor c.vars with
    | none => rfl
    | some i =>
      obtain ⟨m, hm⟩ := mapFind_var hm
      show (instReceive c.cfg i p.name p.args >>= fun r => Ix.ok ({ c with vars := updateVar p.actor r.1 c.vars }, r.2)) = _
      rw [instReceive_eq c.cfg (hf _ hm).2 _ _ ha]
      show _ = fromRun (match Knuckle.receive c.cfg i p.name p.args with
        | .ret i' r => .ret { c with vars := updateVar p.actor i' c.vars } r
        | .thr i' e => .thr { c with vars := updateVar p.actor i' c.vars } e
        | .ub => .ub)
      cases Knuckle.receive c.cfg i p.name p.args <;> rfl
  rw [if_neg h3, if_neg h3]
  by_cases h4 : isConnection p.actor = true
  · rw [if_pos h4, if_pos h4]
    cases s with
    | none => rfl
    | some s =>
      show (sessionReceive pwd s p.name p.args >>= fun r => Ix.ok ((c, some r.1), r.2)) = fromRun (match s.receive pwd p.name p.args with
      | .ret s' r => .ret (c, some s') r
      | .thr s' e => .thr (c, some s') e
      | .ub => .ub)
      rw [sessionReceive_eq pwd s _ _ ha]
      cases s.receive pwd p.name p.args <;> rfl
  · rw [if_neg h4, if_neg h4]
    rfl

theorem record_eq {input : Str} (h : Fits input) (c : Ctx) (output : Str) : record c input output = .ok (c.record input output) := by
  unfold record Ctx.record
  split
  · rw [trim_eq h, bind_def, bind_ok]
  split
  · rw [trim_eq h, bind_def, bind_ok]
  · rfl

theorem statement_actor_length {text a n : Str} {l : List Str} (h : Spec.Statement text a n l) : a.length ≤ text.length := by
  obtain ⟨w₁, c, w₂, msg, w₃, w₄, rfl, _⟩ := h
  simp only [List.length_append, List.length_cons]; omega

/-- A request: the same result. -/
theorem execute_eq [StdSort] (pwd : Str) {c : Ctx} (hc : Inv c) (hf : FitsCtx c) (s : Option Session) {stack : Nat} {input : Str} (hi : Fits input)
    (hd : (parseD input).2.1 ≤ stack) : execute stack pwd c s input = plain (Knuckle.execute pwd c s input) := by
  unfold execute Knuckle.execute
  rcases parse_cases input with ⟨p, hp⟩ | hp
  · rw [parse_ok hi (isStatement_room hi hd) hp, hp, show (do let p ← Ix.ok p; executeParsed pwd c s p) = executeParsed pwd c s p from rfl]
    have hst := (parse_iff input p).1 hp
    rw [executeParsed_eq pwd hf s (fits_le hi (statement_actor_length hst)) fun a ha => fits_le hi (statement_arg_length hst a ha)]
    cases hr : Knuckle.executeParsed pwd c s p with
    | ub => simp only [hr]; rfl
    | ret x r =>
      simp only [hr]
      show ((record x.1 input r).bind fun c' => Ix.ok (c', x.2, r)) = .ok (x.1.record input r, x.2, r)
      rw [record_eq hi, bind_ok]
    | thr x e =>
      obtain ⟨h1, h2⟩ := executeParsed_thr (x := x.1) (s' := x.2) hc hr
      obtain ⟨x1, x2⟩ := x
      simp only [] at h1 h2
      subst h1 h2
      simp only [hr]
      show ((record x1 input e.text).bind fun c' => Ix.ok (c', x2, e.text)) = .ok (x1.record input e.text, x2, e.text)
      rw [record_eq hi, bind_ok]
  · rw [hp, parse_invalid (isStatement_room hi hd) (by
      by_contra h
      obtain ⟨p, hp'⟩ : ∃ p, Knuckle.parse input = .ok p := by
        rcases (isStatement_iff input).1 (by simpa using h) with ⟨a, n, l, hs⟩
        exact ⟨⟨a, n, l⟩, (parse_iff input ⟨a, n, l⟩).2 hs⟩
      rw [hp'] at hp
      cases hp)]
    show ((record c input Exc.invalidStatement.text).bind fun c' => Ix.ok (c', s, Exc.invalidStatement.text)) =
      .ok (c.record input Exc.invalidStatement.text, s, Exc.invalidStatement.text)
    rw [record_eq hi, bind_ok]

theorem actorOf_eq {stack : Nat} {line : Str} (hi : Fits line) (hd : (parseD line).2.1 ≤ stack) :
    (∃ p, Knuckle.parse line = .ok p ∧ actorOf stack line = .ok p.actor) ∨ (Knuckle.parse line = .err .invalidStatement ∧ actorOf stack line = .ok []) := by
  unfold actorOf
  rcases parse_cases line with ⟨p, hp⟩ | hp
  · left; exact ⟨p, hp, by rw [parse_ok hi (isStatement_room hi hd) hp]⟩
  · right
    refine ⟨hp, ?_⟩
    rw [parse_invalid (isStatement_room hi hd) (by
      by_contra h
      obtain ⟨p, hp'⟩ : ∃ p, Knuckle.parse line = .ok p := by
        rcases (isStatement_iff line).1 (by simpa using h) with ⟨a, n, l, hs⟩
        exact ⟨⟨a, n, l⟩, (parse_iff line ⟨a, n, l⟩).2 hs⟩
      rw [hp'] at hp
      cases hp)]

theorem handleLine_eq [StdSort] {s : Server} (hc : Inv s.ctx) (hf : FitsCtx s.ctx) (i : Nat) (k : Conn) {stack : Nat} {line : Str} (hi : Fits line)
    (hd : (parseD line).2.1 ≤ stack) (rest : Str) : handleLine stack s i k line rest = plain (Knuckle.handleLine s i k line rest) := by
  have key : ∀ actor : Str, (do
      if k.sess.authed || isConnection actor then
        let (ctx', sess', out) ← execute stack s.pwd s.ctx (some k.sess) line
        match sess' with
        | some sess' => .ok { s with
            ctx := ctx'
            conns := s.conns.set i { k with sess := sess', inbuf := rest, phase := if sess'.connected then .writing out else .dead } }
        | none => .ub
      else .ok { s with conns := s.conns.set i { k with inbuf := rest, phase := .writing Exc.notAuthenticated.text } } : Ix Server) =
      plain (if k.sess.authed || isConnection actor then
        match Knuckle.execute s.pwd s.ctx (some k.sess) line with
        | .done (ctx', some sess', out) =>
          .done { s with
            ctx := ctx'
            conns := s.conns.set i
              { k with sess := sess', inbuf := rest, phase := if sess'.connected then .writing out else .dead } }
        | _ => .ub
      else .done { s with conns := s.conns.set i { k with inbuf := rest, phase := .writing Exc.notAuthenticated.text } }) := by
    intro actor
    by_cases h : (k.sess.authed || isConnection actor) = true
    · rw [if_pos h, if_pos h, execute_eq s.pwd hc hf _ hi hd]
      rcases Knuckle.execute s.pwd s.ctx (some k.sess) line with ⟨c', _ | s', o⟩ | _ <;> rfl
    · rw [if_neg h, if_neg h]
      rfl
  unfold handleLine Knuckle.handleLine
  rcases actorOf_eq hi hd with ⟨p, h1, h2⟩ | ⟨h1, h2⟩
  · rw [h1, h2, bind_def, bind_ok]
    exact key p.actor
  · rw [h1, h2, bind_def, bind_ok]
    exact key []

theorem step_eq [StdSort] {s : Server} (hc : Inv s.ctx) (hf : FitsCtx s.ctx) {stack : Nat} (hi : ∀ k ∈ s.conns, Fits k.inbuf ∧ k.inbuf.length / 4 + 1 ≤ stack)
    (e : Event) : step stack s e = (Knuckle.step s e).map plain := by
  cases e with
  | read i =>
    unfold step Knuckle.step
    simp only []
    cases hk : s.conns[i]? with
    | none => rfl
    | some k =>
      simp only []
      split
      · cases hl : splitLine k.inbuf with
        | none => rfl
        | some x =>
          obtain ⟨line, rest⟩ := x
          obtain ⟨h1, h2⟩ := hi k (List.mem_of_getElem? hk)
          have h3 := (splitLine_some hl).1
          have h4 : k.inbuf.length = line.length + (rest.length + 1) := by rw [h3]; simp
          show some (handleLine stack s i k line rest) = some (plain (Knuckle.handleLine s i k line rest))
          rw [handleLine_eq hc hf i k (fits_le h1 (by omega)) ((parseD_le line).1.trans (by omega))]
      · rfl
  | _ => unfold step; rfl

theorem execute_stack [StdSort] (pwd : Str) (c : Ctx) (s : Option Session) {stack : Nat} {input : Str} (hi : Fits input) (hd : stack < (parseD input).2.1) :
    execute stack pwd c s input = .stack := by
  unfold execute
  rw [parse_stack hi hd]
  rfl

theorem handleLine_stack [StdSort] (s : Server) (i : Nat) (k : Conn) {stack : Nat} {line : Str} (hi : Fits line) (hd : stack < (parseD line).2.1) (rest : Str) :
    handleLine stack s i k line rest = .stack := by
  unfold handleLine actorOf
  rw [parse_stack hi hd]
  rfl

theorem handleLine_long [StdSort] (s : Server) (i : Nat) (k : Conn) (stack : Nat) {line : Str} (h : 2147483648 ≤ line.length) (h' : line.length < 4294967296)
    (rest : Str) : handleLine stack s i k line rest = .ub := by
  unfold handleLine actorOf
  rw [parse_long h h']
  rfl

end Knuckle.Idx

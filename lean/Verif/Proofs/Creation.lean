/-
Messages to types.
-/
import Verif.Proofs.Typing
import Verif.Proofs.Grammar

namespace Knuckle

open Spec

/-- The fates of a creation message. -/
def CreationCases (actor name : Str) (args : List Str) (r : Res (Option (Str × Inst))) : Prop :=
  ((¬ ∃ ks, Creation actor name ks) ∧ r = .err .invalidMessage) ∨
  (∃ ks, Creation actor name ks ∧ (
    (args.length ≠ ks.length ∧ r = .err .wrongNumberOfArguments) ∨
    (args.length = ks.length ∧ (∃ p ∈ ks.zip args, ¬ Fits p.1 p.2) ∧ r = .err .invalidArgument) ∨
    (args.length = ks.length ∧ (∃ p ∈ ks.zip args, Overflows p.1 p.2) ∧ r = .ub) ∨
    (args.length = ks.length ∧ (∀ p ∈ ks.zip args, Good p.1 p.2) ∧ ∃ n i, Creates actor name args n i ∧ r = .ok (some (n, i)))))

theorem isCreateWithValue_iff (name : Str) :
    isCreateWithValue name = true ↔ name ∈ [b!"create:withValue:", b!"createIfNotExists:withValue:"] := by
  simp [isCreateWithValue]

theorem isCreate_iff (name : Str) : isCreate name = true ↔ name ∈ [b!"create:", b!"createIfNotExists:"] := by
  simp [isCreate]

theorem constructEmpty_cases (i : Inst) (args : List Str) :
    (args.length ≠ 1 ∧ constructEmpty i args = .err .wrongNumberOfArguments) ∨
    (∃ n, args = [n] ∧ ¬ Variable n ∧ constructEmpty i args = .err .invalidArgument) ∨
    (∃ n, args = [n] ∧ Variable n ∧ constructEmpty i args = .ok (n, i)) := by
  match args with
  | [] => exact .inl ⟨by simp, rfl⟩
  | [n] =>
    by_cases h : Variable n
    · refine .inr (.inr ⟨n, rfl, h, ?_⟩)
      simp [constructEmpty, (isVariable_iff n).2 h]
    · refine .inr (.inl ⟨n, rfl, h, ?_⟩)
      have : isVariable n = false := by rw [Bool.eq_false_iff, ne_eq, isVariable_iff]; exact h
      simp [constructEmpty, this]
  | _ :: _ :: _ => exact .inl ⟨by simp, rfl⟩

/-- A message without a value. -/
theorem empty_cases (actor name : Str) (args : List Str) (i : Inst) (hc : Creation actor name [.name])
    (hi : ∀ n, Variable n → Creates actor name [n] n i) :
    CreationCases actor name args ((constructEmpty i args) >>= fun x => .ok (some x)) := by
  rcases constructEmpty_cases i args with ⟨h1, h2⟩ | ⟨n, rfl, h1, h2⟩ | ⟨n, rfl, h1, h2⟩ <;> rw [h2]
  · exact .inr ⟨_, hc, .inl ⟨h1, rfl⟩⟩
  · exact .inr ⟨_, hc, .inr (.inl ⟨rfl, ⟨(.name, n), by simp, h1⟩, rfl⟩)⟩
  · refine .inr ⟨_, hc, .inr (.inr (.inr ⟨rfl, ?_, n, i, hi n h1, rfl⟩))⟩
    simpa [Good, Fits, Overflows] using h1

/-- A message with a value. -/
theorem value_cases (t name : Str) (args : List Str) (ht : ObjectType t)
    (hn : name ∈ [b!"create:withValue:", b!"createIfNotExists:withValue:"]) (f : Str → Res Inst) (valid : Str → Bool)
    (hv : ∀ a, valid a = true ↔ LiteralOf t a)
    (hf : ∀ a, LiteralOf t a → f a = (getSharedInstance t a >>= fun o => .ok (ofObj o))) :
    CreationCases t name args ((constructWithValue f valid args) >>= fun x => .ok (some x)) := by
  refine .inr ⟨_, .value ht hn, ?_⟩
  match args with
  | [] => exact .inl ⟨by simp, rfl⟩
  | [_] => exact .inl ⟨by simp, rfl⟩
  | _ :: _ :: _ :: _ => exact .inl ⟨by simp, rfl⟩
  | [n, a] =>
    refine .inr ?_
    by_cases h1 : Variable n
    · by_cases h2 : LiteralOf t a
      · have e : constructWithValue f valid [n, a] = (f a >>= fun i => .ok (n, i)) := by
          simp [constructWithValue, (isVariable_iff n).2 h1, (hv a).2 h2]
        rw [e, hf a h2]
        rcases read_lit t a ht with ⟨g, o, ho⟩ | ⟨g, ho⟩ | ⟨g, ho⟩
        · have hd : Denotes t a o := by
            rcases gsi_cases t a ht with ⟨o', h, hd, _⟩ | ⟨h, _⟩ | ⟨h, _⟩
            · rw [ho] at h; cases h; exact hd
            · rw [ho] at h; cases h
            · rw [ho] at h; cases h
          rw [ho]
          refine .inr (.inr ⟨rfl, ?_, n, ofObj o, .value ht hn h1 hd, rfl⟩)
          intro p hp
          simp only [List.zip_cons_cons, List.zip_nil_right, List.mem_cons, List.not_mem_nil, or_false] at hp
          rcases hp with rfl | rfl
          · exact ⟨h1, id⟩
          · exact g
        · exact absurd h2 g
        · rw [ho]
          exact .inr (.inl ⟨rfl, ⟨(.lit t, a), by simp, g⟩, rfl⟩)
      · refine .inl ⟨rfl, ⟨(.lit t, a), by simp, h2⟩, ?_⟩
        have : valid a = false := by rw [Bool.eq_false_iff, ne_eq, hv]; exact h2
        simp [constructWithValue, this]
    · refine .inl ⟨rfl, ⟨(.name, n), by simp, h1⟩, ?_⟩
      have : isVariable n = false := by rw [Bool.eq_false_iff, ne_eq, isVariable_iff]; exact h1
      simp [constructWithValue, this]

theorem not_container_object (t : Str) (h : ObjectType t) : ¬ ContainerType t := by
  intro hc
  have := objectType_not_mem t h c!"<" (by unfold Letter; decide)
  rcases hc with ⟨w, t', w', rfl, _⟩ | ⟨w, t', w', rfl, _⟩ | ⟨w, t', w', v, u, v', rfl, _⟩ <;> simp at this

theorem no_creation (t name : Str) (h1 : isCreateWithValue name = false) (h2 : isCreate name = false) :
    ¬ ∃ ks, Creation t name ks := by
  rintro ⟨ks, h⟩
  cases h with
  | value _ h => rw [(isCreateWithValue_iff name).2 h] at h1; cases h1
  | string h => rw [(isCreate_iff name).2 h] at h2; cases h2
  | container _ h => rw [(isCreate_iff name).2 h] at h2; cases h2

theorem no_creation_object (t name : Str) (ht : ObjectType t) (hs : t ≠ b!"String") (h1 : isCreateWithValue name = false) :
    ¬ ∃ ks, Creation t name ks := by
  rintro ⟨ks, h⟩
  cases h with
  | value _ h => rw [(isCreateWithValue_iff name).2 h] at h1; cases h1
  | string h => exact hs rfl
  | container h _ => exact not_container_object t ht h

theorem no_creation_container (t name : Str) (ht : ContainerType t) (h1 : isCreate name = false) :
    ¬ ∃ ks, Creation t name ks := by
  rintro ⟨ks, h⟩
  cases h with
  | value h _ => exact not_container_object t h ht
  | string h => rw [(isCreate_iff name).2 h] at h1; cases h1
  | container _ h => rw [(isCreate_iff name).2 h] at h1; cases h1

/-- The constructors of object types, without the message `create:`. -/
theorem object_cases (t name : Str) (args : List Str) (ht : ObjectType t) (hs : t ≠ b!"String") (f : Str → Res Inst)
    (valid : Str → Bool) (hv : ∀ a, valid a = true ↔ LiteralOf t a)
    (hf : ∀ a, LiteralOf t a → f a = (getSharedInstance t a >>= fun o => .ok (ofObj o))) :
    CreationCases t name args
      ((if isCreateWithValue name then constructWithValue f valid args else .err .invalidMessage) >>= fun x => .ok (some x)) := by
  cases h : isCreateWithValue name with
  | true => exact value_cases t name args ht ((isCreateWithValue_iff name).1 h) f valid hv hf
  | false => exact .inl ⟨no_creation_object t name ht hs h, rfl⟩

theorem container_cases (t name : Str) (args : List Str) (ht : ContainerType t) (i : Inst)
    (hi : name ∈ [b!"create:", b!"createIfNotExists:"] → ∀ n, Variable n → Creates t name [n] n i) :
    CreationCases t name args ((newContainer i name args) >>= fun x => .ok (some x)) := by
  unfold newContainer
  cases h : isCreate name with
  | true =>
    have hm := (isCreate_iff name).1 h
    exact empty_cases t name args i (.container ht hm) (hi hm)
  | false => exact .inl ⟨no_creation_container t name ht h, rfl⟩

theorem removeSpaces_append (a b : Str) : removeSpaces (a ++ b) = removeSpaces a ++ removeSpaces b := by
  simp [removeSpaces_eq]

theorem removeSpaces_spaces (w : Str) (h : Spaces w) : removeSpaces w = [] := by
  rw [removeSpaces_eq, List.filter_eq_nil_iff]
  intro c hc; simp [(isSpace_iff c).2 (h c hc)]

theorem removeSpaces_object (t : Str) (h : ObjectType t) : removeSpaces t = t := by
  refine objectType_cases (P := fun t => removeSpaces t = t) t h ?_ ?_ ?_ ?_ ?_ <;> decide

theorem substrR_mid (p m z : Str) (k : Nat) (hk : p.length = k) (h : z.length = 1) :
    substrR (p ++ (m ++ z)) k ((p ++ (m ++ z)).length - (k + 1)) = .ok m := by
  subst hk
  unfold substrR
  have : (p ++ (m ++ z)).length - (p.length + 1) = m.length := by simp only [List.length_append, h]; omega
  rw [if_neg (by simp), this]
  simp

/-- The tests of `makeInstance` for object types fail on a text with an angle bracket. -/
theorem beq_object (x : Str) (h : c!"<" ∈ x) : (x == b!"Boolean") = false ∧ (x == b!"Character") = false ∧
    (x == b!"Integer") = false ∧ (x == b!"Float") = false ∧ (x == b!"String") = false := by
  refine ⟨?_, ?_, ?_, ?_, ?_⟩ <;> refine beq_false_of_ne ?_ <;> rintro rfl <;> revert h <;> decide

theorem dictInstances_comma (name : Str) (args : List Str) (k : Str) (hk : c!"," ∉ k) (u : Str) (hu : c!"," ∉ u) :
    ∀ pre acc, dictInstances name args pre (k ++ c!"," :: u) acc =
      (newContainer (.dictionary (pre ++ k) u []) name args >>= fun x => .ok (some x)) := by
  have tail : ∀ (u : Str), c!"," ∉ u → ∀ pre acc, dictInstances name args pre u acc = .ok acc := by
    intro u
    induction u with
    | nil => intros; rfl
    | cons c cs ih =>
      intro h pre acc
      simp only [List.mem_cons, not_or] at h
      have : (c == c!",") = false := beq_false_of_ne fun e => h.1 e.symm
      simp only [dictInstances, this, Bool.false_eq_true, if_false]
      exact ih h.2 _ _
  induction k with
  | nil =>
    intro pre acc
    simp only [List.nil_append, dictInstances, beq_self_eq_true, if_true, List.append_nil]
    cases newContainer (.dictionary pre u []) name args with
    | ok x => simp only [Res.bind_ok]; exact tail u hu _ _
    | err e => rfl
    | ub => rfl
  | cons c cs ih =>
    intro pre acc
    simp only [List.mem_cons, not_or] at hk
    have : (c == c!",") = false := beq_false_of_ne fun e => hk.1 e.symm
    simp only [List.cons_append, dictInstances, this, Bool.false_eq_true, if_false]
    rw [ih hk.2]
    simp

theorem makeInstance_object (t name : Str) (args : List Str) (ht : ObjectType t) :
    CreationCases t name args (makeInstance t name args) := by
  have hL : ∀ t, ObjectType t → removeSpaces t = t := removeSpaces_object
  have ht' := ht
  revert ht'
  refine objectType_cases (P := fun t => ObjectType t → CreationCases t name args (makeInstance t name args)) t ht ?_ ?_ ?_ ?_ ?_ <;>
    intro ht
  · exact object_cases _ name args ht (by decide) _ _ (fun a => (isBooleanValue_iff a).trans (literalOf_boolean a).symm) (by
      intro a ha
      rw [gsi_boolean]; unfold booleanLit
      rw [(isBooleanValue_iff a).2 ((literalOf_boolean a).1 ha)]; rfl)
  · exact object_cases _ name args ht (by decide) _ _ (fun a => (isCharacterValue_iff a).trans (literalOf_character a).symm) (by
      intro a ha
      rw [gsi_character]; unfold characterLit
      rw [(isCharacterValue_iff a).2 ((literalOf_character a).1 ha)]; rfl)
  · refine object_cases _ name args ht (by decide) _ _ (fun a => ?_) (by
      intro a ha
      rw [gsi_integer]; unfold integerLit
      have : (!isIntegerValue a && !isFloatValue a) = false := by
        rcases (literalOf_integer a).1 ha with h | h
        · rw [(isIntegerValue_iff a).2 h]; rfl
        · rw [(isFloatValue_iff a).2 h]; simp
      rw [this]
      simp only [Bool.false_eq_true, if_false]
      cases numArg a with
      | ok x => simp only [Res.bind_ok]; cases x.toInt <;> rfl
      | err e => rfl
      | ub => rfl)
    rw [Bool.or_eq_true, isIntegerValue_iff, isFloatValue_iff, literalOf_integer]
  · exact object_cases _ name args ht (by decide) _ _ (fun a => (isFloatValue_iff a).trans (literalOf_float a).symm) (by
      intro a ha
      rw [gsi_float]; unfold floatLit
      rw [(isFloatValue_iff a).2 ((literalOf_float a).1 ha)]; rfl)
  · show CreationCases _ name args ((newString name args) >>= fun x => .ok (some x))
    unfold newString
    cases h : isCreate name with
    | true =>
      have hm := (isCreate_iff name).1 h
      exact empty_cases _ name args _ (.string hm) fun n hn => .string hm hn
    | false =>
      simp only [Bool.false_eq_true, if_false]
      cases h' : isCreateWithValue name with
      | true =>
        exact value_cases _ name args ht ((isCreateWithValue_iff name).1 h') _ _
          (fun a => (isStringValue_iff a).trans (literalOf_string a).symm) (by
            intro a ha
            rw [gsi_string]; unfold stringLit
            rw [(isStringValue_iff a).2 ((literalOf_string a).1 ha)]; rfl)
      | false => exact .inl ⟨no_creation _ name h' h, rfl⟩

theorem object_no_comma (t : Str) (h : ObjectType t) : c!"," ∉ t := objectType_not_mem t h _ (by unfold Letter; decide)

theorem makeInstance_cases (actor name : Str) (args : List Str) (h : IsType actor) :
    CreationCases actor name args (makeInstance actor name args) := by
  rcases h with h | h
  · exact makeInstance_object actor name args h
  · have hc := h
    rcases h with ⟨w, t, w', rfl, hw, ht, hw'⟩ | ⟨w, t, w', rfl, hw, ht, hw'⟩ | ⟨w, t, w', v, u, v', rfl, hw, ht, hw', hv, hu, hv'⟩
    · have e : removeSpaces (b!"Vector<" ++ (w ++ (t ++ (w' ++ b!">")))) = b!"Vector<" ++ (t ++ b!">") := by
        simp only [removeSpaces_append, removeSpaces_spaces w hw, removeSpaces_spaces w' hw', removeSpaces_object t ht]
        rfl
      have em : makeInstance (b!"Vector<" ++ (w ++ (t ++ (w' ++ b!">")))) name args =
          (newContainer (.vector t []) name args >>= fun x => .ok (some x)) := by
        unfold makeInstance
        rw [e]
        have es := substrR_mid b!"Vector<" t b!">" 7 rfl rfl
        obtain ⟨b1, b2, b3, b4, b5⟩ := beq_object (b!"Vector<" ++ (t ++ b!">")) (by simp)
        have e1 : startsWith (b!"Vector<" ++ (t ++ b!">")) b!"Vector" = true := (startsWith_iff _ _).2 ⟨b!"<" ++ (t ++ b!">"), rfl⟩
        simp only [b1, b2, b3, b4, b5, e1, es, if_true, Bool.false_eq_true, if_false, Res.bind_ok]
      rw [em]
      exact container_cases _ name args hc _ fun hm n hn => .vector hw ht hw' hm hn
    · have e : removeSpaces (b!"Set<" ++ (w ++ (t ++ (w' ++ b!">")))) = b!"Set<" ++ (t ++ b!">") := by
        simp only [removeSpaces_append, removeSpaces_spaces w hw, removeSpaces_spaces w' hw', removeSpaces_object t ht]
        rfl
      have em : makeInstance (b!"Set<" ++ (w ++ (t ++ (w' ++ b!">")))) name args =
          (newContainer (.set t []) name args >>= fun x => .ok (some x)) := by
        unfold makeInstance
        rw [e]
        have es := substrR_mid b!"Set<" t b!">" 4 rfl rfl
        obtain ⟨b1, b2, b3, b4, b5⟩ := beq_object (b!"Set<" ++ (t ++ b!">")) (by simp)
        have e1 : startsWith (b!"Set<" ++ (t ++ b!">")) b!"Set" = true := (startsWith_iff _ _).2 ⟨b!"<" ++ (t ++ b!">"), rfl⟩
        have e2 : startsWith (b!"Set<" ++ (t ++ b!">")) b!"Vector" = false := by
          rw [Bool.eq_false_iff]; intro h; obtain ⟨r, hr⟩ := (startsWith_iff _ _).1 h; simp at hr
        simp only [b1, b2, b3, b4, b5, e1, e2, es, if_true, Bool.false_eq_true, if_false, Res.bind_ok]
      rw [em]
      exact container_cases _ name args hc _ fun hm n hn => .set hw ht hw' hm hn
    · have e : removeSpaces (b!"Dictionary<" ++ (w ++ (t ++ (w' ++ (b!"," ++ (v ++ (u ++ (v' ++ b!">")))))))) =
          b!"Dictionary<" ++ ((t ++ c!"," :: u) ++ b!">") := by
        simp only [removeSpaces_append, removeSpaces_spaces w hw, removeSpaces_spaces w' hw', removeSpaces_object t ht,
          removeSpaces_spaces v hv, removeSpaces_spaces v' hv', removeSpaces_object u hu]
        simp [removeSpaces, isSpace]
      have em : makeInstance (b!"Dictionary<" ++ (w ++ (t ++ (w' ++ (b!"," ++ (v ++ (u ++ (v' ++ b!">")))))))) name args =
          (newContainer (.dictionary t u []) name args >>= fun x => .ok (some x)) := by
        unfold makeInstance
        rw [e]
        have es := substrR_mid b!"Dictionary<" (t ++ c!"," :: u) b!">" 11 rfl rfl
        obtain ⟨b1, b2, b3, b4, b5⟩ := beq_object (b!"Dictionary<" ++ ((t ++ c!"," :: u) ++ b!">")) (by simp)
        have e1 : startsWith (b!"Dictionary<" ++ ((t ++ c!"," :: u) ++ b!">")) b!"Dictionary" = true :=
          (startsWith_iff _ _).2 ⟨b!"<" ++ ((t ++ c!"," :: u) ++ b!">"), rfl⟩
        have e2 : startsWith (b!"Dictionary<" ++ ((t ++ c!"," :: u) ++ b!">")) b!"Vector" = false := by
          rw [Bool.eq_false_iff]; intro h; obtain ⟨r, hr⟩ := (startsWith_iff _ _).1 h; simp at hr
        have e3 : startsWith (b!"Dictionary<" ++ ((t ++ c!"," :: u) ++ b!">")) b!"Set" = false := by
          rw [Bool.eq_false_iff]; intro h; obtain ⟨r, hr⟩ := (startsWith_iff _ _).1 h; simp at hr
        have ed := dictInstances_comma name args t (object_no_comma t ht) u (object_no_comma u hu) [] none
        simp only [b1, b2, b3, b4, b5, e1, e2, e3, es, if_true, Bool.false_eq_true, if_false, Res.bind_ok, ed, List.nil_append]
      rw [em]
      exact container_cases _ name args hc _ fun hm n hn => .dictionary hw ht hw' hv hu hv' hm hn

theorem creates_variable {actor name n : Str} {args : List Str} {i : Inst} (h : Creates actor name args n i) : Variable n := by
  cases h <;> assumption

theorem creates_wellTyped {actor name n : Str} {args : List Str} {i : Inst} (h : Creates actor name args n i) :
    WellTyped i := by
  cases h with
  | @value t name n a o ht hn hv hd =>
    have := (denotes_type hd).2
    cases o <;> trivial
  | string => trivial
  | vector _ ht => exact ⟨ht, by simp⟩
  | set _ ht => exact ⟨ht, by simp, by simp⟩
  | dictionary _ ht _ _ hu => exact ⟨ht, hu, by simp, by simp⟩

end Knuckle

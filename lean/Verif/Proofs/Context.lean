/-
Creation, deletion and listings; what a request can do to a given variable.
-/
import Verif.Proofs.Replies
import Mathlib.Data.List.Basic

namespace Knuckle

open Spec

/-! ### Creation -/

theorem creation_unique {a n : Str} {ks ks' : List ArgKind} (h : Creation a n ks) (h' : Creation a n ks') : ks = ks' := by
  have dis : ∀ {n : Str}, n ∈ [b!"create:withValue:", b!"createIfNotExists:withValue:"] →
      n ∈ [b!"create:", b!"createIfNotExists:"] → False := by
    intro n h1 h2
    simp only [List.mem_cons, List.not_mem_nil, or_false] at h1 h2
    rcases h1 with rfl | rfl <;> rcases h2 with h2 | h2 <;> revert h2 <;> decide
  cases h with
  | value h1 h2 => cases h' with
    | value _ _ => rfl
    | string h4 => exact (dis h2 h4).elim
    | container _ h4 => exact (dis h2 h4).elim
  | string h2 => cases h' with
    | value _ h4 => exact (dis h4 h2).elim
    | string h4 => rfl
    | container _ h4 => rfl
  | container _ h2 => cases h' with
    | value _ h4 => exact (dis h4 h2).elim
    | string h4 => rfl
    | container _ h4 => rfl

theorem denotes_unique {t a : Str} {o o' : Obj} (h : Denotes t a o) (h' : Denotes t a o') : o = o' := by
  have h1 := (gsi_denotes t a o h).1
  have h2 := (gsi_denotes t a o' h').1
  rw [h1] at h2; cases h2; rfl

theorem denotes_literal {t a : Str} {o : Obj} (h : Denotes t a o) : LiteralOf t a := by
  cases h with
  | true => exact .inl ⟨rfl, .inl rfl⟩
  | false => exact .inl ⟨rfl, .inr rfl⟩
  | character c => exact .inr (.inl ⟨rfl, c, rfl⟩)
  | integer h1 _ => exact .inr (.inr (.inl ⟨rfl, .inl ((intLiteral_exists a).2 ⟨_, h1⟩)⟩))
  | truncated h1 _ _ => exact .inr (.inr (.inl ⟨rfl, .inr h1⟩))
  | float h1 => exact .inr (.inr (.inr (.inl ⟨rfl, h1⟩)))
  | string h1 => obtain ⟨b, e, hb, _⟩ := h1; exact .inr (.inr (.inr (.inr ⟨rfl, b, e, hb⟩)))

theorem denotes_not_outOfRange {a : Str} {o : Obj} (h : Denotes b!"Integer" a o) : ¬ OutOfRange a := by
  rintro (⟨n, h1, h2⟩ | ⟨h1, h2, h3⟩)
  · generalize ht : b!"Integer" = t at h
    cases h with
    | @integer _ m h4 h5 =>
      have := (decInt_eq _ _ h1).symm.trans (decInt_eq _ _ h4)
      exact h2 (this ▸ h5)
    | truncated _ h4 _ => exact h4 ((intLiteral_exists a).2 ⟨_, h1⟩)
    | _ => revert ht; decide
  · generalize ht : b!"Integer" = t at h
    cases h with
    | integer h4 h5 => exact h2 ((intLiteral_exists a).2 ⟨_, h4⟩)
    | truncated _ _ h4 => rw [h3] at h4; cases h4
    | _ => revert ht; decide

theorem denotes_good {t a : Str} {o : Obj} (h : Denotes t a o) : Good (.lit t) a := by
  refine ⟨denotes_literal h, ?_⟩
  rintro ⟨rfl, h1⟩
  exact denotes_not_outOfRange h h1

theorem creates_creation {a n v : Str} {l : List Str} {i : Inst} (h : Creates a n l v i) :
    IsType a ∧ ∃ ks, Creation a n ks ∧ l.length = ks.length ∧ ∀ q ∈ ks.zip l, Good q.1 q.2 := by
  cases h with
  | value h1 h2 h3 h4 =>
    refine ⟨.inl h1, _, .value h1 h2, rfl, ?_⟩
    simp only [List.zip_cons_cons, List.zip_nil_right, List.mem_cons, List.not_mem_nil, or_false, forall_eq_or_imp, forall_eq]
    exact ⟨⟨h3, id⟩, denotes_good h4⟩
  | string h1 h2 =>
    refine ⟨.inl (by unfold ObjectType; decide), _, .string h1, rfl, ?_⟩
    simp only [List.zip_cons_cons, List.zip_nil_right, List.mem_cons, List.not_mem_nil, or_false, forall_eq]
    exact ⟨h2, id⟩
  | vector h1 h2 h3 h4 h5 =>
    have ht : ContainerType _ := .inl ⟨_, _, _, rfl, h1, h2, h3⟩
    refine ⟨.inr ht, _, .container ht h4, rfl, ?_⟩
    simp only [List.zip_cons_cons, List.zip_nil_right, List.mem_cons, List.not_mem_nil, or_false, forall_eq]
    exact ⟨h5, id⟩
  | set h1 h2 h3 h4 h5 =>
    have ht : ContainerType _ := .inr (.inl ⟨_, _, _, rfl, h1, h2, h3⟩)
    refine ⟨.inr ht, _, .container ht h4, rfl, ?_⟩
    simp only [List.zip_cons_cons, List.zip_nil_right, List.mem_cons, List.not_mem_nil, or_false, forall_eq]
    exact ⟨h5, id⟩
  | dictionary h1 h2 h3 g1 g2 g3 h4 h5 =>
    have ht : ContainerType _ := .inr (.inr ⟨_, _, _, _, _, _, rfl, h1, h2, h3, g1, g2, g3⟩)
    refine ⟨.inr ht, _, .container ht h4, rfl, ?_⟩
    simp only [List.zip_cons_cons, List.zip_nil_right, List.mem_cons, List.not_mem_nil, or_false, forall_eq]
    exact ⟨h5, id⟩

/-- The type without spaces that a creation with an empty container or string names. -/
def emptyName : Inst → Str
  | .vector t _ => b!"Vector<" ++ (t ++ b!">")
  | .set t _ => b!"Set<" ++ (t ++ b!">")
  | .dictionary t u _ => b!"Dictionary<" ++ (t ++ (b!"," ++ (u ++ b!">")))
  | _ => b!"String"

theorem creates_unique {a n v v' : Str} {l : List Str} {i i' : Inst} (h : Creates a n l v i) (h' : Creates a n l v' i') :
    v = v' ∧ i = i' := by
  have key : ∀ {a n x v : Str} {i : Inst}, Creates a n [x] v i → v = x ∧ removeSpaces a = emptyName i ∧
      (i = .string [] ∨ (∃ t, ObjectType t ∧ i = .vector t []) ∨ (∃ t, ObjectType t ∧ i = .set t []) ∨
        ∃ t u, ObjectType t ∧ ObjectType u ∧ i = .dictionary t u []) := by
    intro a n x v i h
    cases h with
    | string h1 h2 => exact ⟨rfl, by decide, .inl rfl⟩
    | vector h1 h2 h3 h4 h5 =>
      refine ⟨rfl, ?_, .inr (.inl ⟨_, h2, rfl⟩)⟩
      simp only [removeSpaces_append, removeSpaces_spaces _ h1, removeSpaces_spaces _ h3, removeSpaces_object _ h2, List.nil_append]
      rfl
    | set h1 h2 h3 h4 h5 =>
      refine ⟨rfl, ?_, .inr (.inr (.inl ⟨_, h2, rfl⟩))⟩
      simp only [removeSpaces_append, removeSpaces_spaces _ h1, removeSpaces_spaces _ h3, removeSpaces_object _ h2, List.nil_append]
      rfl
    | dictionary h1 h2 h3 g1 g2 g3 h4 h5 =>
      refine ⟨rfl, ?_, .inr (.inr (.inr ⟨_, _, h2, g2, rfl⟩))⟩
      simp only [removeSpaces_append, removeSpaces_spaces _ h1, removeSpaces_spaces _ h3, removeSpaces_object _ h2,
        removeSpaces_spaces _ g1, removeSpaces_spaces _ g3, removeSpaces_object _ g2, List.nil_append]
      rfl
  have two : ∀ x, l = [x] → v = v' ∧ i = i' := by
    rintro x rfl
    obtain ⟨e1, e2, e3⟩ := key h
    obtain ⟨f1, f2, f3⟩ := key h'
    refine ⟨e1.trans f1.symm, ?_⟩
    rw [e2] at f2
    rcases e3 with rfl | ⟨t, ht, rfl⟩ | ⟨t, ht, rfl⟩ | ⟨t, u, ht, hu, rfl⟩ <;>
      rcases f3 with rfl | ⟨t', ht', rfl⟩ | ⟨t', ht', rfl⟩ | ⟨t', u', ht', hu', rfl⟩ <;>
      simp [emptyName] at f2 ⊢
    · exact f2
    · exact f2
    · have := List.append_inj' (s₁ := t ++ c!"," :: u) (t₁ := b!">") (s₂ := t' ++ c!"," :: u') (t₂ := b!">") (by simpa using f2) rfl
      have h1 := (List.append_cons_inj_of_notMem (object_no_comma t ht) (object_no_comma u hu)).1 this.1
      exact ⟨h1.1, h1.2.2⟩
  cases h with
  | value h1 h2 h3 h4 =>
    generalize hl : [v, _] = l at h'
    cases h' with
    | value g1 g2 g3 g4 =>
      simp only [List.cons.injEq, and_true] at hl
      obtain ⟨rfl, rfl⟩ := hl
      exact ⟨rfl, by rw [denotes_unique h4 g4]⟩
    | _ => simp at hl
  | _ => exact two _ rfl

theorem makeInstance_creates {a n v : Str} {l : List Str} {i : Inst} (h : Creates a n l v i) :
    makeInstance a n l = .ok (some (v, i)) := by
  obtain ⟨ht, ks, hk, hl, hg⟩ := creates_creation h
  rcases makeInstance_cases a n l ht with ⟨h1, _⟩ | ⟨ks', hk', ⟨h1, _⟩ | ⟨_, h1, _⟩ | ⟨_, h1, _⟩ | ⟨_, _, v', i', h1, h2⟩⟩
  · exact absurd ⟨ks, hk⟩ h1
  · rw [creation_unique hk' hk] at h1; exact absurd hl h1
  · rw [creation_unique hk' hk] at h1; obtain ⟨q, hq, hn⟩ := h1; exact absurd (hg q hq).1 hn
  · rw [creation_unique hk' hk] at h1; obtain ⟨q, hq, hn⟩ := h1; exact absurd hn (hg q hq).2
  · obtain ⟨rfl, rfl⟩ := creates_unique h h1; exact h2

/-- A creation. -/
theorem execute_creates [StdSort] {pwd : Str} {c : Ctx} (hc : Inv c) {s : Option Session} {text a n v : Str} {l : List Str}
    {i : Inst} (hs : Statement text a n l) (h : Creates a n l v i) :
    execute pwd c s text = match c.vars.lookup v with
      | none => .done (({ c with vars := mapInsert strLt v i c.vars } : Ctx).record text b!"null", s, b!"null")
      | some _ => if startsWith n b!"createIfNotExists:" then .done (c.record text b!"null", s, b!"null")
        else .done (c.record text Exc.nameAlreadyUsed.text, s, Exc.nameAlreadyUsed.text) := by
  rw [execute_statement _ _ _ _ _ _ _ hs, executeParsed_type _ _ _ _ ((isType_iff _).2 (creates_creation h).1)]
  unfold executeInType
  simp only [makeInstance_creates h, Res.bind_ok, hc.find]
  cases c.vars.lookup v with
  | none => rfl
  | some j => simp only []; split <;> rfl

/-! ### Namespaces -/

theorem identifier_no_colon {x : Str} (h : Identifier x) : c!":" ∉ x := by
  obtain ⟨⟨c, r, rfl, hc, hr⟩, _⟩ := h
  have hl : ¬ Letter c!":" := by unfold Letter; decide
  have hd : ¬ Digit c!":" := by unfold Digit; decide
  intro hm
  rcases List.mem_cons.1 hm with h | h
  · subst h; exact hl hc
  · rcases hr _ h with h | h | h
    · exact hl h
    · exact hd h
    · revert h; decide

theorem splitAt_colon {a b x y : Str} (h : a ++ c!":" :: x = b ++ c!":" :: y) (ha : c!":" ∉ a) (hb : c!":" ∉ b) :
    a = b ∧ x = y := by
  induction a generalizing b with
  | nil => cases b with
    | nil => simpa using h
    | cons d ds => simp only [List.nil_append, List.cons_append, List.cons.injEq] at h; exact absurd (by rw [h.1]; simp) hb
  | cons c cs ih => cases b with
    | nil => simp only [List.nil_append, List.cons_append, List.cons.injEq] at h; exact absurd (by rw [h.1]; simp) ha
    | cons d ds =>
      simp only [List.cons_append, List.cons.injEq] at h
      obtain ⟨e, r⟩ := ih h.2 (fun k => ha (List.mem_cons_of_mem _ k)) (fun k => hb (List.mem_cons_of_mem _ k))
      exact ⟨by rw [h.1, e], r⟩

theorem startsWith_ns {n ns : Str} (hn : Variable n) (hns : Identifier ns) :
    startsWith n (ns ++ b!"::") = true ↔ InNamespace n ns := by
  rw [startsWith_iff]
  constructor
  · rintro ⟨r, rfl⟩
    rcases hn with hn | ⟨a, b, e, ha, hb⟩
    · exact absurd (show c!":" ∈ (ns ++ b!"::") ++ r by simp) (identifier_no_colon hn)
    · refine ⟨b, hb, ?_⟩
      have h1 : ns ++ c!":" :: (c!":" :: r) = a ++ c!":" :: (c!":" :: b) := by simpa using e
      have h2 := splitAt_colon h1 (identifier_no_colon hns) (identifier_no_colon ha)
      obtain ⟨rfl, h2⟩ := h2
      simpa using h2
  · rintro ⟨x, _, rfl⟩; exact ⟨x, by simp⟩

theorem namespacesOf_none (a : Str) (ha : c!":" ∉ a) : ∀ pre, namespacesOf pre a = [] := by
  induction a with
  | nil => intro pre; simp [namespacesOf]
  | cons c cs ih =>
    intro pre
    have hc : c ≠ c!":" := fun e => ha (by simp [e])
    cases cs with
    | nil => simp [namespacesOf]
    | cons d ds =>
      simp only [namespacesOf, beq_false_of_ne hc, Bool.false_and, Bool.false_eq_true, if_false]
      exact ih (fun h => ha (List.mem_cons_of_mem _ h)) _

theorem namespacesOf_colons (a b : Str) (ha : c!":" ∉ a) (hb : c!":" ∉ b) : ∀ pre,
    namespacesOf pre (a ++ c!":" :: c!":" :: b) = [pre ++ a] := by
  induction a with
  | nil =>
    intro pre
    have hb' : namespacesOf (pre ++ [c!":"]) (c!":" :: b) = [] := by
      cases b with
      | nil => simp [namespacesOf]
      | cons d ds =>
        have hd : d ≠ c!":" := fun e => hb (by simp [e])
        simp only [namespacesOf, beq_false_of_ne hd, Bool.and_false, Bool.false_eq_true, if_false]
        exact namespacesOf_none _ hb _
    simp only [List.nil_append, namespacesOf, beq_self_eq_true, Bool.and_self, if_true, hb', List.append_nil]
  | cons c cs ih =>
    intro pre
    have hc : c ≠ c!":" := fun e => ha (by simp [e])
    have ih := ih (fun h => ha (List.mem_cons_of_mem _ h)) (pre ++ [c])
    cases cs with
    | nil =>
      simp only [List.nil_append] at ih
      simp only [List.cons_append, List.nil_append]
      rw [namespacesOf]
      simp only [beq_false_of_ne hc, Bool.false_and, Bool.false_eq_true, if_false, ih]
      simp
    | cons d ds =>
      simp only [List.cons_append] at ih ⊢
      rw [namespacesOf]
      simp only [beq_false_of_ne hc, Bool.false_and, Bool.false_eq_true, if_false, ih]
      simp

theorem namespacesOf_variable {n : Str} (h : Variable n) (ns : Str) : ns ∈ namespacesOf [] n ↔ Identifier ns ∧ InNamespace n ns := by
  rcases h with h | ⟨a, b, rfl, ha, hb⟩
  · rw [namespacesOf_none _ (identifier_no_colon h)]
    simp only [List.not_mem_nil, false_iff]
    rintro ⟨_, x, _, rfl⟩
    exact identifier_no_colon h (by simp)
  · have := namespacesOf_colons a b (identifier_no_colon ha) (identifier_no_colon hb) []
    simp only [List.nil_append, List.cons_append] at this ⊢
    rw [this]
    simp only [List.mem_singleton]
    constructor
    · rintro rfl; exact ⟨ha, b, hb, by simp⟩
    · rintro ⟨hi, x, hx, e⟩
      exact (splitAt_colon (by simpa using e) (identifier_no_colon ha) (identifier_no_colon hi)).1.symm

theorem foldl_setInsert (ns : List Str) : ∀ acc : List Str, Asc strLt acc →
    Asc strLt (ns.foldl (fun acc n => setInsert strLt n acc) acc) ∧
    ∀ x, x ∈ ns.foldl (fun acc n => setInsert strLt n acc) acc ↔ x ∈ ns ∨ x ∈ acc := by
  induction ns with
  | nil => intro acc h; exact ⟨h, by simp⟩
  | cons n ns ih =>
    intro acc h
    have sto := strLt_sto (fun _ => True)
    obtain ⟨h1, h2⟩ := ih (setInsert strLt n acc) (setInsert_asc sto.swo n trivial acc (fun _ _ => trivial) h)
    refine ⟨h1, fun x => ?_⟩
    rw [List.foldl_cons, h2, setInsert_mem_iff sto n trivial acc (fun _ _ => trivial) x]
    simp only [List.mem_cons]; tauto

theorem allNamespaces_spec (l : List (Str × Inst)) : Asc strLt (allNamespaces l) ∧
    ∀ x, x ∈ allNamespaces l ↔ ∃ v ∈ l, x ∈ namespacesOf [] v.1 := by
  unfold allNamespaces
  have key : ∀ (l : List (Str × Inst)) (acc : List Str), Asc strLt acc →
      Asc strLt (l.foldl (fun acc v => (namespacesOf [] v.1).foldl (fun acc n => setInsert strLt n acc) acc) acc) ∧
      ∀ x, x ∈ l.foldl (fun acc v => (namespacesOf [] v.1).foldl (fun acc n => setInsert strLt n acc) acc) acc ↔
        (∃ v ∈ l, x ∈ namespacesOf [] v.1) ∨ x ∈ acc := by
    intro l
    induction l with
    | nil => intro acc h; exact ⟨h, by simp⟩
    | cons v vs ih =>
      intro acc h
      obtain ⟨h1, h2⟩ := foldl_setInsert (namespacesOf [] v.1) acc h
      obtain ⟨h3, h4⟩ := ih _ h1
      refine ⟨h3, fun x => ?_⟩
      rw [List.foldl_cons, h4, h2]
      simp only [List.mem_cons, exists_eq_or_imp]
      exact or_left_comm.trans or_assoc.symm
  have := key l [] List.Pairwise.nil
  exact ⟨this.1, fun x => by rw [this.2]; simp⟩

end Knuckle

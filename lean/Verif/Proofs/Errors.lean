/-
Which error is reported.
-/
import Verif.Proofs.NonFloat
import Verif.Spec.Errors

namespace Knuckle

open Spec

theorem nodup_unique {α β : Type} {l : List (α × β)} (h : (l.map (·.1)).Nodup) {a : α} {b b' : β} (h1 : (a, b) ∈ l)
    (h2 : (a, b') ∈ l) : b = b' := by
  induction l with
  | nil => cases h1
  | cons x xs ih =>
    rw [List.map_cons, List.nodup_cons] at h
    rcases List.mem_cons.1 h1 with e1 | h1 <;> rcases List.mem_cons.1 h2 with e2 | h2
    · rw [← e2] at e1; cases e1; rfl
    · rw [← e1] at h; exact absurd (List.mem_map.2 ⟨_, h2, rfl⟩) h.1
    · rw [← e2] at h; exact absurd (List.mem_map.2 ⟨_, h1, rfl⟩) h.1
    · exact ih h.2 h1 h2

theorem signature_nodup (i : Inst) : ((signature i).map (·.1)).Nodup := by
  cases i <;> simp only [signature, List.map_cons, List.map_nil] <;> decide

theorem contextSignature_nodup : (contextSignature.map (·.1)).Nodup := by decide

theorem connectionSignature_nodup : (connectionSignature.map (·.1)).Nodup := by decide

theorem creation_isType {a n : Str} {ks : List ArgKind} (h : Creation a n ks) : IsType a := by
  cases h with
  | value h _ => exact .inl h
  | string _ => exact .inl ot_string
  | container h _ => exact .inr h

theorem type_not_variable {a : Str} (h : IsType a) : ¬ Variable a := fun hv => by
  have := isType_not_variable a ((isType_iff a).2 h)
  rw [(isVariable_iff a).2 hv] at this; cases this

theorem type_not_special {a : Str} (h : IsType a) : a ≠ b!"Context" ∧ a ≠ b!"Connection" := by
  have h := (isType_iff a).2 h
  constructor <;> rintro rfl <;> revert h <;> decide

theorem variable_not_special' {a : Str} (h : Variable a) : a ≠ b!"Context" ∧ a ≠ b!"Connection" := by
  have h := (isVariable_iff a).2 h
  constructor <;> rintro rfl <;> revert h <;> decide

theorem understands_type {c : Ctx} (hc : Inv c) {a n : Str} {ks : List ArgKind} (ha : IsType a) :
    Understands c a n ks ↔ Creation a n ks := by
  refine ⟨fun h => ?_, .type⟩
  cases h with
  | type h => exact h
  | context _ => exact absurd rfl (type_not_special ha).1
  | connection _ => exact absurd rfl (type_not_special ha).2
  | var h _ => exact absurd (inv_variable hc h) (type_not_variable ha)

theorem understands_context {c : Ctx} (hc : Inv c) {n : Str} {ks : List ArgKind} :
    Understands c b!"Context" n ks ↔ (n, ks) ∈ contextSignature := by
  refine ⟨fun h => ?_, .context⟩
  generalize e : b!"Context" = a at h
  cases h with
  | type h => exact absurd e.symm (type_not_special (creation_isType h)).1
  | context h => exact h
  | connection _ => exact absurd e (by decide)
  | var h _ => exact absurd e.symm (variable_not_special' (inv_variable hc h)).1

theorem understands_connection {c : Ctx} (hc : Inv c) {n : Str} {ks : List ArgKind} :
    Understands c b!"Connection" n ks ↔ (n, ks) ∈ connectionSignature := by
  refine ⟨fun h => ?_, .connection⟩
  generalize e : b!"Connection" = a at h
  cases h with
  | type h => exact absurd e.symm (type_not_special (creation_isType h)).2
  | context h => exact absurd e (by decide)
  | connection h => exact h
  | var h _ => exact absurd e.symm (variable_not_special' (inv_variable hc h)).2

theorem understands_variable {c : Ctx} {a n : Str} {i : Inst} {ks : List ArgKind} (hv : Variable a) (ha : c.vars.lookup a = some i) :
    Understands c a n ks ↔ (n, ks) ∈ signature i := by
  refine ⟨fun h => ?_, .var ha⟩
  cases h with
  | type h => exact absurd hv (type_not_variable (creation_isType h))
  | context h => exact absurd rfl (variable_not_special' hv).1
  | connection h => exact absurd rfl (variable_not_special' hv).2
  | var h h' => unfold Holds at h; rw [ha] at h; cases h; exact h'

theorem understands_unique {c : Ctx} (hc : Inv c) {a n : Str} {ks ks' : List ArgKind} (h : Understands c a n ks)
    (h' : Understands c a n ks') : ks = ks' := by
  cases h with
  | type h => exact creation_unique h ((understands_type hc (creation_isType h)).1 h')
  | context h => exact nodup_unique contextSignature_nodup h ((understands_context hc).1 h')
  | connection h => exact nodup_unique connectionSignature_nodup h ((understands_connection hc).1 h')
  | @var _ i _ _ h h2 =>
    exact nodup_unique (signature_nodup i) h2 ((understands_variable (inv_variable hc h) h).1 h')

/-- A message without colon and question mark has no arguments. -/
theorem unary_args {text a n : Str} {l : List Str} (h : Statement text a n l) (h1 : c!":" ∉ n) (h2 : c!"?" ∉ n) : l = [] := by
  obtain ⟨_, _, _, msg, _, _, _, _, _, _, _, hm, _, _⟩ := h
  have tok : ∀ {t : Str}, Token t → c!":" ∈ t ∨ c!"?" ∈ t := by
    rintro t ⟨i, _, rfl | rfl⟩ <;> simp
  rcases hm with ⟨_, _, rfl⟩ | hm
  · rfl
  · exfalso
    cases hm with
    | one ht => rcases tok ht with h | h <;> contradiction
    | more ht =>
      rcases tok ht with h | h
      · exact h1 (List.mem_append_left _ h)
      · exact h2 (List.mem_append_left _ h)

theorem overflows_fits {k : ArgKind} {a : Str} (h : Overflows k a) : Fits k a := by
  have key : OutOfRange a → IntegerValue a ∨ FloatValue a := by
    rintro (⟨n, h1, _⟩ | ⟨h1, _⟩)
    · exact .inl ((intLiteral_exists a).2 ⟨n, h1⟩)
    · exact .inr h1
  cases k with
  | lit t => obtain ⟨rfl, h⟩ := h; exact .inr (.inr (.inl ⟨rfl, key h⟩))
  | number => exact key (.inl h)
  | name => exact h.elim
  | «namespace» => exact h.elim

/-- The ways a request to an existing receiver ends. -/
inductive Ends (pwd : Str) (c : Ctx) (s : Option Session) (a n : Str) (l : List Str) (y : Run (Ctx × Option Session)) : Prop
  | noMessage : (¬ ∃ ks, Understands c a n ks) → y = .thr (c, s) .invalidMessage → Ends pwd c s a n l y
  | wrongNumber {ks} : Understands c a n ks → l.length ≠ ks.length → y = .thr (c, s) .wrongNumberOfArguments →
      Ends pwd c s a n l y
  | invalid {ks} : Understands c a n ks → l.length = ks.length → (∃ q ∈ ks.zip l, ¬ Fits q.1 q.2) →
      y = .thr (c, s) .invalidArgument → Ends pwd c s a n l y
  | undefined {ks} : Understands c a n ks → l.length = ks.length → (∃ q ∈ ks.zip l, Overflows q.1 q.2) →
      y = .ub → Ends pwd c s a n l y
  | refused {ks} : Understands c a n ks → l.length = ks.length → (∀ q ∈ ks.zip l, Good q.1 q.2) →
      OutOfDomain c a n l → y = .thr (c, s) .invalidArgument → Ends pwd c s a n l y
  | used {ks v i j} : Understands c a n ks → l.length = ks.length → (∀ q ∈ ks.zip l, Good q.1 q.2) →
      Creates a n l v i → c.vars.lookup v = some j → startsWith n b!"createIfNotExists:" = false →
      y = .thr (c, s) .nameAlreadyUsed → Ends pwd c s a n l y
  | unknown {ks v} : Understands c a n ks → l.length = ks.length → (∀ q ∈ ks.zip l, Good q.1 q.2) →
      a = b!"Context" → n = b!"deleteVariable:" → l = [v] → Variable v → c.vars.lookup v = none →
      y = .thr (c, s) .unexistentVariable → Ends pwd c s a n l y
  | password {ks v w} : Understands c a n ks → l.length = ks.length → (∀ q ∈ ks.zip l, Good q.1 q.2) →
      a = b!"Connection" → n = b!"authenticateWithPassword:" → l = [v] → StringLiteral v w → w ≠ pwd →
      y = .thr (c, s) .wrongPassword → Ends pwd c s a n l y
  | good {ks} : Understands c a n ks → l.length = ks.length → (∀ q ∈ ks.zip l, Good q.1 q.2) →
      (∀ z e, y ≠ .thr z e) → Ends pwd c s a n l y

theorem does_ends {pwd : Str} {c : Ctx} (hc : Inv c) {s : Option Session} {text a n : Str} {l : List Str}
    {y : Run (Ctx × Option Session)} (hs : Statement text a n l) (hx : Exists c s a) (h : Does pwd c s text y) :
    Ends pwd c s a n l y := by
  have good1 : ∀ {k : ArgKind} {x : Str}, Good k x → ∀ q ∈ [k].zip [x], Good q.1 q.2 := by
    intro k x h q hq; simp only [List.zip_cons_cons, List.zip_nil_right, List.mem_singleton] at hq; subst hq; exact h
  have strGood : ∀ {x v : Str}, StringLiteral x v → Good (.lit b!"String") x := fun h => denotes_good (.string h)
  have cs : contextSig = contextSignature := rfl
  cases h with
  | syntaxError hn => exact absurd ⟨a, n, l, hs⟩ hn
  | typeNoMessage hst ht hn =>
    obtain ⟨rfl, rfl, rfl⟩ := statement_unique hst hs
    exact .noMessage (fun ⟨ks, h⟩ => hn ⟨ks, (understands_type hc ht).1 h⟩) rfl
  | typeWrongNumber hst ht hk hl =>
    obtain ⟨rfl, rfl, rfl⟩ := statement_unique hst hs
    exact .wrongNumber (.type hk) hl rfl
  | typeInvalid hst ht hk hl hf =>
    obtain ⟨rfl, rfl, rfl⟩ := statement_unique hst hs
    exact .invalid (.type hk) hl hf rfl
  | typeUndefined hst ht hk hl hf =>
    obtain ⟨rfl, rfl, rfl⟩ := statement_unique hst hs
    exact .undefined (.type hk) hl hf rfl
  | created hst ht hcr hl =>
    obtain ⟨rfl, rfl, rfl⟩ := statement_unique hst hs
    obtain ⟨_, ks, hk, hlen, hg⟩ := creates_creation hcr
    exact .good (.type hk) hlen hg (fun _ _ h => by cases h)
  | kept hst ht hcr hl hsw =>
    obtain ⟨rfl, rfl, rfl⟩ := statement_unique hst hs
    obtain ⟨_, ks, hk, hlen, hg⟩ := creates_creation hcr
    exact .good (.type hk) hlen hg (fun _ _ h => by cases h)
  | used hst ht hcr hl hsw =>
    obtain ⟨rfl, rfl, rfl⟩ := statement_unique hst hs
    obtain ⟨_, ks, hk, hlen, hg⟩ := creates_creation hcr
    exact .used (.type hk) hlen hg hcr hl hsw rfl
  | absent hst hv hl =>
    obtain ⟨rfl, rfl, rfl⟩ := statement_unique hst hs
    rcases hx with h | h | ⟨h, _⟩ | ⟨i, h⟩
    · exact absurd hv (type_not_variable h)
    · exact absurd h (variable_not_special' hv).1
    · exact absurd h (variable_not_special' hv).2
    · unfold Holds at h; rw [hl] at h; cases h
  | varNoMessage hst hv hl hn =>
    obtain ⟨rfl, rfl, rfl⟩ := statement_unique hst hs
    exact .noMessage (fun ⟨ks, h⟩ => hn _ ((understands_variable hv hl).1 h) rfl) rfl
  | varWrongNumber hst hv hl hk hlen =>
    obtain ⟨rfl, rfl, rfl⟩ := statement_unique hst hs
    exact .wrongNumber (.var hl hk) hlen rfl
  | varInvalid hst hv hl hk hlen hf =>
    obtain ⟨rfl, rfl, rfl⟩ := statement_unique hst hs
    exact .invalid (.var hl hk) hlen hf rfl
  | varUndefined hst hv hl hk hlen hf =>
    obtain ⟨rfl, rfl, rfl⟩ := statement_unique hst hs
    exact .undefined (.var hl hk) hlen hf rfl
  | varGives hst hv hl hk hlen hg hb =>
    obtain ⟨rfl, rfl, rfl⟩ := statement_unique hst hs
    exact .good (.var hl hk) hlen hg (fun _ _ h => by cases h)
  | varRefuses hst hv hl hk hlen hg hb =>
    obtain ⟨rfl, rfl, rfl⟩ := statement_unique hst hs
    exact .refused (.var hl hk) hlen hg (.index hl hb) rfl
  | varBehavesUndefined hst hv hl hk hlen hg hb =>
    obtain ⟨rfl, rfl, rfl⟩ := statement_unique hst hs
    exact .good (.var hl hk) hlen hg (fun _ _ h => by cases h)
  | noConnection hst hn =>
    obtain ⟨rfl, rfl, rfl⟩ := statement_unique hst hs
    rcases hx with h | h | ⟨h, h'⟩ | ⟨i, h⟩
    · exact absurd rfl (type_not_special h).2
    · exact absurd h (by decide)
    · exact absurd hn h'
    · exact absurd rfl (variable_not_special' (inv_variable hc h)).2
  | @connection m k x r hst hsx hd =>
    obtain ⟨rfl, rfl, rfl⟩ := statement_unique hst hs
    subst hsx
    cases hd with
    | close =>
      obtain rfl := unary_args hs (by decide) (by decide)
      exact .good (ks := []) (.connection (by simp [connectionSignature])) rfl (by simp) (fun _ _ h => by cases h)
    | auth h =>
      exact .good (ks := [.lit b!"String"]) (.connection (by simp [connectionSignature])) rfl (good1 (strGood h)) (fun _ _ h => by cases h)
    | wrong h hne =>
      exact .password (ks := [.lit b!"String"]) (.connection (by simp [connectionSignature])) rfl (good1 (strGood h)) rfl rfl rfl h hne rfl
    | invalid h =>
      refine .invalid (ks := [.lit b!"String"]) (.connection (by simp [connectionSignature])) rfl ⟨(.lit b!"String", _), by simp; rfl, ?_⟩ rfl
      intro hf
      rcases hf with ⟨h', _⟩ | ⟨h', _⟩ | ⟨h', _⟩ | ⟨h', _⟩ | ⟨_, h'⟩
      · exact absurd h' (by decide)
      · exact absurd h' (by decide)
      · exact absurd h' (by decide)
      · exact absurd h' (by decide)
      · exact h h'
    | wrongNumber h => exact .wrongNumber (ks := [.lit b!"String"]) (.connection (by simp [connectionSignature])) h rfl
    | noMessage h1 h2 =>
      refine .noMessage ?_ rfl
      rintro ⟨ks, h⟩
      have := (understands_connection hc).1 h
      simp only [connectionSignature, List.mem_cons, Prod.mk.injEq, List.not_mem_nil, or_false] at this
      rcases this with ⟨h, _⟩ | ⟨h, _⟩ <;> contradiction
  | @context m k r hst hd =>
    obtain ⟨rfl, rfl, rfl⟩ := statement_unique hst hs
    have und : ∀ {name ks}, (name, ks) ∈ contextSignature → Understands c b!"Context" name ks := .context
    cases hd with
    | listNamespaces => exact .good (ks := []) (und (by simp [contextSignature])) rfl (by simp) (fun _ _ h => by cases h)
    | listVariables => exact .good (ks := []) (und (by simp [contextSignature])) rfl (by simp) (fun _ _ h => by cases h)
    | listOf h => exact .good (ks := [.namespace]) (und (by simp [contextSignature])) rfl (good1 ⟨h, id⟩) (fun _ _ h => by cases h)
    | delete h _ => exact .good (ks := [.name]) (und (by simp [contextSignature])) rfl (good1 ⟨h, id⟩) (fun _ _ h => by cases h)
    | deleteNone h h' =>
      exact .unknown (ks := [.name]) (und (by simp [contextSignature])) rfl (good1 ⟨h, id⟩) rfl rfl rfl h
        (by cases hl : c.vars.lookup _ with
            | none => rfl
            | some i => exact absurd (lookup_isSome_iff.1 ⟨i, hl⟩) h') rfl
    | deleteOf h => exact .good (ks := [.namespace]) (und (by simp [contextSignature])) rfl (good1 ⟨h, id⟩) (fun _ _ h => by cases h)
    | getPrecision =>
      obtain rfl := unary_args hs (by decide) (by decide)
      exact .good (ks := []) (und (by simp [contextSignature])) rfl (by simp) (fun _ _ h => by cases h)
    | setPrecision h _ =>
      exact .good (ks := [.lit b!"Integer"]) (und (by simp [contextSignature])) rfl (good1 (denotes_good h)) (fun _ _ h => by cases h)
    | setPrecisionNo h h' =>
      exact .refused (ks := [.lit b!"Integer"]) (und (by simp [contextSignature])) rfl (good1 (denotes_good h)) (.precision h h') rfl
    | getTolerance =>
      obtain rfl := unary_args hs (by decide) (by decide)
      exact .good (ks := []) (und (by simp [contextSignature])) rfl (by simp) (fun _ _ h => by cases h)
    | setTolerance h _ =>
      exact .good (ks := [.lit b!"Float"]) (und (by simp [contextSignature])) rfl (good1 (denotes_good (.float h))) (fun _ _ h => by cases h)
    | setToleranceNo h h' =>
      exact .refused (ks := [.lit b!"Float"]) (und (by simp [contextSignature])) rfl (good1 (denotes_good (.float h))) (.tolerance h h') rfl
    | noMessage h =>
      exact .noMessage (fun ⟨ks, h'⟩ => h _ ((understands_context hc).1 h') rfl) rfl
    | wrongNumber h h' => exact .wrongNumber (und h) h' rfl
    | invalid h h' h2 => exact .invalid (und h) h' h2 rfl
    | undefined h =>
      exact .undefined (ks := [.lit b!"Integer"]) (und (by simp [contextSignature])) rfl ⟨(.lit b!"Integer", _), by simp, rfl, h⟩ rfl

end Knuckle

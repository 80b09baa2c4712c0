/-
The log can be read back.
-/
import Verif.Proofs.Prefix
import Verif.Proofs.Replies
import Verif.Proofs.Serial
import Verif.Proofs.Layout
import Verif.Spec.Log

namespace Knuckle

open Spec

/-! ### Replies that are not errors do not end with a full stop -/

/-- The reply does not end with a full stop. -/
def NoDot (r : Str) : Prop := r.getLast? ≠ some c!"."

theorem noDot_append (a : Str) {b : Str} (hb : b ≠ []) (h : NoDot b) : NoDot (a ++ b) := by
  unfold NoDot
  rw [List.getLast?_append_of_ne_nil _ hb]; exact h

theorem noDot_digits {a : Str} (h : ∀ x ∈ a, Digit x) : NoDot a := by
  intro e
  have := h _ (List.mem_of_getLast? e)
  revert this; unfold Digit; decide

theorem noDot_natStr (n : Nat) : NoDot (natStr n) := noDot_digits (natStr_spec n).1

theorem noDot_null : NoDot b!"null" := by unfold NoDot; decide
theorem noDot_truth (p : Prop) [Decidable p] : NoDot (truth p) := by
  unfold truth NoDot; split <;> decide
theorem noDot_intStr (n : Int) : NoDot (intStr n) := by
  unfold intStr; split
  · exact noDot_append [_] (natStr_spec _).2.1 (noDot_natStr _)
  · exact noDot_natStr _

theorem noDot_nan : NoDot b!"-nan" := by unfold NoDot; decide
theorem noDot_inf : NoDot b!"inf" := by unfold NoDot; decide
theorem noDot_ninf : NoDot b!"-inf" := by unfold NoDot; decide
theorem noDot_true : NoDot b!"true" := by unfold NoDot; decide
theorem noDot_false : NoDot b!"false" := by unfold NoDot; decide

theorem noDot_fixed (p : Int) (x : Fl) : NoDot (fmtFixed p x) := by
  cases x with
  | nan => exact noDot_nan
  | inf s => cases s <;> [exact noDot_inf; exact noDot_ninf]
  | fin s k =>
    have key : ∀ (q n m : Nat), NoDot (natStr n ++ (if q = 0 then [] else c!"." :: padZeros q (natStr m))) := by
      intro q n m
      split
      · simpa using noDot_natStr n
      · refine noDot_append _ (by simp) (noDot_append [c!"."] ?_ (noDot_append _ (natStr_spec m).2.1 (noDot_natStr m)))
        have := (natStr_spec m).2.1
        exact fun e => this (List.append_eq_nil_iff.1 e).2
    simp only [fmtFixed]
    split
    · refine noDot_append [_] ?_ (key _ _ _)
      have := (natStr_spec (rhe (k * 10 ^ (if p < 0 then 6 else p.toNat)) oneK / 10 ^ (if p < 0 then 6 else p.toNat))).2.1
      exact fun e => this (List.append_eq_nil_iff.1 e).1
    · exact key _ _ _

theorem noDot_end (a : Str) {c : Byte} (hc : c ≠ c!".") : NoDot (a ++ [c]) := by
  unfold NoDot; simpa using hc

theorem noDot_char (c : Byte) : NoDot (charStr c) := noDot_end [_, c] (by decide)
theorem noDot_quoted (v : Str) : NoDot (quoted v) := noDot_end (_ :: escape _ v) (by decide)
theorem noDot_vector (p : Int) (l : List Obj) : NoDot (vectorText p l) := noDot_append [_] (by simp) (noDot_end _ (by decide))
theorem noDot_set (p : Int) (l : List Obj) : NoDot (setText p l) := noDot_append [_] (by simp) (noDot_end _ (by decide))
theorem noDot_dict (p : Int) (l : List (Obj × Obj)) : NoDot (dictText p l) := noDot_append [_] (by simp) (noDot_end _ (by decide))
theorem noDot_list (l : List Str) : NoDot (listText c!"[" c!"]" l) := noDot_append [_] (by simp) (noDot_end _ (by decide))

theorem noDot_repr (p : Int) (o : Obj) : NoDot (o.repr p) := by
  cases o with
  | boolean b => cases b <;> [exact noDot_false; exact noDot_true]
  | character c => exact noDot_char c
  | integer n => exact noDot_intStr n
  | float x => exact noDot_fixed p x
  | string v => exact noDot_quoted v

theorem noDot_index (o : Option Nat) : NoDot (indexText o) := by
  cases o with
  | none => unfold NoDot; decide
  | some k => exact noDot_intStr k

/-- Closes a goal about any of the replies. -/
macro "no_dot" : tactic => `(tactic| first
  | exact noDot_null | exact noDot_truth _ | exact noDot_intStr _ | exact noDot_fixed _ _ | exact noDot_char _
  | exact noDot_quoted _ | exact noDot_vector _ _ | exact noDot_set _ _ | exact noDot_dict _ _ | exact noDot_list _
  | exact noDot_repr _ _ | exact noDot_index _)

open Classical in
theorem behaves_end {cfg : Cfg} {i i' : Inst} {name r : Str} {args : List Str}
    (h : Behaves cfg i name args (.gives i' r)) : NoDot r := by
  generalize hx : Result.gives i' r = x at h
  cases h with
  | @boolean v _ _ m h =>
    obtain ⟨w, e, rfl⟩ := map_gives hx.symm
    cases m <;> cases e <;> no_dot
  | @character v _ _ m h =>
    obtain ⟨w, e, rfl⟩ := map_gives hx.symm
    cases m <;> cases e <;> no_dot
  | @integer v _ _ m h =>
    obtain ⟨w, e, rfl⟩ := map_gives hx.symm
    have ex : ∀ n, exactly n = .gives w r → NoDot r := by
      intro n h; unfold exactly at h; split at h <;> cases h; no_dot
    have tr : ∀ x, truncated x = .gives w r → NoDot r := by
      intro x h; unfold truncated at h; split at h <;> cases h; no_dot
    cases m with
    | get => cases e; no_dot
    | set => cases e; no_dot
    | divideBy n =>
      cases n <;> simp only [intMeaning] at e
      · split at e
        · cases e
        · exact ex _ e
      · exact tr _ e
    | add n => cases n <;> simp only [intMeaning] at e <;> [exact ex _ e; exact tr _ e]
    | subtract n => cases n <;> simp only [intMeaning] at e <;> [exact ex _ e; exact tr _ e]
    | multiplyBy n => cases n <;> simp only [intMeaning] at e <;> [exact ex _ e; exact tr _ e]
    | _ n =>
      cases n <;> simp only [intMeaning, Result.gives.injEq] at e <;> obtain ⟨_, rfl⟩ := e <;> exact noDot_truth _
  | @float v _ _ m h =>
    obtain ⟨w, e, rfl⟩ := map_gives hx.symm
    cases m <;> cases e <;> no_dot
  | @string v _ _ m h =>
    obtain ⟨w, e, rfl⟩ := map_gives hx.symm
    cases m <;> simp only [strMeaning] at e <;> (try split at e) <;> cases e <;> no_dot
  | @vector t l _ _ m h =>
    obtain ⟨w, e, rfl⟩ := map_gives hx.symm
    cases m <;> simp only [vecMeaning] at e <;> (try split at e) <;> (try split at e) <;> cases e <;> no_dot
  | sort h1 h2 h3 => cases hx; no_dot
  | sortUndefined h => cases hx
  | @set t l _ _ m h =>
    obtain ⟨w, e, rfl⟩ := map_gives hx.symm
    cases m <;> simp only [setMeaning] at e <;> (try split at e) <;> (try split at e) <;> cases e <;> no_dot
  | @dictionary t u l _ _ m h =>
    obtain ⟨w, e, rfl⟩ := map_gives hx.symm
    cases m <;> simp only [dictMeaning] at e <;> (try split at e) <;> (try split at e) <;> cases e <;> no_dot

/-- A request that did not end with an exception has such a reply. -/
theorem does_end {pwd : Str} {c x : Ctx} {s s' : Option Session} {text r : Str} (h : Does pwd c s text (.ret (x, s') r)) :
    NoDot r := by
  generalize hy : Run.ret (x, s') r = y at h
  cases h with
  | created => cases hy; no_dot
  | kept => cases hy; no_dot
  | varGives _ _ _ _ _ _ hb => cases hy; exact behaves_end hb
  | context _ h =>
    cases h <;> cases hy <;> no_dot
  | connection _ _ h =>
    cases h <;> cases hy <;> no_dot
  | _ => cases hy


/-! ### One line -/

/-- What is needed to know about a logged request. -/
structure Answered (A O : Str) : Prop where
  syntaxError : (¬ ∃ a n l, Statement A a n l) → O = b!"SyntaxError: invalid statement."
  error : O ∈ errorTexts ∨ NoDot O

theorem line_cut {A A' O O' : Str} (h : Answered A O) (h' : Answered A' O') {Y : Str} (hA : A' = A ++ Y)
    (e : b!" -> " ++ O = Y ++ (b!" -> " ++ O')) : Y = [] := by
  match Y, hA, e with
  | [], _, _ => rfl
  | [a], _, e => injection e with _ e; injection e with e _; exact absurd e (by decide)
  | [a, b], _, e => injection e with _ e; injection e with _ e; injection e with e _; exact absurd e (by decide)
  | a :: b :: c :: Y, hA, e =>
    exfalso
    injection e with e1 e; injection e with e2 e; injection e with e3 e
    rcases h.error with he | he
    · have key : ∀ O ∈ errorTexts, (62 : Byte) ∉ O := by decide +kernel
      have h1 : (62 : Byte) ∈ (32 : Byte) :: O := by
        have : (62 : Byte) ∈ Y ++ (b!" -> " ++ O') := by simp
        have e4 : (32 : Byte) :: O = Y ++ (b!" -> " ++ O') := e
        rw [e4]; exact this
      rcases List.mem_cons.1 h1 with h1 | h1
      · exact absurd h1 (by decide)
      · exact key O he h1
    · by_cases hs : ∃ a n l, Statement A' a n l
      · by_cases hs0 : ∃ a n l, Statement A a n l
        · obtain ⟨x, n, l, hs⟩ := hs
          obtain ⟨x', n', l', hs0⟩ := hs0
          have := statement_end hs0 (hA ▸ hs) b (by simp)
          rw [← e2] at this
          revert this; unfold Ws; decide
        · rw [h.syntaxError hs0] at he
          exact he (by decide)
      · have h2 := h'.syntaxError hs
        have h3 : (((32 : Byte) :: O)).getLast? = (Y ++ (b!" -> " ++ O')).getLast? := congrArg _ e
        rw [h2] at h3
        have h4 : (Y ++ (b!" -> " ++ b!"SyntaxError: invalid statement.")).getLast? = some c!"." := by
          rw [List.getLast?_append_of_ne_nil _ (by simp)]; decide
        rw [h4] at h3
        cases O with
        | nil => exact absurd h3 (by decide)
        | cons o O => rw [List.getLast?_cons_cons] at h3; exact he h3

theorem line_unique {A A' O O' : Str} (h : Answered A O) (h' : Answered A' O') (e : A ++ (b!" -> " ++ O) = A' ++ (b!" -> " ++ O')) :
    A = A' ∧ O = O' := by
  have key : A = A' := by
    rcases List.append_eq_append_iff.1 e with ⟨Y, e1, e2⟩ | ⟨Y, e1, e2⟩
    · rw [line_cut h h' e1 e2] at e1; simpa using e1.symm
    · rw [line_cut h' h e1 e2] at e1; simpa using e1
  subst key
  exact ⟨rfl, List.append_cancel_left (List.append_cancel_left e)⟩

theorem stamp_unique {t t' x x' : Str} (h : Stamp t) (h' : Stamp t') (e : t ++ x = t' ++ x') : t = t' ∧ x = x' := by
  obtain ⟨b, rfl, hb, _⟩ := h
  obtain ⟨b', rfl, hb', _⟩ := h'
  have e1 : b ++ c!"]" :: x = b' ++ c!"]" :: x' := by
    have := (List.cons.inj e).2
    simpa using this
  rcases List.append_eq_append_iff.1 e1 with ⟨y, f1, f2⟩ | ⟨y, f1, f2⟩
  · cases y with
    | nil => simp at f1 f2; exact ⟨by rw [f1], f2⟩
    | cons d y => rw [← (List.cons.inj f2).1] at f1; exact absurd (by rw [f1]; simp) hb'
  · cases y with
    | nil => simp at f1 f2; exact ⟨by rw [f1], f2.symm⟩
    | cons d y => rw [← (List.cons.inj f2).1] at f1; exact absurd (by rw [f1]; simp) hb

/-! ### The whole log -/

theorem logLines_wire (st : List Str) (rs : List (Str × Str)) :
    logLines st rs = wire (List.zipWith (fun t r => t ++ (b!" " ++ (r.1 ++ (b!" -> " ++ r.2)))) st rs) := by
  induction st generalizing rs with
  | nil => simp [logLines, wire]
  | cons t st ih =>
    cases rs with
    | nil => simp [logLines, wire]
    | cons r rs =>
      have := ih rs
      unfold logLines wire at this ⊢
      simp only [List.zipWith_cons_cons, List.flatten_cons, List.map_cons, this]
      simp [logLine]

theorem log_unique {rs rs' : List (Str × Str)} {text : Str} (ha : ∀ r ∈ rs, Answered r.1 r.2 ∧ (10 : Byte) ∉ r.1 ∧ (10 : Byte) ∉ r.2)
    (ha' : ∀ r ∈ rs', Answered r.1 r.2 ∧ (10 : Byte) ∉ r.1 ∧ (10 : Byte) ∉ r.2) (h : LogText rs text) (h' : LogText rs' text) : rs = rs' := by
  obtain ⟨st, hl, hs, rfl⟩ := h
  obtain ⟨st', hl', hs', e⟩ := h'
  rw [logLines_wire, logLines_wire] at e
  have nl : ∀ (st : List Str) (rs : List (Str × Str)), (∀ t ∈ st, Stamp t) → (∀ r ∈ rs, Answered r.1 r.2 ∧ (10 : Byte) ∉ r.1 ∧ (10 : Byte) ∉ r.2) →
      ∀ l ∈ List.zipWith (fun t r => t ++ (b!" " ++ (r.1 ++ (b!" -> " ++ r.2)))) st rs, (10 : Byte) ∉ l := by
    intro st
    induction st with
    | nil => intro rs _ _ l hl; simp at hl
    | cons t st ih =>
      intro rs hs ha l hl
      cases rs with
      | nil => simp at hl
      | cons r rs =>
        rw [List.zipWith_cons_cons] at hl
        rcases List.mem_cons.1 hl with rfl | hl
        · obtain ⟨b, rfl, _, hb⟩ := hs t (by simp)
          obtain ⟨_, h1, h2⟩ := ha r (by simp)
          intro hm
          simp only [List.mem_append, List.mem_cons, List.not_mem_nil, or_false] at hm
          have k1 : (10 : Byte) ∉ b := hb
          have k2 : ∀ x ∈ b!"[] ->", (10 : Byte) ≠ x := by decide
          simp only [h1, h2, k1, false_or, or_false] at hm
          revert hm; decide
        · exact ih rs (fun t ht => hs t (by simp [ht])) (fun r hr => ha r (by simp [hr])) l hl
  have e2 := (wire_inj (x := []) (y := []) (nl st rs hs ha) (nl st' rs' hs' ha') (by simp) (by simp) (by simpa using e)).1
  clear e nl
  induction st generalizing st' rs rs' with
  | nil =>
    have h1 : rs = [] := by simpa using hl.symm
    subst h1
    cases rs' with
    | nil => rfl
    | cons r' rs' =>
      cases st' with
      | nil => simp at hl'
      | cons t' st' => simp at e2
  | cons t st ih =>
    cases rs with
    | nil => simp at hl
    | cons r rs =>
      cases st' with
      | nil => simp at e2
      | cons t' st' =>
        cases rs' with
        | nil => simp at hl'
        | cons r' rs' =>
          rw [List.zipWith_cons_cons, List.zipWith_cons_cons] at e2
          obtain ⟨e3, e4⟩ := List.cons.inj e2
          obtain ⟨_, e5⟩ := stamp_unique (hs t (by simp)) (hs' t' (by simp)) e3
          obtain ⟨e6, e7⟩ := line_unique (ha r (by simp)).1 (ha' r' (by simp)).1 (List.append_cancel_left e5)
          rw [Prod.ext e6 e7, ih (fun r hr => ha r (by simp [hr])) (fun r hr => ha' r (by simp [hr]))
            (by simpa using hl) (fun t ht => hs t (by simp [ht])) st' (by simpa using hl') (fun t ht => hs' t (by simp [ht])) e4]

/-! ### Trimming -/

theorem trimmed_statement {text t a n : Str} {l : List Str} (h : Trimmed text t) : Statement text a n l ↔ Statement t a n l := by
  obtain ⟨w, w', rfl, hw, hw', h1, h2⟩ := h
  have app : ∀ {x y : Str}, Spaces x → Spaces y → Spaces (x ++ y) := fun hx hy b hb => (List.mem_append.1 hb).elim (hx b) (hy b)
  constructor
  · rintro ⟨w₁, c, w₂, msg, w₃, w₄, e, k1, k2, k3, k4, k5, k6, k7⟩
    obtain ⟨b, x, ea, hb⟩ := noLead_cons (actor_noLead a k2) (actor_ne_nil a k2)
    cases t with
    | nil =>
      have : c!";" ∈ w ++ ([] ++ w') := by rw [e]; simp
      exact absurd (app hw (app (x := []) (by intro b hb; simp at hb) hw') _ this) semi_not_ws
    | cons d t =>
      have e1 : w ++ d :: (t ++ w') = w₁ ++ b :: (x ++ (c :: (w₂ ++ (msg ++ (w₃ ++ (b!";" ++ w₄)))))) := by
        rw [ea] at e; simpa using e
      obtain ⟨_, e2⟩ := spaces_unique hw k1 (h1 d rfl) hb e1
      have e3 : w'.reverse ++ (d :: t).reverse = w₄.reverse ++ c!";" :: (a ++ (c :: (w₂ ++ (msg ++ w₃)))).reverse := by
        have : (d :: t) ++ w' = (a ++ (c :: (w₂ ++ (msg ++ w₃)))) ++ (c!";" :: w₄) := by
          rw [ea]; simpa using e2
        have := congrArg List.reverse this
        simpa using this
      obtain ⟨g, y, ey⟩ : ∃ g y, (d :: t).reverse = g :: y := by
        cases hr : (d :: t).reverse with
        | nil => simp at hr
        | cons g y => exact ⟨g, y, rfl⟩
      have hg : ¬ Ws g := h2 g (by rw [← List.head?_reverse, ey]; rfl)
      rw [ey] at e3
      obtain ⟨_, e4⟩ := spaces_unique (fun x hx => hw' x (by simpa using hx)) (fun x hx => k7 x (by simpa using hx)) hg semi_not_ws e3
      rw [← ey] at e4
      refine ⟨[], c, w₂, msg, w₃, [], ?_, (by intro b hb; simp at hb), k2, k3, k4, k5, k6, (by intro b hb; simp at hb)⟩
      have := congrArg List.reverse e4
      simpa using this
  · rintro ⟨w₁, c, w₂, msg, w₃, w₄, rfl, k1, k2, k3, k4, k5, k6, k7⟩
    exact ⟨w ++ w₁, c, w₂, msg, w₃, w₄ ++ w', by simp, app hw k1, k2, k3, k4, k5, k6, app k7 hw'⟩

theorem trimmed_sameEffect [StdSort] {pwd : Str} {c : Ctx} {s : Option Session} {text t : Str} (h : Trimmed text t) :
    SameEffect (execute pwd c s text) (execute pwd c s t) := by
  by_cases hs : ∃ a n l, Statement text a n l
  · obtain ⟨a, n, l, hs⟩ := hs
    rw [execute_statement _ _ _ _ _ _ _ hs, execute_statement _ _ _ _ _ _ _ ((trimmed_statement h).1 hs)]
    exact finish_sameEffect _ _ _
  · have hs' : ¬ ∃ a n l, Statement t a n l := fun ⟨a, n, l, k⟩ => hs ⟨a, n, l, (trimmed_statement h).2 k⟩
    rw [execute_not_statement _ _ _ _ hs, execute_not_statement _ _ _ _ hs']
    simp [SameEffect, SameData, record_vars, record_cfg]

theorem execute_answered [StdSort] {pwd : Str} {c c' : Ctx} (hc : Inv c) {s s' : Option Session} {text t r : Str}
    (h : execute pwd c s text = .done (c', s', r)) (ht : Trimmed text t) : Answered t r := by
  constructor
  · intro hn
    rw [execute_not_statement pwd c s text fun ⟨a, n, l, k⟩ => hn ⟨a, n, l, (trimmed_statement ht).1 k⟩] at h
    injection h with h
    exact (Prod.mk.inj (Prod.mk.inj h).2).2.symm
  · obtain ⟨x, _, h | ⟨e, _, rfl⟩⟩ := execute_done hc h
    · exact .inr (does_end h)
    · exact .inl (exc_text_error e)

/-- Requests that are not for the connection do not depend on the session and the password. -/
theorem execute_anyone [StdSort] {pwd : Str} {c c' : Ctx} {s s' : Option Session} {text r : Str} (hn : ¬ ToConnection text)
    (h : execute pwd c s text = .done (c', s', r)) (pwd₂ : Str) (s₂ : Option Session) : execute pwd₂ c s₂ text = .done (c', s₂, r) := by
  by_cases hst : ∃ a n l, Statement text a n l
  · obtain ⟨a, n, l, hst⟩ := hst
    have key : ∀ y : Run Ctx, finish text (onCtx s y) = .done (c', s', r) → finish text (onCtx s₂ y) = .done (c', s₂, r) := by
      intro y hy
      cases y with
      | ub => cases hy
      | ret x o => cases hy; rfl
      | thr x o => cases hy; rfl
    rw [execute_statement pwd c s _ _ _ _ hst] at h
    rw [execute_statement pwd₂ c s₂ _ _ _ _ hst]
    rcases statement_actor _ _ _ _ hst with hA | hA | hA | hA
    · subst hA; exact absurd ⟨_, _, hst⟩ hn
    · have hA := (isContext_eq a).2 hA
      rw [executeParsed_context _ _ _ _ hA] at h ⊢
      exact key _ h
    · have hA := (isType_iff a).2 hA
      rw [executeParsed_type _ _ _ _ hA] at h ⊢
      exact key _ h
    · have hA := (isVariable_iff a).2 hA
      rw [executeParsed_variable _ _ _ _ hA] at h ⊢
      exact key _ h
  · rw [execute_not_statement _ _ _ _ hst] at h ⊢
    injection h with h
    obtain ⟨h1, h2⟩ := Prod.mk.inj h
    obtain ⟨h2, h3⟩ := Prod.mk.inj h2
    rw [h1, h3]

open Classical in
theorem removed_exists {α : Type} (p : α → Prop) (l : List α) : ∃ l', Removed p l l' := by
  induction l with
  | nil => exact ⟨[], .nil⟩
  | cons x l ih =>
    obtain ⟨l', h⟩ := ih
    by_cases hp : p x
    · exact ⟨l', .drop hp h⟩
    · exact ⟨_, .keep hp h⟩

theorem replay_det [StdSort] {pwd : Str} {s : Option Session} {c c₁ c₂ : Ctx} {l : List (Str × Str)} (h₁ : Replay pwd s c l c₁)
    (h₂ : Replay pwd s c l c₂) : c₁ = c₂ := by
  induction h₁ with
  | nil => cases h₂; rfl
  | cons he _ ih =>
    cases h₂ with
    | cons he' h₂ =>
      rw [he] at he'
      injection he' with e
      rw [(Prod.mk.inj e).1] at ih
      exact ih h₂

theorem history_snoc [StdSort] {pwd : Str} {c c' c'' : Ctx} {s s' : Option Session} {text r : Str} {h : List (Str × Str)}
    (hh : History c h c') (he : execute pwd c' s text = .done (c'', s', r)) : History c (h ++ [(text, r)]) c'' := by
  induction hh with
  | nil => exact .cons he .nil
  | cons h1 _ ih => exact .cons h1 (ih he)

/-- The executed requests of a server are a history. -/
theorem serial_history [StdSort] {pwd : Str} {c c' : Ctx} {log : List Request} (h : Serial pwd c log c') :
    ∃ x, History c x c' ∧ (∀ p ∈ x, ∃ q ∈ log, p = (q.line, q.reply)) ∧ ∀ q ∈ log, ToConnection q.line → (q.line, q.reply) ∈ x := by
  induction h with
  | nil => exact ⟨[], .nil, by simp, by simp⟩
  | @executed log _ _ i line reply _ _ _ _ _ _ he ih =>
    obtain ⟨x, h1, h2, h3⟩ := ih
    refine ⟨_, history_snoc h1 he, ?_, ?_⟩
    · intro p hp
      rcases List.mem_append.1 hp with hp | hp
      · obtain ⟨q, hq, e⟩ := h2 p hp
        exact ⟨q, by simp [hq], e⟩
      · exact ⟨⟨i, line, reply⟩, by simp, by simpa using hp⟩
    · intro q hq hC
      rcases List.mem_append.1 hq with hq | hq
      · exact List.mem_append_left _ (h3 q hq hC)
      · rw [List.mem_singleton.1 hq]; simp
  | @ignored log _ i line _ _ _ hn ih =>
    obtain ⟨x, h1, h2, h3⟩ := ih
    refine ⟨x, h1, ?_, ?_⟩
    · intro p hp
      obtain ⟨q, hq, e⟩ := h2 p hp
      exact ⟨q, by simp [hq], e⟩
    · intro q hq hC
      rcases List.mem_append.1 hq with hq | hq
      · exact h3 q hq hC
      · rw [List.mem_singleton.1 hq] at hC; exact absurd hC hn

end Knuckle

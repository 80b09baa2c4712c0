/-
Texts put between quotes in a statement: what they can do to it.
-/
import Verif.Proofs.Prefix
import Verif.Spec.Template

namespace Knuckle

open Spec

theorem rest_sep {t n : Str} {l : List Str} (h : Rest t n l) : ∃ c r, t = c :: r ∧ Sep c := by
  cases h with
  | done h1 _ => exact tail_sep h1
  | @part w tok w' arg text name args h1 h2 h3 h4 h5 h6 =>
    cases w with
    | nil => exact absurd rfl h2
    | cons c w => exact ⟨c, _, rfl, .inl (h1 c (by simp))⟩

theorem rest_first {r n : Str} {l : List Str} {c : Byte} (h : Rest (c :: r) n l) : Sep c := by
  obtain ⟨d, s, e, hd⟩ := rest_sep h
  exact (List.cons.inj e).1 ▸ hd

theorem token_head {tok : Str} (h : Token tok) : ∃ b x, tok = b :: x ∧ ¬ Ws b ∧ b ≠ c!";" := by
  obtain ⟨b, x, e, hb, hs⟩ := keyword_head (.one (w := []) h (by intro c hc; cases hc) (arg := b!"true") (.inl (.inl (.inl rfl))))
  obtain ⟨d, y, rfl, hd⟩ := noLead_cons (token_noLead tok h) (token_ne_nil tok h)
  exact ⟨d, y, rfl, hd, (List.cons.inj e).1 ▸ hs⟩

/-- Two ways to read white space and a token agree. -/
theorem token_unique {w w' tok tok' x x' : Str} (hw : Spaces w) (hw' : Spaces w') (ht : Token tok) (ht' : Token tok')
    (e : w ++ (tok ++ x) = w' ++ (tok' ++ x')) : w = w' ∧ tok = tok' ∧ x = x' := by
  obtain ⟨b, y, rfl, hb, _⟩ := token_head ht
  obtain ⟨b', y', rfl, hb', _⟩ := token_head ht'
  obtain ⟨h1, h2⟩ := spaces_unique hw hw' hb hb' e
  have e1 := congrArg (tokenLoop []) (show (b :: y) ++ x = (b' :: y') ++ x' from h2)
  rw [tokenLoop_token _ _ ht, tokenLoop_token _ _ ht'] at e1
  injection e1 with e1
  exact ⟨h1, (Prod.mk.inj e1).1, (Prod.mk.inj e1).2⟩

/-- Two ways to read white space and an argument agree. -/
theorem argument_unique {w w' arg arg' x x' : Str} (hw : Spaces w) (hw' : Spaces w') (ha : Argument arg) (ha' : Argument arg')
    (hx : ∃ c r, x = c :: r ∧ Sep c) (hx' : ∃ c r, x' = c :: r ∧ Sep c)
    (e : w ++ (arg ++ x) = w' ++ (arg' ++ x')) : w = w' ∧ arg = arg' ∧ x = x' := by
  obtain ⟨b, y, rfl, hb, _⟩ := argument_head ha
  obtain ⟨b', y', rfl, hb', _⟩ := argument_head ha'
  obtain ⟨h1, h2⟩ := spaces_unique hw hw' hb hb' e
  obtain ⟨c, r, rfl, hc⟩ := hx
  obtain ⟨c', r', rfl, hc'⟩ := hx'
  obtain ⟨h3, h4⟩ := cut_unique argument_sep ha ha' hc hc' (show (b :: y) ++ c :: r = (b' :: y') ++ c' :: r' from h2)
  exact ⟨h1, h3, h4⟩

theorem done_not_part {w w' v tok x : Str} (hw : Spaces w) (hv : Spaces v) (ht : Token tok)
    (e : w ++ c!";" :: w' = v ++ (tok ++ x)) : False := by
  obtain ⟨b, y, rfl, hb, hs⟩ := token_head ht
  obtain ⟨_, h2⟩ := spaces_unique hw hv semi_not_ws hb e
  exact hs (List.cons.inj h2).1.symm

theorem rest_unique {t n n' : Str} {l l' : List Str} (h : Rest t n l) (h' : Rest t n' l') : n = n' ∧ l = l' := by
  suffices H : ∀ t', t' = t → Rest t' n' l' → n = n' ∧ l = l' from H t rfl h'
  clear h'
  induction h generalizing n' l' with
  | done h1 h2 =>
    intro t' e h'
    cases h' with
    | done => exact ⟨rfl, rfl⟩
    | part k1 _ k3 => exact (done_not_part h1 k1 k3 e.symm).elim
  | part h1 h2 h3 h4 h5 h6 ih =>
    intro t' e h'
    cases h' with
    | done k1 => exact (done_not_part k1 h1 h3 e).elim
    | part k1 k2 k3 k4 k5 k6 =>
      obtain ⟨_, rfl, e1⟩ := token_unique k1 h1 k3 h3 e
      obtain ⟨_, rfl, rfl⟩ := argument_unique k4 h4 k5 h5 (rest_sep k6) (rest_sep h6) e1
      obtain ⟨rfl, rfl⟩ := ih _ rfl k6
      exact ⟨rfl, rfl⟩

/-! ### Bytes without quotes -/

/-- Neither a quote nor a backslash. -/
def Quiet (c : Byte) : Prop := c ≠ c!"\"" ∧ c ≠ c!"\\"

theorem ws_quiet {c : Byte} (h : Ws c) : Quiet c := by
  constructor <;> · rintro rfl; revert h; unfold Ws; decide

theorem word_quiet {c : Byte} (h : WordChar c) : Quiet c := by
  constructor <;> · rintro rfl; revert h; unfold WordChar Letter Digit; decide

theorem token_quiet {t : Str} (h : Token t) : ∀ c ∈ t, Quiet c := by
  have hc : Quiet c!":" := by unfold Quiet; decide
  have hq : Quiet c!"?" := by unfold Quiet; decide
  rintro c hm
  obtain ⟨i, hi, rfl | rfl⟩ := h <;> rcases List.mem_append.1 hm with hm | hm
  · exact word_quiet (ident_word i hi c hm)
  · rcases List.mem_singleton.1 hm; exact hc
  · exact word_quiet (ident_word i hi c hm)
  · rcases List.mem_singleton.1 hm; exact hq

theorem bodyOk_quiet {c : Byte} (h : Quiet c) (odd : Bool) (s : Str) : bodyOk odd (c :: s) = bodyOk false s := by
  rw [bodyOk_cons]; simp [h.1, h.2]

theorem bodyOk_quiets {p : Str} (h : ∀ c ∈ p, Quiet c) (hn : p ≠ []) (odd : Bool) (s : Str) :
    bodyOk odd (p ++ s) = bodyOk false s := by
  induction p generalizing odd with
  | nil => exact absurd rfl hn
  | cons c p ih =>
    rw [List.cons_append, bodyOk_quiet (h c (by simp))]
    cases p with
    | nil => rfl
    | cons d p => exact ih (fun x hx => h x (List.mem_cons_of_mem _ hx)) (by simp) false

/-- A text without quotes is passed over to find a quote. -/
theorem skip_quiets {p x v r : Str} (h : ∀ c ∈ p, Quiet c) (e : p ++ x = v ++ c!"\"" :: r) :
    ∃ v', v = p ++ v' ∧ x = v' ++ c!"\"" :: r := by
  rcases List.append_eq_append_iff.1 e with ⟨y, h1, h2⟩ | ⟨y, h1, h2⟩
  · exact ⟨y, h1, h2⟩
  · cases y with
    | nil => exact ⟨[], by simpa using h1.symm, by simpa using h2.symm⟩
    | cons d y =>
      have : c!"\"" = d := (List.cons.inj h2).1
      subst this
      exact absurd rfl (h c!"\"" (by rw [h1]; simp)).1

theorem bodyOk_after {x : Str} : ∀ {p : Str} {odd : Bool}, bodyOk odd (p ++ c!"\"" :: x) = true → bodyOk false x = true := by
  intro p
  induction p with
  | nil =>
    intro odd h
    rw [List.nil_append, bodyOk_cons] at h
    simpa using (by simpa using h : odd = true ∧ bodyOk false x = true).2
  | cons c p ih =>
    intro odd h
    rw [List.cons_append, bodyOk_cons] at h
    split at h
    · exact ih h
    · split at h
      · simp only [Bool.and_eq_true] at h; exact ih h.2
      · exact ih h

theorem spaces_quiet {w : Str} (h : Spaces w) : ∀ c ∈ w, Quiet c := fun c hc => ws_quiet (h c hc)

theorem part_quiet {w tok w' : Str} (h1 : Spaces w) (h3 : Token tok) (h4 : Spaces w') : ∀ c ∈ w ++ (tok ++ w'), Quiet c := by
  intro c hc
  simp only [List.mem_append] at hc
  rcases hc with hc | hc | hc
  · exact spaces_quiet h1 c hc
  · exact token_quiet h3 c hc
  · exact spaces_quiet h4 c hc

theorem done_quiet {w w' : Str} (h1 : Spaces w) (h2 : Spaces w') : ∀ c ∈ w ++ c!";" :: w', Quiet c := by
  intro c hc
  simp only [List.mem_append, List.mem_cons] at hc
  rcases hc with hc | rfl | hc
  · exact spaces_quiet h1 c hc
  · unfold Quiet; decide
  · exact spaces_quiet h2 c hc

/-- The first quote of the rest of a statement that a string could end with is the first quote of a string or the inside of a
character. -/
theorem first_quote {p n : Str} {l : List Str} (h : Rest p n l) : ∀ {x r : Str} {odd : Bool}, p = x ++ c!"\"" :: r →
    bodyOk odd x = true →
    (∃ r', r = c!"'" :: r') ∨ ∃ b p' n' l', r = b ++ c!"\"" :: p' ∧ StringBody b ∧ Rest p' n' l' := by
  induction h with
  | done h1 h2 =>
    intro x r odd e _
    exact absurd rfl (done_quiet h1 h2 c!"\"" (by rw [e]; simp)).1
  | @part w tok w' arg text name args h1 h2 h3 h4 h5 h6 ih =>
    intro x r odd e₀ hx
    obtain ⟨x, rfl, e⟩ := skip_quiets (part_quiet h1 h3 h4) (x := arg ++ text) (by simpa using e₀)
    clear e₀
    rw [bodyOk_quiets (part_quiet h1 h3 h4) (by simp [h2])] at hx
    rcases argument_cases arg h5 with ⟨hw, hn⟩ | ⟨y, rfl⟩ | ⟨b, rfl, hb⟩
    · obtain ⟨x, rfl, e1⟩ := skip_quiets (fun c hc => word_quiet (hw c hc)) e
      rw [bodyOk_quiets (fun c hc => word_quiet (hw c hc)) hn] at hx
      exact ih e1 hx
    · match x, e, hx with
      | [], e, _ => exact absurd (List.cons.inj e).1 (by decide)
      | [_], e, _ =>
        left
        injection e with _ e
        injection e with _ e
        exact ⟨_, e.symm⟩
      | [_, _], e, _ =>
        injection e with _ e
        injection e with _ e
        injection e with e _
        exact absurd e (by decide)
      | d1 :: d2 :: d3 :: x, e, hx =>
        injection e with e1 e
        injection e with e2 e
        injection e with e3 e
        subst e1 e2 e3
        rw [bodyOk_quiet (by unfold Quiet; decide), bodyOk_cons] at hx
        split at hx
        · rw [bodyOk_quiet (by unfold Quiet; decide)] at hx; exact ih e hx
        · split at hx
          · simp at hx
          · rw [bodyOk_quiet (by unfold Quiet; decide)] at hx; exact ih e hx
    · cases x with
      | nil =>
        right
        have e := (List.cons.inj e).2
        exact ⟨b, text, _, _, by rw [← e]; simp, hb, h6⟩
      | cons d x =>
        have := (List.cons.inj e).1
        subst this
        simp [bodyOk_cons] at hx

/-- A string cannot reach into the rest of the statement and leave something behind that is again the rest of a statement. -/
theorem no_swallow : ∀ (k : Nat) {p x r n n' : Str} {l l' : List Str}, p.length ≤ k → Rest p n l → StringBody x → Rest r n' l' →
    p = x ++ c!"\"" :: r → False := by
  intro k
  induction k with
  | zero =>
    intro p x r n n' l l' hk _ _ _ e
    rw [e] at hk; simp at hk
  | succ k ih =>
    intro p x r n n' l l' hk hp hx hr e
    rcases first_quote hp e ((bodyOk_iff x).2 hx) with ⟨r', rfl⟩ | ⟨b, p', n2, l2, rfl, hb, hp'⟩
    · exact absurd (rest_first hr) (by unfold Sep Ws; decide)
    · refine ih ?_ hr hb hp' rfl
      rw [e] at hk; simp at hk ⊢; omega

/-- Where a quote lies in the rest of a statement, if what follows is again the rest of a statement: at the end of a string. -/
theorem quote_closes {t n : Str} {l : List Str} (h : Rest t n l) : ∀ {v p m : Str} {bs : List Str}, t = v ++ c!"\"" :: p →
    Rest p m bs →
    ∃ hd k as b, v = hd ++ c!"\"" :: b ∧ Head hd k as ∧ StringBody b ∧ n = k ++ m ∧ l = as ++ inQuotes b :: bs := by
  induction h with
  | done h1 h2 =>
    intro v p m bs e _
    exact absurd rfl (done_quiet h1 h2 c!"\"" (by rw [e]; simp)).1
  | @part w tok w' arg text name args h1 h2 h3 h4 h5 h6 ih =>
    intro v p m bs e₀ hp
    obtain ⟨v, rfl, e⟩ := skip_quiets (part_quiet h1 h3 h4) (x := arg ++ text) (by simpa using e₀)
    clear e₀
    have more : ∀ v', v = arg ++ v' → text = v' ++ c!"\"" :: p →
        ∃ hd k as b, (w ++ (tok ++ w')) ++ v = hd ++ c!"\"" :: b ∧ Head hd k as ∧ StringBody b ∧ tok ++ name = k ++ m ∧
          arg :: args = as ++ inQuotes b :: bs := by
      rintro v' rfl e
      obtain ⟨hd, k, as, b, rfl, q1, q2, rfl, rfl⟩ := ih e hp
      exact ⟨_, _, _, b, by simp, .part h1 h2 h3 h4 h5 q1, q2, by simp, rfl⟩
    rcases argument_cases arg h5 with ⟨hw, hn⟩ | ⟨y, rfl⟩ | ⟨b, rfl, hb⟩
    · obtain ⟨v', rfl, e1⟩ := skip_quiets (fun c hc => word_quiet (hw c hc)) e
      exact more v' rfl e1
    · match v, e, more with
      | [], e, _ => exact absurd (List.cons.inj e).1 (by decide)
      | [_], e, _ =>
        injection e with _ e
        injection e with _ e
        have e : c!"'" :: text = p := e
        subst e
        exact absurd (rest_first hp) (by unfold Sep Ws; decide)
      | [_, _], e, _ =>
        injection e with _ e
        injection e with _ e
        injection e with e _
        exact absurd e (by decide)
      | d1 :: d2 :: d3 :: v, e, more =>
        injection e with e1 e
        injection e with e2 e
        injection e with e3 e
        subst e1 e2 e3
        exact more v rfl e
    · cases v with
      | nil =>
        have e := (List.cons.inj e).2
        exact (no_swallow _ (Nat.le_refl _) hp hb h6 (by rw [← e]; simp)).elim
      | cons d v =>
        have e0 := (List.cons.inj e).1
        subst e0
        have e : b ++ c!"\"" :: text = v ++ c!"\"" :: p := by simpa using (List.cons.inj e).2
        rcases List.append_eq_append_iff.1 e with ⟨x, q1, q2⟩ | ⟨x, q1, q2⟩
        · cases x with
          | nil =>
            have e1 : v = b := by simpa using q1
            have e2 : p = text := by simpa using q2.symm
            subst e1 e2
            obtain ⟨rfl, rfl⟩ := rest_unique hp h6
            exact ⟨_, _, _, v, rfl, .last h1 h2 h3 h4, hb, rfl, rfl⟩
          | cons d x =>
            have := (List.cons.inj q2).1
            subst this
            exact more x (by rw [q1]; simp) (List.cons.inj q2).2
        · cases x with
          | nil =>
            have e1 : v = b := by simpa using q1.symm
            have e2 : p = text := by simpa using q2
            subst e1 e2
            obtain ⟨rfl, rfl⟩ := rest_unique hp h6
            exact ⟨_, _, _, v, rfl, .last h1 h2 h3 h4, hb, rfl, rfl⟩
          | cons d x =>
            have := (List.cons.inj q2).1
            subst this
            have hx : StringBody x := (bodyOk_iff x).1 (bodyOk_after (by rw [← q1]; exact (bodyOk_iff b).2 hb))
            exact (no_swallow _ (Nat.le_refl _) hp hx h6 (List.cons.inj q2).2).elim

/-- What a text `u` between quotes can do: it is the argument, or it closes the string and inserts further parts, the last of which has a string as
its argument. -/
theorem hole {hd k : Str} {as : List Str} (h : Head hd k as) : ∀ {u p m t n : Str} {bs l : List Str}, Rest p m bs → Rest t n l →
    t = hd ++ (inQuotes u ++ p) →
    (StringBody u ∧ n = k ++ m ∧ l = as ++ inQuotes u :: bs) ∨
    ∃ b hd' k' as' b', u = b ++ c!"\"" :: (hd' ++ c!"\"" :: b') ∧ StringBody b ∧ Head hd' k' as' ∧ StringBody b' ∧
      n = k ++ (k' ++ m) ∧ l = as ++ inQuotes b :: (as' ++ inQuotes b' :: bs) := by
  induction h with
  | @last w tok w' h1 h2 h3 h4 =>
    intro u p m t n bs l hp ht e₀
    simp only [List.append_assoc] at e₀
    cases ht with
    | done k1 => exact (done_not_part k1 h1 h3 e₀).elim
    | @part v tok' v' arg text name args k1 k2 k3 k4 k5 k6 =>
      obtain ⟨_, rfl, e⟩ := token_unique k1 h1 k3 h3 e₀
      clear e₀
      obtain ⟨y, z, rfl, hy, _⟩ := argument_head k5
      obtain ⟨_, e⟩ := spaces_unique (a := y) (b := c!"\"") (x := z ++ text) (y := u ++ c!"\"" :: p) k4 h4 hy (by unfold Ws; decide) (by simpa [inQuotes] using e)
      have e0 := (List.cons.inj e).1
      subst e0
      have e : z ++ text = u ++ c!"\"" :: p := (List.cons.inj e).2
      rcases argument_cases _ k5 with ⟨hw, -⟩ | ⟨y, e'⟩ | ⟨b, e', hb⟩
      · exact absurd rfl (word_quiet (hw c!"\"" (by simp))).1
      · exact absurd (List.cons.inj e').1 (by decide)
      · have := (List.cons.inj e').2
        subst this
        have e : b ++ c!"\"" :: text = u ++ c!"\"" :: p := by simpa using e
        rcases List.append_eq_append_iff.1 e with ⟨x, q1, q2⟩ | ⟨x, q1, q2⟩
        · cases x with
          | nil =>
            have e1 : u = b := by simpa using q1
            have e2 : p = text := by simpa using q2.symm
            subst e1 e2
            obtain ⟨rfl, rfl⟩ := rest_unique hp k6
            exact .inl ⟨hb, rfl, rfl⟩
          | cons d x =>
            have := (List.cons.inj q2).1
            subst this
            obtain ⟨hd, k, as, b', rfl, q3, q4, rfl, rfl⟩ := quote_closes k6 (List.cons.inj q2).2 hp
            exact .inr ⟨b, hd, k, as, b', q1, hb, q3, q4, rfl, rfl⟩
        · cases x with
          | nil =>
            have e1 : u = b := by simpa using q1.symm
            have e2 : p = text := by simpa using q2
            subst e1 e2
            obtain ⟨rfl, rfl⟩ := rest_unique hp k6
            exact .inl ⟨hb, rfl, rfl⟩
          | cons d x =>
            have := (List.cons.inj q2).1
            subst this
            have hx : StringBody x := (bodyOk_iff x).1 (bodyOk_after (by rw [← q1]; exact (bodyOk_iff b).2 hb))
            exact (no_swallow _ (Nat.le_refl _) hp hx k6 (List.cons.inj q2).2).elim
  | @part w tok w' arg text name args h1 h2 h3 h4 h5 h6 ih =>
    intro u p m t n bs l hp ht e₀
    simp only [List.append_assoc] at e₀
    cases ht with
    | done k1 => exact (done_not_part k1 h1 h3 e₀).elim
    | @part v tok' v' arg' text' name' args' k1 k2 k3 k4 k5 k6 =>
      obtain ⟨_, rfl, e⟩ := token_unique k1 h1 k3 h3 e₀
      clear e₀
      have hs : ∃ c r, text ++ (inQuotes u ++ p) = c :: r ∧ Sep c := by
        cases h6 with
        | @last w _ _ q1 q2 => cases w with
          | nil => exact absurd rfl q2
          | cons c w => exact ⟨c, _, rfl, .inl (q1 c (by simp))⟩
        | @part w _ _ _ _ _ _ q1 q2 => cases w with
          | nil => exact absurd rfl q2
          | cons c w => exact ⟨c, _, rfl, .inl (q1 c (by simp))⟩
      obtain ⟨_, rfl, e1⟩ := argument_unique k4 h4 k5 h5 (rest_sep k6) hs e
      rcases ih hp k6 e1 with ⟨q1, rfl, rfl⟩ | ⟨b, hd', k', as', b', q1, q2, q3, q4, rfl, rfl⟩
      · exact .inl ⟨q1, by simp, rfl⟩
      · exact .inr ⟨b, hd', k', as', b', q1, q2, q3, q4, by simp, rfl⟩

theorem string_argument {b : Str} (h : StringBody b) : Argument (inQuotes b) := .inl (.inr (.inr (.inr (.inr ⟨b, rfl, h⟩))))

/-- Filling the hole. -/
theorem fill_hole {hd k : Str} {as : List Str} (h : Head hd k as) {x p m : Str} {bs : List Str} (hx : Argument x) (hp : Rest p m bs) :
    Rest (hd ++ (x ++ p)) (k ++ m) (as ++ x :: bs) := by
  induction h with
  | last h1 h2 h3 h4 => simpa using Rest.part h1 h2 h3 h4 hx hp
  | part h1 h2 h3 h4 h5 _ ih => simpa using Rest.part h1 h2 h3 h4 h5 ih

theorem keyword_rest {t n : Str} {l : List Str} (h : KeywordMessage t n l) : ∀ {w w₃ w₄ : Str}, Spaces w → w ≠ [] → Spaces w₃ → Spaces w₄ →
    Rest (w ++ (t ++ (w₃ ++ c!";" :: w₄))) n l := by
  induction h with
  | one h1 h2 h3 =>
    intro w w₃ w₄ q1 q2 q3 q4
    simpa using Rest.part q1 q2 h1 h2 h3 (.done q3 q4)
  | more h1 h2 h3 h4 h5 _ ih =>
    intro w w₃ w₄ q1 q2 q3 q4
    have := ih (w := _ :: _) (fun x hx => by
      rcases List.mem_cons.1 hx with rfl | hx
      · exact h4
      · exact h5 x hx) (by simp) q3 q4
    simpa using Rest.part q1 q2 h1 h2 h3 this

theorem rest_keyword {t n : Str} {l : List Str} (h : Rest t n l) : l ≠ [] → ∃ w msg w₃ w₄, t = w ++ (msg ++ (w₃ ++ c!";" :: w₄)) ∧ Spaces w ∧
    w ≠ [] ∧ KeywordMessage msg n l ∧ Spaces w₃ ∧ Spaces w₄ := by
  induction h with
  | done => intro h; exact absurd rfl h
  | @part w tok w' arg text name args h1 h2 h3 h4 h5 h6 ih =>
    intro _
    cases h6 with
    | @done v v' q1 q2 =>
      exact ⟨w, tok ++ (w' ++ arg), v, v', by simp, h1, h2, by simpa using KeywordMessage.one h3 h4 h5, q1, q2⟩
    | part q1 q2 q3 q4 q5 q6 =>
      obtain ⟨v, msg, w₃, w₄, e, r1, r2, r3, r4, r5⟩ := ih (by simp)
      cases v with
      | nil => exact absurd rfl r2
      | cons c v =>
        have hv : Spaces v := fun x hx => r1 x (List.mem_cons_of_mem _ hx)
        refine ⟨w, _, w₃, w₄, ?_, h1, h2, .more h3 h4 h5 (r1 c (by simp)) hv r3, r4, r5⟩
        simp only [List.append_assoc, List.cons_append] at e ⊢
        rw [e]

theorem statement_rest {text a n : Str} {l : List Str} (h : Statement text a n l) (hl : l ≠ []) :
    ∃ w R, text = w ++ (a ++ R) ∧ Spaces w ∧ Actor a ∧ Rest R n l := by
  obtain ⟨w₁, c, w₂, msg, w₃, w₄, rfl, h1, h2, h3, h4, h5, h6, h7⟩ := h
  rcases h5 with ⟨_, _, rfl⟩ | h5
  · exact absurd rfl hl
  · refine ⟨w₁, _, rfl, h1, h2, ?_⟩
    have := keyword_rest h5 (w := c :: w₂) (fun x hx => by
      rcases List.mem_cons.1 hx with rfl | hx
      · exact h3
      · exact h4 x hx) (by simp) h6 h7
    simpa using this

theorem rest_statement {w a R n : Str} {l : List Str} (hw : Spaces w) (ha : Actor a) (hR : Rest R n l) (hl : l ≠ []) :
    Statement (w ++ (a ++ R)) a n l := by
  obtain ⟨v, msg, w₃, w₄, rfl, h1, h2, h3, h4, h5⟩ := rest_keyword hR hl
  cases v with
  | nil => exact absurd rfl h2
  | cons c v =>
    exact ⟨w, c, v, msg, w₃, w₄, by simp, hw, ha, h1 c (by simp), fun x hx => h1 x (by simp [hx]), .inr h3, h4, h5⟩

/-- A statement made by putting a text between the quotes of a template. -/
theorem template_statement {pre post a n m u a' n' : Str} {as bs l' : List Str} (ht : Template pre post a n as m bs)
    (h : Statement (pre ++ (inQuotes u ++ post)) a' n' l') :
    a' = a ∧ ((StringBody u ∧ n' = n ++ m ∧ l' = as ++ inQuotes u :: bs) ∨
      ∃ b hd k xs b', u = b ++ c!"\"" :: (hd ++ c!"\"" :: b') ∧ StringBody b ∧ Head hd k xs ∧ StringBody b' ∧
        n' = n ++ (k ++ m) ∧ l' = as ++ inQuotes b :: (xs ++ inQuotes b' :: bs)) := by
  obtain ⟨w, hd, rfl, hw, ha, hh, hp⟩ := ht
  obtain ⟨w₁, c, w₂, msg, w₃, w₄, e, h1, h2, h3, h4, h5, h6, h7⟩ := h
  obtain ⟨d, R, eR, hd'⟩ : ∃ d R, hd = d :: R ∧ Ws d := by
    cases hh with
    | @last w _ _ q1 q2 => cases w with
      | nil => exact absurd rfl q2
      | cons c w => exact ⟨c, _, rfl, q1 c (by simp)⟩
    | @part w _ _ _ _ _ _ q1 q2 => cases w with
      | nil => exact absurd rfl q2
      | cons c w => exact ⟨c, _, rfl, q1 c (by simp)⟩
  obtain ⟨b, x, ea, hb⟩ := noLead_cons (actor_noLead a ha) (actor_ne_nil a ha)
  obtain ⟨b', x', ea', hb'⟩ := noLead_cons (actor_noLead a' h2) (actor_ne_nil a' h2)
  have e1 : w ++ b :: (x ++ (d :: R ++ (inQuotes u ++ post))) = w₁ ++ b' :: (x' ++ c :: (w₂ ++ (msg ++ (w₃ ++ c!";" :: w₄)))) := by
    rw [ea, ea', eR] at e; simpa using e
  obtain ⟨_, e2⟩ := spaces_unique hw h1 hb hb' e1
  have e3 : a ++ d :: (R ++ (inQuotes u ++ post)) = a' ++ c :: (w₂ ++ (msg ++ (w₃ ++ c!";" :: w₄))) := by
    rw [ea, ea']; simpa using e2
  have e4 : a' = a ∧ d :: (R ++ (inQuotes u ++ post)) = c :: (w₂ ++ (msg ++ (w₃ ++ c!";" :: w₄))) := by
    rcases List.append_eq_append_iff.1 e3 with ⟨y, f1, f2⟩ | ⟨y, f1, f2⟩
    · cases y with
      | nil => exact ⟨by simpa using f1, f2⟩
      | cons g y =>
        obtain ⟨rfl, _⟩ := List.cons.inj f2
        exact absurd ha (actor_split a d y (f1 ▸ h2) hd')
    · cases y with
      | nil => exact ⟨by simpa using f1.symm, f2.symm⟩
      | cons g y =>
        obtain ⟨rfl, _⟩ := List.cons.inj f2
        exact absurd h2 (actor_split a' c y (f1 ▸ ha) h3)
  refine ⟨e4.1, ?_⟩
  have hs : Spaces (c :: w₂) := fun x hx => by
    rcases List.mem_cons.1 hx with rfl | hx
    · exact h3
    · exact h4 x hx
  have e5 : (c :: w₂) ++ (msg ++ (w₃ ++ c!";" :: w₄)) = hd ++ (inQuotes u ++ post) := by rw [eR]; simpa using e4.2.symm
  rcases h5 with ⟨hu, _⟩ | h5
  · exfalso
    have hm : ∀ x ∈ msg, Quiet x := by
      intro x hx
      rcases hu with hu | ⟨i, rfl, hu⟩
      · exact word_quiet (ident_word msg hu x hx)
      · rcases List.mem_append.1 hx with hx | hx
        · exact word_quiet (ident_word i hu x hx)
        · rw [List.mem_singleton.1 hx]; unfold Quiet; decide
    have hq : c!"\"" ∈ (c :: w₂) ++ (msg ++ (w₃ ++ c!";" :: w₄)) := by rw [e5]; simp [inQuotes]
    rcases List.mem_append.1 hq with hq | hq
    · exact (spaces_quiet hs _ hq).1 rfl
    · rcases List.mem_append.1 hq with hq | hq
      · exact (hm _ hq).1 rfl
      · exact (done_quiet h6 h7 _ hq).1 rfl
  · exact hole hh hp (keyword_rest h5 hs (by simp) h6 h7) e5

theorem withBackslashes_body (u : Str) : StringBody (withBackslashes u) := by
  induction u with
  | nil => exact .nil
  | cons c u ih =>
    unfold withBackslashes
    split
    · exact .escaped ih
    · rename_i h
      exact .plain (fun e => h (.inl e)) (fun e => h (.inr e)) ih

/-! ### Marks -/

/-- A colon or a question mark: the end of a token. -/
def isMark (c : Byte) : Bool := c == c!":" || c == c!"?"

/-- The number of tokens in the name of a message. -/
def marks (s : Str) : Nat := s.countP isMark

theorem marks_append (s t : Str) : marks (s ++ t) = marks s + marks t := List.countP_append

theorem token_marks {t : Str} (h : Token t) : marks t = 1 := by
  obtain ⟨i, hi, h⟩ := h
  have h0 : marks i = 0 := by
    refine List.countP_eq_zero.2 fun c hc => ?_
    have := ident_no_colon i hi
    simp only [isMark, Bool.or_eq_true, beq_iff_eq, not_or]
    exact ⟨fun e => this.1 (e ▸ hc), fun e => this.2 (e ▸ hc)⟩
  rcases h with rfl | rfl <;> rw [marks_append, h0] <;> rfl

theorem rest_marks {t n : Str} {l : List Str} (h : Rest t n l) : marks n = l.length := by
  induction h with
  | done => rfl
  | part _ _ h3 _ _ _ ih => rw [marks_append, token_marks h3, ih, List.length_cons]; omega

theorem head_marks {t n : Str} {l : List Str} (h : Head t n l) : marks n = l.length + 1 := by
  induction h with
  | last _ _ h3 _ => rw [token_marks h3]; rfl
  | part _ _ h3 _ _ _ ih => rw [marks_append, token_marks h3, ih, List.length_cons]; omega

theorem head_last {t n : Str} {l : List Str} (h : Head t n l) : ∃ i c, n = i ++ [c] ∧ isMark c = true := by
  have tok : ∀ {t : Str}, Token t → ∃ i c, t = i ++ [c] ∧ isMark c = true := by
    rintro t ⟨i, _, rfl | rfl⟩
    · exact ⟨i, _, rfl, rfl⟩
    · exact ⟨i, _, rfl, rfl⟩
  induction h with
  | last _ _ h3 _ => exact tok h3
  | @part _ tk _ _ _ _ _ _ _ _ _ _ _ ih =>
    obtain ⟨i, c, rfl, hc⟩ := ih
    exact ⟨tk ++ i, c, by simp, hc⟩

end Knuckle

/-
The recognizers of literals agree with the documented grammar.
-/
import Verif.Model.Grammar
import Verif.Proofs.Strings
import Mathlib.Tactic.Tauto
import Mathlib.Tactic.ByContra

namespace Knuckle

open Spec

theorem isBooleanValue_iff (s : Str) : isBooleanValue s = true ↔ BooleanValue s := by
  simp [isBooleanValue, BooleanValue]

theorem isCharacterValue_iff (s : Str) : isCharacterValue s = true ↔ CharacterValue s := by
  unfold isCharacterValue CharacterValue
  constructor
  · intro h
    split at h
    · cases h
    · rename_i h3
      match s, h3, h with
      | [a, b, c], _, h => simp at h; exact ⟨b, by simp [h]⟩
      | [], h3, _ => simp at h3
      | [_], h3, _ => simp at h3
      | [_, _], h3, _ => simp at h3
      | _ :: _ :: _ :: _ :: _, h3, _ => simp at h3
  · rintro ⟨c, rfl⟩
    simp

theorem isIntegerValue_iff (s : Str) : isIntegerValue s = true ↔ IntegerValue s := by
  cases s with
  | nil =>
    simp only [isIntegerValue, Bool.false_eq_true, false_iff]
    rintro ⟨sg, ds, h, -, hne, -⟩
    simp at h
    exact hne h.2
  | cons c cs =>
    have hany : cs.any (fun d => !isNumeric d) = false ↔ Digits cs := by
      simp [List.any_eq_false, Digits, isNumeric_iff]
    constructor
    · intro h
      simp only [isIntegerValue] at h
      split at h
      · cases h
      · rename_i h1
        split at h
        · cases h
        · rename_i h2
          have hd : Digits cs := hany.1 (by simpa using h2)
          by_cases hc : isNumeric c = true
          · refine ⟨[], c :: cs, rfl, .inl rfl, by simp, ?_⟩
            intro d hd'
            rcases List.mem_cons.1 hd' with rfl | h'
            · exact (isNumeric_iff _).1 hc
            · exact hd d h'
          · have hcs : cs ≠ [] := by rintro rfl; simp [hc] at h
            have hcc : c = c!"+" ∨ c = c!"-" := by simp [hc] at h1; tauto
            refine ⟨[c], cs, rfl, ?_, hcs, hd⟩
            rcases hcc with rfl | rfl
            · exact .inr (.inl rfl)
            · exact .inr (.inr rfl)
    · rintro ⟨sg, ds, h, hs, hne, hd⟩
      have key : ∀ (c : Byte) (cs : Str), (isNumeric c = true ∨ ((c = c!"+" ∨ c = c!"-") ∧ cs ≠ [])) → Digits cs →
          isIntegerValue (c :: cs) = true := by
        intro c cs hc hcs
        have h2 : cs.any (fun d => !isNumeric d) = false := by
          simp [List.any_eq_false, isNumeric_iff]; exact hcs
        unfold isIntegerValue
        simp only [h2]
        rcases hc with hc | ⟨hc, hne⟩
        · simp [hc]
        · have : 0 < cs.length := List.length_pos_iff.2 hne
          rcases hc with rfl | rfl <;> simp [this]
      rcases hs with rfl | rfl | rfl
      · simp at h; subst h
        exact key c cs (.inl ((isNumeric_iff c).2 (hd c (by simp)))) fun d hd' => hd d (by simp [hd'])
      · simp at h; obtain ⟨rfl, rfl⟩ := h
        exact key _ _ (.inr ⟨.inl rfl, hne⟩) hd
      · simp at h; obtain ⟨rfl, rfl⟩ := h
        exact key _ _ (.inr ⟨.inr rfl, hne⟩) hd

/-! ### Floats -/

/-- What `floatLoop` accepts, given what has been seen: `cp` points and `cn` digits. -/
def FloatTail (s : Str) (cp cn : Nat) : Prop :=
  ∃ m e, s = m ++ e ∧ (∀ c ∈ m, Digit c ∨ c = c!".") ∧ cp + m.count c!"." ≤ 1 ∧
    0 < cn + (m.length - m.count c!".") ∧ (e = [] ∨ ∃ x, e = c!"e" :: x ∧ IntegerValue x)

theorem not_digit_dot : ¬ Digit c!"." := by unfold Digit; decide
theorem not_digit_e : ¬ Digit c!"e" := by unfold Digit; decide

theorem floatTail_cons (c : Byte) (cs : Str) (cp cn : Nat) (h : Digit c ∨ c = c!".") :
    FloatTail (c :: cs) cp cn ↔ FloatTail cs (if c = c!"." then cp + 1 else cp) (if c = c!"." then cn else cn + 1) := by
  have hne : c ≠ c!"e" := by
    rintro rfl
    rcases h with h | h
    · exact not_digit_e h
    · exact absurd h (by decide)
  constructor
  · rintro ⟨m, e, hs, hm, h1, h2, h3⟩
    cases m with
    | nil =>
      simp at hs
      rcases h3 with rfl | ⟨x, rfl, -⟩
      · cases hs
      · injection hs with hs; exact absurd hs hne
    | cons d m =>
      injection hs with hd hs
      subst hd
      refine ⟨m, e, hs, fun d hd => hm d (by simp [hd]), ?_, ?_, h3⟩
      · have := h1
        rw [List.count_cons] at this
        by_cases hc : c = c!"."
        · simp [hc] at this ⊢; omega
        · simp [hc] at this ⊢; omega
      · have hle := List.count_le_length (a := c!".") (l := m)
        rw [List.count_cons] at h2
        by_cases hc : c = c!"."
        · simp [hc] at h2 ⊢; omega
        · simp [hc] at h2 ⊢; omega
  · rintro ⟨m, e, hs, hm, h1, h2, h3⟩
    refine ⟨c :: m, e, by rw [hs]; rfl, ?_, ?_, ?_, h3⟩
    · intro d hd
      rcases List.mem_cons.1 hd with rfl | hd
      · exact h
      · exact hm d hd
    · rw [List.count_cons]
      by_cases hc : c = c!"."
      · simp [hc] at h1 ⊢; omega
      · simp [hc] at h1 ⊢; omega
    · have hle := List.count_le_length (a := c!".") (l := m)
      rw [List.count_cons]
      by_cases hc : c = c!"."
      · simp [hc] at h2 ⊢; omega
      · simp [hc] at h2 ⊢; omega

theorem floatLoop_iff (s : Str) : ∀ cp cn, floatLoop s cp cn = true ↔ FloatTail s cp cn := by
  induction s with
  | nil =>
    intro cp cn
    simp only [floatLoop, Bool.and_eq_true, decide_eq_true_eq, FloatTail]
    constructor
    · intro h
      exact ⟨[], [], rfl, by simp, by simpa using h.1, by simpa using h.2, .inl rfl⟩
    · rintro ⟨m, e, hs, -, h1, h2, -⟩
      have hs := (List.append_eq_nil_iff.1 hs.symm).1
      subst hs
      simpa using ⟨h1, h2⟩
  | cons c cs ih =>
    intro cp cn
    unfold floatLoop
    by_cases hc : Digit c ∨ c = c!"."
    · have h1 : (!isNumeric c && c != c!".") = false := by
        rcases hc with h | h
        · simp [(isNumeric_iff c).2 h]
        · simp [h]
      have h2 : (if isNumeric c = true then cn + 1 else cn) = if c = c!"." then cn else cn + 1 := by
        by_cases hd : c = c!"."
        · have : isNumeric c = false := by rw [hd]; decide
          simp [hd] at this ⊢; simp [this]
        · have := (isNumeric_iff c).2 (hc.resolve_right hd)
          simp [hd, this]
      simp only [h1, Bool.false_eq_true, if_false, ih, floatTail_cons c cs cp cn hc, h2, beq_iff_eq]
    · have h1 : (!isNumeric c && c != c!".") = true := by
        have : isNumeric c = false := by
          by_contra h; exact hc (.inl ((isNumeric_iff c).1 (by simpa using h)))
        have h2 : c ≠ c!"." := fun h => hc (.inr h)
        simp [this, h2]
      simp only [h1, if_true]
      have key : ∀ m e, c :: cs = m ++ e → (∀ d ∈ m, Digit d ∨ d = c!".") → m = [] := by
        intro m e hs hm
        cases m with
        | nil => rfl
        | cons d m =>
          injection hs with h _
          subst h
          exact absurd (hm c (by simp)) hc
      by_cases he : c = c!"e"
      · subst he
        simp only [bne_self_eq_false, Bool.false_eq_true, if_false, Bool.and_eq_true, decide_eq_true_eq,
          isIntegerValue_iff]
        constructor
        · rintro ⟨⟨h1, h2⟩, h3⟩
          exact ⟨[], c!"e" :: cs, rfl, by simp, by simpa using h1, by simpa using h2, .inr ⟨cs, rfl, h3⟩⟩
        · rintro ⟨m, e, hs, hm, h1, h2, h3⟩
          have := key m e hs hm
          subst this
          refine ⟨⟨by simpa using h1, by simpa using h2⟩, ?_⟩
          rcases h3 with rfl | ⟨x, rfl, hx⟩
          · cases hs
          · injection hs with _ hs; rw [hs]; exact hx
      · have h2 : (c != c!"e") = true := by simpa using he
        simp only [h2, if_true, Bool.false_eq_true, false_iff]
        rintro ⟨m, e, hs, hm, -, -, h3⟩
        have := key m e hs hm
        subst this
        rcases h3 with rfl | ⟨x, rfl, -⟩
        · cases hs
        · injection hs with hs _; exact he hs

theorem digits_count_dot (s : Str) (h : Digits s) : s.count c!"." = 0 := by
  rw [List.count_eq_zero]
  intro hm
  exact not_digit_dot (h _ hm)

theorem mantissa_iff (m : Str) : Mantissa m ↔
    (∀ c ∈ m, Digit c ∨ c = c!".") ∧ m.count c!"." ≤ 1 ∧ 0 < m.length - m.count c!"." := by
  constructor
  · rintro (⟨hne, hd⟩ | ⟨a, b, rfl, ha, hb, hne⟩)
    · refine ⟨fun c hc => .inl (hd c hc), ?_, ?_⟩
      · simp [digits_count_dot m hd]
      · simp [digits_count_dot m hd, List.length_pos_iff, hne]
    · refine ⟨?_, ?_, ?_⟩
      · intro c hc
        rcases List.mem_append.1 hc with hc | hc
        · exact .inl (ha c hc)
        · rcases List.mem_cons.1 hc with rfl | hc
          · exact .inr rfl
          · exact .inl (hb c hc)
      · simp [List.count_append, digits_count_dot a ha, digits_count_dot b hb]
      · simp [List.count_append, digits_count_dot a ha, digits_count_dot b hb]
        rcases hne with h | h
        · have := List.length_pos_iff.2 h; omega
        · have := List.length_pos_iff.2 h; omega
  · rintro ⟨hm, h1, h2⟩
    by_cases hc : c!"." ∈ m
    · obtain ⟨a, b, rfl⟩ := List.append_of_mem hc
      simp only [List.count_append, List.count_cons, beq_self_eq_true, if_true] at h1 h2
      have ha : a.count c!"." = 0 := by omega
      have hb : b.count c!"." = 0 := by omega
      rw [List.count_eq_zero] at ha hb
      refine .inr ⟨a, b, rfl, ?_, ?_, ?_⟩
      · intro d hd
        rcases hm d (by simp [hd]) with h | h
        · exact h
        · subst h; exact absurd hd ha
      · intro d hd
        rcases hm d (by simp [hd]) with h | h
        · exact h
        · subst h; exact absurd hd hb
      · by_contra hcon
        have : a = [] ∧ b = [] := by
          constructor
          · by_contra h; exact hcon (.inl h)
          · by_contra h; exact hcon (.inr h)
        obtain ⟨rfl, rfl⟩ := this
        simp at h2
    · refine .inl ⟨?_, ?_⟩
      · rintro rfl; simp at h2
      · intro d hd
        rcases hm d hd with h | h
        · exact h
        · subst h; exact absurd hd hc

theorem isFloatValue_iff (s : Str) : isFloatValue s = true ↔ FloatValue s := by
  have tail : ∀ s, FloatTail s 0 0 ↔ ∃ m e, s = m ++ e ∧ Mantissa m ∧ (e = [] ∨ ∃ x, e = c!"e" :: x ∧ IntegerValue x) := by
    intro s
    constructor
    · rintro ⟨m, e, h, h1, h2, h3, h4⟩
      exact ⟨m, e, h, (mantissa_iff m).2 ⟨h1, by omega, by omega⟩, h4⟩
    · rintro ⟨m, e, h, hm, h4⟩
      obtain ⟨h1, h2, h3⟩ := (mantissa_iff m).1 hm
      exact ⟨m, e, h, h1, by omega, by omega, h4⟩
  have hm_ne : ∀ m e : Str, Mantissa m → m ++ e ≠ [] := by
    intro m e hm h
    have := (List.append_eq_nil_iff.1 h).1
    subst this
    rcases hm with ⟨h, -⟩ | ⟨a, b, h, -⟩
    · exact h rfl
    · simp at h
  have hm_sign : ∀ (c : Byte) (cs m e : Str), Mantissa m → c :: cs = m ++ e → c ≠ c!"+" ∧ c ≠ c!"-" := by
    intro c cs m e hm h
    obtain ⟨h1, -, h3⟩ := (mantissa_iff m).1 hm
    cases m with
    | nil => simp at h3
    | cons d m =>
      injection h with h _
      subst h
      rcases h1 c (by simp) with hd | rfl
      · constructor <;> (rintro rfl; exact absurd hd (by unfold Digit; decide))
      · constructor <;> decide
  cases s with
  | nil =>
    simp only [isFloatValue, Bool.false_eq_true, false_iff]
    rintro ⟨sg, m, e, h, -, hm, -⟩
    exact hm_ne m e hm (List.append_eq_nil_iff.1 h.symm).2
  | cons c cs =>
    unfold isFloatValue
    by_cases hc : c = c!"+" ∨ c = c!"-"
    · have h1 : (c == c!"+" || c == c!"-") = true := by simpa using hc
      simp only [h1, if_true, floatLoop_iff, tail]
      constructor
      · rintro ⟨m, e, h, hm, he⟩
        exact ⟨[c], m, e, by rw [h]; rfl, by rcases hc with rfl | rfl; exacts [.inr (.inl rfl), .inr (.inr rfl)], hm, he⟩
      · rintro ⟨sg, m, e, h, hs, hm, he⟩
        rcases hs with rfl | rfl | rfl
        · have := hm_sign c cs m e hm h
          tauto
        · injection h with _ h; exact ⟨m, e, h, hm, he⟩
        · injection h with _ h; exact ⟨m, e, h, hm, he⟩
    · have h1 : (c == c!"+" || c == c!"-") = false := by
        rw [Bool.eq_false_iff]; intro h; exact hc (by simpa using h)
      simp only [h1, Bool.false_eq_true, if_false, floatLoop_iff, tail]
      constructor
      · rintro ⟨m, e, h, hm, he⟩
        exact ⟨[], m, e, h, .inl rfl, hm, he⟩
      · rintro ⟨sg, m, e, h, hs, hm, he⟩
        rcases hs with rfl | rfl | rfl
        · exact ⟨m, e, h, hm, he⟩
        · injection h with h _; exact absurd (.inl h) hc
        · injection h with h _; exact absurd (.inr h) hc

/-! ### Strings -/

/-- Number of backslashes at the end of a text. -/
def trail : Str → Nat := fun s => (s.reverse.takeWhile (· == c!"\\")).length

theorem trail_append_bs (s : Str) : trail (s ++ [c!"\\"]) = trail s + 1 := by simp [trail]

theorem trail_append_other (s : Str) (c : Byte) (h : c ≠ c!"\\") : trail (s ++ [c]) = 0 := by simp [trail, h]

/-- Automaton for the body of a string literal; the flag is the parity of the backslashes just read. -/
def bodyOk : Bool → Str → Bool
  | odd, [] => !odd
  | odd, c :: cs =>
    if c == c!"\\" then bodyOk (!odd) cs else if c == c!"\"" then odd && bodyOk false cs else bodyOk false cs

theorem bodyOk_nil (odd : Bool) : bodyOk odd [] = !odd := rfl

theorem bodyOk_cons (odd : Bool) (c : Byte) (cs : Str) : bodyOk odd (c :: cs) =
    if c == c!"\\" then bodyOk (!odd) cs else if c == c!"\"" then odd && bodyOk false cs else bodyOk false cs := rfl

theorem bodyOk_true_cons (c : Byte) (s : Str) : bodyOk true (c :: s) = bodyOk false s := by
  rw [bodyOk_cons]; split
  · rfl
  · split <;> simp

theorem bodyOk_iff (s : Str) : bodyOk false s = true ↔ StringBody s := by
  constructor
  · intro h
    induction hn : s.length using Nat.strongRecOn generalizing s with
    | _ n ih =>
      match s with
      | [] => exact .nil
      | [c] =>
        by_cases hc : c = c!"\\"
        · subst hc; simp [bodyOk] at h
        · by_cases hq : c = c!"\""
          · subst hq; simp [bodyOk] at h
          · exact .plain hq hc .nil
      | c :: d :: s =>
        by_cases hc : c = c!"\\"
        · subst hc
          have h' : bodyOk true (d :: s) = true := by simpa [bodyOk] using h
          rw [bodyOk_true_cons] at h'
          refine .escaped (ih s.length ?_ s h' rfl)
          simp at hn; omega
        · by_cases hq : c = c!"\""
          · subst hq; simp [bodyOk] at h
          · have h' : bodyOk false (d :: s) = true := by
              rw [bodyOk_cons] at h; simpa [hc, hq] using h
            refine .plain hq hc (ih (d :: s).length ?_ (d :: s) h' rfl)
            simp at hn ⊢; omega
  · intro h
    induction h with
    | nil => rfl
    | plain h1 h2 _ ih => rw [bodyOk_cons]; simpa [h1, h2] using ih
    | escaped _ ih =>
      rw [bodyOk_cons]
      simp only [beq_self_eq_true, if_true, Bool.not_false, bodyOk_true_cons]
      exact ih

theorem bodyOk_quote (s x : Str) : ∀ odd, bodyOk odd s = true → bodyOk odd (s ++ c!"\"" :: x) = false := by
  induction s with
  | nil =>
    intro odd h
    have : odd = false := by simpa [bodyOk] using h
    subst this
    simp [bodyOk]
  | cons c cs ih =>
    intro odd h
    rw [bodyOk_cons] at h
    rw [List.cons_append]
    rw [bodyOk_cons]
    split
    · rename_i hc; simp [hc] at h; exact ih _ h
    · rename_i hc
      split
      · rename_i hq; simp [hc, hq] at h; simp [h.1, ih _ h.2]
      · rename_i hq; simp [hc, hq] at h; exact ih _ h

/-- The parity description of the body of a string literal. -/
def BodyParity (pre s : Str) : Prop :=
  (∀ i, s[i]? = some c!"\"" → trail (pre ++ s.take i) % 2 = 1) ∧ trail (pre ++ s) % 2 = 0

theorem bodyOk_parity (s : Str) : ∀ pre, bodyOk (decide (trail pre % 2 = 1)) s = true ↔ BodyParity pre s := by
  induction s with
  | nil =>
    intro pre
    simp only [bodyOk, BodyParity, List.append_nil, List.getElem?_nil]
    simp
  | cons c cs ih =>
    intro pre
    have hpre : ∀ i, pre ++ (c :: cs).take (i + 1) = (pre ++ [c]) ++ cs.take i := by intro i; simp
    have hall : pre ++ c :: cs = (pre ++ [c]) ++ cs := by simp
    have hsplit : BodyParity pre (c :: cs) ↔ (c = c!"\"" → trail pre % 2 = 1) ∧ BodyParity (pre ++ [c]) cs := by
      unfold BodyParity
      rw [hall]
      constructor
      · rintro ⟨h1, h2⟩
        refine ⟨fun hc => ?_, fun i hi => ?_, h2⟩
        · have := h1 0 (by simp [hc]); simpa using this
        · have := h1 (i + 1) (by simpa using hi); rwa [hpre] at this
      · rintro ⟨h0, h1, h2⟩
        refine ⟨fun i hi => ?_, h2⟩
        cases i with
        | zero => have := h0 (by simpa using hi); simpa using this
        | succ i => rw [hpre]; exact h1 i (by simpa using hi)
    rw [hsplit, ← ih]
    rw [bodyOk_cons]
    by_cases hc : c = c!"\\"
    · subst hc
      have hq : c!"\\" ≠ c!"\"" := by decide
      rw [trail_append_bs]
      have : (!decide (trail pre % 2 = 1)) = decide ((trail pre + 1) % 2 = 1) := by
        rw [Bool.eq_iff_iff]; simp; omega
      simp [this]
    · rw [trail_append_other pre c hc]
      by_cases hq : c = c!"\""
      · subst hq; simp
      · simp [hc, hq]

theorem scanBack_eq (s : Str) : ∀ d, scanBack s d =
    if s.all (· == c!"\\") then none else some (d + (s.takeWhile (· == c!"\\")).length) := by
  induction s with
  | nil => intro d; simp [scanBack]
  | cons c cs ih =>
    intro d
    unfold scanBack
    by_cases hc : c = c!"\\"
    · subst hc
      simp only [bne_self_eq_false, Bool.false_eq_true, if_false, ih, List.all_cons, beq_self_eq_true, Bool.true_and,
        List.takeWhile_cons_of_pos, List.length_cons]
      split <;> simp; omega
    · have h2 : (c == c!"\\") = false := by simpa using hc
      simp [hc]

theorem takeWhile_of_all (s : Str) (h : s.all (· == c!"\\") = true) : s.takeWhile (· == c!"\\") = s := by
  induction s with
  | nil => rfl
  | cons c cs ih =>
    simp at h
    simp [h.1]
    exact ih (by simpa using h.2)

/-- Reading a string literal in the form quote, body, quote. -/
theorem isStringValue_quote (b : Str) : isStringValue (c!"\"" :: (b ++ [c!"\""])) = true ↔ BodyParity [] b := by
  have hlen : (c!"\"" :: (b ++ [c!"\""])).length = b.length + 2 := by simp
  unfold isStringValue
  have h1 : ¬ ((c!"\"" :: (b ++ [c!"\""])).length < 2) := by omega
  have h2 : ((c!"\"" :: (b ++ [c!"\""])).getD 0 0 != c!"\"" ||
      (c!"\"" :: (b ++ [c!"\""])).getD ((c!"\"" :: (b ++ [c!"\""])).length - 1) 0 != c!"\"") = false := by
    simp [List.getD]
  simp only [h1, if_false, h2, Bool.false_eq_true]
  have e1 : ((c!"\"" :: (b ++ [c!"\""])).take ((c!"\"" :: (b ++ [c!"\""])).length - 1)).drop 1 = b := by
    simp
  rw [e1]
  have inner : ((List.range' 1 ((c!"\"" :: (b ++ [c!"\""])).length - 2)).all fun i =>
      if (c!"\"" :: (b ++ [c!"\""])).getD i 0 == c!"\"" then
        quoteOk (scanBack ((c!"\"" :: (b ++ [c!"\""])).take i).reverse 1) else true) = true ↔ ∀ i, b[i]? = some c!"\"" → trail (b.take i) % 2 = 1 := by
    rw [List.all_eq_true]
    have scan : ∀ i, i ≤ b.length → scanBack ((c!"\"" :: (b ++ [c!"\""])).take (i + 1)).reverse 1 =
        some (1 + trail (b.take i)) := by
      intro i hi
      have : (c!"\"" :: (b ++ [c!"\""])).take (i + 1) = c!"\"" :: b.take i := by
        simp [List.take_append_of_le_length hi]
      rw [this, scanBack_eq]
      have hnall : ((c!"\"" :: b.take i).reverse.all (· == c!"\\")) = false := by
        simp
      rw [hnall]
      simp only [Bool.false_eq_true, if_false, List.reverse_cons, trail]
      congr 2
      rw [List.takeWhile_append]
      split
      · rename_i h; simp [h]
      · rfl
    constructor
    · intro H i hi
      have hil : i < b.length := by
        rw [List.getElem?_eq_some_iff] at hi; exact hi.1
      have := H (i + 1) (by rw [List.mem_range']; exact ⟨i, by omega, by omega⟩)
      have hg : (c!"\"" :: (b ++ [c!"\""])).getD (i + 1) 0 = c!"\"" := by
        simp [List.getD, List.getElem?_append_left hil, hi]
      rw [hg, scan i (by omega)] at this
      simp [quoteOk] at this
      omega
    · intro H i hi
      rw [List.mem_range'] at hi
      obtain ⟨j, hj, rfl⟩ := hi
      have hjb : j < b.length := by omega
      have e : 1 + 1 * j = j + 1 := by omega
      rw [e, scan j (by omega)]
      split
      · rename_i hg
        have : b[j]? = some c!"\"" := by
          simpa [List.getD, List.getElem?_append_left hjb, hjb] using hg
        have := H j this
        simp [quoteOk]; omega
      · rfl
  have outer : endOk (c!"\"" :: (b ++ [c!"\""])).length (scanBack b.reverse 1) = true ↔ trail b % 2 = 0 := by
    rw [scanBack_eq]
    by_cases hall : b.reverse.all (· == c!"\\") = true
    · rw [if_pos hall]
      have : trail b = b.length := by simp [trail, takeWhile_of_all _ hall]
      rw [this, hlen]
      simp [endOk]
    · rw [if_neg hall]
      show ((1 + trail b) % 2 == 1) = true ↔ _
      rw [beq_iff_eq]; omega
  unfold BodyParity
  simp only [List.nil_append]
  rw [← inner, ← outer]
  split
  · rename_i h
    simp only [Bool.not_eq_true'] at h
    simp only [Bool.false_eq_true, false_iff, not_and]
    intro h'
    rw [h] at h'; cases h'
  · rename_i h
    simp only [Bool.not_eq_true', Bool.not_eq_false] at h
    simp only [h, true_and]

theorem isStringValue_shape (s : Str) (h : isStringValue s = true) : ∃ b, s = c!"\"" :: (b ++ [c!"\""]) := by
  unfold isStringValue at h
  split at h
  · cases h
  · rename_i hl
    split at h
    · cases h
    · rename_i hq
      match s, hl, hq with
      | a :: r, hl, hq =>
        have hr : r ≠ [] := by rintro rfl; simp at hl
        obtain ⟨b, z, rfl⟩ := List.eq_nil_or_concat r |>.resolve_left hr
        simp [List.getD] at hq
        exact ⟨b, by simp [hq]⟩
      | [], hl, _ => simp at hl

theorem isStringValue_iff (s : Str) : isStringValue s = true ↔ StringValue s := by
  constructor
  · intro h
    obtain ⟨b, rfl⟩ := isStringValue_shape s h
    refine ⟨b, rfl, ?_⟩
    rw [← bodyOk_iff]
    have := (isStringValue_quote b).1 h
    rw [← bodyOk_parity] at this
    exact this
  · rintro ⟨b, rfl, hb⟩
    rw [isStringValue_quote, ← bodyOk_parity]
    exact (bodyOk_iff b).2 hb

/-- No string literal is a proper prefix of another. -/
theorem stringValue_prefix_free (s t : Str) (hs : StringValue s) (hst : StringValue (s ++ t)) : t = [] := by
  obtain ⟨b, rfl, hb⟩ := hs
  obtain ⟨b', h, hb'⟩ := hst
  rcases List.eq_nil_or_concat t with rfl | ⟨t', z, rfl⟩
  · rfl
  · exfalso
    simp only [List.cons_append, List.append_assoc, List.cons.injEq, true_and] at h
    have h' : (b ++ c!"\"" :: t') ++ [z] = b' ++ [c!"\""] := by rw [← h]; simp
    have := (List.append_inj' h' rfl).1
    subst this
    have h1 := bodyOk_quote b t' false ((bodyOk_iff b).2 hb)
    rw [(bodyOk_iff _).2 hb'] at h1
    cases h1

theorem isObjectType_iff (s : Str) : isObjectType s = true ↔ ObjectType s := by
  simp [isObjectType, ObjectType, or_assoc]

theorem isObjectValue_iff (s : Str) : isObjectValue s = true ↔ ObjectValue s := by
  simp [isObjectValue, ObjectValue, isBooleanValue_iff, isCharacterValue_iff, isIntegerValue_iff, isFloatValue_iff,
    isStringValue_iff, or_assoc]

end Knuckle
